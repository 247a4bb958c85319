/-
Trees that differ in positions only are formatted alike.
-/
import Verif.Relation.Norm
import Verif.Relation.Alike
import Verif.Spec.Parsed
import Verif.Lemmas.Typing
import Verif.Spec.Reformat

namespace Verif

/-! ### Where a formatter may look at a position -/

/-- The type of what a selection gives. -/
def FTy.sel : FTy → Sel → Option FTy
  | .val t, .f i | .ptr t, .f i => (schema t)[i]?
  | .slice e, .last | .slice e, .first => some e
  | _, _ => none

def FTy.sels : List Sel → FTy → Option FTy
  | [], τ => some τ
  | s :: ss, τ => (τ.sel s).bind (FTy.sels ss)

def refTy (te : List FTy) (r : Ref) : Option FTy := te[r.var]?.bind (FTy.sels r.sels)

/-- A field that is 0 in both or in none of two values that are alike. -/
def Ref.zeroIn (te : List FTy) (r : Ref) : Bool := match te[r.var]?, r.sels with
  | some (.val t), [.f i] => (decide (t ∈ posReaders) && decide (fieldTy t i = .zero))
  | _, _ => false

/-- No number is compared but those that are no positions, and positions with 0 where `fieldTy` allows it. -/
def Cond.posFree (te : List FTy) : Cond → Bool
  | .natEq r n => refTy te r == some .int || decide (n = 0) && r.zeroIn te
  | .not c => c.posFree te
  | .and a b => a.posFree te && b.posFree te
  | .or a b => a.posFree te && b.posFree te
  | _ => true

def FTy.fits (τ : FTy) : Static → Bool
  | .ptr t => τ == .ptr t || τ == .val t
  | .iface => true

/-- The same for statements; the types of the variables are kept track of. -/
def FCmd.posFree : FCmd → List FTy → Bool
  | .seq a b, te => a.posFree te && b.posFree te
  | .expr r st, te | .compactExpr r st, te => ((refTy te r).map (·.fits st)).getD false
  | .direct r t, te => ((refTy te r).map (·.fits (.ptr t))).getD false
  | .joinSQL r, te => match refTy te r with
    | some (.iface _) => true
    | _ => false
  | .ite c a b, te => c.posFree te && a.posFree te && b.posFree te
  | .loop r body, te => match refTy te r with
    | some (.slice e) => body.posFree (te ++ [e])
    | _ => false
  | _, _ => true

theorem formatTable_posFree : ∀ t : Ty, (formatBody t).posFree [.val t] = true := by
  intro t; cases t <;> decide +kernel

/-- `writeJoinSQL` of a `JoinExpr` and of anything else. -/
theorem joinBody_posFree : ∃ x y, joinBody = .ite (.not (.isTy ⟨0, []⟩ .JoinExpr)) x y ∧
    (∀ i, x.posFree [.iface i] = true) ∧ y.posFree [.val .JoinExpr] = true :=
  ⟨_, _, rfl, fun i => by cases i <;> decide +kernel, by decide +kernel⟩

/-! ### Values that differ in positions only -/

/-- Values of the type `τ` that are alike. -/
structure SameP (τ : FTy) (v w : V) : Prop where
  sim : V.Alike v w
  ty : v.hasTy noReq τ = true
  noErr : τ.noErr = true
  int : τ = .int → v = w

theorem intsExact_get {t : Ty} : ∀ {k : Nat} {τs : List FTy}, intsExact t k τs = true → ∀ i, τs[i]? = some .int → fieldTy t (k + i) = .exact
  | _, [], _, i, h => by simp at h
  | k, τ :: τs, h, 0, hi => by
    simp only [intsExact, Bool.and_eq_true, Bool.or_eq_true, decide_eq_true_eq] at h
    simp only [List.getElem?_cons_zero, Option.some.injEq] at hi
    exact h.1.resolve_left fun h' => h' hi
  | k, τ :: τs, h, i + 1, hi => by
    simp only [intsExact, Bool.and_eq_true, Bool.or_eq_true, decide_eq_true_eq] at h
    rw [show k + (i + 1) = k + 1 + i by omega]
    exact intsExact_get h.2 i (by simpa using hi)

theorem SameP.field {t : Ty} {τ τ' : FTy} {v w : V} {i : Nat} (h : SameP τ v w) (ht : τ = .val t ∨ τ = .ptr t) (hi : (schema t)[i]? = some τ') :
    ORel False (SameP τ') (v.field i) (w.field i) := by
  have hs := h.sim
  have hty := h.ty
  cases hs with
  | @mk u fs gs hf =>
    have hu : u = t := by
      rcases ht with rfl | rfl <;> simp only [V.hasTy, FTy.admits, Bool.and_eq_true, decide_eq_true_eq] at hty <;> exact hty.1.symm
    subst hu
    have hne : u ≠ .ParseError := by
      have := h.noErr
      rcases ht with rfl | rfl <;> simpa [FTy.noErr] using this
    have hft := structTy_fields (req := noReq) (t := u) (fs := fs) (by
      simp only [V.hasTy, Bool.and_eq_true] at hty
      simpa [V.structTy] using hty.2)
    have hg := alikeF_get hf i
    simp only [V.field]
    cases hv : fs[i]? with
    | none =>
      rw [hv] at hg
      cases hw : gs[i]? with
      | none => trivial
      | some y => rw [hw] at hg; exact hg.elim
    | some x =>
      rw [hv] at hg
      cases hw : gs[i]? with
      | none => rw [hw] at hg; exact hg.elim
      | some y =>
        rw [hw] at hg
        obtain ⟨x', hx', hxt⟩ := fieldsTy_get hft hi
        rw [hv] at hx'
        cases hx'
        refine ⟨hg.1, hxt, ?_, ?_⟩
        · have := schema_noErr u
          rw [List.all_eq_true] at this
          exact this _ (List.mem_of_getElem? hi)
        · rintro rfl
          have := intsExact_get (schema_ints u hne) i hi
          exact hg.2.1 (by rw [Nat.zero_add] at *; exact this)
  | _ => trivial

theorem SameP.items {e : FTy} {v w : V} (h : SameP (.slice e) v w) : List.Forall₂ (SameP e) v.items w.items := by
  have hn : e.noErr = true ∧ e ≠ .int := by
    have := h.noErr
    simp only [FTy.noErr, Bool.and_eq_true, decide_eq_true_eq] at this
    exact ⟨this.1.1, this.2⟩
  have hm := (hasTy_slice h.ty)
  have hl : ∀ {l l' : List V}, V.AlikeL l l' → (∀ x ∈ l, x ∈ v.items) → List.Forall₂ (SameP e) l l' := by
    intro l
    induction l with
    | nil => intro l' hl _; cases hl; exact .nil
    | cons x l ih =>
      intro l' hl hx
      cases hl with
      | cons h1 h2 =>
        exact .cons ⟨h1, (hm x (hx x List.mem_cons_self)).2, hn.1, fun h => absurd h hn.2⟩ (ih h2 fun y hy => hx y (List.mem_cons_of_mem _ hy))
  exact hl (alike_items h.sim) fun _ h => h

theorem forall2_head {e : FTy} {l l' : List V} (h : List.Forall₂ (SameP e) l l') : ORel False (SameP e) l.head? l'.head? := by
  cases h with
  | nil => trivial
  | cons h _ => exact h

theorem forall2_last {e : FTy} : ∀ {l l' : List V}, List.Forall₂ (SameP e) l l' → ORel False (SameP e) l.getLast? l'.getLast?
  | _, _, .nil => trivial
  | _, _, .cons h .nil => h
  | _, _, .cons _ (.cons h1 h2) => by
    rw [List.getLast?_cons_cons, List.getLast?_cons_cons]
    exact forall2_last (.cons h1 h2)

theorem SameP.sel {τ τ' : FTy} {v w : V} {s : Sel} (h : SameP τ v w) (hs : τ.sel s = some τ') : ORel False (SameP τ') (s.get v) (s.get w) := by
  cases τ <;> cases s <;> simp only [FTy.sel, Option.some.injEq, reduceCtorEq] at hs
  · exact h.field (Or.inl rfl) hs
  · exact h.field (Or.inr rfl) hs
  · subst hs; exact forall2_last h.items
  · subst hs; exact forall2_head h.items

theorem SameP.sels : ∀ {ss : List Sel} {τ τ' : FTy} {v w : V}, SameP τ v w → FTy.sels ss τ = some τ' → ORel False (SameP τ') (getSels ss v) (getSels ss w)
  | [], _, _, _, _, h, hs => by
    simp only [FTy.sels, Option.some.injEq] at hs
    subst hs; exact h
  | s :: ss, _, _, _, _, h, hs => by
    simp only [FTy.sels, Option.bind_eq_some_iff] at hs
    obtain ⟨τ1, h1, h2⟩ := hs
    exact (h.sel h1).bind fun x y hx => hx.sels h2

/-- Variables that differ in positions only. -/
def SameEnv (te : List FTy) (env env' : List V) : Prop :=
  te.length ≤ env.length ∧ te.length ≤ env'.length ∧
  (∀ (x : Nat) (τ : FTy), te[x]? = some τ → ORel False (SameP τ) env[x]? env'[x]?) ∧
  ∀ x : Nat, ORel False V.Alike env[x]? env'[x]?

theorem SameEnv.get {te : List FTy} {env env' : List V} (h : SameEnv te env env') (r : Ref) : ORel False V.Alike (r.get env) (r.get env') :=
  (h.2.2.2 r.var).bind fun _ _ h => alike_sels h

theorem SameEnv.getTy {te : List FTy} {env env' : List V} (h : SameEnv te env env') {r : Ref} {τ : FTy} (hr : refTy te r = some τ) :
    ORel False (SameP τ) (r.get env) (r.get env') := by
  simp only [refTy, Option.bind_eq_some_iff] at hr
  obtain ⟨τ0, h0, h1⟩ := hr
  exact (h.2.2.1 _ _ h0).bind fun _ _ h => h.sels h1

theorem SameEnv.push {te : List FTy} {env env' : List V} {e : FTy} {v w : V} (h : SameEnv te env env') (hv : SameP e v w)
    (hl : env.length = te.length) (hl' : env'.length = te.length) : SameEnv (te ++ [e]) (env ++ [v]) (env' ++ [w]) := by
  refine ⟨by simp [hl], by simp [hl'], fun x τ hx => ?_, fun x => ?_⟩
  · rcases Nat.lt_trichotomy x te.length with hlt | heq | hgt
    · rw [List.getElem?_append_left (by omega)] at hx
      rw [List.getElem?_append_left (by omega), List.getElem?_append_left (by omega)]
      exact h.2.2.1 x τ hx
    · subst heq
      simp only [List.getElem?_concat_length, Option.some.injEq] at hx
      subst hx
      rw [← hl, List.getElem?_concat_length, hl, ← hl', List.getElem?_concat_length]
      exact hv
    · rw [List.getElem?_eq_none (by simp; omega)] at hx
      cases hx
  · rcases Nat.lt_trichotomy x te.length with hlt | heq | hgt
    · rw [List.getElem?_append_left (by omega), List.getElem?_append_left (by omega)]
      exact h.2.2.2 x
    · subst heq
      rw [← hl, List.getElem?_concat_length, hl, ← hl', List.getElem?_concat_length]
      exact hv.sim
    · rw [List.getElem?_eq_none (by simp; omega), List.getElem?_eq_none (by simp; omega)]
      trivial

/-! ### Conditions and statements -/

theorem orel_map_eq {α β : Type} {Q : α → α → Prop} {a b : Option α} {f : α → β} (h : ORel False Q a b) (k : ∀ x y, Q x y → f x = f y) :
    a.map f = b.map f := by
  cases a <;> cases b <;> first | rfl | exact h.elim | exact congrArg some (k _ _ h)

theorem orel_bind_eq {α β : Type} {Q : α → α → Prop} {a b : Option α} {f g : α → Option β} (h : ORel False Q a b) (k : ∀ x y, Q x y → f x = g y) :
    a.bind f = b.bind g := by
  cases a <;> cases b <;> first | rfl | exact h.elim | exact k _ _ h

theorem zero_same {te : List FTy} {env env' : List V} (h : SameEnv te env env') {i n : Nat} {bt fl : Bool} {r : Ref} (hr : r.zeroIn te = true) :
    Cond.eval ⟨env, i, n, bt, fl⟩ (.natEq r 0) = Cond.eval ⟨env', i, n, bt, fl⟩ (.natEq r 0) := by
  obtain ⟨x, ss⟩ := r
  simp only [Ref.zeroIn] at hr
  split at hr <;> try cases hr
  rename_i t j hx
  simp only [Bool.and_eq_true, decide_eq_true_eq] at hr
  have e : ∀ env : List V, Cond.eval ⟨env, i, n, bt, fl⟩ (.natEq ⟨x, [.f j]⟩ 0) =
      env[x]?.bind fun v => (v.field j).bind fun v => v.toNat?.map (fun x => decide (x = 0)) := by
    intro env
    simp only [Cond.eval, Ref.get, getSels, Sel.get]
    cases env[x]? with
    | none => rfl
    | some v => simp only [Option.bind_some]; cases v.field j <;> rfl
  rw [e, e]
  refine orel_bind_eq (h.2.2.1 x _ hx) fun v w hv => ?_
  have ht : v.ty? = some t := by
    have := hv.ty
    cases v <;> simp_all [V.hasTy, FTy.admits, V.ty?]
  have hf := alike_field_ty hv.sim ht j
  refine orel_bind_eq hf fun a b hab => ?_
  obtain ⟨h1, h2⟩ := hab
  cases h1 with
  | nat m n =>
    have := h2.2 hr.1 hr.2
    simp only [V.nat.injEq] at this
    simp [V.toNat?, this]
  | _ => rfl

theorem cond_same {te : List FTy} {env env' : List V} (h : SameEnv te env env') (i n : Nat) (bt fl : Bool) : ∀ {c : Cond}, c.posFree te = true →
    c.eval ⟨env, i, n, bt, fl⟩ = c.eval ⟨env', i, n, bt, fl⟩
  | .nonNil r, _ => orel_map_eq (h.get r) fun _ _ h => alike_nonNil h
  | .isTrue r, _ => orel_bind_eq (h.get r) fun _ _ h => alike_bool h
  | .lenPos r, _ => orel_map_eq (h.get r) fun x y h => by
    cases h with
    | list h => simp only [V.items]; cases h <;> rfl
    | _ => rfl
  | .strEq r s, _ => orel_bind_eq (h.get r) fun x y h => by rw [alike_str h]
  | .natEq r k, hc => by
    simp only [Cond.posFree, Bool.or_eq_true, beq_iff_eq, Bool.and_eq_true, decide_eq_true_eq] at hc
    rcases hc with hc | ⟨rfl, hc⟩
    · exact orel_bind_eq (h.getTy hc) fun x y h => by rw [h.int rfl]
    · exact zero_same h hc
  | .isTy r t, _ => orel_map_eq (h.get r) fun x y h => by rw [alike_ty h]
  | .idxPos, _ => rfl
  | .idxLast, _ => rfl
  | .beautify, _ => rfl
  | .flag, _ => rfl
  | .not c, hc => by
    have := cond_same h i n bt fl (c := c) hc
    simp only [Cond.eval, this]
  | .and a b, hc => by
    simp only [Cond.posFree, Bool.and_eq_true] at hc
    have h1 := cond_same h i n bt fl hc.1
    have h2 := cond_same h i n bt fl hc.2
    simp only [Cond.eval, h1, h2]
  | .or a b, hc => by
    simp only [Cond.posFree, Bool.and_eq_true] at hc
    have h1 := cond_same h i n bt fl hc.1
    have h2 := cond_same h i n bt fl hc.2
    simp only [Cond.eval, h1, h2]

/-- What is asked of the procedures called. -/
def CallSame (call : Proc → V → Fmt → Option Fmt) : Prop :=
  (∀ t v w f, SameP (.ptr t) v w → call (.fmt t) v f = call (.fmt t) w f) ∧
  ∀ i v w f, SameP (.iface i) v w → call .join v f = call .join w f

theorem SameP.toPtr {τ : FTy} {v w : V} {t : Ty} (h : SameP τ v w) (ht : v.ty? = some t) : SameP (.ptr t) v w := by
  cases v with
  | mk u fs =>
    simp only [V.ty?, Option.some.injEq] at ht
    subst ht
    have hty := h.ty
    simp only [V.hasTy, Bool.and_eq_true] at hty
    refine ⟨h.sim, ?_, ?_, by simp⟩
    · simp only [V.hasTy, FTy.admits, Bool.and_eq_true]
      exact ⟨by simp, hty.2⟩
    · simpa [FTy.noErr] using admits_noErr h.noErr hty.1
  | _ => simp [V.ty?] at ht

theorem SameP.fits {τ : FTy} {v w : V} {t : Ty} (h : SameP τ v w) (ht : τ.fits (.ptr t) = true) : SameP (.ptr t) v w := by
  simp only [FTy.fits, Bool.or_eq_true, beq_iff_eq] at ht
  rcases ht with rfl | rfl
  · exact h
  · refine ⟨h.sim, ?_, ?_, by simp⟩
    · have := h.ty
      cases v <;> simp only [V.hasTy, Bool.false_eq_true] at this ⊢
      simpa [FTy.admits] using this
    · have := h.noErr
      simpa [FTy.noErr] using this

theorem loopFmt_same {body body' : Nat → V → Fmt × Bool → Option (Fmt × Bool)} {e : FTy}
    (h : ∀ i v w s, SameP e v w → body i v s = body' i w s) : ∀ {l l' : List V}, List.Forall₂ (SameP e) l l' → ∀ i s,
    loopFmt body i l s = loopFmt body' i l' s
  | _, _, .nil, _, _ => rfl
  | _, _, .cons h1 h2, i, s => by
    simp only [loopFmt]
    rw [h i _ _ s h1]
    congr 1
    exact funext fun s => loopFmt_same h h2 (i + 1) s

theorem run_same {call : Proc → V → Fmt → Option Fmt} (hc : CallSame call) : ∀ (c : FCmd) {te : List FTy} {env env' : List V} {i n : Nat} {s : Fmt × Bool},
    c.posFree te = true → SameEnv te env env' → env.length = te.length → env'.length = te.length → c.run call env i n s = c.run call env' i n s
  | .skip, _, _, _, _, _, _, _, _, _, _ => rfl
  | .seq a b, te, env, env', i, n, s, h, he, hl, hl' => by
    simp only [FCmd.posFree, Bool.and_eq_true] at h
    simp only [FCmd.run, run_same hc a h.1 he hl hl']
    congr 1
    exact funext fun s => run_same hc b h.2 he hl hl'
  | .lit _, _, _, _, _, _, _, _, _, _, _ => rfl
  | .strF r, _, env, env', _, _, (f, b), _, he, _, _ => by
    simp only [FCmd.run]
    rw [orel_bind_eq (he.get r) fun _ _ h => alike_str h]
  | .upperF r, _, env, env', _, _, (f, b), _, he, _, _ => by
    simp only [FCmd.run]
    rw [orel_bind_eq (he.get r) fun _ _ h => alike_str h]
  | .joinF r sep, _, env, env', _, _, (f, b), _, he, _, _ => by
    simp only [FCmd.run]
    exact orel_bind_eq (he.get r) fun _ _ h => by rw [alikeL_strs (alike_items h)]
  | .expr r st, te, env, env', _, _, (f, b), h, he, _, _ => by
    simp only [FCmd.posFree] at h
    cases hr : refTy te r with
    | none => simp [hr] at h
    | some τ =>
      simp only [hr, Option.map_some, Option.getD_some] at h
      simp only [FCmd.run]
      refine orel_bind_eq (he.getTy hr) fun v w hv => ?_
      cases st with
      | ptr t =>
        simp only [Static.dispatch, Option.bind_some]
        rw [hc.1 t v w f (hv.fits h)]
      | iface =>
        have hs := hv.sim
        have ht := alike_ty hs
        cases hs with
        | nil => rfl
        | mk hs =>
          simp only [Static.dispatch, V.ty?, Option.bind_some]
          rw [hc.1 _ _ _ f (hv.toPtr rfl)]
        | _ => rfl
  | .direct r t, te, env, env', _, _, (f, b), h, he, _, _ => by
    simp only [FCmd.posFree] at h
    cases hr : refTy te r with
    | none => simp [hr] at h
    | some τ =>
      simp only [hr, Option.map_some, Option.getD_some] at h
      simp only [FCmd.run]
      exact orel_bind_eq (he.getTy hr) fun v w hv => by rw [hc.1 t v w f (hv.fits h)]
  | .joinSQL r, te, env, env', _, _, (f, b), h, he, _, _ => by
    simp only [FCmd.posFree] at h
    split at h
    · rename_i i hr
      simp only [FCmd.run]
      exact orel_bind_eq (he.getTy hr) fun v w hv => by rw [hc.2 i v w f hv]
    · simp at h
  | .compactExpr r st, te, env, env', _, _, (f, b), h, he, _, _ => by
    simp only [FCmd.posFree] at h
    cases hr : refTy te r with
    | none => simp [hr] at h
    | some τ =>
      simp only [hr, Option.map_some, Option.getD_some] at h
      simp only [FCmd.run]
      refine orel_bind_eq (he.getTy hr) fun v w hv => ?_
      cases st with
      | ptr t =>
        simp only [Static.dispatch, Option.bind_some]
        rw [hc.1 t v w {} (hv.fits h)]
      | iface =>
        have hs := hv.sim
        cases hs with
        | nil => rfl
        | mk hs =>
          simp only [Static.dispatch, V.ty?, Option.bind_some]
          rw [hc.1 _ _ _ {} (hv.toPtr rfl)]
        | _ => rfl
  | .brk, _, _, _, _, _, _, _, _, _, _ => rfl
  | .newline, _, _, _, _, _, _, _, _, _, _ => rfl
  | .indent, _, _, _, _, _, _, _, _, _, _ => rfl
  | .dedent, _, _, _, _, _, _, _, _, _, _ => rfl
  | .setFlag, _, _, _, _, _, _, _, _, _, _ => rfl
  | .ite c x y, te, env, env', i, n, (f, b), h, he, hl, hl' => by
    simp only [FCmd.posFree, Bool.and_eq_true] at h
    simp only [FCmd.run, cond_same he i n f.beautify b h.1.1, run_same hc x h.1.2 he hl hl', run_same hc y h.2 he hl hl']
  | .loop r body, te, env, env', i, n, s, h, he, hl, hl' => by
    simp only [FCmd.posFree] at h
    split at h
    · rename_i e hr
      simp only [FCmd.run]
      refine orel_bind_eq (he.getTy hr) fun v w hv => ?_
      have hi := hv.items
      rw [hi.length_eq]
      refine loopFmt_same (e := e) (fun i x y s hx => ?_) hi 0 s
      exact run_same hc body h (he.push hx hl hl') (by simp [hl]) (by simp [hl'])
    · simp at h

theorem sameEnv_single {τ : FTy} {v w : V} (h : SameP τ v w) : SameEnv [τ] [v] [w] := by
  refine ⟨by simp, by simp, fun x τ' hx => ?_, fun x => ?_⟩
  · cases x with
    | zero => simp only [List.getElem?_cons_zero, Option.some.injEq] at hx; subst hx; exact h
    | succ x => simp at hx
  · cases x with
    | zero => exact h.sim
    | succ x => simp [ORel]

theorem formatF_same : ∀ n, CallSame (formatF n)
  | 0 => ⟨fun _ _ _ _ _ => rfl, fun _ _ _ _ _ => rfl⟩
  | n + 1 => by
    have ih := formatF_same n
    refine ⟨fun t v w f h => ?_, fun i v w f h => ?_⟩
    · have hs := h.sim
      cases hs with
      | nil => rfl
      | @mk u fs gs hf =>
        have hu : u = t := by
          have := h.ty
          simp only [V.hasTy, FTy.admits, Bool.and_eq_true, decide_eq_true_eq] at this
          exact this.1.symm
        subst hu
        have hp := formatTable_posFree u
        have hv : SameP (.val u) (.mk u fs) (.mk u gs) := by
          refine ⟨h.sim, ?_, ?_, by simp⟩
          · have := h.ty
            simpa [V.hasTy, FTy.admits] using this
          · have := h.noErr
            simpa [FTy.noErr] using this
        simp only [formatF, Proc.body]
        rw [run_same ih _ hp (sameEnv_single hv) rfl rfl]
      | _ => have := h.ty; simp [V.hasTy] at this
    · obtain ⟨x, y, hb, hx, hy⟩ := joinBody_posFree
      simp only [formatF, Proc.body, hb, FCmd.run]
      have ht := alike_ty h.sim
      have he : ∀ v : V, (Cond.not (.isTy ⟨0, []⟩ .JoinExpr)).eval { env := [v], idx := 0, len := 0, beautify := f.beautify, flag := false } =
          some (!decide (v.ty? = some .JoinExpr)) := fun v => rfl
      rw [he, he, ht, Option.bind_some, Option.bind_some]
      by_cases hj : w.ty? = some .JoinExpr
      · simp only [hj, decide_true, Bool.not_true, Bool.false_eq_true, if_false]
        have hv : SameP (.val .JoinExpr) v w := by
          have h' := h.toPtr (ht.trans hj)
          refine ⟨h'.sim, ?_, rfl, by simp⟩
          have hn := h'.ty
          rw [hj] at ht
          cases v with
          | mk u fs => simpa [V.hasTy, FTy.admits] using hn
          | _ => simp [V.ty?] at ht
        rw [run_same ih _ hy (sameEnv_single hv) rfl rfl]
      · simp only [hj, decide_false, Bool.not_false, if_true]
        rw [run_same ih _ (hx i) (sameEnv_single h) rfl rfl]

/-- Trees that differ in positions only are formatted alike. -/
theorem writeExpr_alike {v w : V} (hs : V.Alike v w) (ht : v.isTree noReq) (f : Fmt) :
    f.writeExpr v = f.writeExpr w := by
  have h : SameP (.iface .Expr) v w := ⟨hs, ht.2, rfl, by simp⟩
  have hd := alike_depth hs
  cases hs with
  | nil => rfl
  | mk hs =>
    simp only [Fmt.writeExpr, V.ty?, Option.bind_some]
    rw [hd, (formatF_same _).1 _ _ _ f (h.toPtr rfl)]
  | _ => simp only [Fmt.writeExpr, V.ty?, Option.bind_none]

theorem writeExpr_same {v w : V} (hs : V.Sim Eq v w) (ht : v.isTree noReq) (f : Fmt) : f.writeExpr v = f.writeExpr w :=
  writeExpr_alike (sim_alike hs) ht f

end Verif

/-
Rules for running parser methods on known tokens.  No definition here is part of the model.
-/
import Verif.Echo.Sym
import Verif.Spec.Same

namespace Verif.Complete
open Verif.Spec Verif.Group Verif.Echo

/-- No lexical error lies ahead. -/
def NoErr (l : Lx) : Prop := ∃ P : Lx → Prop, P l ∧ ∀ m, P m → ∃ m', m.consume = .ok m' ∧ P m'

theorem NoErr.consume {l : Lx} (h : NoErr l) : l.consume = .ok l.advance ∧ NoErr l.advance := by
  obtain ⟨P, h1, h2⟩ := h
  obtain ⟨m, h3, h4⟩ := h2 l h1
  have : l.advance = m := by unfold Lx.advance; rw [h3]
  rw [this]
  exact ⟨h3, P, h4, h2⟩
theorem NoErr.adv {l : Lx} (h : NoErr l) : NoErr l.advance := h.consume.2
theorem NoErr.peek {l : Lx} (h : NoErr l) : l.peek = .ok l.advance.cur l := by
  unfold Lx.peek
  rw [h.consume.1]
theorem noErr_scan {l : Lx} {ts : List Token} (h : Scan l ts true) : NoErr l := by
  refine ⟨fun m => ∃ ts, Scan m ts true, ⟨ts, h⟩, ?_⟩
  rintro m ⟨ts, h⟩
  cases h with
  | eof a b => exact ⟨_, a, [], scan_end a b⟩
  | tok a b c => exact ⟨_, a, _, c⟩

/-- Not one of the lines in which the parser may panic. -/
abbrev Good (ln : Nat) : Prop := panicLines.contains ln = false

/-- Every outcome of the call meets the condition. -/
def Fw (f : Fn) (args : List V) (l : Lx) (P : List V → Lx → Prop) : Prop :=
  ∀ n m i, (∀ rs l' m' i', runFn retryTable n f args ⟨l, m, i⟩ = .ret rs ⟨l', m', i'⟩ → P rs l') ∧
    ∀ ln, runFn retryTable n f args ⟨l, m, i⟩ = .panic ln → Good ln

/-- These results, and the place reached. -/
def Res (vs : List V) (l2 : Lx) (rs : List V) (l' : Lx) : Prop := rs = vs ∧ l2 = l'
/-- The value is this tree up to positions. -/
def Is (v w : V) : Prop := w ≠ .nil ∧ w.norm id = v
/-- A tree without error, and the place reached. -/
def Got (v : V) (l2 : Lx) (rs : List V) (l' : Lx) : Prop := ∃ w, rs = [w, .nil] ∧ l2 = l' ∧ Is v w
/-- A tree or nothing, and the place reached. -/
def GotO (v : V) (l2 : Lx) (rs : List V) (l' : Lx) : Prop := ∃ w, rs = [w, .nil] ∧ l2 = l' ∧ w.norm id = v
/-- A tree with this node at its root, and the place reached. -/
def GotT (t : Ty) (v : V) (l2 : Lx) (rs : List V) (l' : Lx) : Prop := ∃ fs, rs = [.mk t fs, .nil] ∧ l2 = l' ∧ Is v (.mk t fs)
/-- A truth value, and the place reached. -/
def ResB (l2 : Lx) (rs : List V) (l' : Lx) : Prop := ∃ b, rs = [.bool b] ∧ l2 = l'
/-- The same with a list. -/
def GotL (vs : List V) (l2 : Lx) (rs : List V) (l' : Lx) : Prop := ∃ ws, rs = [.list ws, .nil] ∧ l2 = l' ∧ V.normL id ws = vs

theorem Fw.mono {f : Fn} {args : List V} {l : Lx} {P Q : List V → Lx → Prop} (h : Fw f args l P) (hq : ∀ rs l', P rs l' → Q rs l') : Fw f args l Q :=
  fun n m i => ⟨fun rs l' m' i' hr => hq _ _ ((h n m i).1 rs l' m' i' hr), (h n m i).2⟩

/-! ### Tokens -/

/-- The kinds that `matchKinds` looks for, for a token that is no keyword. -/
theorem mk_some {l : Lx} {t : Token} {κ : Kind} {ks : List Str} {b : Bool} (ht : l.cur = some t) (hk : t.kind = κ)
    (h : (κ.toStr != Kind.keyword.toStr && ks.contains κ.toStr == b) = true) : l.matchKinds ks = b := by
  simp only [Bool.and_eq_true, bne_iff_ne, ne_eq, beq_iff_eq] at h
  obtain ⟨h1, rfl⟩ := h
  unfold Lx.matchKinds Lx.curKind
  simp only [ht, hk]
  by_cases hc : ks.contains κ.toStr = true
  · simp only [hc, if_true]
  · have h2 : (κ.toStr != Kind.keyword.toStr) = true := by simpa using h1
    rw [Bool.not_eq_true] at hc
    simp only [hc, h2, if_true, Bool.false_eq_true, if_false]
/-- The same for a keyword. -/
theorem mk_kw {l : Lx} {t : Token} {k : Str} {ks : List Str} {b : Bool} (ht : l.cur = some t) (hk : t.kind = .keyword) (hs : upper t.str = k)
    (h : ((ks.contains Kind.keyword.toStr || (ks.contains Kind.ident.toStr && !isReserved k)) == b) = true) : l.matchKinds ks = b := by
  simp only [beq_iff_eq] at h
  subst h hs
  unfold Lx.matchKinds Lx.curKind Lx.curString
  simp only [ht, hk]
  cases ks.contains Kind.keyword.toStr <;> cases ks.contains Kind.ident.toStr <;> simp
/-- The same for a keyword of which nothing is known. -/
theorem mk_kw0 {l : Lx} {t : Token} {ks : List Str} {b : Bool} (ht : l.cur = some t) (hk : t.kind = .keyword)
    (h : ((ks.contains Kind.keyword.toStr == b) && (b || !ks.contains Kind.ident.toStr)) = true) : l.matchKinds ks = b := by
  simp only [Bool.and_eq_true, beq_iff_eq] at h
  obtain ⟨h, h'⟩ := h
  unfold Lx.matchKinds Lx.curKind Lx.curString
  simp only [ht, hk]
  cases b
  · simp at h h'
    simp [h, h']
  · simp at h
    simp [h]
/-- The same at the end. -/
theorem mk_none {l : Lx} {ks : List Str} {b : Bool} (ht : l.cur = none) (h : (ks.contains Kind.eof.toStr == b) = true) : l.matchKinds ks = b := by
  simp only [beq_iff_eq] at h
  subst h
  unfold Lx.matchKinds Lx.curKind
  simp only [ht]
  cases ks.contains Kind.eof.toStr <;> simp [Kind.toStr]
theorem mw_some {l : Lx} {t : Token} {κ : Kind} {k : Str} (ht : l.cur = some t) (hk : t.kind = κ)
    (h : (κ.toStr != Kind.keyword.toStr) = true) : l.matchKw k = false := by
  unfold Lx.matchKw
  rw [mk_some (b := false) ht hk]
  · simp
  · simp only [bne_iff_ne, ne_eq] at h
    simp [h]
theorem mw_kw {l : Lx} {t : Token} {k k' : Str} {b : Bool} (ht : l.cur = some t) (hk : t.kind = .keyword) (hs : upper t.str = k')
    (h : ((k' == upper k) == b) = true) : l.matchKw k = b := by
  simp only [beq_iff_eq] at h
  subst h hs
  unfold Lx.matchKw
  rw [mk_kw0 (b := true) ht hk (by decide)]
  simp [Lx.curString, ht, equalFold]
theorem mw_none {l : Lx} {k : Str} (ht : l.cur = none) : l.matchKw k = false := by
  unfold Lx.matchKw
  rw [mk_none (b := false) ht (by decide)]
  rfl
theorem kd_eq {t : Token} {κ : Kind} {k : Str} {b : Bool} (hk : t.kind = κ) (h : ((κ.toStr == k) == b) = true) : (t.kind.toStr == k) = b := by
  simp only [beq_iff_eq] at h
  subst h hk
  rfl
theorem fold_eq {x k k' : Str} {b : Bool} (hs : upper x = k') (h : ((k' == upper k) == b) = true) : equalFold x k = b := by
  simp only [beq_iff_eq] at h
  subst h hs
  rfl
theorem upper_eq {x k k' : Str} {b : Bool} (hs : upper x = k') (h : ((k' == k) == b) = true) : (upper x == k) = b := by
  simp only [beq_iff_eq] at h
  subst h hs
  rfl
theorem or_t1 {a b : Bool} (h : a = true) : (a || b) = true := by simp [h]
theorem or_t2 {a b : Bool} (h : b = true) : (a || b) = true := by simp [h]
theorem or_f {a b : Bool} (h : a = false) (h' : b = false) : (a || b) = false := by simp [h, h']
theorem and_f1 {a b : Bool} (h : a = false) : (a && b) = false := by simp [h]
theorem and_f2 {a b : Bool} (h : b = false) : (a && b) = false := by simp [h]
theorem and_t {a b : Bool} (h : a = true) (h' : b = true) : (a && b) = true := by simp [h, h']
theorem not_b {a b : Bool} (h : a = b) : (!a) = !b := by simp [h]
theorem one_t {l : Lx} {k : Str} {ks : List Str} (h : l.matchKw k = true) : l.matchOneOf (k :: ks) = true := by simp [Lx.matchOneOf, h]
theorem one_f {l : Lx} {k : Str} {ks : List Str} {b : Bool} (h : l.matchKw k = false) (h' : l.matchOneOf ks = b) : l.matchOneOf (k :: ks) = b := by
  simp only [Lx.matchOneOf, List.any_cons, h, Bool.false_or]; exact h'
theorem one_nil {l : Lx} : l.matchOneOf [] = false := rfl
theorem is_nonNil {v w : V} (h : Is v w) : w.nonNil = true := nonNil_ne h.1

theorem not_eof {l : Lx} {t : Token} (h : l.advance.cur = some t) : l.isEOF = false := by
  cases he : l.isEOF with
  | false => rfl
  | true => rw [advance_eof he] at h; cases h

/-! ### What comes next -/

/-- The next token is of one of these kinds or is one of these words, or there is none. -/
def Starts (os ws : List Str) (l : Lx) : Prop :=
  l.cur = none ∨ ∃ t, l.cur = some t ∧ (t.kind.toStr ∈ os ∨ (t.kind = .keyword ∧ upper t.str ∈ ws))

theorem st_kinds {os ws ks : List Str} {l : Lx} (h : Starts os ws l)
    (hc : (!ks.contains Kind.eof.toStr && os.all (fun s => !ks.contains s && s != Kind.keyword.toStr) && !ks.contains Kind.keyword.toStr &&
      (!ks.contains Kind.ident.toStr || ws.all isReserved)) = true) : l.matchKinds ks = false := by
  simp only [Bool.and_eq_true, Bool.not_eq_true', List.all_eq_true, bne_iff_ne, ne_eq, Bool.or_eq_true] at hc
  obtain ⟨⟨⟨h1, h2⟩, h3⟩, h4⟩ := hc
  rcases h with h | ⟨t, ht, hs | ⟨hk, hs⟩⟩
  · exact mk_none h (by rw [h1]; rfl)
  · obtain ⟨ha, hb⟩ := h2 _ hs
    exact mk_some ht rfl (by rw [ha]; simpa using hb)
  · refine mk_kw ht hk rfl ?_
    rw [h3]
    rcases h4 with h4 | h4
    · rw [h4]; rfl
    · rw [h4 _ hs]; simp
theorem st_kw {os ws : List Str} {l : Lx} {k : Str} (h : Starts os ws l)
    (hc : (os.all (fun s => s != Kind.keyword.toStr) && ws.all (fun w => w != upper k)) = true) : l.matchKw k = false := by
  simp only [Bool.and_eq_true, List.all_eq_true, bne_iff_ne, ne_eq] at hc
  rcases h with h | ⟨t, ht, hs | ⟨hk, hs⟩⟩
  · exact mw_none h
  · exact mw_some ht rfl (by simpa using hc.1 _ hs)
  · exact mw_kw ht hk rfl (by simpa using hc.2 _ hs)
/-- A keyword is none of the names that may follow a table. -/
theorem st_alias {os ws : List Str} {l : Lx} (h : Starts os ws l) (hc : (os.all (fun s => s != Kind.ident.toStr)) = true) :
    (l.matchKinds [Kind.ident.toStr] && !(l.curKind == Kind.keyword.toStr)) = false := by
  simp only [List.all_eq_true, bne_iff_ne, ne_eq] at hc
  rcases h with h | ⟨t, ht, hs | ⟨hk, hs⟩⟩
  · rw [mk_none (b := false) h (by decide)]; rfl
  · by_cases hw : t.kind.toStr = Kind.keyword.toStr
    · simp [Lx.curKind, ht, hw]
    · rw [mk_some (b := false) ht rfl]
      · rfl
      · have := hc _ hs
        simp [hw, this]
  · simp [Lx.curKind, ht, hk]
theorem Starts.mono {os ws os' ws' : List Str} {l : Lx} (h : Starts os ws l) (hc : (os.all os'.contains && ws.all ws'.contains) = true) : Starts os' ws' l := by
  simp only [Bool.and_eq_true, List.all_eq_true, List.contains_iff_mem] at hc
  rcases h with h | ⟨t, ht, hs | ⟨hk, hs⟩⟩
  · exact .inl h
  · exact .inr ⟨t, ht, .inl (hc.1 _ hs)⟩
  · exact .inr ⟨t, ht, .inr ⟨hk, hc.2 _ hs⟩⟩

/-! ### Statements -/

section
variable {n : Nat} {env : List V} {sv l : Lx} {m : List Nat} {i : Str} {s : PS} {R : List V → PS → Prop} {call : Fn → List V → PS → COut}
  {k : Stmt Fn} {I B : Frame → PS → Prop}

/-- The statement ends normally or by `continue` with `I`, by `break` with `B`, or returns values with the property `R`, and it does not panic in
one of the lines `panicLines`. -/
def RetL (o : Out) (I B : Frame → PS → Prop) (R : List V → PS → Prop) : Prop := match o with
  | .next fr s => I fr s
  | .cont fr s => I fr s
  | .brk fr s => B fr s
  | .ret vs s => R vs s
  | .panic ln => Good ln
  | .fuel => True

theorem r_fn {f : Fn} {fn : Func Fn} {args : List V} {P : List V → Lx → Prop} (hb : retryTable f = fn) (he : args ++ List.replicate (fn.locals - args.length) V.nil = env)
    (h : ∀ n m i, RetL (fn.body.run (runFn retryTable n) n ⟨env, l⟩ ⟨l, m, i⟩) (fun _ s => P [] s.lx) (fun _ s => P [] s.lx) (fun rs s => P rs s.lx)) : Fw f args l P := by
  intro n m i
  cases n with
  | zero => constructor <;> intros <;> simp [runFn] at *
  | succ n =>
    have h := h n m i
    simp only [runFn, hb, he]
    unfold RetL at h
    cases ho : fn.body.run (runFn retryTable n) n ⟨env, l⟩ ⟨l, m, i⟩ with
    | panic ln =>
      rw [ho] at h
      refine ⟨fun rs l' m' i' hr => by simp at hr, fun ln' hl => ?_⟩
      simp only [COut.panic.injEq] at hl
      exact hl ▸ h
    | fuel => constructor <;> intros <;> simp at *
    | _ =>
      rw [ho] at h
      refine ⟨fun rs l' m' i' hr => ?_, fun ln' hl => by simp at hl⟩
      simp only [COut.ret.injEq] at hr
      obtain ⟨rfl, rfl⟩ := hr
      exact h

theorem r_single {a : Stmt Fn} (h : RetL ((a ;; .skip).run call n ⟨env, sv⟩ s) I B R) : RetL (a.run call n ⟨env, sv⟩ s) I B R := by
  unfold RetL at h ⊢
  rw [run_seq] at h
  cases ha : a.run call n ⟨env, sv⟩ s <;> rw [ha] at h <;> exact h
theorem r_skipEnd (h : I ⟨env, sv⟩ s) : RetL ((Stmt.skip (Fn := Fn)).run call n ⟨env, sv⟩ s) I B R := h
theorem r_brkEnd (h : B ⟨env, sv⟩ s) : RetL ((Stmt.brk (Fn := Fn)).run call n ⟨env, sv⟩ s) I B R := h
theorem r_contEnd (h : I ⟨env, sv⟩ s) : RetL ((Stmt.cont (Fn := Fn)).run call n ⟨env, sv⟩ s) I B R := h
theorem r_brk (h : B ⟨env, sv⟩ s) : RetL ((.brk ;; k).run call n ⟨env, sv⟩ s) I B R := by rw [run_seq]; exact h
theorem r_cont (h : I ⟨env, sv⟩ s) : RetL ((.cont ;; k).run call n ⟨env, sv⟩ s) I B R := by rw [run_seq]; exact h
theorem r_save (h : RetL (k.run call n ⟨env, l⟩ ⟨l, m, i⟩) I B R) : RetL ((.save ;; k).run call n ⟨env, sv⟩ ⟨l, m, i⟩) I B R := by rw [run_seq]; exact h
theorem r_restore (h : RetL (k.run call n ⟨env, sv⟩ ⟨sv, m, i⟩) I B R) : RetL ((.restore ;; k).run call n ⟨env, sv⟩ ⟨l, m, i⟩) I B R := by rw [run_seq]; exact h
theorem r_skip (h : RetL (k.run call n ⟨env, sv⟩ s) I B R) : RetL ((.skip ;; k).run call n ⟨env, sv⟩ s) I B R := by rw [run_seq]; exact h
theorem r_assoc {a b : Stmt Fn} (h : RetL ((a ;; (b ;; k)).run call n ⟨env, sv⟩ s) I B R) : RetL (((a ;; b) ;; k).run call n ⟨env, sv⟩ s) I B R := by
  rw [run_seq] at h ⊢
  rw [run_seq]
  cases ha : a.run call n ⟨env, sv⟩ s with
  | next f s1 =>
    rw [ha] at h
    dsimp only [Out.andThen] at h ⊢
    rwa [run_seq] at h
  | _ => rw [ha] at h; exact h
theorem ret_set {ln x : Nat} {e : Exp} (hn : e.eval s env = none → Good ln) (h : ∀ v, e.eval s env = some v → RetL (k.run call n ⟨env.set x v, sv⟩ s) I B R) :
    RetL ((.set ln x e ;; k).run call n ⟨env, sv⟩ s) I B R := by
  rw [run_seq, run_set]
  cases he : e.eval s env with
  | none => exact hn he
  | some v => exact h v he
theorem r_set {ln x : Nat} {e : Exp} {v : V} (he : e.eval s env = some v) (h : RetL (k.run call n ⟨env.set x v, sv⟩ s) I B R) :
    RetL ((.set ln x e ;; k).run call n ⟨env, sv⟩ s) I B R := ret_set (fun h => by rw [he] at h; cases h) fun w hw => by rw [he] at hw; cases hw; exact h
theorem r_setU {ln x : Nat} {e : Exp} (h : ∀ v, RetL (k.run call n ⟨env.set x v, sv⟩ s) I B R) (hg : Good ln := by rfl) :
    RetL ((.set ln x e ;; k).run call n ⟨env, sv⟩ s) I B R := ret_set (fun _ => hg) fun w _ => h w
theorem r_setA {ln x : Nat} {e : Exp} (p : Exp) (hn : p.eval s env = none → e.eval s env = none)
    (h : ∀ w, p.eval s env = some w → RetL ((.set ln x e ;; k).run call n ⟨env, sv⟩ s) I B R) (hg : Good ln := by rfl) :
    RetL ((.set ln x e ;; k).run call n ⟨env, sv⟩ s) I B R := by
  cases hp : p.eval s env with
  | some w => exact h w hp
  | none => exact ret_set (fun _ => hg) fun v hv => by rw [hn hp] at hv; cases hv
theorem r_setF {ln x : Nat} {path : List Nat} {e : Exp} {v u w : V} (he : e.eval s env = some v) (hu : env[x]? = some u) (hw : setPath u path v = some w)
    (h : RetL (k.run call n ⟨env.set x w, sv⟩ s) I B R) : RetL ((.setF ln x path e ;; k).run call n ⟨env, sv⟩ s) I B R := by
  rw [run_seq, run_setF]
  simp only [he, hu, Option.bind_some, hw, onSome]
  exact h
theorem r_setFA {ln x : Nat} {path : List Nat} {e : Exp} (p : Exp) (hn : p.eval s env = none → e.eval s env = none)
    (h : ∀ w, p.eval s env = some w → RetL ((.setF ln x path e ;; k).run call n ⟨env, sv⟩ s) I B R) (hg : Good ln := by rfl) :
    RetL ((.setF ln x path e ;; k).run call n ⟨env, sv⟩ s) I B R := by
  cases hp : p.eval s env with
  | some w => exact h w hp
  | none =>
    rw [run_seq, run_setF]
    simp only [hn hp, onSome]
    exact hg
theorem r_ret {ln : Nat} {es : List Exp} {vs : List V} (he : Exp.evalL s env es = some vs) (h : R vs s) :
    RetL ((Stmt.ret (Fn := Fn) ln es).run call n ⟨env, sv⟩ s) I B R := by
  rw [run_ret]
  simp only [he, onSome]
  exact h
theorem r_retS {ln : Nat} {es : List Exp} (h : RetL ((Stmt.ret (Fn := Fn) ln es).run call n ⟨env, sv⟩ s) I B R) :
    RetL ((.ret ln es ;; k).run call n ⟨env, sv⟩ s) I B R := by
  rw [run_seq]
  rw [run_ret] at h ⊢
  cases he : Exp.evalL s env es <;> simp only [he, onSome] at h <;> exact h
theorem r_call {ln : Nat} {f : Fn} {es : List Exp} {dst : List Nat} {as : List V} {P : List V → Lx → Prop} (he : Exp.evalL ⟨l, m, i⟩ env es = some as)
    (hf : Fw f as l P)
    (h : ∀ rs l' m' i', P rs l' → RetL (k.run (runFn retryTable n) n ⟨storeAll env dst rs, sv⟩ ⟨l', m', i'⟩) I B R) :
    RetL ((.call ln f es dst ;; k).run (runFn retryTable n) n ⟨env, sv⟩ ⟨l, m, i⟩) I B R := by
  have hf := hf n m i
  rw [run_seq, run_call]
  simp only [he, onSome]
  cases hr : runFn retryTable n f as ⟨l, m, i⟩ with
  | ret rs s' => exact h rs _ _ _ (hf.1 rs s'.lx s'.memo s'.input hr)
  | panic ln => exact hf.2 ln hr
  | fuel => trivial
theorem r_ite {ln : Nat} {c : Exp} {a b : Stmt Fn} {x : Bool} (hc : c.eval s env = some (.bool x))
    (ht : x = true → RetL ((a ;; k).run call n ⟨env, sv⟩ s) I B R) (hf : x = false → RetL ((b ;; k).run call n ⟨env, sv⟩ s) I B R) :
    RetL ((.ite ln c a b ;; k).run call n ⟨env, sv⟩ s) I B R := by
  rw [run_seq, run_ite]
  simp only [hc, Option.bind_some, V.toBool?, onSome]
  cases x
  · have := hf rfl; rw [run_seq] at this; exact this
  · have := ht rfl; rw [run_seq] at this; exact this
theorem r_iteT {ln : Nat} {c : Exp} {a b : Stmt Fn} (hc : c.eval s env = some (.bool true))
    (ht : RetL ((a ;; k).run call n ⟨env, sv⟩ s) I B R) :
    RetL ((.ite ln c a b ;; k).run call n ⟨env, sv⟩ s) I B R := r_ite hc (fun _ => ht) (fun h => nomatch h)
theorem r_iteF {ln : Nat} {c : Exp} {a b : Stmt Fn} (hc : c.eval s env = some (.bool false))
    (hf : RetL ((b ;; k).run call n ⟨env, sv⟩ s) I B R) :
    RetL ((.ite ln c a b ;; k).run call n ⟨env, sv⟩ s) I B R := r_ite hc (fun h => nomatch h) (fun _ => hf)
theorem r_iteU {ln : Nat} {c : Exp} {a b : Stmt Fn} (hg : Good ln)
    (ht : RetL ((a ;; k).run call n ⟨env, sv⟩ s) I B R) (hf : RetL ((b ;; k).run call n ⟨env, sv⟩ s) I B R) :
    RetL ((.ite ln c a b ;; k).run call n ⟨env, sv⟩ s) I B R := by
  rw [run_seq, run_ite]
  rw [run_seq] at ht hf
  cases (c.eval s env).bind V.toBool? with
  | none => exact hg
  | some x => cases x <;> assumption
theorem r_iteSet {ln ln' x : Nat} {c e : Exp} {v : V} (hx : env[x]? = some v) (h : ∀ w, RetL (k.run call n ⟨env.set x w, sv⟩ s) I B R) (hg : Good ln := by rfl) (hg' : Good ln' := by rfl) :
    RetL ((.ite ln c (.set ln' x e) .skip ;; k).run call n ⟨env, sv⟩ s) I B R := by
  refine r_iteU hg (ret_set (fun _ => hg') fun w _ => h w) (r_skip ?_)
  have := h v
  obtain ⟨h1, rfl⟩ := List.getElem?_eq_some_iff.1 hx
  rwa [List.set_getElem_self] at this
theorem r_setN {ln x : Nat} {e : Exp} {st : Static} (h : ∀ w, RetL (k.run call n ⟨env.set x (.nat w), sv⟩ s) I B R) (hg : Good ln := by rfl) :
    RetL ((.set ln x (.endOf e st) ;; k).run call n ⟨env, sv⟩ s) I B R := ret_set (fun _ => hg) fun w hw => by
  simp only [Exp.eval, Option.bind_eq_some_iff, Option.map_eq_some_iff] at hw
  obtain ⟨_, _, _, _, w, _, rfl⟩ := hw
  exact h w
theorem r_iteSetN {ln ln' x : Nat} {c e : Exp} {st : Static} {v : Nat} (hx : env[x]? = some (.nat v)) (h : ∀ w, RetL (k.run call n ⟨env.set x (.nat w), sv⟩ s) I B R)
    (hg : Good ln := by rfl) (hg' : Good ln' := by rfl) : RetL ((.ite ln c (.set ln' x (.endOf e st)) .skip ;; k).run call n ⟨env, sv⟩ s) I B R := by
  refine r_iteU hg (r_setN h hg') (r_skip ?_)
  have := h v
  obtain ⟨h1, h2⟩ := List.getElem?_eq_some_iff.1 hx
  rwa [← h2, List.set_getElem_self] at this
theorem r_iteAnd {ln : Nat} {c d : Exp} {a b : Stmt Fn}
    (h : RetL ((.ite ln c (.ite ln d a b) b ;; k).run call n ⟨env, sv⟩ s) I B R) :
    RetL ((.ite ln (.and c d) a b ;; k).run call n ⟨env, sv⟩ s) I B R := by
  rw [run_seq, run_ite] at h ⊢
  cases hc : (c.eval s env).bind V.toBool? with
  | none => simp only [Exp.eval, hc, Option.bind_none, onSome] at h ⊢; exact h
  | some x =>
    simp only [Exp.eval, hc, Option.bind_some, onSome] at h ⊢
    cases x
    · simpa [V.toBool?, onSome] using h
    · simp only [if_true] at h ⊢
      rw [run_ite] at h
      exact h
theorem r_iteOr {ln : Nat} {c d : Exp} {a b : Stmt Fn}
    (h : RetL ((.ite ln c a (.ite ln d a b) ;; k).run call n ⟨env, sv⟩ s) I B R) :
    RetL ((.ite ln (.or c d) a b ;; k).run call n ⟨env, sv⟩ s) I B R := by
  rw [run_seq, run_ite] at h ⊢
  cases hc : (c.eval s env).bind V.toBool? with
  | none => simp only [Exp.eval, hc, Option.bind_none, onSome] at h ⊢; exact h
  | some x =>
    simp only [Exp.eval, hc, Option.bind_some, onSome] at h ⊢
    cases x
    · simp only [Bool.false_eq_true, if_false] at h ⊢
      rw [run_ite] at h
      exact h
    · simpa [V.toBool?, onSome] using h
theorem ret_prim {ln : Nat} {q : Prim} {dst : List Nat} {rs : List V} {l' : Lx} (hr : q.run s env = some (rs, l'))
    (h : RetL (k.run call n ⟨storeAll env dst rs, sv⟩ { s with lx := l' }) I B R) :
    RetL ((.prim ln q dst ;; k).run call n ⟨env, sv⟩ s) I B R := by
  rw [run_seq]
  simp only [Stmt.run, hr]
  exact h

theorem f_consume {ln : Nat} {dst : List Nat} (hl : NoErr l)
    (h : RetL (k.run call n ⟨storeAll env dst [.nil], sv⟩ ⟨l.advance, m, i⟩) I B R) :
    RetL ((.prim ln .consume dst ;; k).run call n ⟨env, sv⟩ ⟨l, m, i⟩) I B R :=
  ret_prim (by simp only [Prim.run, hl.consume.1]) h
theorem f_peek {ln : Nat} {dst : List Nat} (hl : NoErr l)
    (h : RetL (k.run call n ⟨storeAll env dst [tokV l.advance.cur, .nil], sv⟩ ⟨l, m, i⟩) I B R) :
    RetL ((.prim ln .peek dst ;; k).run call n ⟨env, sv⟩ ⟨l, m, i⟩) I B R :=
  ret_prim (by simp only [Prim.run, hl.peek]) h
theorem f_tryKindT {ln : Nat} {e : Exp} {k0 : Str} {dst : List Nat} (he : e.eval ⟨l, m, i⟩ env = some (.str k0)) (hm : l.matchKinds [k0] = true)
    (h : RetL (k.run call n ⟨storeAll env dst [tokV l.cur], sv⟩ ⟨l.advance, m, i⟩) I B R) :
    RetL ((.prim ln (.tryKind e) dst ;; k).run call n ⟨env, sv⟩ ⟨l, m, i⟩) I B R :=
  ret_prim (by simp only [Prim.run, he, Option.bind_some, V.toStr?, Option.map_some, Lx.tryKind, hm, if_true]) h
theorem f_tryKindF {ln : Nat} {e : Exp} {k0 : Str} {dst : List Nat} (he : e.eval ⟨l, m, i⟩ env = some (.str k0)) (hm : l.matchKinds [k0] = false)
    (h : RetL (k.run call n ⟨storeAll env dst [.nil], sv⟩ ⟨l, m, i⟩) I B R) :
    RetL ((.prim ln (.tryKind e) dst ;; k).run call n ⟨env, sv⟩ ⟨l, m, i⟩) I B R :=
  ret_prim (by simp only [Prim.run, he, Option.bind_some, V.toStr?, Option.map_some, Lx.tryKind, hm, Bool.false_eq_true, if_false]) h
theorem f_expectKind {ln : Nat} {e : Exp} {k0 : Str} {dst : List Nat} (he : e.eval ⟨l, m, i⟩ env = some (.str k0)) (hm : l.matchKinds [k0] = true)
    (hk : [k0].contains Kind.eof.toStr = false)
    (h : RetL (k.run call n ⟨storeAll env dst [.nil], sv⟩ ⟨l.advance, m, i⟩) I B R) :
    RetL ((.prim ln (.expectKind e) dst ;; k).run call n ⟨env, sv⟩ ⟨l, m, i⟩) I B R := by
  obtain ⟨t, ht⟩ := cur_of_kinds hm hk
  exact ret_prim (by simp only [Prim.run, he, Option.bind_some, V.toStr?, Option.map_some, Lx.tryKind, hm, if_true, ht, tokV, Token.toV, N.Token]) h
theorem f_expectKw {ln : Nat} {e : Exp} {k0 : Str} {dst : List Nat} (he : e.eval ⟨l, m, i⟩ env = some (.str k0)) (hm : l.matchKw k0 = true)
    (h : RetL (k.run call n ⟨storeAll env dst [.nil], sv⟩ ⟨l.advance, m, i⟩) I B R) :
    RetL ((.prim ln (.expectKw e) dst ;; k).run call n ⟨env, sv⟩ ⟨l, m, i⟩) I B R :=
  ret_prim (by simp only [Prim.run, he, Option.bind_some, V.toStr?, Option.map_some, hm, Bool.not_true, Bool.false_eq_true, if_false]) h
theorem f_tryKws1T {ln : Nat} {k1 : Str} {dst : List Nat} (hm : l.matchKw k1 = true)
    (h : RetL (k.run call n ⟨storeAll env dst [.bool true], sv⟩ ⟨l.advance, m, i⟩) I B R) :
    RetL ((.prim ln (.tryKws [k1]) dst ;; k).run call n ⟨env, sv⟩ ⟨l, m, i⟩) I B R :=
  ret_prim (by simp only [Prim.run, Lx.tryKws, Lx.takeKws, hm, if_true]) h
theorem f_tryKwsF {ln : Nat} {k1 : Str} {ks : List Str} {dst : List Nat} (hm : l.matchKw k1 = false)
    (h : RetL (k.run call n ⟨storeAll env dst [.bool false], sv⟩ ⟨l, m, i⟩) I B R) :
    RetL ((.prim ln (.tryKws (k1 :: ks)) dst ;; k).run call n ⟨env, sv⟩ ⟨l, m, i⟩) I B R :=
  ret_prim (by simp only [Prim.run, Lx.tryKws, Lx.takeKws, hm, Bool.false_eq_true, if_false]) h
theorem f_tryKws2T {ln : Nat} {k1 k2 : Str} {dst : List Nat} (hm : l.matchKw k1 = true) (hm2 : l.advance.matchKw k2 = true)
    (h : RetL (k.run call n ⟨storeAll env dst [.bool true], sv⟩ ⟨l.advance.advance, m, i⟩) I B R) :
    RetL ((.prim ln (.tryKws [k1, k2]) dst ;; k).run call n ⟨env, sv⟩ ⟨l, m, i⟩) I B R :=
  ret_prim (by simp only [Prim.run, Lx.tryKws, Lx.takeKws, hm, hm2, if_true]) h
theorem f_tryKws2F {ln : Nat} {k1 k2 : Str} {dst : List Nat} (hm : l.matchKw k1 = true) (hm2 : l.advance.matchKw k2 = false)
    (h : RetL (k.run call n ⟨storeAll env dst [.bool false], sv⟩ ⟨l, m, i⟩) I B R) :
    RetL ((.prim ln (.tryKws [k1, k2]) dst ;; k).run call n ⟨env, sv⟩ ⟨l, m, i⟩) I B R :=
  ret_prim (by simp only [Prim.run, Lx.tryKws, Lx.takeKws, hm, hm2, if_true, Bool.false_eq_true, if_false]) h

/-- A loop, any number of times. -/
def Loops (b k : Stmt Fn) (call : Fn → List V → PS → COut) (n : Nat) (fr : Frame) (s : PS) (I B : Frame → PS → Prop) (R : List V → PS → Prop) : Prop :=
  ∀ c, RetL (match loopN (b.run call n) c fr s with | .next fr' s' => k.run call n fr' s' | r => r) I B R

theorem f_loop {b : Stmt Fn} {fr : Frame} (h : Loops b k call n fr s I B R) : RetL ((.loop b ;; k).run call n fr s) I B R := by
  have := h n
  rw [run_seq, show (Stmt.loop b).run call n fr s = loopN (b.run call n) n fr s by simp only [Stmt.run]]
  cases hl : loopN (b.run call n) n fr s <;> rw [hl] at this <;> exact this

theorem f_unroll {b : Stmt Fn} {fr : Frame}
    (h : RetL (b.run call n fr s) (fun fr' s' => Loops b k call n fr' s' I B R) (fun fr' s' => RetL (k.run call n fr' s') I B R) R) :
    Loops b k call n fr s I B R := by
  intro c
  cases c with
  | zero => simp only [loopN]; trivial
  | succ c =>
    unfold RetL at h
    simp only [loopN]
    cases hb : b.run call n fr s with
    | next fr' s' => rw [hb] at h; exact (h : Loops b k call n fr' s' I B R) c
    | cont fr' s' => rw [hb] at h; exact (h : Loops b k call n fr' s' I B R) c
    | brk fr' s' => rw [hb] at h; exact h
    | ret vs s' => rw [hb] at h; exact h
    | panic ln => rw [hb] at h; exact h
    | fuel => trivial

/-- A loop, by what holds before each round. -/
theorem f_loopL {b : Stmt Fn} {fr : Frame}
    (h : ∀ L : Frame → PS → Prop, (∀ fr s, RetL (b.run call n fr s) L (fun fr' s' => RetL (k.run call n fr' s') I B R) R → L fr s) → L fr s) :
    RetL ((.loop b ;; k).run call n fr s) I B R :=
  f_loop (h (fun fr s => Loops b k call n fr s I B R) fun _ _ => f_unroll)

end

end Verif.Complete

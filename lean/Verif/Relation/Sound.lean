/-
Two runs of the parser on texts with the same tokens: primitives, statements, methods.
-/
import Verif.Relation.Exp
import Verif.Relation.Typed

namespace Verif

variable {R : Str → Str → Prop} {S : Lx → Lx → Prop} {p : Prop} {Γ : List RTy} {env env' : List V} {s s' : PS}

/-! ### Primitives -/

theorem kindErr_sim (hR : Spelling R) (hS : Bisim R S) {l m : Lx} (h : S l m) (k : Str) : V.Sim R (kindErr l k) (kindErr m k) := by
  refine .mk (.cons (.nat _ _) trivial (.cons (.nat _ _) ⟨_, _, rfl, rfl⟩ (.cons (.nat _ _) ⟨_, _, rfl, rfl⟩
    (.cons (tokV_sim hR (hS.cur h)).1 trivial (.cons ?_ trivial (.cons (.str (hR.refl _)) trivial (.cons (.str (hR.refl _)) trivial .nil)))))))
  exact .list (.cons (.str (hR.refl _)) .nil)

theorem keywordErr_sim (hR : Spelling R) (hS : Bisim R S) {l m : Lx} (h : S l m) (k : Str) : V.Sim R (keywordErr l k) (keywordErr m k) :=
  .mk (.cons (.nat _ _) trivial (.cons (.nat _ _) ⟨_, _, rfl, rfl⟩ (.cons (.nat _ _) ⟨_, _, rfl, rfl⟩
    (.cons (tokV_sim hR (hS.cur h)).1 trivial (.cons .nil trivial (.cons (.str (hR.refl _)) trivial (.cons (.str (hR.refl _)) trivial .nil)))))))

theorem plainErr_sim (hR : Spelling R) (m : Str) : V.Sim R (plainErr m) (plainErr m) := .mk (.cons (.str (hR.refl _)) trivial .nil)

/-- The error with the line and column filled in, whatever they are. -/
theorem resolve_sim {m n : Nat} {l c l' c' : V} {fs gs : List V} {b b' : Bool} {x y x' y' : Nat}
    (hl : RTy.holds R .num l l') (hc : RTy.holds R .num c c') (h : V.SimF R .ParseError 3 fs gs) :
    V.Sim R (if b then .mk .ParseError (.nat m :: .nat x :: .nat y :: fs) else .mk .ParseError (.nat m :: l :: c :: fs))
      (if b' then .mk .ParseError (.nat n :: .nat x' :: .nat y' :: gs) else .mk .ParseError (.nat n :: l' :: c' :: gs)) := by
  obtain ⟨hl, p, q, rfl, rfl⟩ := hl
  obtain ⟨hc, p', q', rfl, rfl⟩ := hc
  split <;> split <;>
    exact .mk (.cons (.nat _ _) trivial (.cons (.nat _ _) ⟨_, _, rfl, rfl⟩ (.cons (.nat _ _) ⟨_, _, rfl, rfl⟩ h)))

theorem wrapErr_sim (hR : Spelling R) (hS : Bisim R S) (hs : SRel S s s') {e f : V} (h : V.Sim R e f) :
    V.Sim R (wrapErr s e) (wrapErr s' f) := by
  have hdef : ∀ {s : PS} {t : Ty} {fs : List V}, t ≠ .ParseError → t ≠ .PlainError → wrapErr s (.mk t fs) = .mk t fs := by
    intro s t fs h1 h2
    unfold wrapErr
    split
    · rename_i e; simp only [V.mk.injEq] at e; exact absurd e.1 h1
    · rename_i e; simp only [V.mk.injEq] at e; exact absurd e.1 h2
    · rfl
  cases h with
  | @mk t fs gs h =>
    have hself : V.Sim R (.mk t fs) (.mk t gs) := .mk h
    by_cases h1 : t = .ParseError
    · subst h1
      cases h with
      | nil => exact hself
      | cons ha _ h =>
        cases h with
        | nil => cases ha <;> exact hself
        | cons hb hb' h =>
          cases h with
          | nil => cases ha <;> exact hself
          | cons hc hc' h =>
            cases ha with
            | nat m n => exact resolve_sim ⟨hb, hb'⟩ ⟨hc, hc'⟩ h
            | _ => exact hself
    · by_cases h2 : t = .PlainError
      · subst h2
        cases h with
        | nil => exact hself
        | cons ha _ h =>
          cases h with
          | nil =>
            exact .mk (.cons (.nat _ _) trivial (.cons (.nat _ _) ⟨_, _, rfl, rfl⟩ (.cons (.nat _ _) ⟨_, _, rfl, rfl⟩ (.cons (tokV_sim hR (hS.cur hs.lx)).1 trivial (.cons .nil trivial
              (.cons (.str (hR.refl [])) trivial (.cons ha trivial .nil)))))))
          | cons _ _ _ => exact hself
      · rw [hdef h1 h2, hdef h1 h2]; exact hself
  | nil => exact .nil
  | nat m n => exact .nat m n
  | bool b => exact .bool b
  | str h => exact .str h
  | list h => exact .list h

theorem peek_sim (hR : Spelling R) (hS : Bisim R S) {l m : Lx} (h : S l m) :
    match l.peek, m.peek with
    | .ok t l', .ok u m' => RTy.holds R .tok (tokV t) (tokV u) ∧ S l' m'
    | .err l', .err m' => S l' m'
    | _, _ => False := by
  have := hS.step h
  simp only [Lx.peek]
  revert this
  cases l.consume <;> cases m.consume <;> intro h' <;> simp only at h' ⊢
  · exact ⟨tokV_sim hR (hS.cur h'), h⟩
  · exact h'

theorem prim_sim (hR : Spelling R) (hS : Bisim R S) (hs : SRel S s s') (he : EnvRel R Γ env env') (q : Prim) {τs : List RTy}
    (h : q.infer Γ = some τs) :
    ORel p (fun a b => EnvRel R τs a.1 b.1 ∧ S a.2 b.2) (q.run s env) (q.run s' env') := by
  cases q with
  | consume =>
    simp only [Prim.infer, Option.some.injEq] at h
    subst h
    have := hS.step hs.lx
    simp only [Prim.run]
    revert this
    cases s.lx.consume <;> cases s'.lx.consume <;> intro h <;> simp only at h ⊢
    · exact ⟨.cons (exact_holds .nil) .nil, h⟩
    · exact ⟨.cons (exact_holds (plainErr_sim hR _)) .nil, h⟩
  | tryKind k =>
    simp only [Prim.infer, Option.bind_eq_some_iff] at h
    obtain ⟨σ, hσ, h⟩ := h
    split at h
    case isFalse => cases h
    rename_i hx
    simp only [Option.some.injEq] at h
    subst h
    simp only [Prim.run]
    refine (str_exact hx (eval_sim hR hS hs he k hσ)).map (fun x y hxy => ?_)
    subst hxy
    have := hS.tryKind hR hs.lx x
    exact ⟨.cons this.1 .nil, this.2⟩
  | expectKind k =>
    simp only [Prim.infer, Option.bind_eq_some_iff] at h
    obtain ⟨σ, hσ, h⟩ := h
    split at h
    case isFalse => cases h
    rename_i hx
    simp only [Option.some.injEq] at h
    subst h
    simp only [Prim.run]
    refine (str_exact hx (eval_sim hR hS hs he k hσ)).map (fun x y hxy => ?_)
    subst hxy
    obtain ⟨⟨h1, _⟩, h2⟩ := hS.tryKind hR hs.lx x
    revert h1 h2
    generalize s.lx.tryKind x = a
    generalize s'.lx.tryKind x = b
    obtain ⟨v, l⟩ := a
    obtain ⟨w, m⟩ := b
    intro h2 h1
    simp only at h1 h2
    cases h1 with
    | nil => exact ⟨.cons (rel_holds (kindErr_sim hR hS h2 x)) .nil, h2⟩
    | _ => exact ⟨.cons (rel_holds .nil) .nil, h2⟩
  | expectKw k =>
    simp only [Prim.infer, Option.bind_eq_some_iff] at h
    obtain ⟨σ, hσ, h⟩ := h
    split at h
    case isFalse => cases h
    rename_i hx
    simp only [Option.some.injEq] at h
    subst h
    simp only [Prim.run]
    refine (str_exact hx (eval_sim hR hS hs he k hσ)).map (fun x y hxy => ?_)
    subst hxy
    rw [hS.matchKw hR hs.lx]
    split
    · exact ⟨.cons (rel_holds (keywordErr_sim hR hS hs.lx x)) .nil, hs.lx⟩
    · exact ⟨.cons (rel_holds .nil) .nil, hS.advance hs.lx⟩
  | tryKws ks =>
    simp only [Prim.infer, Option.some.injEq] at h
    subst h
    have := hS.tryKws hR hs.lx ks
    simp only [Prim.run]
    exact ⟨.cons (by rw [this.1]; exact sim_boolV _) .nil, this.2⟩
  | peek =>
    simp only [Prim.infer, Option.some.injEq] at h
    subst h
    have := peek_sim hR hS hs.lx
    simp only [Prim.run]
    revert this
    cases s.lx.peek <;> cases s'.lx.peek <;> intro h <;> simp only at h ⊢
    · exact ⟨.cons h.1 (.cons (exact_holds .nil) .nil), h.2⟩
    · exact ⟨.cons (le_holds (τ := .nul) rfl ⟨.nil, rfl⟩) (.cons (exact_holds (plainErr_sim hR _)) .nil), h⟩
  | wrap e =>
    simp only [Prim.infer, Option.map_eq_some_iff] at h
    obtain ⟨σ, hσ, rfl⟩ := h
    simp only [Prim.run]
    exact (eval_sim hR hS hs he e hσ).map (fun x y hxy => ⟨.cons (rel_holds (wrapErr_sim hR hS hs hxy.1)) .nil, hs.lx⟩)

/-! ### Assignments -/

theorem storeAll_sim : ∀ {dst : List Nat} {τs : List RTy} {vs ws : List V} {e e' : List V}, fitsDst Γ dst τs = true →
    EnvRel R τs vs ws → EnvRel R Γ e e' → EnvRel R Γ (storeAll e dst vs) (storeAll e' dst ws)
  | [], _, _, _, _, _, _, .nil, h => h
  | [], _, _, _, _, _, _, .cons _ _, h => h
  | _ :: _, _, _, _, _, _, _, .nil, h => h
  | x :: xs, _, _, _, e, e', hd, .cons hv hs, h => by
    simp only [fitsDst, Bool.and_eq_true] at hd
    simp only [storeAll]
    refine storeAll_sim hd.2 hs (h.set (fun τ hτ => ?_))
    rw [hτ] at hd
    exact le_holds hd.1 hv

theorem simF_set {t : Ty} : ∀ {fs gs : List V} {k : Nat}, V.SimF R t k fs gs → ∀ (i : Nat) {v w : V},
    (fieldTy t (k + i)).holds R v w → V.SimF R t k (fs.set i v) (gs.set i w)
  | _, _, _, .nil, _, _, _, _ => .nil
  | _, _, _, .cons _ _ h, 0, _, _, hv => .cons hv.1 hv.2 h
  | _, _, k, .cons h1 h2 h, i + 1, _, _, hv => .cons h1 h2 (simF_set h i (by rw [show k + 1 + i = k + (i + 1) by omega]; exact hv))

theorem setPath_sim {τ : RTy} {v w : V} (hv : τ.holds R v w) : ∀ {path : List Nat} {σ : RTy} {x y : V}, fitsPath τ σ path = true →
    σ.holds R x y → ORel False (σ.holds R) (setPath x path v) (setPath y path w)
  | [], σ, x, y, h, _ => by
    have : τ.le σ = true := by cases σ <;> exact h
    exact le_holds this hv
  | i :: path, σ, x, y, h, hx => by
    cases σ with
    | st t =>
      simp only [fitsPath] at h
      obtain ⟨hs, ht⟩ := hx
      cases hs with
      | @mk t' fs gs hf =>
        have e : t = t' := (Option.some.inj (ht.resolve_left (by simp))).symm
        subst e
        simp only [setPath]
        have := simF_get hf i
        rw [Nat.zero_add] at this
        refine this.bind (fun a b hab => ?_)
        refine (setPath_sim hv h hab).map (fun c d hcd => ?_)
        exact ⟨.mk (simF_set hf i (by rw [Nat.zero_add]; exact hcd)), Or.inr rfl⟩
      | _ => trivial
    | _ => simp [fitsPath] at h

/-! ### Statements -/

/-- Corresponding local states. -/
structure FRel (R : Str → Str → Prop) (S : Lx → Lx → Prop) (Γ : List RTy) (fr fr' : Frame) : Prop where
  env : EnvRel R Γ fr.env fr'.env
  saved : S fr.saved fr'.saved

/-- Corresponding results: of the given types, or none after the end of the body. -/
def RetRel (R : Str → Str → Prop) (ρ : List RTy) (vs ws : List V) : Prop := EnvRel R ρ vs ws ∨ vs = [] ∧ ws = []

/-- Corresponding outcomes of a statement. -/
def ORun (R : Str → Str → Prop) (S : Lx → Lx → Prop) (Γ ρ : List RTy) : Out → Out → Prop
  | .fuel, .fuel => True
  | .panic l, .panic l' => l = l'
  | .next fr s, .next fr' s' => FRel R S Γ fr fr' ∧ SRel S s s'
  | .brk fr s, .brk fr' s' => FRel R S Γ fr fr' ∧ SRel S s s'
  | .cont fr s, .cont fr' s' => FRel R S Γ fr fr' ∧ SRel S s s'
  | .ret vs s, .ret ws s' => RetRel R ρ vs ws ∧ SRel S s s'
  | _, _ => False

/-- The same for a call. -/
def CRun (R : Str → Str → Prop) (S : Lx → Lx → Prop) (ρ : List RTy) : COut → COut → Prop
  | .fuel, .fuel => True
  | .panic l, .panic l' => l = l'
  | .ret vs s, .ret ws s' => RetRel R ρ vs ws ∧ SRel S s s'
  | _, _ => False

theorem fits_ret : ∀ {τs ρ : List RTy} {vs ws : List V}, fits τs ρ = true → EnvRel R τs vs ws → EnvRel R ρ vs ws
  | [], [], _, _, _, h => h
  | [], _ :: _, _, _, h, _ => by simp [fits] at h
  | _ :: _, [], _, _, h, _ => by simp [fits] at h
  | _ :: _, _ :: _, _, _, h, .cons hv hs => by
    simp only [fits, Bool.and_eq_true] at h
    exact .cons (le_holds h.1 hv) (fits_ret h.2 hs)

theorem fits_nil : ∀ {σs : List RTy}, σs.all (RTy.le .nul) = true → EnvRel R σs (List.replicate σs.length V.nil) (List.replicate σs.length V.nil)
  | [], _ => .nil
  | σ :: σs, h => by
    simp only [List.all_cons, Bool.and_eq_true] at h
    exact .cons (le_holds h.1 ⟨.nil, rfl⟩) (fits_nil h.2)

/-- Arguments and the other variables, which begin as nil. -/
theorem fits_args : ∀ {τs σs : List RTy} {vs ws : List V}, fitsArgs τs σs = true → EnvRel R τs vs ws →
    EnvRel R σs (vs ++ List.replicate (σs.length - vs.length) V.nil) (ws ++ List.replicate (σs.length - ws.length) V.nil)
  | [], σs, _, _, h, .nil => by simpa using fits_nil (R := R) (σs := σs) h
  | _ :: _, [], _, _, h, _ => by simp [fitsArgs] at h
  | _ :: _, _ :: _, _, _, h, .cons hv hs => by
    simp only [fitsArgs, Bool.and_eq_true] at h
    have := fits_args h.2 hs
    simp only [List.cons_append, List.length_cons, Nat.add_sub_add_right]
    exact .cons (le_holds h.1 hv) this

section
variable {Fn : Type} {call : Fn → List V → PS → COut} {sig : Fn → Sig} {ρ : List RTy} {n : Nat} {fr fr' : Frame}

/-- Continue after a normal end. -/
def Out.andThen (a : Out) (k : Frame → PS → Out) : Out := match a with
  | .next fr s => k fr s
  | r => r

/-- Continue with a value, or panic. -/
def onSome {α : Type} (ln : Nat) (a : Option α) (k : α → Out) : Out := match a with
  | some x => k x
  | none => .panic ln

theorem seq_sim {a b : Out} {k k' : Frame → PS → Out}
    (h : ORun R S Γ ρ a b) (hk : ∀ fr fr' s s', FRel R S Γ fr fr' → SRel S s s' → ORun R S Γ ρ (k fr s) (k' fr' s')) :
    ORun R S Γ ρ (a.andThen k) (b.andThen k') := by
  cases a <;> cases b <;> simp only [ORun] at h <;> first
    | exact hk _ _ _ _ h.1 h.2
    | exact h
    | trivial

theorem loop_sim {f : Frame → PS → Out} (hf : ∀ fr fr' s s', FRel R S Γ fr fr' → SRel S s s' → ORun R S Γ ρ (f fr s) (f fr' s')) :
    ∀ (m : Nat) {fr fr' : Frame} {s s' : PS}, FRel R S Γ fr fr' → SRel S s s' → ORun R S Γ ρ (loopN f m fr s) (loopN f m fr' s')
  | 0, _, _, _, _, _, _ => trivial
  | m + 1, fr, fr', s, s', h, hs => by
    have := hf fr fr' s s' h hs
    simp only [loopN]
    revert this
    cases f fr s <;> cases f fr' s' <;> intro h <;> simp only [ORun] at h <;>
      first
        | exact loop_sim hf m h.1 h.2
        | exact h
        | trivial

/-- What a match on an optional value makes of related values. -/
theorem opt_sim {α β : Type} {Q : α → β → Prop} {a : Option α} {b : Option β} {ln : Nat} (h : ORel False Q a b)
    {k : α → Out} {k' : β → Out} (hk : ∀ x y, Q x y → ORun R S Γ ρ (k x) (k' y)) :
    ORun R S Γ ρ (onSome ln a k) (onSome ln b k') := by
  cases a <;> cases b
  · rfl
  · exact h.elim
  · exact h.elim
  · exact hk _ _ h

theorem run_seq (a b : Stmt Fn) (fr : Frame) (s : PS) : (a ;; b).run call n fr s = (a.run call n fr s).andThen (b.run call n) := by
  rw [Stmt.run.eq_2]; cases a.run call n fr s <;> rfl

theorem run_set (ln x : Nat) (e : Exp) (fr : Frame) (s : PS) : (Stmt.set (Fn := Fn) ln x e).run call n fr s =
    onSome ln (e.eval s fr.env) (fun v => .next { fr with env := fr.env.set x v } s) := by
  simp only [Stmt.run]; cases e.eval s fr.env <;> rfl

theorem run_setF (ln x : Nat) (path : List Nat) (e : Exp) (fr : Frame) (s : PS) : (Stmt.setF (Fn := Fn) ln x path e).run call n fr s =
    onSome ln (e.eval s fr.env) (fun v => onSome ln (fr.env[x]?.bind (fun w => setPath w path v))
      (fun w => .next { fr with env := fr.env.set x w } s)) := by
  simp only [Stmt.run]
  cases e.eval s fr.env with
  | none => rfl
  | some v => simp only [onSome]; cases fr.env[x]?.bind (fun w => setPath w path v) <;> rfl

theorem run_ite (ln : Nat) (c : Exp) (a b : Stmt Fn) (fr : Frame) (s : PS) : (Stmt.ite ln c a b).run call n fr s =
    onSome ln ((c.eval s fr.env).bind V.toBool?) (fun x => if x then a.run call n fr s else b.run call n fr s) := by
  rw [Stmt.run.eq_5]
  rcases (c.eval s fr.env).bind V.toBool? with _ | _ | _ <;> rfl

theorem run_ret (ln : Nat) (es : List Exp) (fr : Frame) (s : PS) : (Stmt.ret (Fn := Fn) ln es).run call n fr s =
    onSome ln (Exp.evalL s fr.env es) (fun vs => .ret vs s) := by
  simp only [Stmt.run]; cases Exp.evalL s fr.env es <;> rfl

theorem run_call (ln : Nat) (f : Fn) (args : List Exp) (dst : List Nat) (fr : Frame) (s : PS) : (Stmt.call ln f args dst).run call n fr s =
    onSome ln (Exp.evalL s fr.env args) (fun vs => match call f vs s with
      | .ret rs s' => .next { fr with env := storeAll fr.env dst rs } s'
      | .panic l => .panic l
      | .fuel => .fuel) := by
  simp only [Stmt.run]
  cases Exp.evalL s fr.env args with
  | none => rfl
  | some vs => simp only [onSome]; cases call f vs s <;> rfl

variable (hR : Spelling R) (hS : Bisim R S)
  (hcall : ∀ f vs ws s s' τs, fitsArgs τs (sig f).vars = true → EnvRel R τs vs ws → SRel S s s' →
    CRun R S (sig f).rets (call f vs s) (call f ws s'))
include hR hS hcall

theorem stmt_sim : ∀ (st : Stmt Fn), st.typed sig Γ ρ = true → ∀ {fr fr' : Frame} {s s' : PS}, FRel R S Γ fr fr' → SRel S s s' →
    ORun R S Γ ρ (st.run call n fr s) (st.run call n fr' s')
  | .skip, _, _, _, _, _, hf, hs => ⟨hf, hs⟩
  | .brk, _, _, _, _, _, hf, hs => ⟨hf, hs⟩
  | .cont, _, _, _, _, _, hf, hs => ⟨hf, hs⟩
  | .save, _, _, _, _, _, hf, hs => ⟨⟨hf.env, hs.lx⟩, hs⟩
  | .restore, _, _, _, _, _, hf, hs => ⟨hf, ⟨hf.saved, hs.memo, hs.memo'⟩⟩
  | .seq a b, h, _, _, _, _, hf, hs => by
    simp only [Stmt.typed, Bool.and_eq_true] at h
    rw [run_seq, run_seq]
    exact seq_sim (stmt_sim a h.1 hf hs) (fun _ _ _ _ hf hs => stmt_sim b h.2 hf hs)
  | .loop b, h, _, _, _, _, hf, hs => loop_sim (fun _ _ _ _ hf hs => stmt_sim b h hf hs) n hf hs
  | .set ln x e, h, fr, fr', _, _, hf, hs => by
    simp only [Stmt.typed, Bool.and_eq_true] at h
    split at h
    case h_2 => cases h
    rename_i τ hτ
    rw [run_set, run_set]
    refine opt_sim (eval_sim hR hS hs hf.env e hτ) (fun v w hvw => ⟨⟨?_, hf.saved⟩, hs⟩)
    exact storeAll_sim h (.cons hvw .nil) hf.env
  | .setF ln x path e, h, fr, fr', _, _, hf, hs => by
    simp only [Stmt.typed, Bool.and_eq_true] at h
    split at h
    case h_2 => cases h
    rename_i τ σ hτ hσ
    rw [Bool.and_eq_true] at h
    obtain ⟨x1, y1, hx, hy, hxy⟩ := hf.env.get hσ
    rw [run_setF, run_setF]
    refine opt_sim (eval_sim hR hS hs hf.env e hτ) (fun v w hvw => ?_)
    rw [hx, hy]
    refine opt_sim ((setPath_sim hvw h.2 hxy).mono False.elim (fun _ _ h => h)) (fun a b hab => ⟨⟨?_, hf.saved⟩, hs⟩)
    exact hf.env.set (fun τ hτ => by rw [hσ] at hτ; cases hτ; exact hab)
  | .ite ln c a b, h, fr, fr', s, s', hf, hs => by
    simp only [Stmt.typed, Bool.and_eq_true] at h
    obtain ⟨⟨hc, ha⟩, hb⟩ := h
    obtain ⟨τ, hτ⟩ := Option.isSome_iff_exists.1 hc
    have := bool_step (p := False) (eval_sim hR hS hs hf.env c hτ)
    rw [run_ite, run_ite]
    refine opt_sim this (fun x y hxy => ?_)
    subst hxy
    cases x
    · exact stmt_sim b hb hf hs
    · exact stmt_sim a ha hf hs
  | .ret ln es, h, fr, fr', _, _, hf, hs => by
    simp only [Stmt.typed, Bool.and_eq_true] at h
    split at h
    case h_2 => cases h
    rename_i τ hτ
    rw [run_ret, run_ret]
    exact opt_sim (evalL_sim hR hS hs hf.env es hτ) (fun v w hvw => ⟨Or.inl (fits_ret h hvw), hs⟩)
  | .call ln f args dst, h, fr, fr', s, s', hf, hs => by
    simp only [Stmt.typed, Bool.and_eq_true] at h
    split at h
    case h_2 => cases h
    rename_i τ hτ
    rw [Bool.and_eq_true] at h
    rw [run_call, run_call]
    refine opt_sim (evalL_sim hR hS hs hf.env args hτ) (fun v w hvw => ?_)
    have := hcall f v w s s' τ h.1 hvw hs
    revert this
    cases call f v s <;> cases call f w s' <;> intro hc <;> simp only [CRun] at hc <;> simp only [ORun]
    · obtain ⟨hc, hs'⟩ := hc
      refine ⟨⟨?_, hf.saved⟩, hs'⟩
      rcases hc with hc | ⟨rfl, rfl⟩
      · exact storeAll_sim h.2 hc hf.env
      · have e : ∀ env : List V, storeAll env dst [] = env := by intro env; cases dst <;> rfl
        rw [e, e]; exact hf.env
    all_goals first | exact hc | trivial
  | .prim ln q dst, h, fr, fr', s, s', hf, hs => by
    simp only [Stmt.typed, Bool.and_eq_true] at h
    split at h
    case h_2 => cases h
    rename_i τ hτ
    have := prim_sim (p := False) hR hS hs hf.env q hτ
    simp only [Stmt.run]
    revert this
    cases q.run s fr.env <;> cases q.run s' fr'.env <;> intro hc <;> simp only [ORel] at hc <;> simp only [ORun]
    · exact ⟨⟨storeAll_sim h hc.1 hf.env, hf.saved⟩, hc.2, hs.memo, hs.memo'⟩
  | .memoAdd _ _, h, _, _, _, _, _, _ => by simp [Stmt.typed] at h

end

/-! ### Methods -/

theorem runFn_sim {Fn : Type} {table : Fn → Func Fn} {sig : Fn → Sig} (hR : Spelling R) (hS : Bisim R S)
    (ht : ∀ f, (table f).typed sig (sig f) = true) : ∀ (n : Nat) (f : Fn) (vs ws : List V) (s s' : PS) (τs : List RTy),
    fitsArgs τs (sig f).vars = true → EnvRel R τs vs ws → SRel S s s' →
    CRun R S (sig f).rets (runFn table n f vs s) (runFn table n f ws s')
  | 0, _, _, _, _, _, _, _, _, _ => trivial
  | n + 1, f, vs, ws, s, s', τs, hf, hv, hs => by
    have h := ht f
    simp only [Func.typed, Bool.and_eq_true, decide_eq_true_eq] at h
    have hfr : FRel R S (sig f).vars ⟨vs ++ List.replicate ((table f).locals - vs.length) V.nil, s.lx⟩
        ⟨ws ++ List.replicate ((table f).locals - ws.length) V.nil, s'.lx⟩ := ⟨by rw [← h.1]; exact fits_args hf hv, hs.lx⟩
    have := stmt_sim (call := runFn table n) (n := n) hR hS (runFn_sim hR hS ht n) (table f).body h.2 hfr hs
    simp only [runFn]
    revert this
    generalize (table f).body.run (runFn table n) n ⟨vs ++ List.replicate ((table f).locals - vs.length) V.nil, s.lx⟩ s = a
    generalize (table f).body.run (runFn table n) n ⟨ws ++ List.replicate ((table f).locals - ws.length) V.nil, s'.lx⟩ s' = b
    cases a <;> cases b <;> intro h <;> simp only [ORun] at h <;> simp only [CRun] <;>
      first | exact h | trivial | exact ⟨Or.inr ⟨rfl, rfl⟩, h.2⟩

end Verif

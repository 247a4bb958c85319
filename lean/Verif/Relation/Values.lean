/-
Values that are alike: lemmas on `V.Sim` and on the evaluation of expressions in two runs.
-/
import Verif.Relation.Check
import Verif.Spec.Memo
import Mathlib.Data.List.Forall2

namespace Verif

variable {R : Str → Str → Prop}

/-! ### Optional results -/

/-- Both none, or both there and related by `Q`; where `p` holds one may be missing. -/
def ORel {α β : Type} (p : Prop) (Q : α → β → Prop) : Option α → Option β → Prop
  | some a, some b => Q a b
  | none, none => True
  | _, _ => p

theorem ORel.some {α β : Type} {p : Prop} {Q : α → β → Prop} {a : α} {b : β} (h : Q a b) : ORel p Q (some a) (some b) := h

theorem ORel.bind {α β γ δ : Type} {p : Prop} {Q : α → β → Prop} {Q' : γ → δ → Prop} {a : Option α} {b : Option β}
    {f : α → Option γ} {g : β → Option δ} (h : ORel p Q a b) (k : ∀ x y, Q x y → ORel p Q' (f x) (g y)) :
    ORel p Q' (a.bind f) (b.bind g) := by
  cases a with
  | none =>
    cases b with
    | none => trivial
    | some y =>
      simp only [Option.bind]
      cases g y with
      | none => trivial
      | some _ => exact h
  | some x =>
    cases b with
    | none =>
      simp only [Option.bind]
      cases f x with
      | none => trivial
      | some _ => exact h
    | some y => exact k x y h

theorem ORel.map {α β γ δ : Type} {p : Prop} {Q : α → β → Prop} {Q' : γ → δ → Prop} {a : Option α} {b : Option β}
    {f : α → γ} {g : β → δ} (h : ORel p Q a b) (k : ∀ x y, Q x y → Q' (f x) (g y)) : ORel p Q' (a.map f) (b.map g) := by
  cases a <;> cases b <;> first | trivial | exact h | exact k _ _ h

theorem ORel.mono {α β : Type} {p q : Prop} {Q Q' : α → β → Prop} {a : Option α} {b : Option β}
    (h : ORel p Q a b) (hp : p → q) (k : ∀ x y, Q x y → Q' x y) : ORel q Q' a b := by
  cases a <;> cases b <;> first | trivial | exact hp h | exact k _ _ h

theorem ORel.free {α β : Type} {p : Prop} (hp : p) {Q : α → β → Prop} {a : Option α} {b : Option β}
    (h : ∀ x y, a = Option.some x → b = Option.some y → Q x y) : ORel p Q a b := by
  cases a <;> cases b <;> first | trivial | exact hp | exact h _ _ rfl rfl

theorem ORel.refl {α : Type} {p : Prop} (a : Option α) : ORel p Eq a a := by cases a <;> trivial

/-! ### Values -/

theorem simF_get {t : Ty} : ∀ {fs gs : List V} {k : Nat}, V.SimF R t k fs gs → ∀ i,
    ORel False (fun a b => V.Sim R a b ∧ (fieldTy t (k + i)).side a b) fs[i]? gs[i]?
  | _, _, _, .nil, i => by simp [ORel]
  | _, _, k, .cons h1 h2 h3, 0 => ⟨h1, h2⟩
  | _, _, k, .cons h1 h2 h3, i + 1 => by
    have := simF_get h3 i
    rw [show k + (i + 1) = k + 1 + i by omega]
    simpa using this

theorem sim_field {v w : V} (h : V.Sim R v w) (i : Nat) : ORel False (V.Sim R) (v.field i) (w.field i) := by
  cases h with
  | mk h => exact (simF_get h i).mono id (fun _ _ h => h.1)
  | _ => trivial

theorem sim_field_ty {t : Ty} {v w : V} (h : V.Sim R v w) (ht : v = .nil ∨ v.ty? = some t) (i : Nat) :
    ORel False ((fieldTy t i).holds R) (v.field i) (w.field i) := by
  cases h with
  | mk h =>
    have : t = _ := (Option.some.inj (ht.resolve_left (by simp))).symm
    subst this
    have := simF_get h i
    rw [Nat.zero_add] at this
    exact this
  | _ => trivial

theorem sim_items {v w : V} (h : V.Sim R v w) : V.SimL R v.items w.items := by
  cases h with
  | list h => exact h
  | _ => exact .nil

theorem simL_length : ∀ {vs ws : List V}, V.SimL R vs ws → vs.length = ws.length
  | _, _, .nil => rfl
  | _, _, .cons _ h => by simp [simL_length h]

theorem simL_get : ∀ {vs ws : List V}, V.SimL R vs ws → ∀ i : Nat, ORel False (V.Sim R) vs[i]? ws[i]?
  | _, _, .nil, i => by simp [ORel]
  | _, _, .cons h _, 0 => h
  | _, _, .cons _ h, i + 1 => by simpa using simL_get h i

theorem simL_last {vs ws : List V} (h : V.SimL R vs ws) : ORel False (V.Sim R) vs.getLast? ws.getLast? := by
  rw [List.getLast?_eq_getElem?, List.getLast?_eq_getElem?, ← simL_length h]
  exact simL_get h _

theorem simL_append : ∀ {vs ws vs' ws' : List V}, V.SimL R vs ws → V.SimL R vs' ws' → V.SimL R (vs ++ vs') (ws ++ ws')
  | _, _, _, _, .nil, h => h
  | _, _, _, _, .cons h h1, h' => .cons h (simL_append h1 h')

theorem sim_nonNil {v w : V} (h : V.Sim R v w) : v.nonNil = w.nonNil := by cases h <;> rfl
theorem sim_ty {v w : V} (h : V.Sim R v w) : v.ty? = w.ty? := by cases h <;> rfl
theorem sim_bool {v w : V} (h : V.Sim R v w) : v.toBool? = w.toBool? := by cases h <;> rfl
theorem sim_str {v w : V} (h : V.Sim R v w) : ORel False R v.toStr? w.toStr? := by
  cases h <;> first | trivial | assumption
theorem sim_nat {v w : V} (h : V.Sim R v w) : ORel False (fun _ _ => True) v.toNat? w.toNat? := by cases h <;> trivial

theorem simL_mapM : ∀ {vs ws : List V}, V.SimL R vs ws → ORel False (List.Forall₂ R) (vs.mapM V.toStr?) (ws.mapM V.toStr?)
  | _, _, .nil => .nil
  | _, _, .cons h h1 => by
    rw [List.mapM_cons, List.mapM_cons]
    exact (sim_str h).bind (fun x y hxy => (simL_mapM h1).bind (fun xs ys h => List.Forall₂.cons hxy h))

theorem sim_strs {v w : V} (h : V.Sim R v w) : ORel False (List.Forall₂ R) v.strs? w.strs? := simL_mapM (sim_items h)

theorem simL_strs (hR : ∀ s, R s s) : ∀ ss : List Str, V.SimL R (ss.map V.str) (ss.map V.str)
  | [] => .nil
  | s :: ss => .cons (.str (hR s)) (simL_strs hR ss)

/-! ### Conditions -/

theorem isExact_eq {τ : RTy} (h : τ.isExact = true) {v w : V} (hv : τ.holds R v w) : v = w := by
  obtain ⟨hs, h'⟩ := hv
  cases τ <;> simp only [RTy.isExact, Bool.false_eq_true] at h
  · cases h'; cases hs; rfl
  · exact h'.1
  · exact h'
  · obtain ⟨n, rfl, rfl⟩ := h'; rfl

theorem le_holds {τ σ : RTy} (h : τ.le σ = true) {v w : V} (hv : τ.holds R v w) : σ.holds R v w := by
  obtain ⟨hs, h'⟩ := hv
  refine ⟨hs, ?_⟩
  cases τ <;> cases σ <;> simp only [RTy.le, Bool.false_eq_true, decide_eq_true_eq, reduceCtorEq, Bool.or_eq_true, false_or,
    RTy.st.injEq] at h <;> first
    | exact h'
    | trivial
    | (simp only [RTy.side] at h' ⊢; subst h'; cases hs; simp [TokenSide, V.field, V.items]; done)
    | (simp only [RTy.side] at h' ⊢; subst h'; exact Iff.rfl)
    | (obtain ⟨rfl, rfl | rfl⟩ := h' <;> simp [RTy.side, V.items]; done)
    | (simp only [RTy.side] at h' ⊢; obtain ⟨n, rfl, rfl⟩ := h'; simp; done)
    | (cases h; exact h')
    | (subst h; exact h')
    | (subst h; exact h'.1)

theorem rel_holds {v w : V} (h : V.Sim R v w) : RTy.holds R .rel v w := ⟨h, trivial⟩
theorem exact_holds {v : V} (h : V.Sim R v v) : RTy.holds R .exact v v := ⟨h, rfl⟩

/-- Equal or just alike, depending on what is known. -/
theorem pick_holds {b : Bool} {v w : V} (hs : V.Sim R v w) (h : b = true → v = w) :
    RTy.holds R (if b then .exact else .rel) v w := by
  cases b
  · exact ⟨hs, trivial⟩
  · exact ⟨hs, h rfl⟩

end Verif

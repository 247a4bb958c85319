/-
Values that differ in positions only, as far as the formatter sees them.
-/
import Verif.Relation.Values
import Verif.Spec.Reformat

namespace Verif

/-- What is asked of a field besides being alike: that numbers which are no positions are equal, and that a position
which the formatter compares with 0 is 0 in both or in none. -/
def formatSide (t : Ty) (i : Nat) (v w : V) : Prop :=
  (fieldTy t i = .exact → v = w) ∧ (t ∈ posReaders → fieldTy t i = .zero → (v = .nat 0 ↔ w = .nat 0))

mutual
/-- The values differ in positions only. -/
inductive V.Alike : V → V → Prop
  | nil : V.Alike .nil .nil
  | nat (m n : Nat) : V.Alike (.nat m) (.nat n)
  | bool (b : Bool) : V.Alike (.bool b) (.bool b)
  | str (s : Str) : V.Alike (.str s) (.str s)
  | list {vs ws : List V} : V.AlikeL vs ws → V.Alike (.list vs) (.list ws)
  | mk {t : Ty} {fs gs : List V} : V.AlikeF t 0 fs gs → V.Alike (.mk t fs) (.mk t gs)
/-- The same for lists. -/
inductive V.AlikeL : List V → List V → Prop
  | nil : V.AlikeL [] []
  | cons {v w : V} {vs ws : List V} : V.Alike v w → V.AlikeL vs ws → V.AlikeL (v :: vs) (w :: ws)
/-- The same for the fields from number `i` on. -/
inductive V.AlikeF : Ty → Nat → List V → List V → Prop
  | nil {t : Ty} {i : Nat} : V.AlikeF t i [] []
  | cons {t : Ty} {i : Nat} {v w : V} {vs ws : List V} : V.Alike v w → formatSide t i v w →
      V.AlikeF t (i + 1) vs ws → V.AlikeF t i (v :: vs) (w :: ws)
end

mutual
theorem sim_alike : ∀ {v w : V}, V.Sim Eq v w → V.Alike v w
  | _, _, .nil => .nil
  | _, _, .nat m n => .nat m n
  | _, _, .bool b => .bool b
  | _, _, .str h => h ▸ .str _
  | _, _, .list h => .list (simL_alike h)
  | _, _, .mk h => .mk (simF_alike h)
theorem simL_alike : ∀ {vs ws : List V}, V.SimL Eq vs ws → V.AlikeL vs ws
  | _, _, .nil => .nil
  | _, _, .cons h h1 => .cons (sim_alike h) (simL_alike h1)
theorem simF_alike : ∀ {t : Ty} {i : Nat} {vs ws : List V}, V.SimF Eq t i vs ws → V.AlikeF t i vs ws
  | _, _, _, _, .nil => .nil
  | _, _, _, _, .cons h hs h1 => .cons (sim_alike h) ⟨fun e => by rw [e] at hs; exact hs, fun _ e => by rw [e] at hs; exact hs⟩ (simF_alike h1)
end

mutual
theorem alike_depth : ∀ {v w : V}, V.Alike v w → v.depth = w.depth
  | _, _, .nil | _, _, .nat _ _ | _, _, .bool _ | _, _, .str _ => rfl
  | _, _, .list h => by simp only [V.depth, alikeL_depth h]
  | _, _, .mk h => by simp only [V.depth, alikeF_depth h]
theorem alikeL_depth : ∀ {vs ws : List V}, V.AlikeL vs ws → V.depthL vs = V.depthL ws
  | _, _, .nil => rfl
  | _, _, .cons h h1 => by simp only [V.depthL, alike_depth h, alikeL_depth h1]
theorem alikeF_depth : ∀ {t : Ty} {i : Nat} {vs ws : List V}, V.AlikeF t i vs ws → V.depthL vs = V.depthL ws
  | _, _, _, _, .nil => rfl
  | _, _, _, _, .cons h _ h1 => by simp only [V.depthL, alike_depth h, alikeF_depth h1]
end

theorem alikeF_get {t : Ty} : ∀ {fs gs : List V} {k : Nat}, V.AlikeF t k fs gs → ∀ i,
    ORel False (fun a b => V.Alike a b ∧ formatSide t (k + i) a b) fs[i]? gs[i]?
  | _, _, _, .nil, i => by simp [ORel]
  | _, _, k, .cons h1 h2 h3, 0 => ⟨h1, h2⟩
  | _, _, k, .cons h1 h2 h3, i + 1 => by
    have := alikeF_get h3 i
    rw [show k + (i + 1) = k + 1 + i by omega]
    simpa using this

theorem alike_field {v w : V} (h : V.Alike v w) (i : Nat) : ORel False V.Alike (v.field i) (w.field i) := by
  cases h with
  | mk h => exact (alikeF_get h i).mono id (fun _ _ h => h.1)
  | _ => trivial

theorem alike_field_ty {t : Ty} {v w : V} (h : V.Alike v w) (ht : v.ty? = some t) (i : Nat) :
    ORel False (fun a b => V.Alike a b ∧ formatSide t i a b) (v.field i) (w.field i) := by
  cases h with
  | mk h =>
    have : t = _ := (Option.some.inj ht).symm
    subst this
    have := alikeF_get h i
    rw [Nat.zero_add] at this
    exact this
  | _ => trivial

theorem alike_items {v w : V} (h : V.Alike v w) : V.AlikeL v.items w.items := by
  cases h with
  | list h => exact h
  | _ => exact .nil

theorem alikeL_length : ∀ {vs ws : List V}, V.AlikeL vs ws → vs.length = ws.length
  | _, _, .nil => rfl
  | _, _, .cons _ h => by simp [alikeL_length h]

theorem alikeL_get : ∀ {vs ws : List V}, V.AlikeL vs ws → ∀ i : Nat, ORel False V.Alike vs[i]? ws[i]?
  | _, _, .nil, i => by simp [ORel]
  | _, _, .cons h _, 0 => h
  | _, _, .cons _ h, i + 1 => by simpa using alikeL_get h i

theorem alikeL_last {vs ws : List V} (h : V.AlikeL vs ws) : ORel False V.Alike vs.getLast? ws.getLast? := by
  rw [List.getLast?_eq_getElem?, List.getLast?_eq_getElem?, ← alikeL_length h]
  exact alikeL_get h _

theorem alike_nonNil {v w : V} (h : V.Alike v w) : v.nonNil = w.nonNil := by cases h <;> rfl
theorem alike_ty {v w : V} (h : V.Alike v w) : v.ty? = w.ty? := by cases h <;> rfl
theorem alike_bool {v w : V} (h : V.Alike v w) : v.toBool? = w.toBool? := by cases h <;> rfl
theorem alike_str {v w : V} (h : V.Alike v w) : v.toStr? = w.toStr? := by cases h <;> rfl

theorem alikeL_strs : ∀ {l l' : List V}, V.AlikeL l l' → l.mapM V.toStr? = l'.mapM V.toStr?
  | _, _, .nil => rfl
  | _, _, .cons h1 h2 => by simp [alike_str h1, alikeL_strs h2]

theorem alike_sels : ∀ {ss : List Sel} {v w : V}, V.Alike v w → ORel False V.Alike (getSels ss v) (getSels ss w)
  | [], _, _, h => h
  | .f i :: ss, _, _, h => (alike_field h i).bind fun _ _ h => alike_sels h
  | .last :: ss, v, w, h => (alikeL_last (alike_items h)).bind fun _ _ h => alike_sels h
  | .first :: ss, v, w, h => by
    have : ORel False V.Alike v.items.head? w.items.head? := by
      have hi := alike_items h
      generalize v.items = l at hi
      generalize w.items = l' at hi
      cases hi with
      | nil => trivial
      | cons h _ => exact h
    exact this.bind fun _ _ h => alike_sels h

end Verif

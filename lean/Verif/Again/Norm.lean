/-
A tree and the same tree without positions are formatted alike.  No definition here is part of the model.
-/
import Verif.Relation.Format

namespace Verif.Again
open Verif

/-- From field `i` on, the fields that must be equal are of types without positions. -/
def sideOk (t : Ty) : Nat → List FTy → Bool
  | i, τ :: τs => (decide (fieldTy t i ≠ .exact) || decide (τ = .int ∨ τ = .str ∨ τ = .bool ∨ τ = .slice .str)) && sideOk t (i + 1) τs
  | _, [] => true

theorem schema_side : ∀ t : Ty, t ≠ .ParseError → sideOk t 0 (schema t) = true := by
  intro t; cases t <;> intro h <;> first | exact absurd rfl h | rfl

theorem normF_cons {τ : FTy} {τs : List FTy} {v : V} {fs : List V} (h : τ ≠ .pos) : V.normF id (τ :: τs) (v :: fs) = v.norm id :: V.normF id τs fs := by
  cases τ <;> first | exact absurd rfl h | rfl

theorem strs_normed : ∀ {l : List V}, V.allTy noReq l .str = true → V.normL id l = l
  | [], _ => rfl
  | v :: l, h => by
    simp only [V.allTy, Bool.and_eq_true] at h
    have h1 := h.1.2
    cases v <;> simp only [V.hasTy, Bool.false_eq_true, FTy.admits, Bool.false_and] at h1
    simp only [V.normL, V.norm, strs_normed h.2, id]

/-- No struct in the value is formatted with a look at a position. -/
def Blind (v : V) : Prop := ∀ x ∈ v.structs, ∀ t, x.ty? = some t → t ∉ posReaders

/-- The same for a list. -/
def BlindL (l : List V) : Prop := ∀ x ∈ V.nodesL (fun _ => true) l, ∀ t, x.ty? = some t → t ∉ posReaders

mutual
theorem alike_normed : ∀ (v : V) (τ : FTy), v.hasTy noReq τ = true → τ.noErr = true → Blind v → V.Alike v (v.norm id)
  | .nil, _, _, _, _ => .nil
  | .nat n, _, _, _, _ => .nat n n
  | .bool b, _, _, _, _ => .bool b
  | .str s, _, _, _, _ => .str s
  | .list l, τ, h, hn, hb => by
    cases τ <;> simp only [V.hasTy, Bool.false_eq_true] at h
    simp only [FTy.noErr, Bool.and_eq_true, decide_eq_true_eq] at hn
    exact .list (alikeL_normed l _ h hn.1.1 hb)
  | .mk t fs, τ, h, hn, hb => by
    simp only [V.hasTy, Bool.and_eq_true] at h
    refine .mk (alikeF_normed fs t 0 _ h.2.1 (schema_noErr _) (schema_side _ (admits_noErr hn h.1)) ?_ ?_)
    · exact hb (.mk t fs) (by simp [V.structs, V.nodes]) t rfl
    · exact fun x hx => hb x (by simp only [V.structs, V.nodes, if_true, List.mem_cons]; exact Or.inr hx)
theorem alikeL_normed : ∀ (l : List V) (τ : FTy), V.allTy noReq l τ = true → τ.noErr = true → BlindL l → V.AlikeL l (V.normL id l)
  | [], _, _, _, _ => .nil
  | v :: l, τ, h, hn, hb => by
    simp only [V.allTy, Bool.and_eq_true] at h
    exact .cons (alike_normed v τ h.1.2 hn fun x hx => hb x (by simp only [V.nodesL, List.mem_append]; exact Or.inl hx))
      (alikeL_normed l τ h.2 hn fun x hx => hb x (by simp only [V.nodesL, List.mem_append]; exact Or.inr hx))
theorem alikeF_normed : ∀ (fs : List V) (t : Ty) (i : Nat) (τs : List FTy), V.fieldsTy noReq fs τs = true → τs.all FTy.noErr = true → sideOk t i τs = true →
    t ∉ posReaders → BlindL fs → V.AlikeF t i fs (V.normF id τs fs)
  | [], _, _, [], _, _, _, _, _ => .nil
  | [], _, _, _ :: _, h, _, _, _, _ => by simp [V.fieldsTy] at h
  | _ :: _, _, _, [], h, _, _, _, _ => by simp [V.fieldsTy] at h
  | v :: fs, t, i, τ :: τs, h, hn, hs, hp, hb => by
    simp only [V.fieldsTy, Bool.and_eq_true] at h
    simp only [List.all_cons, Bool.and_eq_true] at hn
    simp only [sideOk, Bool.and_eq_true, Bool.or_eq_true, decide_eq_true_eq] at hs
    have ih := alikeF_normed fs t (i + 1) τs h.2 hn.2 hs.2 hp fun x hx => hb x (by simp only [V.nodesL, List.mem_append]; exact Or.inr hx)
    have hs := hs.1
    by_cases hq : τ = .pos
    · subst hq
      obtain ⟨n, rfl⟩ : ∃ n, v = .nat n := by
        cases v with
        | nat n => exact ⟨n, rfl⟩
        | _ => simp [V.hasTy, FTy.admits] at h
      refine .cons (.nat n 0) ⟨fun e => ?_, fun hm => absurd hm hp⟩ ih
      rcases hs with hs | hs
      · exact absurd e hs
      · simp at hs
    · rw [normF_cons hq]
      refine .cons (alike_normed v τ h.1 hn.1 fun x hx => hb x (by simp only [V.nodesL, List.mem_append]; exact Or.inl hx)) ⟨fun e => ?_, fun hm => absurd hm hp⟩ ih
      have ht := h.1
      have hs := hs.resolve_left (fun h => h e)
      rcases hs with rfl | rfl | rfl | rfl <;> cases v <;> simp_all [V.hasTy, V.norm, FTy.admits]
      rw [strs_normed h.1]
end

mutual
theorem typed_normed : ∀ (v : V) (τ : FTy), v.hasTy noReq τ = true → (v.norm id).hasTy noReq τ = true
  | .nil, _, h => h
  | .nat _, _, h => h
  | .bool _, _, h => h
  | .str _, τ, h => by cases τ <;> simp_all [V.hasTy, V.norm]
  | .list l, τ, h => by
    cases τ <;> simp only [V.hasTy, Bool.false_eq_true] at h
    simp only [V.norm, V.hasTy]
    exact typedL_normed l _ h
  | .mk t fs, τ, h => by
    simp only [V.hasTy, Bool.and_eq_true, noReq, List.all_nil, and_true] at h
    simp only [V.norm, V.hasTy, Bool.and_eq_true, noReq, List.all_nil, and_true]
    exact ⟨h.1, typedF_normed fs _ h.2⟩
theorem typedL_normed : ∀ (l : List V) (τ : FTy), V.allTy noReq l τ = true → V.allTy noReq (V.normL id l) τ = true
  | [], _, _ => rfl
  | v :: l, τ, h => by
    simp only [V.allTy, Bool.and_eq_true] at h
    simp only [V.normL, V.allTy, Bool.and_eq_true]
    refine ⟨⟨?_, typed_normed v τ h.1.2⟩, typedL_normed l τ h.2⟩
    cases v <;> exact h.1.1
theorem typedF_normed : ∀ (fs : List V) (τs : List FTy), V.fieldsTy noReq fs τs = true → V.fieldsTy noReq (V.normF id τs fs) τs = true
  | [], [], _ => rfl
  | [], _ :: _, h => by simp [V.fieldsTy] at h
  | _ :: _, [], h => by simp [V.fieldsTy] at h
  | v :: fs, τ :: τs, h => by
    simp only [V.fieldsTy, Bool.and_eq_true] at h
    by_cases hp : τ = .pos
    · subst hp
      simp only [V.normF, V.fieldsTy, Bool.and_eq_true]
      exact ⟨rfl, typedF_normed fs τs h.2⟩
    · rw [normF_cons hp]
      simp only [V.fieldsTy, Bool.and_eq_true]
      exact ⟨typed_normed v τ h.1, typedF_normed fs τs h.2⟩
end

theorem tree_normed {v : V} (h : v.isTree noReq) : (v.norm id).isTree noReq :=
  ⟨by have := h.1; cases v <;> exact this, typed_normed v _ h.2⟩

/-- The formatter does not look at positions. -/
theorem write_normed {v : V} (h : v.isTree noReq) (hg : ∀ x ∈ v.structs, ∀ t, x.ty? = some t → t ∉ posReaders) (f : Fmt) : f.writeExpr v = f.writeExpr (v.norm id) :=
  writeExpr_alike (alike_normed v _ h.2 rfl hg) h f

end Verif.Again

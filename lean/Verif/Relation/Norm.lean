/-
Trees that are alike are equal up to positions and spelling.
-/
import Verif.Relation.Values
import Verif.Spec.Tree

namespace Verif

variable {R : Str → Str → Prop} {req : Ty → List Need}

/-- No place for an error or for a list of numbers. -/
def FTy.noErr : FTy → Bool
  | .val t | .ptr t => decide (t ≠ .ParseError)
  | .slice e => e.noErr && decide (e ≠ .pos) && decide (e ≠ .int)
  | _ => true

theorem schema_noErr : ∀ t : Ty, (schema t).all FTy.noErr = true := by intro t; cases t <;> rfl

/-- From field `i` on, the numbers that are no positions must be equal. -/
def intsExact (t : Ty) : Nat → List FTy → Bool
  | i, τ :: τs => (decide (τ ≠ .int) || decide (fieldTy t i = .exact)) && intsExact t (i + 1) τs
  | _, [] => true

theorem schema_ints : ∀ t : Ty, t ≠ .ParseError → intsExact t 0 (schema t) = true := by
  intro t; cases t <;> intro h <;> first | exact absurd rfl h | rfl

theorem admits_noErr {τ : FTy} {t : Ty} (hn : τ.noErr = true) (h : τ.admits t = true) : t ≠ .ParseError := by
  cases τ <;> simp only [FTy.admits, FTy.noErr, decide_eq_true_eq, Bool.false_eq_true, Bool.and_eq_true] at h hn
  · exact h ▸ hn
  · exact h ▸ hn
  · rintro rfl
    rename_i i
    cases i <;> simp [Ty.implements, Ty.isNode] at h

mutual
theorem sim_norm {c : Str → Str} (hc : ∀ s t, R s t → c s = c t) : ∀ {v w : V} {τ : FTy}, V.Sim R v w → v.hasTy req τ = true →
    τ.noErr = true → τ ≠ .pos → (τ = .int → v = w) → v.norm c = w.norm c
  | _, _, _, .nil, _, _, _, _ => rfl
  | _, _, τ, .nat m n, h, _, hp, he => by
    cases τ <;> simp only [V.hasTy, Bool.false_eq_true] at h
    · exact absurd rfl hp
    · rw [he rfl]
  | _, _, _, .bool _, _, _, _, _ => rfl
  | _, _, _, .str h, _, _, _, _ => by simp only [V.norm, hc _ _ h]
  | _, _, τ, .list h, ht, hn, _, _ => by
    cases τ <;> simp only [V.hasTy, Bool.false_eq_true] at ht
    simp only [V.norm]
    simp only [FTy.noErr, Bool.and_eq_true, decide_eq_true_eq] at hn
    rw [simL_norm hc h ht hn.1.1 hn.1.2 hn.2]
  | _, _, τ, .mk h, ht, hn, _, _ => by
    simp only [V.hasTy, Bool.and_eq_true] at ht
    simp only [V.norm]
    rw [simF_norm hc h ht.2.1 (schema_noErr _) (schema_ints _ (admits_noErr hn ht.1))]
theorem simL_norm {c : Str → Str} (hc : ∀ s t, R s t → c s = c t) : ∀ {vs ws : List V} {τ : FTy}, V.SimL R vs ws → V.allTy req vs τ = true →
    τ.noErr = true → τ ≠ .pos → τ ≠ .int → V.normL c vs = V.normL c ws
  | _, _, _, .nil, _, _, _, _ => rfl
  | v :: _, w :: _, τ, .cons h1 h2, ht, hn, hp, hi => by
    simp only [V.allTy, Bool.and_eq_true] at ht
    simp only [V.normL]
    rw [simL_norm hc h2 ht.2 hn hp hi, sim_norm hc h1 ht.1.2 hn hp (fun h => absurd h hi)]
theorem simF_norm {c : Str → Str} (hc : ∀ s t, R s t → c s = c t) : ∀ {fs gs : List V} {t : Ty} {i : Nat} {τs : List FTy}, V.SimF R t i fs gs →
    V.fieldsTy req fs τs = true → τs.all FTy.noErr = true → intsExact t i τs = true → V.normF c τs fs = V.normF c τs gs
  | _, _, _, _, [], .nil, _, _, _ => rfl
  | _, _, _, _, _ :: _, .nil, h, _, _ => by simp [V.fieldsTy] at h
  | _, _, _, _, [], .cons _ _ _, h, _, _ => by simp [V.fieldsTy] at h
  | v :: fs, w :: gs, t, i, τ :: τs, .cons h1 hs h2, ht, hn, hi => by
    simp only [V.fieldsTy, Bool.and_eq_true] at ht
    simp only [List.all_cons, Bool.and_eq_true] at hn
    simp only [intsExact, Bool.and_eq_true, Bool.or_eq_true, decide_eq_true_eq] at hi
    have ih := simF_norm hc h2 ht.2 hn.2 hi.2
    by_cases hp : τ = .pos
    · subst hp; simp only [V.normF, ih]
    · have e : ∀ (v : V) (fs : List V), V.normF c (τ :: τs) (v :: fs) = v.norm c :: V.normF c τs fs := by
        intro v fs; cases τ <;> first | exact absurd rfl hp | rfl
      rw [e, e, ih, sim_norm hc h1 ht.1 hn.1 hp]
      intro h
      have := hi.1.resolve_left (fun h' => h' h)
      rw [this] at hs
      exact hs
end

theorem trees_norm {c : Str → Str} (hc : ∀ s t, R s t → c s = c t) : ∀ {vs ws : List V}, V.SimL R vs ws → (∀ v ∈ vs, v.isTree req) →
    vs.map (V.norm c) = ws.map (V.norm c)
  | _, _, .nil, _ => rfl
  | _, _, .cons h1 h2, h => by
    rw [List.map_cons, List.map_cons, trees_norm hc h2 (fun v hv => h v (List.mem_cons_of_mem _ hv)),
      sim_norm hc h1 (h _ List.mem_cons_self).2 rfl (by simp) (by simp)]

end Verif

/-
The whole table of `Walk` passes the check.
-/
import Verif.Lemmas.Kids

namespace Verif

/-- The paths to the children of a struct of type `t`, from the receiver. -/
def childPaths (t : Ty) : Option (List (Nat × List Step)) :=
  (leafPaths.fieldPaths (leafPaths 8) 0 (schema t)).map (List.map (fun p => (0, p)))

/-- A body type-checks and visits exactly the children. -/
def bodyOK (req : Ty → List Need) (strict : Bool) (t : Ty) (c : WCmd) : Bool :=
  match c.check req strict [.val t] {}, childPaths t with
  | some a, some b => a.isPerm b
  | _, _ => false

theorem walkTable_ok : ∀ t : Ty, t.isNode = true → bodyOK noReq false t (walkBody t) = true := by
  intro t; cases t <;> decide +kernel

theorem envTops_single (v : V) (ps : List (List Step)) :
    envTops [v] (ps.map fun p => (0, p)) = pathTops ps v := by
  simp [envTops, pathTops, List.flatMap_map]

/-- A checked body visits the children of the receiver, each once. -/
theorem bodyOK_sound {req : Ty → List Need} {strict : Bool} {t : Ty} {c : WCmd} {fs : List V}
    (h : bodyOK req strict t c = true) (hf : V.structTy req t fs = true) :
    ∃ ks, c.kids [.mk t fs] = some ks ∧ (ks.flatMap (fun k => k.2.topN)).Perm (V.children Ty.isNodeNoPair (.mk t fs)) ∧
      ∀ k ∈ ks, VisitOK req strict k := by
  unfold bodyOK at h
  split at h
  · rename_i a b ha hb
    have he : EnvOK req [.val t] {} [.mk t fs] := by
      refine ⟨rfl, ?_, by simp, by simp, by simp, by simp⟩
      intro x τ hx
      cases x with
      | zero => simp at hx; subst hx; exact ⟨_, rfl, hasTy_of_structTy (by simp [FTy.admits]) hf, rfl⟩
      | succ x => simp at hx
    obtain ⟨ks, h1, h2, h3⟩ := check_sound c he ha
    refine ⟨ks, h1, h2.trans ?_, h3⟩
    have hp := List.isPerm_iff.1 h
    simp only [childPaths, Option.map_eq_some_iff] at hb
    obtain ⟨ps, hps, rfl⟩ := hb
    have e1 : (envTops [.mk t fs] a).Perm (envTops [.mk t fs] (ps.map fun p => (0, p))) :=
      List.Perm.flatMap_right _ hp
    refine e1.trans ?_
    rw [envTops_single]
    have := fieldPaths_tops (leafPaths 8) t (leafPaths_tops 8) (schema t) 0 fs [] rfl (structTy_fields hf) hps
    simpa [V.children] using this.symm
  · simp at h

end Verif

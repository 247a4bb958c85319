/-
Texts with the same tokens have the same result.
-/
import Verif.Relation.Sound
import Verif.Relation.First
import Verif.Props.Memo
import Verif.Props.Parser

namespace Verif

variable {R : Str → Str → Prop} {a b : Str}

/-- The outcome for any sufficient fuel. -/
theorem retry_run (input : Str) {n : Nat} (hn : parseFuel input ≤ n) :
    runFn retryTable n .ParseStmts [] (PS.new input) = (parseStmts input).clear := by
  rw [← C22_memo_transparent]
  refine runFn_le hn rfl ?_
  have := An.result_of retry_checked input (parseFuel input) (Nat.le_refl _)
  intro h
  rw [parseRetrying] at h
  rw [h] at this
  exact this

theorem result_sim (hR : Spelling R) (h : SameText R a b) :
    ∃ S, CRun R S [.rel, .rel] (parseStmts a).clear (parseStmts b).clear := by
  obtain ⟨S, hS, h⟩ := h
  refine ⟨S, ?_⟩
  rw [← retry_run a (Nat.le_max_left _ (parseFuel b)), ← retry_run b (Nat.le_max_right (parseFuel a) _), guard_all, guard_all]
  exact runFn_sim hR hS methods_typed _ .ParseStmts [] [] _ _ [] rfl .nil ⟨h, rfl, rfl⟩

theorem same_parses (hR : Spelling R) (h : SameText R a b) {vs : List V} (hp : Parses a vs) :
    ∃ ws, Parses b ws ∧ V.SimL R vs ws := by
  obtain ⟨S, h⟩ := result_sim hR h
  obtain ⟨v, s, hv, rfl⟩ := hp
  rw [hv] at h
  cases hr : parseStmts b with
  | fuel => rw [hr] at h; exact h.elim
  | panic ln => rw [hr] at h; exact h.elim
  | ret ws s' =>
    rw [hr] at h
    obtain ⟨h | h, _⟩ := h
    · cases h with
      | cons h1 h2 =>
        cases h2 with
        | cons h2 h3 =>
          cases h3
          have h2 := h2.1
          cases h2
          exact ⟨_, ⟨_, _, hr, rfl⟩, sim_items h1.1⟩
    · simp at h

theorem same_fails (hR : Spelling R) (h : SameText R a b) {e : V} (hp : Fails a e) :
    ∃ e', Fails b e' ∧ V.Sim R e e' := by
  obtain ⟨S, h⟩ := result_sim hR h
  obtain ⟨v, s, hv, hn⟩ := hp
  rw [hv] at h
  cases hr : parseStmts b with
  | fuel => rw [hr] at h; exact h.elim
  | panic ln => rw [hr] at h; exact h.elim
  | ret ws s' =>
    rw [hr] at h
    obtain ⟨h | h, _⟩ := h
    · cases h with
      | cons h1 h2 =>
        cases h2 with
        | cons h2 h3 =>
          cases h3
          exact ⟨_, ⟨_, _, hr, by rw [← sim_nonNil h2.1]; exact hn⟩, h2.1⟩
    · simp at h

theorem same_panics (hR : Spelling R) (h : SameText R a b) {ln : Nat} (hp : Panics a ln) : Panics b ln := by
  obtain ⟨S, h⟩ := result_sim hR h
  rw [show parseStmts a = .panic ln from hp] at h
  cases hr : parseStmts b with
  | fuel => rw [hr] at h; exact h.elim
  | panic ln' => rw [hr] at h; cases h; exact hr
  | ret ws s' => rw [hr] at h; exact h.elim

end Verif

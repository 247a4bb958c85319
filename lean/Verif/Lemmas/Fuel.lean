/-
More fuel does not change the outcome of the interpreter.
-/
import Verif.Parser.Lang

namespace Verif

variable {Fn : Type}

/-- `g` agrees with `f` where `f` does not run out of fuel. -/
def Extends (f g : Fn → List V → PS → COut) : Prop := ∀ a vs s, f a vs s ≠ .fuel → g a vs s = f a vs s

theorem loopN_mono {b b' : Frame → PS → Out} (h : ∀ fr s, b fr s ≠ .fuel → b' fr s = b fr s) :
    ∀ n m, n ≤ m → ∀ fr s, loopN b n fr s ≠ .fuel → loopN b' m fr s = loopN b n fr s := by
  intro n
  induction n with
  | zero => intro m _ fr s hne; exact absurd rfl hne
  | succ n ih =>
    intro m hm fr s hne
    cases m with
    | zero => omega
    | succ m =>
      simp only [loopN] at hne ⊢
      have hb : b fr s ≠ .fuel := by intro e; rw [e] at hne; exact hne rfl
      rw [h fr s hb]
      cases hbe : b fr s with
      | next fr' s' => simp only [hbe] at hne; exact ih m (by omega) _ _ hne
      | cont fr' s' => simp only [hbe] at hne; exact ih m (by omega) _ _ hne
      | _ => rfl

theorem run_mono {f g : Fn → List V → PS → COut} (h : Extends f g) {n m : Nat} (hm : n ≤ m) :
    ∀ (st : Stmt Fn) (fr : Frame) (s : PS), st.run f n fr s ≠ .fuel → st.run g m fr s = st.run f n fr s := by
  intro st
  induction st with
  | seq a b iha ihb =>
    intro fr s hne
    simp only [Stmt.run] at hne ⊢
    have ha : a.run f n fr s ≠ .fuel := by intro e; rw [e] at hne; exact hne rfl
    rw [iha fr s ha]
    cases hae : a.run f n fr s with
    | next fr' s' => simp only [hae] at hne; exact ihb _ _ hne
    | _ => rfl
  | ite ln c a b iha ihb =>
    intro fr s hne
    simp only [Stmt.run] at hne ⊢
    split
    · rename_i hc; rw [hc] at hne; exact iha _ _ hne
    · rename_i hc; rw [hc] at hne; exact ihb _ _ hne
    · rfl
  | loop body ih =>
    intro fr s hne
    simp only [Stmt.run] at hne ⊢
    exact loopN_mono ih n m hm fr s hne
  | call ln a args dst =>
    intro fr s hne
    simp only [Stmt.run] at hne ⊢
    split
    · rename_i vs hvs
      rw [hvs] at hne
      simp only at hne
      have hf : f a vs s ≠ .fuel := by intro e; rw [e] at hne; exact hne rfl
      rw [h a vs s hf]
    · rfl
  | _ => intro fr s _; rfl

/-- More fuel does not change the outcome. -/
theorem runFn_mono (table : Fn → Func Fn) : ∀ n m, n ≤ m → Extends (runFn table n) (runFn table m) := by
  intro n
  induction n with
  | zero => intro m _ f vs s hne; exact absurd rfl hne
  | succ n ih =>
    intro m hm f vs s hne
    cases m with
    | zero => omega
    | succ m =>
      simp only [runFn] at hne ⊢
      have hm' : n ≤ m := by omega
      rw [run_mono (ih m hm') hm']
      intro e; rw [e] at hne; exact hne rfl

end Verif

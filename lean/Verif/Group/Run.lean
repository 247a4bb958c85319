/-
All methods together: every tree returned is grouped.
-/
import Verif.Group.Words
import Verif.Spec.Parsed

namespace Verif.Group
open Verif.Spec

theorem facts_zero (input : Str) : Facts input 0 where
  holds := by intro f args s vs s' _ _ _ h; simp [runFn] at h
  sub := by intro a b s vs s' _ _ h; simp [runFn] at h
  expr := by intro a s vs s' _ _ h; simp [runFn] at h
  unary := by intro a s vs s' _ _ h; simp [runFn] at h
  loop := by intro e b s vs s' _ _ _ _ h; simp [runFn] at h
  infix_ := by intro e p s vs s' _ h; simp [runFn] at h
  between := by intro e b s vs s' _ _ _ _ h; simp [runFn] at h
  ternary := by intro e s vs s' _ _ _ h; simp [runFn] at h

theorem exprPost_sat {P : V → PS → Prop} {vs : List V} {s : PS} (h : ExprPost P vs s) : List.Forall₂ Cls.sat [.any, .any] vs := by
  obtain ⟨v, x, rfl, h1, h2, -⟩ := h
  exact .cons ⟨h1, trivial⟩ (.cons ⟨h2, trivial⟩ .nil)

theorem holds_succ {input : Str} {n : Nat} (F : Facts input n) : Holds sig input (runFn fnTable (n + 1)) := by
  intro f args s vs s' hg ha hs h
  refine ⟨?_, reach_runFn _ _ _ _ _ _ hs h⟩
  by_cases hf : special f = true
  · cases f <;> first | exact absurd hf (by decide) | exact absurd hg (by decide) | skip
    all_goals simp only [sig] at ha ⊢
    case getNextPrecedence =>
      cases ha
      obtain ⟨p, rfl, -⟩ := getNextPrecedence_spec h
      exact .cons sat_nat .nil
    case parseSubExpr =>
      cases ha with | cons h1 h2 =>
      cases h2 with | cons h2 h3 =>
      cases h3
      exact exprPost_sat (sub_step F h1 hs h)
    case parseExpr =>
      cases ha with | cons h1 h2 =>
      cases h2
      exact exprPost_sat (expr_step F h1 hs h)
    case parseUnaryExpr =>
      cases ha with | cons h1 h2 =>
      cases h2
      exact exprPost_sat (unary_step F h1 hs h)
    case parseTableArgExpr =>
      cases ha with | cons h1 h2 =>
      cases h2
      exact tableArg_step F h1 hs h
    case parseKeywordArgItem =>
      cases ha with | cons h1 h2 =>
      cases h2 with | cons h2 h3 =>
      cases h3 with | cons h3 h4 =>
      cases h4
      exact kwItem_step F h1 h2 hs h
    case parseKeywordArgModifier =>
      cases ha with | cons h1 h2 =>
      cases h2 with | cons h2 h3 =>
      cases h3
      exact kwModifier_step F h1 hs h
  · exact (checkFn_sound F.holds (all_checked f (by simpa using hf)) ha hs h).1

theorem facts (input : Str) (n : Nat) : Facts input n := by
  induction n with
  | zero => exact facts_zero input
  | succ n F =>
    exact {
      holds := holds_succ F
      sub := fun a b s vs s' ha hs h => sub_step F ha hs h
      expr := fun a s vs s' ha hs h => expr_step F ha hs h
      unary := fun a s vs s' ha hs h => unary_step F ha hs h
      loop := fun e b s vs s' hs he hr hl h => loop_step F hs he hr hl h
      infix_ := fun e p s vs s' hi h => infix_step F hi h
      between := fun e b s vs s' hs he hb hr h => between_step F hs he hb hr h
      ternary := fun e s vs s' hs he hr h => ternary_step F hs he hr h }

/-- Every struct in a tree that `ParseStmts` returns is grouped. -/
theorem parses_grouped {input : Str} {vs : List V} (h : Parses input vs) {v : V} (hv : v ∈ vs) : ∀ u ∈ v.structs, Grouped u := by
  obtain ⟨w, s, h, rfl⟩ := h
  have := (facts input (parseFuel input)).holds .ParseStmts [] (PS.new input) _ _ rfl .nil .start h
  cases this.1 with | cons h1 h2 =>
  exact good_items h1.1 v hv

end Verif.Group

/-
The elements that are printed can be told apart: what is printed without a blank between.  No definition here is part of the model.
-/
import Verif.Echo.Glue

namespace Verif.Echo
open Verif.Spec

theorem Inv.tail {h : E → Bool} {u : E} {us : List E} (hi : Inv h (u :: us)) : Inv (adj u) us := by
  have := hi.chain
  rw [List.isChain_cons] at this
  refine ⟨this.2, this.1, fun w hw => hi.last w ?_⟩
  cases us with
  | nil => cases hw
  | cons x us => rw [List.getLast?_cons_cons]; exact hw

theorem nil_nonNil : V.nil.nonNil = false := rfl

/-- What follows `CUBE`, `ROLLUP` and `GROUPING SETS`. -/
theorem group_cl {s : Str} {v : V} {us : List E} (h : Echo .n v us) (hi : Inv hd us) (hg : groupExpr (.str s) v = true) (hs : s ≠ []) : ∃ ws, us = .op b!"(" :: ws ∧ Inv (adj (.op b!"(")) ws := by
  cases s with
  | nil => exact absurd rfl hs
  | cons c s =>
    simp only [groupExpr, echo_ne h, Bool.not_true, Bool.false_or, decide_eq_true_eq] at hg
    generalize hk : K.n = k at h
    cases h <;> first | (cases hk; done) | (cases hg; done) | skip
    simp only [List.append_assoc, List.cons_append, List.nil_append] at hi
    exact ⟨_, by simp only [List.append_assoc, List.cons_append, List.nil_append], hi.tail⟩

set_option hygiene false in
/-- Open the parts of a node. -/
macro "gopen" : tactic => `(tactic| ((try simp only [glued, gluedL, gNode, Bool.and_eq_true] at hg); (try casesm* _ ∧ _)))
/-- Finish. -/
macro "ginv" : tactic => `(tactic| (show Inv _ _; inv))

/-- The elements printed for a tree can be printed in this order. -/
theorem glue {K : K} {v : V} {us : List E} (h : Echo K v us) : glued v = true → GK K v us := by
  induction h with
  | lnil0 => exact fun _ _ => .nil
  | lnil => exact fun _ _ => .nil
  | lone a0 i0 =>
    intro hg _
    simp only [glued, gluedL, Bool.and_eq_true] at hg
    exact i0 hg.1
  | lcons a0 a1 i0 i1 =>
    intro hg hc
    subst hc
    simp only [glued, gluedL, Bool.and_eq_true] at hg
    have i0 : Inv _ _ := i0 hg.1
    have i1 : Inv _ _ := i1 (by simp only [glued, gluedL, Bool.and_eq_true]; exact hg.2) rfl
    ginv
  | onil => exact fun _ => ⟨fun _ => .nil, fun _ => .nil, .inl ⟨rfl, rfl⟩⟩
  | osome a0 i0 =>
    intro hg
    have i0 : Inv _ _ := i0 hg
    exact ⟨fun hp => .pre hp i0, fun hp => by subst hp; exact i0, .inr ⟨echo_ne a0, _, rfl, i0, a0⟩⟩
  | pnil => exact fun _ _ => .nil
  | psnoc a0 a1 i0 i1 =>
    intro hg hp
    simp only [glued, gluedL_append, gluedL, Bool.and_eq_true] at hg
    have i0 : Inv _ _ := i0 (by simp only [glued]; exact hg.1) hp
    have i1 : Inv _ _ := i1 hg.2.1
    have := Inv.pre hp i1
    rw [List.append_assoc]
    exact i0.then (fun _ h => h) (fun _ h => h) this
  | word  =>
    intro hg
    gopen
    ginv
  | wordStr  =>
    intro hg
    gopen
    ginv
  | star  =>
    intro hg
    gopen
    ginv
  | num  =>
    intro hg
    gopen
    ginv
  | dotNum  =>
    intro hg
    gopen
    ginv
  | str  =>
    intro hg
    gopen
    ginv
  | placeholder  =>
    intro hg
    gopen
    ginv
  | binOp a0 a1 a2 i1 i2 =>
    intro hg
    gopen
    have i1 : Inv _ _ := i1 (by assumption)
    have i2 : Inv _ _ := i2 (by assumption)
    ginv
  | binKw a0 a1 a2 i1 i2 =>
    intro hg
    gopen
    have i1 : Inv _ _ := i1 (by assumption)
    have i2 : Inv _ _ := i2 (by assumption)
    ginv
  | binNot a0 a1 a2 i1 i2 =>
    intro hg
    gopen
    have i1 : Inv _ _ := i1 (by assumption)
    have i2 : Inv _ _ := i2 (by assumption)
    ginv
  | cast a0 a1 i0 i1 =>
    intro hg
    gopen
    have i0 : Inv _ _ := i0 (by assumption)
    have i1 : Inv _ _ := i1 (by assumption)
    ginv
  | global a0 a1 i0 i1 =>
    intro hg
    gopen
    have i0 : Inv _ _ := i0 (by assumption)
    have i1 : Inv _ _ := i1 (by assumption)
    ginv
  | globalNot a0 a1 i0 i1 =>
    intro hg
    gopen
    have i0 : Inv _ _ := i0 (by assumption)
    have i1 : Inv _ _ := i1 (by assumption)
    ginv
  | unaryOp a0 a1 i1 =>
    intro hg
    gopen
    simp only [List.mem_cons, List.not_mem_nil, or_false] at a0
    have i1 : Inv _ _ := i1 (by assumption)
    rcases a0 with rfl | rfl <;> ginv
  | unaryKw a0 a1 i1 =>
    intro hg
    gopen
    have i1 : Inv _ _ := i1 (by assumption)
    ginv
  | path a0 i0 =>
    intro hg
    simp only [glued, gluedL, gNode, Bool.and_eq_true] at hg
    exact (path_elems a0 hg.1).1
  | nested a0 a1 i0 i1 =>
    intro hg
    simp only [glued, gluedL, gNode, Bool.and_eq_true] at hg
    have i0 : Inv _ _ := i0 hg.2.1
    rcases (i1 hg.2.2.1).2.2 with ⟨rfl, rfl⟩ | ⟨_, ws, rfl, i2, _⟩
    · rw [List.append_nil]; exact i0
    · exact i0.dot (ident_dot a0 hg.1.1).1 (by mono) (fun _ => rfl) (i2.mono (by mono))
  | index a0 a1 i0 i1 =>
    intro hg
    simp only [glued, gluedL, gNode, Bool.and_eq_true] at hg
    have i0 : Inv _ _ := i0 hg.2.1
    have i1 : Inv _ _ := i1 hg.2.2.2.1
    simp only [List.append_assoc, List.cons_append, List.nil_append]
    exact i0.dot (object_dot a0 hg.1 hg.2.1) (by mono) (fun _ => rfl) (i1.mono (by mono))
  | params a0 a1 i0 i1 =>
    intro hg
    gopen
    have i0 : Inv _ _ := i0 (by assumption)
    have i1 : Inv _ _ := (i1 (by assumption)).2.1 rfl
    ginv
  | args a0 i0 =>
    intro hg
    gopen
    have i0 : Inv _ _ := i0 (by assumption) rfl
    ginv
  | exprs a0 i0 =>
    intro hg
    gopen
    have i0 : Inv _ _ := i0 (by assumption) rfl
    ginv
  | exprsD a0 i0 =>
    intro hg
    gopen
    have i0 : Inv _ _ := i0 (by assumption) rfl
    ginv
  | column a0 a1 i0 i1 =>
    intro hg
    gopen
    have i0 : Inv _ _ := i0 (by assumption)
    have i1 : Inv _ _ := (i1 (by assumption)).1 ⟨by inv, rfl⟩
    ginv
  | func a0 a1 i0 i1 =>
    intro hg
    simp only [glued, gluedL, gNode, Bool.and_eq_true] at hg
    have i0 : Inv _ _ := i0 hg.2.1
    have i1 := params_cl a1 (i1 hg.2.2.1) hg.1 (by simp)
    ginv
  | object a0 a1 i0 i1 =>
    intro hg
    simp only [glued, gluedL, gNode, Bool.and_eq_true] at hg
    have i0 : Inv _ _ := i0 hg.2.1
    have i1 := params_cl a1 (i1 hg.2.2.1) hg.1 (by simp)
    ginv
  | array a0 i0 =>
    intro hg
    gopen
    have i0 : Inv _ _ := i0 (by assumption) rfl
    ginv
  | ternary a0 a1 a2 i0 i1 i2 =>
    intro hg
    gopen
    have i0 : Inv _ _ := i0 (by assumption)
    have i1 : Inv _ _ := i1 (by assumption)
    have i2 : Inv _ _ := i2 (by assumption)
    ginv
  | isNull a0 i0 =>
    intro hg
    gopen
    have i0 : Inv _ _ := i0 (by assumption)
    ginv
  | isNotNull a0 i0 =>
    intro hg
    gopen
    have i0 : Inv _ _ := i0 (by assumption)
    ginv
  | between a0 a1 a2 i0 i1 i2 =>
    intro hg
    gopen
    have i0 : Inv _ _ := i0 (by assumption)
    have i1 : Inv _ _ := i1 (by assumption)
    have i2 : Inv _ _ := i2 (by assumption)
    ginv
  | notBetween a0 a1 a2 i0 i1 i2 =>
    intro hg
    gopen
    have i0 : Inv _ _ := i0 (by assumption)
    have i1 : Inv _ _ := i1 (by assumption)
    have i2 : Inv _ _ := i2 (by assumption)
    ginv
  | when a0 a1 i0 i1 =>
    intro hg
    gopen
    have i0 : Inv _ _ := i0 (by assumption)
    have i1 : Inv _ _ := i1 (by assumption)
    ginv
  | caseEnd a0 a1 a2 i0 i1 i2 =>
    intro hg
    gopen
    have i0 : Inv _ _ := (i0 (by assumption)).1 ⟨by inv, rfl⟩
    have i1 : Inv _ _ := i1 (by assumption) ⟨by inv, rfl⟩
    have i2 : Inv _ _ := (i2 (by assumption)).1 ⟨by inv, rfl⟩
    ginv
  | intervalFrom a0 a1 i0 i1 =>
    intro hg
    gopen
    have i0 : Inv _ _ := i0 (by assumption)
    have i1 : Inv _ _ := i1 (by assumption)
    ginv
  | extract a0 i0 =>
    intro hg
    gopen
    have i0 : Inv _ _ := i0 (by assumption) rfl
    ginv
  | distinctOn a0 i0 =>
    intro hg
    gopen
    have i0 : Inv _ _ := i0 (by assumption) rfl
    ginv
  | top a0 a1 i0 =>
    intro hg
    gopen
    have i0 : Inv _ _ := i0 (by assumption)
    ginv
  | topTies a0 a1 i0 =>
    intro hg
    gopen
    have i0 : Inv _ _ := i0 (by assumption)
    ginv
  | item a0 a1 a2 i0 i1 i2 =>
    intro hg
    gopen
    have i0 : Inv _ _ := i0 (by assumption)
    have i1 : Inv _ _ := i1 (by assumption) ⟨by inv, rfl⟩
    have i2 : Inv _ _ := (i2 (by assumption)).1 ⟨by inv, rfl⟩
    ginv
  | from_ a0 i0 =>
    intro hg
    gopen
    have i0 : Inv _ _ := i0 (by assumption)
    ginv
  | prewhere a0 i0 =>
    intro hg
    gopen
    have i0 : Inv _ _ := i0 (by assumption)
    ginv
  | where_ a0 i0 =>
    intro hg
    gopen
    have i0 : Inv _ _ := i0 (by assumption)
    ginv
  | having a0 i0 =>
    intro hg
    gopen
    have i0 : Inv _ _ := i0 (by assumption)
    ginv
  | group a0 a1 i0 =>
    intro hg
    gopen
    have i0 : Inv _ _ := i0 (by assumption)
    ginv
  | groupAs a0 a1 a2 i0 =>
    intro hg
    simp only [glued, gluedL, gNode, Bool.and_eq_true] at hg
    have i0 : Inv _ _ := i0 hg.2.2.2.2.1
    have := group_cl a0 i0 hg.1 (by rintro rfl; simp [upper] at a1)
    obtain ⟨ws, rfl, hi⟩ := this
    ginv
  | groupSets a0 a1 i0 =>
    intro hg
    simp only [glued, gluedL, gNode, Bool.and_eq_true] at hg
    have i0 : Inv _ _ := i0 hg.2.2.2.2.1
    have := group_cl a0 i0 hg.1 (by simp)
    obtain ⟨ws, rfl, hi⟩ := this
    ginv
  | groupAll  =>
    intro hg
    gopen
    ginv
  | order a0 a1 a2 i0 i1 i2 =>
    intro hg
    gopen
    have i0 : Inv _ _ := i0 (by assumption)
    have i1 : Inv _ _ := (i1 (by assumption)).1 ⟨by inv, rfl⟩
    have i2 : Inv _ _ := (i2 (by assumption)).1 ⟨by inv, rfl⟩
    ginv
  | orderDir a0 a1 a2 a3 i1 i2 i3 =>
    intro hg
    gopen
    have i1 : Inv _ _ := i1 (by assumption)
    have i2 : Inv _ _ := (i2 (by assumption)).1 ⟨by inv, rfl⟩
    have i3 : Inv _ _ := (i3 (by assumption)).1 ⟨by inv, rfl⟩
    ginv
  | fill a0 a1 a2 a3 i0 i1 i2 i3 =>
    intro hg
    gopen
    have i0 : Inv _ _ := (i0 (by assumption)).1 ⟨by inv, rfl⟩
    have i1 : Inv _ _ := (i1 (by assumption)).1 ⟨by inv, rfl⟩
    have i2 : Inv _ _ := (i2 (by assumption)).1 ⟨by inv, rfl⟩
    have i3 : Inv _ _ := (i3 (by assumption)).1 ⟨by inv, rfl⟩
    ginv
  | interItem a0 a1 i0 i1 =>
    intro hg
    gopen
    have i0 : Inv _ _ := i0 (by assumption)
    have i1 : Inv _ _ := (i1 (by assumption)).1 ⟨by inv, rfl⟩
    ginv
  | inter0  =>
    intro hg
    gopen
    ginv
  | inter a0 a1 i0 =>
    intro hg
    gopen
    have i0 : Inv _ _ := i0 (by assumption) rfl
    ginv
  | orderBy a0 a1 a2 i0 i2 =>
    intro hg
    gopen
    have i0 : Inv _ _ := i0 (by assumption) rfl
    have i2 : Inv _ _ := (i2 (by assumption)).1 ⟨by inv, rfl⟩
    ginv
  | limitBy a0 a1 a2 a3 i0 i1 =>
    intro hg
    gopen
    have i0 : Inv _ _ := i0 (by assumption)
    have i1 : Inv _ _ := i1 (by assumption)
    ginv
  | limit a0 a1 i0 =>
    intro hg
    gopen
    have i0 : Inv _ _ := i0 (by assumption)
    ginv
  | limitOff a0 a1 a2 a3 i0 i1 =>
    intro hg
    gopen
    have i0 : Inv _ _ := i0 (by assumption)
    have i1 : Inv _ _ := i1 (by assumption)
    ginv
  | offset a0 a1 i0 =>
    intro hg
    gopen
    have i0 : Inv _ _ := i0 (by assumption)
    ginv
  | limit0  =>
    intro hg
    gopen
    ginv
  | bool  =>
    intro hg
    gopen
    ginv
  | setting a0 a1 i0 i1 =>
    intro hg
    simp only [glued, gluedL, gNode, Bool.and_eq_true] at hg
    have i1 : Inv _ _ := i1 hg.2.2.2.1
    obtain ⟨u, rfl, h1, h2, h3⟩ := ident_elem a0 hg.1
    have h3 := h3 b!"=" (by simp)
    ginv
  | settings a0 a1 i0 =>
    intro hg
    gopen
    have i0 : Inv _ _ := i0 (by assumption) rfl
    ginv
  | format a0 i0 =>
    intro hg
    gopen
    have i0 : Inv _ _ := i0 (by assumption)
    ginv
  | cte a0 a1 a2 i0 i1 =>
    intro hg
    gopen
    have i0 : Inv _ _ := i0 (by assumption)
    have i1 : Inv _ _ := i1 (by assumption)
    ginv
  | cteName a0 a1 a2 i0 i1 =>
    intro hg
    gopen
    have i0 : Inv _ _ := i0 (by assumption)
    have i1 : Inv _ _ := i1 (by assumption)
    ginv
  | with_ a0 a1 i0 =>
    intro hg
    gopen
    have i0 : Inv _ _ := i0 (by assumption) rfl
    ginv
  | tableName a0 i0 =>
    intro hg
    gopen
    have i0 : Inv _ _ := i0 (by assumption)
    ginv
  | tableName2 a0 a1 a2 i0 i1 =>
    intro hg
    simp only [glued, gluedL, gNode, Bool.and_eq_true] at hg
    have i0 : Inv _ _ := i0 hg.2.1
    rcases (i1 hg.2.2.1).2.2 with ⟨rfl, rfl⟩ | ⟨_, ws, rfl, i2, _⟩
    · rw [List.append_nil]; exact i0
    · exact i0.dot (ident_dot a0 hg.1.1).1 (by mono) (fun _ => rfl) (i2.mono (by mono))
  | tableArgs a0 i0 =>
    intro hg
    gopen
    have i0 : Inv _ _ := i0 (by assumption) rfl
    ginv
  | tableFunc a0 a1 i0 i1 =>
    intro hg
    simp only [glued, gluedL, gNode, Bool.and_eq_true] at hg
    have i0 : Inv _ _ := i0 hg.2.1
    have i1 := params_cl a1 (i1 hg.2.2.1) hg.1 (by simp)
    ginv
  | subParen a0 i0 =>
    intro hg
    gopen
    have i0 : Inv _ _ := i0 (by assumption)
    ginv
  | sub a0 i0 =>
    intro hg
    gopen
    have i0 : Inv _ _ := i0 (by assumption)
    ginv
  | «alias» a0 a1 a2 i0 i1 =>
    intro hg
    gopen
    have i0 : Inv _ _ := i0 (by assumption)
    have i1 : Inv _ _ := i1 (by assumption)
    ginv
  | table a0 i0 =>
    intro hg
    gopen
    have i0 : Inv _ _ := i0 (by assumption)
    ginv
  | tableFinal a0 i0 =>
    intro hg
    gopen
    have i0 : Inv _ _ := i0 (by assumption)
    ginv
  | ratio a0 a1 i0 i1 =>
    intro hg
    simp only [glued, gluedL, gNode, Bool.and_eq_true] at hg
    rcases (i1 hg.2.2.1).2.2 with ⟨rfl, rfl⟩ | ⟨_, ws, rfl, _, i2⟩
    · rw [List.append_nil]; exact i0 hg.2.1
    · rcases number_elem a0 hg.1.1 with ⟨s, rfl⟩ | ⟨s, rfl⟩ <;> rcases number_elem i2 hg.1.2 with ⟨s, rfl⟩ | ⟨s, rfl⟩ <;> ginv
  | sample a0 a1 i0 i1 =>
    intro hg
    gopen
    have i0 : Inv _ _ := i0 (by assumption)
    have i1 : Inv _ _ := (i1 (by assumption)).1 ⟨by inv, rfl⟩
    ginv
  | joinTable a0 a1 i0 i1 =>
    intro hg
    gopen
    have i0 : Inv _ _ := i0 (by assumption)
    have i1 : Inv _ _ := (i1 (by assumption)).1 ⟨by inv, rfl⟩
    ginv
  | joinFinal a0 i0 =>
    intro hg
    gopen
    have i0 : Inv _ _ := i0 (by assumption)
    ginv
  | on a0 i0 =>
    intro hg
    gopen
    have i0 : Inv _ _ := i0 (by assumption)
    ginv
  | using_ a0 i0 =>
    intro hg
    gopen
    have i0 : Inv _ _ := i0 (by assumption)
    ginv
  | join a0 a1 i0 i1 =>
    intro hg
    gopen
    have i0 : Inv _ _ := i0 (by assumption)
    have i1 : Inv _ _ := i1 (by assumption)
    ginv
  | jnil  =>
    intro hg
    gopen
    ginv
  | jtable a0 a1 i1 =>
    intro hg
    gopen
    have i1 : Inv _ _ := i1 (by assumption)
    ginv
  | jcomma a0 a1 i0 i1 =>
    intro hg
    gopen
    have i0 : Inv _ _ := i0 (by assumption)
    have i1 : Inv _ _ := i1 (by assumption)
    ginv
  | jmods a0 a1 a2 a3 a4 i0 i2 i3 i4 =>
    intro hg
    gopen
    have i0 : Inv _ _ := i0 (by assumption)
    have i2 : Inv _ _ := i2 (by assumption)
    have i3 : Inv _ _ := (i3 (by assumption)).1 ⟨by inv, rfl⟩
    have i4 : Inv _ _ := i4 (by assumption)
    ginv
  | mone  =>
    intro hg
    gopen
    ginv
  | mkw  =>
    intro hg
    gopen
    ginv
  | msnoc a0 a1 i1 =>
    intro hg
    simp only [glued, gluedL_append, Bool.and_eq_true] at hg
    have i1 : Inv _ _ := i1 (by simp only [glued]; exact hg.1)
    ginv
  | mkws a0 a1 i1 =>
    intro hg
    simp only [glued, gluedL_append, Bool.and_eq_true] at hg
    have i1 : Inv _ _ := i1 (by simp only [glued]; exact hg.1)
    ginv
  | partition a0 i0 =>
    intro hg
    gopen
    have i0 : Inv _ _ := i0 (by assumption)
    ginv
  | window a0 a1 a2 i0 i1 i2 =>
    intro hg
    gopen
    have i0 := i0 (by assumption)
    have i1 := i1 (by assumption)
    have i2 := i2 (by assumption)
    have e0 := i0.2.1 rfl
    have e1 := i1.2.1 rfl
    have e2 := i2.2.1 rfl
    rcases i0.2.2 with ⟨rfl, rfl⟩ | ⟨n0, -⟩ <;> rcases i1.2.2 with ⟨rfl, rfl⟩ | ⟨n1, -⟩ <;> rcases i2.2.2 with ⟨rfl, rfl⟩ | ⟨n2, -⟩ <;>
      simp only [*, nil_nonNil, bl, Bool.false_and, Bool.true_and, Bool.and_false, Bool.and_true, Bool.or_true, Bool.true_or, Bool.or_false, Bool.false_or,
        Bool.false_eq_true, if_true, if_false, ite_true, ite_false] <;> ginv
  | over a0 a1 i0 i1 =>
    intro hg
    gopen
    have i0 : Inv _ _ := i0 (by assumption)
    have i1 : Inv _ _ := i1 (by assumption)
    ginv
  | @select p q w d don top its fr pw wh gb hv ob lb lm st fm ua ud ex is u0 u1 u2 u3 u4 u5 u6 u7 u8 u9 u10 u11 u12 u13 u14 u15 u16 u17 a0 a1 a2 a3 a4 a5 a6 a7 a8 a9 a10 a11 a12 a13 a14 a15 a16 a17 a18 a19 a20 a21 a22 i0 i1 i3 i4 i6 i7 i8 i9 i10 i11 i12 i13 i14 i15 i16 i17 i18 i19 =>
    intro hg
    gopen
    have i0 := i0 (by assumption)
    have i1 : Inv _ _ := (i1 (by assumption)).1 ⟨by inv, rfl⟩
    have i3 : Inv _ _ := (i3 (by assumption)).1 ⟨by inv, rfl⟩
    have i4 : Inv _ _ := i4 (by assumption) rfl
    have i6 : Inv _ _ := (i6 (by assumption)).1 ⟨by inv, rfl⟩
    have i7 : Inv _ _ := (i7 (by assumption)).1 ⟨by inv, rfl⟩
    have i8 : Inv _ _ := (i8 (by assumption)).1 ⟨by inv, rfl⟩
    have i9 : Inv _ _ := (i9 (by assumption)).1 ⟨by inv, rfl⟩
    have i10 : Inv _ _ := (i10 (by assumption)).1 ⟨by inv, rfl⟩
    have i11 : Inv _ _ := (i11 (by assumption)).1 ⟨by inv, rfl⟩
    have i12 : Inv _ _ := (i12 (by assumption)).1 ⟨by inv, rfl⟩
    have i13 : Inv _ _ := (i13 (by assumption)).1 ⟨by inv, rfl⟩
    have i14 : Inv _ _ := (i14 (by assumption)).1 ⟨by inv, rfl⟩
    have i15 : Inv _ _ := (i15 (by assumption)).1 ⟨by inv, rfl⟩
    have i16 : Inv _ _ := (i16 (by assumption)).1 ⟨by inv, rfl⟩
    have i17 : Inv _ _ := (i17 (by assumption)).1 ⟨by inv, rfl⟩
    have i18 : Inv _ _ := (i18 (by assumption)).1 ⟨by inv, rfl⟩
    have i19 : Inv _ _ := (i19 (by assumption)).1 ⟨by inv, rfl⟩
    have hd : Inv cl (if d = true then [.sp, .kw b!"DISTINCT"] else []) := by split <;> inv
    have e0 := i0.2.1 rfl
    rcases i0.2.2 with ⟨rfl, rfl⟩ | ⟨n0, -⟩
    · simp only [nil_nonNil, bl, Bool.false_eq_true, if_false]; ginv
    · simp only [n0, bl, if_true]; ginv

end Verif.Echo

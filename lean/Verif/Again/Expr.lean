/-
Expressions of the core language are printed and read again.  No definition here is part of the model.
-/
import Verif.Again.Lex

namespace Verif.Again
open Verif.Spec Verif.Echo

/-- Shows that elements can be written. -/
macro "good" : tactic => `(tactic| (
  simp only [good_append, good_cons, good_nil, good_sp, good_as, and_true, true_and]
  all_goals (repeat' apply And.intro)
  all_goals first
    | assumption
    | exact (good_letters rfl).1
    | exact good_signs (by decide)
    | exact True.intro))
/-- Shows that a tree is plain. -/
macro "plain" : tactic => `(tactic| (
  simp [V.plain, V.plainL, plainNode, groupExpr, V.nonNil, Spec.name, columns, N.Ident, N.NumberLiteral, N.StringLiteral, N.UnaryExpr, N.BinaryOperation, N.BetweenClause, N.IsNullExpr,
    N.IsNotNullExpr, N.TernaryOperation, N.Path, N.NestedIdentifier, N.ParamExprList, N.ArrayParamList, N.FunctionExpr, N.SubQuery, N.CaseExpr, N.WhenClause,
    N.ColumnExpr, N.SelectItem, N.TableIdentifier, N.JoinTableExpr, N.TableExpr, N.AliasExpr, N.JoinExpr, N.UsingClause, N.OnClause, N.FromClause,
    N.PrewhereClause, N.WhereClause, N.GroupByClause, N.HavingClause, N.OrderExpr, N.OrderByClause, N.LimitClause, N.LimitByClause, N.WithClause, N.CTEStmt, N.SettingExpr, N.SettingsClause,
    N.BoolLiteral, N.FormatClause, N.PartitionByClause, N.WindowExpr, N.WindowFunctionExpr, N.SelectQuery, N.ColumnExprList, *]))
/-- Takes apart that a tree is kept. -/
macro "kept" h:ident : tactic => `(tactic| (
  simp only [V.kept, V.keptL, keptNode, Spec.name, columns, N.Ident, N.NumberLiteral, N.StringLiteral, N.UnaryExpr, N.BinaryOperation, N.BetweenClause, N.IsNullExpr,
    N.IsNotNullExpr, N.TernaryOperation, N.Path, N.NestedIdentifier, N.ParamExprList, N.ArrayParamList, N.FunctionExpr, N.SubQuery, N.CaseExpr, N.WhenClause,
    N.ColumnExpr, N.SelectItem, N.TableIdentifier, N.JoinTableExpr, N.TableExpr, N.AliasExpr, N.JoinExpr, N.UsingClause, N.OnClause, N.FromClause,
    N.PrewhereClause, N.WhereClause, N.GroupByClause, N.HavingClause, N.OrderExpr, N.OrderByClause, N.LimitClause, N.LimitByClause, N.WithClause, N.CTEStmt, N.SettingExpr, N.SettingsClause,
    N.BoolLiteral, N.FormatClause, N.PartitionByClause, N.WindowExpr, N.WindowFunctionExpr, N.SelectQuery, N.ColumnExprList,
    Bool.and_eq_true, Bool.and_true, Bool.true_and, and_true, true_and, Bool.not_eq_true'] at $h:ident))
/-- Sorts the elements. -/
macro "flat" h:ident : tactic => `(tactic| simp only [List.append_assoc, List.cons_append, List.nil_append, List.append_nil] at $h:ident)
/-- A keyword. -/
macro "kw" : term => `(by decide +kernel)

variable {p q : Nat} {us ws : List E} {os ts xs ys : List Token} {m : Bool} {t o a n : Token} {v w x : V} {vs : List V}

/-- An expression that is printed and read again. -/
abbrev Ex (m : Bool) (c : Cat) (ts : List Token) (v : V) : Prop := Claim m .n ts v fun os => Core c os v ∧ Lead ts os

theorem r_sign (hf : Fit m (t :: ts)) (hs : isSign t b!"+" ∨ isSign t b!"-") (h : Ex m .atom ts v) : Ex m (.expr p) (t :: ts) (N.UnaryExpr (kind := t.str) (expr := v)) := by
  obtain ⟨us, e, pl, g, r⟩ := h
  rcases hs with hs | hs
  all_goals
    have hstr := src_op hf.head.1 hs (by decide)
    rw [hstr]
    refine ⟨_, Echo.unaryOp (by simp) e, by plain, by good, fun p os fr l => ?_⟩
    flat l
    obtain ⟨o, os, rfl, ho, hos, l⟩ := lp_op l
    obtain ⟨r1, r2⟩ := r _ _ (hf.freeS hs ho) (lp_sp l)
    first
      | have := fun q => Core.sign (p := q) (.inl ho) r1
        rw [hos] at this
        exact ⟨this _, .sign hs ho (by rw [hstr, hos])⟩
      | have := fun q => Core.sign (p := q) (.inr ho) r1
        rw [hos] at this
        exact ⟨this _, .sign hs ho (by rw [hstr, hos])⟩

theorem r_not (hf : Fit m (t :: ts)) (hp : p ≤ 5) (ht : isWord t b!"NOT") (h : Ex m (.expr 5) ts v) : Ex m (.expr p) (t :: ts) (N.UnaryExpr (kind := b!"NOT") (expr := v)) := by
  obtain ⟨us, e, pl, g, r⟩ := h
  refine ⟨_, Echo.unaryKw (by simp) e, by plain, by good, fun p os fr l => ?_⟩
  flat l
  obtain ⟨o, os, rfl, ho, l⟩ := lp_kw kw l
  obtain ⟨r1, r2⟩ := r _ _ (hf.freeW ht ho) (lp_sp l)
  exact ⟨.not_ hp ho r1, .word ht ho⟩

/-- The operators that are words. -/
def infixWords : List (Nat × Str) := infixLevels.flatMap fun l => l.2.1.map fun w => (l.1, w)
/-- The operators that are signs. -/
def infixSigns : List (Nat × Str) := infixLevels.flatMap fun l => l.2.2.map fun w => (l.1, w)

theorem infix_cases (h : isInfix o q) : (∃ k, (q, k) ∈ infixWords ∧ isWord o k) ∨ ∃ k, (q, k) ∈ infixSigns ∧ isSign o k := by
  obtain ⟨a, b, hm, ⟨h1, h2⟩ | ⟨s, h1, h2⟩⟩ := h
  · exact .inl ⟨_, List.mem_flatMap.2 ⟨_, hm, List.mem_map.2 ⟨_, h2, rfl⟩⟩, h1, rfl⟩
  · exact .inr ⟨s, List.mem_flatMap.2 ⟨_, hm, List.mem_map.2 ⟨_, h1, rfl⟩⟩, h2⟩
theorem infix_word {k : Str} (h : (q, k) ∈ infixWords) (ho : isWord o k) : isInfix o q := by
  obtain ⟨⟨q', a, b⟩, h1, h2⟩ := List.mem_flatMap.1 h
  obtain ⟨w, h3, h4⟩ := List.mem_map.1 h2
  cases h4
  exact ⟨a, b, h1, .inl ⟨ho.1, by rw [ho.2]; exact h3⟩⟩
theorem infix_sign {k : Str} (h : (q, k) ∈ infixSigns) (ho : isSign o k) : isInfix o q := by
  obtain ⟨⟨q', a, b⟩, h1, h2⟩ := List.mem_flatMap.1 h
  obtain ⟨w, h3, h4⟩ := List.mem_map.1 h2
  cases h4
  exact ⟨a, b, h1, .inr ⟨_, h3, ho⟩⟩

theorem words_ok : ∀ x ∈ infixWords, x.2 ∈ kwOps ∧ isKw x.2 = true ∧ letters x.2 = true := by decide +kernel
theorem signs_ok : ∀ x ∈ infixSigns, x.2 ∈ opOps ∧ x.2 ∈ signs ∧ x.2 ≠ b!"->" := by decide +kernel
theorem spell_word {k : Str} (h : isWord t k) : spelling t = k := by unfold spelling; rw [h.1]; exact h.2
theorem spell_sign {k : Str} (h : isSign t k) : spelling t = t.str := by unfold spelling; rw [show t.kind = _ from h]

theorem r_infix (hf : Fit m (ts ++ o :: xs)) (hp : p < q) (ho : isInfix o q) (h1 : Ex m (.expr (q - 1)) ts v) (h2 : Ex m (.expr q) xs w) :
    Ex m (.expr p) (ts ++ o :: xs) (N.BinaryOperation (leftExpr := v) (operation := spelling o) (rightExpr := w)) := by
  obtain ⟨us, e1, p1, g1, r1⟩ := h1
  obtain ⟨ws, e2, p2, g2, r2⟩ := h2
  rcases infix_cases ho with ⟨k, hk, hw⟩ | ⟨k, hk, hw⟩
  · have ok := words_ok _ hk
    rw [spell_word hw]
    have gk : GoodE m (.kw k) := (good_letters ok.2.2).1
    refine ⟨_, Echo.binKw ok.1 e1 e2, by plain, by good, fun p' os fr l => ?_⟩
    flat l
    obtain ⟨a, b, _, rfl, l1, l⟩ := lp_app l
    obtain ⟨o', b, rfl, ho', l⟩ := lp_kw ok.2.1 (lp_sp l)
    obtain ⟨c1, d1⟩ := r1 _ _ fr.left l1
    obtain ⟨c2, _⟩ := r2 _ _ (hf.right.freeW hw ho') (lp_sp l)
    have := Core.infix_ hp (infix_word hk ho') c1 c2
    rw [spell_word ho'] at this
    exact ⟨this, d1.append⟩
  · have ok := signs_ok _ hk
    have hs := src_op hf.right.head.1 hw ok.2.2
    rw [spell_sign hw, hs]
    have gk : GoodE m (.op k) := good_signs ok.2.1
    refine ⟨_, Echo.binOp ok.1 e1 e2, by plain, by good, fun p' os fr l => ?_⟩
    flat l
    obtain ⟨a, b, _, rfl, l1, l⟩ := lp_app l
    obtain ⟨o', b, rfl, ho', hs', l⟩ := lp_op (lp_sp l)
    obtain ⟨c1, d1⟩ := r1 _ _ fr.left l1
    obtain ⟨c2, _⟩ := r2 _ _ (hf.right.freeS hw ho') (lp_sp l)
    have := Core.infix_ hp (infix_sign hk ho') c1 c2
    rw [spell_sign ho', hs'] at this
    exact ⟨this, d1.append⟩

theorem neg_ok : ∀ x ∈ negatable, x.1 ∈ kwOps ∧ isKw x.1 = true ∧ letters x.1 = true := by decide +kernel

theorem r_notInfix (hf : Fit m (ts ++ n :: o :: xs)) (hp : p < q) (ho : (upper o.str, q) ∈ negatable) (hk : o.kind = .keyword)
    (h1 : Ex m (.expr (q - 1)) ts v) (h2 : Ex m (.expr q) xs w) :
    Ex m (.expr p) (ts ++ n :: o :: xs) (N.BinaryOperation (leftExpr := v) (operation := b!"NOT " ++ spelling o) (rightExpr := w)) := by
  obtain ⟨us, e1, p1, g1, r1⟩ := h1
  obtain ⟨ws, e2, p2, g2, r2⟩ := h2
  have ok := neg_ok _ ho
  have hw : isWord o (upper o.str) := ⟨hk, rfl⟩
  rw [spell_word hw]
  generalize upper o.str = k at *
  have gk : GoodE m (.kw k) := (good_letters ok.2.2).1
  refine ⟨_, Echo.binNot ok.1 e1 e2, by plain, by good, fun p' os fr l => ?_⟩
  flat l
  obtain ⟨a, b, _, rfl, l1, l⟩ := lp_app l
  obtain ⟨n', b, rfl, hn', l⟩ := lp_kw kw (lp_sp l)
  obtain ⟨o', b, rfl, ho', l⟩ := lp_kw ok.2.1 (lp_sp l)
  obtain ⟨c1, d1⟩ := r1 _ _ fr.left l1
  obtain ⟨c2, _⟩ := r2 _ _ (hf.right.tail.freeW hw ho') (lp_sp l)
  have := Core.notInfix hp hn' (by rw [ho'.2]; exact ho) ho'.1 c1 c2
  rw [spell_word ho'] at this
  exact ⟨this, d1.append⟩

theorem r_between (hf : Fit m (ts ++ o :: (xs ++ a :: ys))) (hp : p < 9) (ho : isWord o b!"BETWEEN") (ha : isWord a b!"AND")
    (h1 : Ex m (.expr 8) ts v) (h2 : Ex m (.expr 9) xs w) (h3 : Ex m (.expr 9) ys x) :
    Ex m (.expr p) (ts ++ o :: (xs ++ a :: ys)) (N.BetweenClause (expr := v) (between := w) (and := x)) := by
  obtain ⟨us, e1, p1, g1, r1⟩ := h1
  obtain ⟨ws, e2, p2, g2, r2⟩ := h2
  obtain ⟨zs, e3, p3, g3, r3⟩ := h3
  refine ⟨_, Echo.between e1 e2 e3, by plain, by good, fun p' os fr l => ?_⟩
  flat l
  obtain ⟨b, c, _, rfl, l1, l⟩ := lp_app l
  obtain ⟨o', c, rfl, ho', l⟩ := lp_kw kw (lp_sp l)
  obtain ⟨d, c, _, rfl, l2, l⟩ := lp_app (lp_sp l)
  obtain ⟨a', c, rfl, ha', l⟩ := lp_kw kw (lp_sp l)
  obtain ⟨c1, d1⟩ := r1 _ _ fr.left l1
  obtain ⟨c2, _⟩ := r2 _ _ (hf.right.freeW ho ho').left l2
  obtain ⟨c3, _⟩ := r3 _ _ (hf.right.tail.right.freeW ha ha') (lp_sp l)
  exact ⟨.between hp ho' ha' c1 c2 c3, d1.append⟩

theorem r_notBetween (hf : Fit m (ts ++ n :: o :: (xs ++ a :: ys))) (hp : p < 9) (ho : isWord o b!"BETWEEN") (ha : isWord a b!"AND")
    (h1 : Ex m (.expr 8) ts v) (h2 : Ex m (.expr 9) xs w) (h3 : Ex m (.expr 9) ys x) :
    Ex m (.expr p) (ts ++ n :: o :: (xs ++ a :: ys)) (N.BetweenClause (expr := v) (not := true) (between := w) (and := x)) := by
  obtain ⟨us, e1, p1, g1, r1⟩ := h1
  obtain ⟨ws, e2, p2, g2, r2⟩ := h2
  obtain ⟨zs, e3, p3, g3, r3⟩ := h3
  refine ⟨_, Echo.notBetween e1 e2 e3, by plain, by good, fun p' os fr l => ?_⟩
  flat l
  obtain ⟨b, c, _, rfl, l1, l⟩ := lp_app l
  obtain ⟨n', c, rfl, hn', l⟩ := lp_kw kw (lp_sp l)
  obtain ⟨o', c, rfl, ho', l⟩ := lp_kw kw (lp_sp l)
  obtain ⟨d, c, _, rfl, l2, l⟩ := lp_app (lp_sp l)
  obtain ⟨a', c, rfl, ha', l⟩ := lp_kw kw (lp_sp l)
  obtain ⟨c1, d1⟩ := r1 _ _ fr.left l1
  obtain ⟨c2, _⟩ := r2 _ _ (hf.right.tail.freeW ho ho').left l2
  obtain ⟨c3, _⟩ := r3 _ _ (hf.right.tail.tail.right.freeW ha ha') (lp_sp l)
  exact ⟨.notBetween hp hn' ho' ha' c1 c2 c3, d1.append⟩

theorem r_isNull {i : Token} (hp : p < 7) (h : Ex m (.expr 6) ts v) : Ex m (.expr p) (ts ++ [i, n]) (N.IsNullExpr (expr := v)) := by
  obtain ⟨us, e1, p1, g1, r1⟩ := h
  refine ⟨_, Echo.isNull e1, by plain, by good, fun p' os fr l => ?_⟩
  obtain ⟨b, c, _, rfl, l1, l⟩ := lp_app l
  obtain ⟨i', c, rfl, hi', l⟩ := lp_kw kw (lp_sp l)
  obtain ⟨n', c, rfl, hn', l⟩ := lp_kw kw (lp_sp l)
  cases lp_nil l
  obtain ⟨c1, d1⟩ := r1 _ _ fr.left l1
  exact ⟨.isNull hp hi' hn' c1, d1.append⟩

theorem r_isNotNull {i : Token} (hp : p < 7) (h : Ex m (.expr 6) ts v) : Ex m (.expr p) (ts ++ [i, o, n]) (N.IsNotNullExpr (expr := v)) := by
  obtain ⟨us, e1, p1, g1, r1⟩ := h
  refine ⟨_, Echo.isNotNull e1, by plain, by good, fun p' os fr l => ?_⟩
  obtain ⟨b, c, _, rfl, l1, l⟩ := lp_app l
  obtain ⟨i', c, rfl, hi', l⟩ := lp_kw kw (lp_sp l)
  obtain ⟨o', c, rfl, ho', l⟩ := lp_kw kw (lp_sp l)
  obtain ⟨n', c, rfl, hn', l⟩ := lp_kw kw (lp_sp l)
  cases lp_nil l
  obtain ⟨c1, d1⟩ := r1 _ _ fr.left l1
  exact ⟨.isNotNull hp hi' ho' hn' c1, d1.append⟩

theorem r_global {g : Token} (hf : Fit m (ts ++ g :: o :: xs)) (hp : p < 10) (ho : isWord o b!"IN") (h1 : Ex m (.expr 9) ts v) (h2 : Ex m (.expr 10) xs w) :
    Ex m (.expr p) (ts ++ g :: o :: xs) (N.BinaryOperation (leftExpr := v) (operation := b!"IN") (rightExpr := w) (hasGlobal := true)) := by
  obtain ⟨us, e1, p1, g1, r1⟩ := h1
  obtain ⟨ws, e2, p2, g2, r2⟩ := h2
  refine ⟨_, Echo.global e1 e2, by plain, by good, fun p' os fr l => ?_⟩
  flat l
  obtain ⟨b, c, _, rfl, l1, l⟩ := lp_app l
  obtain ⟨g', c, rfl, hg', l⟩ := lp_kw kw (lp_sp l)
  obtain ⟨o', c, rfl, ho', l⟩ := lp_kw kw (lp_sp l)
  obtain ⟨c1, d1⟩ := r1 _ _ fr.left l1
  obtain ⟨c2, _⟩ := r2 _ _ (hf.right.tail.freeW ho ho') (lp_sp l)
  exact ⟨.global hp hg' ho' c1 c2, d1.append⟩

theorem r_globalNot {g : Token} (hf : Fit m (ts ++ g :: n :: o :: xs)) (hp : p < 10) (ho : isWord o b!"IN") (h1 : Ex m (.expr 9) ts v) (h2 : Ex m (.expr 10) xs w) :
    Ex m (.expr p) (ts ++ g :: n :: o :: xs) (N.BinaryOperation (leftExpr := v) (operation := b!"IN") (rightExpr := w) (hasGlobal := true) (hasNot := true)) := by
  obtain ⟨us, e1, p1, g1, r1⟩ := h1
  obtain ⟨ws, e2, p2, g2, r2⟩ := h2
  refine ⟨_, Echo.globalNot e1 e2, by plain, by good, fun p' os fr l => ?_⟩
  flat l
  obtain ⟨b, c, _, rfl, l1, l⟩ := lp_app l
  obtain ⟨g', c, rfl, hg', l⟩ := lp_kw kw (lp_sp l)
  obtain ⟨n', c, rfl, hn', l⟩ := lp_kw kw (lp_sp l)
  obtain ⟨o', c, rfl, ho', l⟩ := lp_kw kw (lp_sp l)
  obtain ⟨c1, d1⟩ := r1 _ _ fr.left l1
  obtain ⟨c2, _⟩ := r2 _ _ (hf.right.tail.tail.freeW ho ho') (lp_sp l)
  exact ⟨.globalNot hp hg' hn' ho' c1 c2, d1.append⟩

theorem r_ternary (hf : Fit m (ts ++ o :: (xs ++ a :: ys))) (ho : isSign o b!"?") (ha : isSign a b!":")
    (h1 : Ex m (.expr 2) ts v) (h2 : Ex m (.expr 0) xs w) (h3 : Ex m (.expr 0) ys x) :
    Ex m (.expr 0) (ts ++ o :: (xs ++ a :: ys)) (N.TernaryOperation (condition := v) (trueExpr := w) (falseExpr := x)) := by
  obtain ⟨us, e1, p1, g1, r1⟩ := h1
  obtain ⟨ws, e2, p2, g2, r2⟩ := h2
  obtain ⟨zs, e3, p3, g3, r3⟩ := h3
  refine ⟨_, Echo.ternary e1 e2 e3, by plain, by good, fun p' os fr l => ?_⟩
  flat l
  obtain ⟨b, c, _, rfl, l1, l⟩ := lp_app l
  obtain ⟨o', c, rfl, ho', _, l⟩ := lp_op (lp_sp l)
  obtain ⟨d, c, _, rfl, l2, l⟩ := lp_app (lp_sp l)
  obtain ⟨a', c, rfl, ha', _, l⟩ := lp_op (lp_sp l)
  obtain ⟨c1, d1⟩ := r1 _ _ fr.left l1
  obtain ⟨c2, _⟩ := r2 _ _ (hf.right.freeS ho ho').left l2
  obtain ⟨c3, _⟩ := r3 _ _ (hf.right.tail.right.freeS ha ha') (lp_sp l)
  exact ⟨.ternary ho' ha' c1 c2 c3, d1.append⟩

theorem r_lambda (hf : Fit m (ts ++ o :: xs)) (ho : isSign o b!"->") (h1 : Ex m (.expr 1) ts v) (h2 : Ex m (.expr 0) xs w) :
    Ex m (.expr 0) (ts ++ o :: xs) (N.BinaryOperation (leftExpr := v) (operation := b!"->") (rightExpr := w)) := by
  obtain ⟨us, e1, p1, g1, r1⟩ := h1
  obtain ⟨ws, e2, p2, g2, r2⟩ := h2
  refine ⟨_, Echo.binOp (by decide) e1 e2, by plain, by good, fun p' os fr l => ?_⟩
  flat l
  obtain ⟨b, c, _, rfl, l1, l⟩ := lp_app l
  obtain ⟨o', c, rfl, ho', _, l⟩ := lp_op (lp_sp l)
  obtain ⟨c1, d1⟩ := r1 _ _ fr.left l1
  obtain ⟨c2, _⟩ := r2 _ _ (hf.right.freeS ho ho') (lp_sp l)
  exact ⟨.lambda ho' c1 c2, d1.append⟩

end Verif.Again

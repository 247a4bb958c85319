/-
Clauses and queries of the core language are printed and read again.  No definition here is part of the model.
-/
import Verif.Again.Tables

namespace Verif.Again
open Verif.Spec Verif.Echo

variable {p q : Nat} {us ws : List E} {os ts xs ys zs ks ms ds : List Token} {m b : Bool} {t o a n c k d e : Token} {v w x y i : V} {vs : List V}

theorem r_item (h : Ex m (.expr 0) ts v) : No m .item ts (N.SelectItem (expr := v) (modifiers := .list [])) := by
  obtain ⟨us, e, pl, g, r⟩ := h
  refine ⟨_, Echo.item e .pnil .onil, by plain, by good, fun p' os fr l => ?_⟩
  flat l
  exact .item (r _ _ fr l).1
theorem r_itemAs (hf : Src t ∧ (m = true → 10 ∉ t.str)) (ht : isAnyName t) (h : Ex m (.expr 0) ts v) :
    No m .item (ts ++ xs) (N.SelectItem (expr := v) (modifiers := .list []) («alias» := Spec.name t)) := by
  obtain ⟨us, e, pl, g, r⟩ := h
  obtain ⟨e', pl', g', _⟩ := name_print hf ht
  refine ⟨_, Echo.item e .pnil (.osome e'), by plain, by good, fun p' os fr l => ?_⟩
  flat l
  obtain ⟨b, c, _, rfl, l1, l⟩ := lp_app l
  obtain ⟨a', c, rfl, ha', l⟩ := lp_as (lp_sp l)
  obtain ⟨t', c, rfl, ht', l⟩ := lp_word (lp_sp l)
  cases lp_nil l
  have hn := name_same hf.1 ht ht'
  exact name_eq hn ▸ .itemAs (r _ _ fr.left l1).1 ha' (any_eq hn ht)
theorem r_itemOne (h : No m .item ts v) : Li m .items ts (.list [v]) := by
  obtain ⟨us, e, pl, g, r⟩ := h
  exact ⟨_, Echo.lone e, by simp [V.plain, V.plainL, pl], g, fun p' os fr l => .itemOne (r _ _ fr l)⟩
theorem items_cons (h : Core .items ts i) : ∃ v ws, i = .list (v :: ws) := by
  cases h with
  | itemOne => exact ⟨_, _, rfl⟩
  | itemMore => exact ⟨_, _, rfl⟩
theorem r_itemMore (hf : Fit m (ts ++ c :: xs)) (hc : isSign c b!",") (h : Core .items xs (.list vs)) (h1 : No m .item ts v) (h2 : Li m .items xs (.list vs)) :
    Li m .items (ts ++ c :: xs) (.list (v :: vs)) := by
  obtain ⟨us, e1, p1, g1, r1⟩ := h1
  obtain ⟨ws, e2, p2, g2, r2⟩ := h2
  obtain ⟨w, vs', hw⟩ := items_cons h
  cases hw
  refine ⟨_, Echo.lcons e1 e2, by simp [V.plain, V.plainL] at p2 ⊢; exact ⟨p1, p2⟩, by good, fun p' os fr l => ?_⟩
  flat l
  obtain ⟨a, b, _, rfl, l1, l⟩ := lp_app l
  obtain ⟨o', b, rfl, ho', _, l⟩ := lp_op l
  exact .itemMore (r1 _ _ fr.left l1) ho' (r2 _ _ (hf.right.freeS hc ho') (lp_sp l))

theorem r_prewhere (hf : Fit m (k :: ts)) (hk : isWord k b!"PREWHERE") (h : Ex m (.expr 0) ts v) : Cl m .prewhere (k :: ts) (N.PrewhereClause (expr := v)) := by
  obtain ⟨us, e, pl, g, r⟩ := h
  refine ⟨_, .osome (.prewhere e), by plain, by good, fun p' os fr l => ?_⟩
  flat l
  obtain ⟨k', os, rfl, hk', l⟩ := lp_kw kw (lp_sp l)
  exact .prewhere hk' (r _ _ (hf.freeW hk hk') (lp_sp l)).1
theorem r_where (hf : Fit m (k :: ts)) (hk : isWord k b!"WHERE") (h : Ex m (.expr 0) ts v) : Cl m .where_ (k :: ts) (N.WhereClause (expr := v)) := by
  obtain ⟨us, e, pl, g, r⟩ := h
  refine ⟨_, .osome (.where_ e), by plain, by good, fun p' os fr l => ?_⟩
  flat l
  obtain ⟨k', os, rfl, hk', l⟩ := lp_kw kw (lp_sp l)
  exact .where_ hk' (r _ _ (hf.freeW hk hk') (lp_sp l)).1
theorem r_having (hf : Fit m (k :: ts)) (hk : isWord k b!"HAVING") (h : Ex m .arg ts v) : Cl m .having (k :: ts) (N.HavingClause (expr := v)) := by
  obtain ⟨us, e, pl, g, r⟩ := h
  refine ⟨_, .osome (.having e), by plain, by good, fun p' os fr l => ?_⟩
  flat l
  obtain ⟨k', os, rfl, hk', l⟩ := lp_kw kw (lp_sp l)
  exact .having hk' (r _ _ (hf.freeW hk hk') (lp_sp l)).1
theorem r_groupBy (hf : Fit m (k :: d :: ts)) (hd : isWord d b!"BY") (h : Ar m ts (.list vs)) :
    Cl m .groupBy (k :: d :: ts) (N.GroupByClause (expr := columns false vs)) := by
  obtain ⟨us, e, pl, g, r⟩ := r_plainColumns h
  refine ⟨_, .osome (.group e (echo_some e)), by simp [columns, N.ColumnExprList, V.plain, V.plainL, plainNode] at pl; plain, by good, fun p' os fr l => ?_⟩
  flat l
  obtain ⟨k', os, rfl, hk', l⟩ := lp_kw kw (lp_sp l)
  obtain ⟨d', os, rfl, hd', l⟩ := lp_kw kw (lp_sp l)
  exact .groupBy hk' hd' (r _ _ (hf.tail.freeW hd hd') (lp_sp l)).1

theorem r_orderItem (h : Ex m (.expr 0) ts v) : No m .orderItem ts (N.OrderExpr (expr := v)) := by
  obtain ⟨us, e, pl, g, r⟩ := h
  refine ⟨_, Echo.order e .onil .onil, by plain, by good, fun p' os fr l => ?_⟩
  flat l
  exact .orderItem (r _ _ fr l).1
theorem r_orderAsc (h : Ex m (.expr 0) ts v) : No m .orderItem (ts ++ [d]) (N.OrderExpr (expr := v) (direction := b!"ASC")) := by
  obtain ⟨us, e, pl, g, r⟩ := h
  refine ⟨_, Echo.orderDir (by simp) e .onil .onil, by plain, by good, fun p' os fr l => ?_⟩
  flat l
  obtain ⟨a, b, _, rfl, l1, l⟩ := lp_app l
  obtain ⟨d', os, rfl, hd', l⟩ := lp_kw kw (lp_sp l)
  cases lp_nil l
  exact .orderAsc (r _ _ fr.left l1).1 (.inl hd')
theorem r_orderDesc (h : Ex m (.expr 0) ts v) : No m .orderItem (ts ++ [d]) (N.OrderExpr (expr := v) (direction := b!"DESC")) := by
  obtain ⟨us, e, pl, g, r⟩ := h
  refine ⟨_, Echo.orderDir (by simp) e .onil .onil, by plain, by good, fun p' os fr l => ?_⟩
  flat l
  obtain ⟨a, b, _, rfl, l1, l⟩ := lp_app l
  obtain ⟨d', os, rfl, hd', l⟩ := lp_kw kw (lp_sp l)
  cases lp_nil l
  exact .orderDesc (r _ _ fr.left l1).1 (.inl hd')
theorem r_orderOne (h : No m .orderItem ts v) : Li m .orderItems ts (.list [v]) := by
  obtain ⟨us, e, pl, g, r⟩ := h
  exact ⟨_, Echo.lone e, by simp [V.plain, V.plainL, pl], g, fun p' os fr l => .orderOne (r _ _ fr l)⟩
theorem orders_cons (h : Core .orderItems ts i) : ∃ v ws, i = .list (v :: ws) := by
  cases h with
  | orderOne => exact ⟨_, _, rfl⟩
  | orderMore => exact ⟨_, _, rfl⟩
theorem r_orderMore (hf : Fit m (ts ++ c :: xs)) (hc : isSign c b!",") (h : Core .orderItems xs (.list vs)) (h1 : No m .orderItem ts v) (h2 : Li m .orderItems xs (.list vs)) :
    Li m .orderItems (ts ++ c :: xs) (.list (v :: vs)) := by
  obtain ⟨us, e1, p1, g1, r1⟩ := h1
  obtain ⟨ws, e2, p2, g2, r2⟩ := h2
  obtain ⟨w, vs', hw⟩ := orders_cons h
  cases hw
  refine ⟨_, Echo.lcons e1 e2, by simp [V.plain, V.plainL] at p2 ⊢; exact ⟨p1, p2⟩, by good, fun p' os fr l => ?_⟩
  flat l
  obtain ⟨a, b, _, rfl, l1, l⟩ := lp_app l
  obtain ⟨o', b, rfl, ho', _, l⟩ := lp_op l
  exact .orderMore (r1 _ _ fr.left l1) ho' (r2 _ _ (hf.right.freeS hc ho') (lp_sp l))
theorem r_orderBy (hf : Fit m (k :: d :: ts)) (hd : isWord d b!"BY") (hc : Core .orderItems ts v) (h : Li m .orderItems ts v) :
    Cl m .orderBy (k :: d :: ts) (N.OrderByClause (items := v)) := by
  obtain ⟨us, e, pl, g, r⟩ := h
  obtain ⟨w, vs', rfl⟩ := orders_cons hc
  refine ⟨_, .osome (.orderBy e (by simp) .onil), by simp only [V.plain, V.plainL, Bool.and_eq_true] at pl; plain, by good, fun p' os fr l => ?_⟩
  flat l
  obtain ⟨k', os, rfl, hk', l⟩ := lp_kw kw (lp_sp l)
  obtain ⟨d', os, rfl, hd', l⟩ := lp_kw kw (lp_sp l)
  exact .orderBy hk' hd' (r _ _ (hf.tail.freeW hd hd') (lp_sp l))
theorem r_limit (hf : Fit m (k :: ts)) (hk : isWord k b!"LIMIT") (h : Ex m (.expr 0) ts v) : No m .limit (k :: ts) (N.LimitClause (limit := v)) := by
  obtain ⟨us, e, pl, g, r⟩ := h
  refine ⟨_, .limit e (echo_some e), by plain, by good, fun p' os fr l => ?_⟩
  flat l
  obtain ⟨k', os, rfl, hk', l⟩ := lp_kw kw l
  exact .limit hk' (r _ _ (hf.freeW hk hk') (lp_sp l)).1
theorem r_limitOffset (hf : Fit m (k :: (ts ++ o :: xs))) (hk : isWord k b!"LIMIT") (ho : isWord o b!"OFFSET") (h : Ex m (.expr 0) ts v) (h' : Ex m (.expr 0) xs w) :
    No m .limit (k :: (ts ++ o :: xs)) (N.LimitClause (limit := v) (offset := w)) := by
  obtain ⟨us, e, pl, g, r⟩ := h
  obtain ⟨ws, e', pl', g', r'⟩ := h'
  refine ⟨_, .limitOff e e' (echo_some e) (echo_some e'), by plain, by good, fun p' os fr l => ?_⟩
  flat l
  obtain ⟨k', os, rfl, hk', l⟩ := lp_kw kw l
  obtain ⟨a, b, _, rfl, l1, l⟩ := lp_app (lp_sp l)
  obtain ⟨o', b, rfl, ho', l⟩ := lp_kw kw (lp_sp l)
  exact .limitOffset hk' (r _ _ (hf.freeW hk hk').left l1).1 ho' (r' _ _ (hf.tail.right.freeW ho ho') (lp_sp l)).1

/-- `LIMIT BY` and `LIMIT`. -/
abbrev Ls (m : Bool) (ts : List Token) (v : V) : Prop := Goal m .limits ts v

theorem r_limitsNo : Ls m [] (.list [.nil, .nil]) :=
  ⟨_, _, rfl, [], [], .onil, .onil, ⟨rfl, rfl⟩, by good, fun p' os fr l => by cases lp_nil l; exact .limitsNo⟩
theorem r_limitsOne (h : No m .limit ts v) : Ls m ts (.list [.nil, v]) := by
  obtain ⟨us, e, pl, g, r⟩ := h
  refine ⟨_, _, rfl, _, _, .onil, .osome e, ⟨rfl, pl⟩, by good, fun p' os fr l => ?_⟩
  flat l
  exact .limitsOne (r _ _ fr (lp_sp l))
theorem r_limitsOffset (hf : Fit m (k :: ts)) (hk : isWord k b!"OFFSET") (h : Ex m (.expr 0) ts v) : Ls m (k :: ts) (.list [.nil, N.LimitClause (offset := v)]) := by
  obtain ⟨us, e, pl, g, r⟩ := h
  refine ⟨_, _, rfl, _, _, .onil, .osome (.offset e (echo_some e)), ⟨rfl, by plain⟩, by good, fun p' os fr l => ?_⟩
  flat l
  obtain ⟨k', os, rfl, hk', l⟩ := lp_kw kw (lp_sp l)
  exact .limitsOffset hk' (r _ _ (hf.freeW hk hk') (lp_sp l)).1
theorem r_limitsBy (hf : Fit m (ts ++ k :: xs)) (hk : isWord k b!"BY") (h : No m .limit ts v) (h' : Ar m xs (.list vs)) :
    Ls m (ts ++ k :: xs) (.list [N.LimitByClause (limit := v) (byExpr := columns false vs), .nil]) := by
  obtain ⟨us, e, pl, g, r⟩ := h
  obtain ⟨ws, e', pl', g', r'⟩ := r_plainColumns h'
  refine ⟨_, _, rfl, _, _, .osome (.limitBy e e' (echo_some e) (echo_some e')), .onil,
    ⟨by simp [columns, N.ColumnExprList, V.plain, V.plainL, plainNode] at pl'; plain, rfl⟩, by good, fun p' os fr l => ?_⟩
  flat l
  obtain ⟨a, b, _, rfl, l1, l⟩ := lp_app (lp_sp l)
  obtain ⟨k', b, rfl, hk', l⟩ := lp_kw kw (lp_sp l)
  exact .limitsBy (r _ _ fr.left l1) hk' (r' _ _ (hf.right.freeW hk hk') (lp_sp l)).1
theorem r_limitsBoth (hf : Fit m (ts ++ k :: (xs ++ ys))) (hk : isWord k b!"BY") (hc : Core .limit ys w) (h : No m .limit ts v) (h' : Ar m xs (.list vs)) (h2 : No m .limit ys w) :
    Ls m (ts ++ k :: (xs ++ ys)) (.list [N.LimitByClause (limit := v) (byExpr := columns false vs), w]) := by
  obtain ⟨us, e, pl, g, r⟩ := h
  obtain ⟨ws, e', pl', g', r'⟩ := r_plainColumns h'
  obtain ⟨zs, e2, pl2, g2, r2⟩ := h2
  refine ⟨_, _, rfl, _, _, .osome (.limitBy e e' (echo_some e) (echo_some e')), .osome e2,
    ⟨by simp [columns, N.ColumnExprList, V.plain, V.plainL, plainNode] at pl'; plain, pl2⟩, by good, fun p' os fr l => ?_⟩
  flat l
  obtain ⟨a, b, _, rfl, l1, l⟩ := lp_app (lp_sp l)
  obtain ⟨k', b, rfl, hk', l⟩ := lp_kw kw (lp_sp l)
  obtain ⟨a', b, _, rfl, l2, l⟩ := lp_app (lp_sp l)
  exact .limitsBoth (r _ _ fr.left l1) hk' (r' _ _ (hf.right.freeW hk hk').left l2).1 (r2 _ _ (free_core hc rfl) (lp_sp l))

/-! ### `WITH` -/

theorem query_ty (h : Core .query ts v) : v.ty? = some .SelectQuery := by cases h; rfl
theorem r_cteQuery (hf : Fit m (ts ++ a :: o :: (xs ++ [c]))) (ho : isSign o b!"(") (hc : Core .query xs w) (h : Ex m (.expr 0) ts v) (h' : No m .query xs w) :
    No m .cte (ts ++ a :: o :: (xs ++ [c])) (N.CTEStmt (expr := v) («alias» := w)) := by
  obtain ⟨us, e, pl, g, r⟩ := h
  obtain ⟨ws, e', pl', g', r'⟩ := h'
  refine ⟨_, .cte e e' (query_ty hc), by plain, by good, fun p' os fr l => ?_⟩
  flat l
  obtain ⟨b, d, _, rfl, l1, l⟩ := lp_app l
  obtain ⟨a', d, rfl, ha', l⟩ := lp_kw kw (lp_sp l)
  obtain ⟨o', d, rfl, ho', _, l⟩ := lp_op (lp_sp l)
  obtain ⟨b', d, _, rfl, l2, l⟩ := lp_app l
  obtain ⟨c', d, rfl, hc', _, l⟩ := lp_op l
  cases lp_nil l
  exact .cteQuery (r _ _ fr.left l1).1 ha' ho' (r' _ _ (hf.right.tail.freeS ho ho').left l2) hc'
theorem r_cteName (hf : Fit m (ts ++ [a, t])) (ht : isAnyName t) (h : Ex m (.expr 0) ts v) : No m .cte (ts ++ [a, t]) (N.CTEStmt (expr := v) («alias» := Spec.name t)) := by
  obtain ⟨us, e, pl, g, r⟩ := h
  obtain ⟨e', pl', g', ty⟩ := name_print hf.right.tail.head ht
  refine ⟨_, .cteName e e' ty, by plain, by good, fun p' os fr l => ?_⟩
  flat l
  obtain ⟨b, d, _, rfl, l1, l⟩ := lp_app l
  obtain ⟨a', d, rfl, ha', l⟩ := lp_kw kw (lp_sp l)
  obtain ⟨t', d, rfl, ht', l⟩ := lp_word (lp_sp l)
  cases lp_nil l
  have hn := name_same hf.right.tail.head.1 ht ht'
  exact name_eq hn ▸ .cteName (r _ _ fr.left l1).1 ha' (any_eq hn ht)
theorem r_cteOne (h : No m .cte ts v) : Li m .ctes ts (.list [v]) := by
  obtain ⟨us, e, pl, g, r⟩ := h
  exact ⟨_, Echo.lone e, by simp [V.plain, V.plainL, pl], g, fun p' os fr l => .cteOne (r _ _ fr l)⟩
theorem ctes_cons (h : Core .ctes ts i) : ∃ v ws, i = .list (v :: ws) := by
  cases h with
  | cteOne => exact ⟨_, _, rfl⟩
  | cteMore => exact ⟨_, _, rfl⟩
theorem r_cteMore (hf : Fit m (ts ++ c :: xs)) (hc : isSign c b!",") (h : Core .ctes xs (.list vs)) (h1 : No m .cte ts v) (h2 : Li m .ctes xs (.list vs)) :
    Li m .ctes (ts ++ c :: xs) (.list (v :: vs)) := by
  obtain ⟨us, e1, p1, g1, r1⟩ := h1
  obtain ⟨ws, e2, p2, g2, r2⟩ := h2
  obtain ⟨w, vs', hw⟩ := ctes_cons h
  cases hw
  refine ⟨_, Echo.lcons e1 e2, by simp [V.plain, V.plainL] at p2 ⊢; exact ⟨p1, p2⟩, by good, fun p' os fr l => ?_⟩
  flat l
  obtain ⟨a, b, _, rfl, l1, l⟩ := lp_app l
  obtain ⟨o', b, rfl, ho', _, l⟩ := lp_op l
  exact .cteMore (r1 _ _ fr.left l1) ho' (r2 _ _ (hf.right.freeS hc ho') (lp_sp l))
theorem r_with (hf : Fit m (k :: ts)) (hk : isWord k b!"WITH") (hc : Core .ctes ts v) (h : Li m .ctes ts v) : Cl m .with_ (k :: ts) (N.WithClause (cTEs := v)) := by
  obtain ⟨us, e, pl, g, r⟩ := h
  obtain ⟨w, vs', rfl⟩ := ctes_cons hc
  refine ⟨_, .osome (.with_ e (by simp)), by simp only [V.plain, V.plainL, Bool.and_eq_true] at pl; plain, by good, fun p' os fr l => ?_⟩
  flat l
  obtain ⟨k', os, rfl, hk', l⟩ := lp_kw kw (lp_sp l)
  exact .with_ hk' (r _ _ (hf.freeW hk hk') (lp_sp l))

/-! ### Settings and the format -/

theorem r_settingNumber (hf : Fit m [n, e, t]) (hn : isPlainName n) (he : isSign e b!"=") (ht : t.kind = .int) :
    No m .setting [n, e, t] (N.SettingExpr (name := Spec.name n) (expr := N.NumberLiteral (literal := t.str) (base := t.base))) := by
  obtain ⟨e', pl', g', _⟩ := name_print hf.head (.inl hn)
  have g := num_good hf.tail.tail.head.1 (.inl ht) hf.tail.tail.head.2
  refine ⟨_, .setting e' .num, by plain, by good, fun p' os fr l => ?_⟩
  flat l
  obtain ⟨n', os, rfl, hn', l⟩ := lp_word l
  obtain ⟨e', os, rfl, he', _, l⟩ := lp_op l
  obtain ⟨t', os, rfl, ht', l⟩ := lp_num (.inl ht) (hf.tail.freeS he he' t rfl) l
  cases lp_nil l
  have hc := name_same hf.head.1 (.inl hn) hn'
  obtain ⟨h1, h2, h3, _⟩ := content_at (num_same hf.tail.tail.head.1 (.inl ht) ht')
  have := Core.settingNumber (t := t') (plainName_eq hc hn) he' (by rw [h1]; exact ht)
  rw [h2, h3, name_eq hc] at this
  exact this
theorem r_settingString (hf : Fit m [n, e, t]) (hn : isPlainName n) (ht : t.kind = .string) :
    No m .setting [n, e, t] (N.SettingExpr (name := Spec.name n) (expr := N.StringLiteral (literal := t.str))) := by
  obtain ⟨e', pl', g', _⟩ := name_print hf.head (.inl hn)
  have g := str_good hf.tail.tail.head.1 ht hf.tail.tail.head.2
  refine ⟨_, .setting e' .str, by plain, by good, fun p' os fr l => ?_⟩
  flat l
  obtain ⟨n', os, rfl, hn', l⟩ := lp_word l
  obtain ⟨e', os, rfl, he', _, l⟩ := lp_op l
  obtain ⟨t', os, rfl, ht', l⟩ := lp_str l
  cases lp_nil l
  have hc := name_same hf.head.1 (.inl hn) hn'
  obtain ⟨h1, h2, _⟩ := content_at (str_same hf.tail.tail.head.1 ht ht')
  have := Core.settingString (t := t') (plainName_eq hc hn) he' (by rw [h1]; exact ht)
  rw [h2, name_eq hc] at this
  exact this
theorem r_settingBool (hf : Fit m [n, e, t]) (hn : isPlainName n) (ht : isWord t b!"TRUE" ∨ isWord t b!"FALSE") :
    No m .setting [n, e, t] (N.SettingExpr (name := Spec.name n) (expr := N.BoolLiteral (literal := t.str))) := by
  obtain ⟨e', pl', g', _⟩ := name_print hf.head (.inl hn)
  have g := raw_good hf.tail.tail.head.1 (ht.elim (·.1) (·.1)) hf.tail.tail.head.2
  have hw : isKw (upper t.str) = true := by rcases ht with ht | ht <;> (rw [ht.2]; decide +kernel)
  refine ⟨_, .setting e' .bool, by plain, by good, fun p' os fr l => ?_⟩
  flat l
  obtain ⟨n', os, rfl, hn', l⟩ := lp_word l
  obtain ⟨e', os, rfl, he', _, l⟩ := lp_op l
  obtain ⟨t', os, rfl, h1, h2, l⟩ := lp_raw hw l
  cases lp_nil l
  have hc := name_same hf.head.1 (.inl hn) hn'
  have := Core.settingBool (t := t') (plainName_eq hc hn) he' (by unfold isWord at ht ⊢; rw [h2]; exact ht.imp (fun h => ⟨h1, h.2⟩) (fun h => ⟨h1, h.2⟩))
  rw [h2, name_eq hc] at this
  exact this
theorem r_settingOne (h : No m .setting ts v) : Li m .settingItems ts (.list [v]) := by
  obtain ⟨us, e, pl, g, r⟩ := h
  exact ⟨_, Echo.lone e, by simp [V.plain, V.plainL, pl], g, fun p' os fr l => .settingOne (r _ _ fr l)⟩
theorem settings_cons (h : Core .settingItems ts i) : ∃ v ws, i = .list (v :: ws) := by
  cases h with
  | settingOne => exact ⟨_, _, rfl⟩
  | settingMore => exact ⟨_, _, rfl⟩
theorem r_settingMore (hf : Fit m (ts ++ c :: xs)) (hc : isSign c b!",") (h : Core .settingItems xs (.list vs)) (h1 : No m .setting ts v) (h2 : Li m .settingItems xs (.list vs)) :
    Li m .settingItems (ts ++ c :: xs) (.list (v :: vs)) := by
  obtain ⟨us, e1, p1, g1, r1⟩ := h1
  obtain ⟨ws, e2, p2, g2, r2⟩ := h2
  obtain ⟨w, vs', hw⟩ := settings_cons h
  cases hw
  refine ⟨_, Echo.lcons e1 e2, by simp [V.plain, V.plainL] at p2 ⊢; exact ⟨p1, p2⟩, by good, fun p' os fr l => ?_⟩
  flat l
  obtain ⟨a, b, _, rfl, l1, l⟩ := lp_app l
  obtain ⟨o', b, rfl, ho', _, l⟩ := lp_op l
  exact .settingMore (r1 _ _ fr.left l1) ho' (r2 _ _ (hf.right.freeS hc ho') (lp_sp l))
theorem r_settings (hf : Fit m (k :: ts)) (hk : isWord k b!"SETTINGS") (hc : Core .settingItems ts v) (h : Li m .settingItems ts v) :
    Cl m .settings (k :: ts) (N.SettingsClause (items := v)) := by
  obtain ⟨us, e, pl, g, r⟩ := h
  obtain ⟨w, vs', rfl⟩ := settings_cons hc
  refine ⟨_, .osome (.settings e (by simp)), by simp only [V.plain, V.plainL, Bool.and_eq_true] at pl; plain, by good, fun p' os fr l => ?_⟩
  flat l
  obtain ⟨k', os, rfl, hk', l⟩ := lp_kw kw (lp_sp l)
  exact .settings hk' (r _ _ (hf.freeW hk hk') (lp_sp l))
theorem r_format (hf : Fit m [k, t]) (ht : isPlainName t) : Cl m .format [k, t] (N.FormatClause (format_ := Spec.name t)) := by
  obtain ⟨e', pl', g', _⟩ := name_print hf.tail.head (.inl ht)
  refine ⟨_, .osome (.format e'), by plain, by good, fun p' os fr l => ?_⟩
  flat l
  obtain ⟨k', os, rfl, hk', l⟩ := lp_kw kw (lp_sp l)
  obtain ⟨t', os, rfl, ht', l⟩ := lp_word (lp_sp l)
  cases lp_nil l
  have hc := name_same hf.tail.head.1 (.inl ht) ht'
  exact name_eq hc ▸ .format hk' (plainName_eq hc ht)

/-! ### Queries -/

/-- What comes after the first `SELECT`. -/
abbrev Co (m : Bool) (ts : List Token) (v : V) : Prop := Goal m .compound ts v

theorem r_alone : Co m [] (.list [.nil, .nil, .nil, .nil]) :=
  ⟨_, _, _, _, rfl, [], [], [], [], .onil, .onil, .onil, .onil, by simp, ⟨rfl, rfl, rfl, rfl⟩, by good, fun p' os fr l => by cases lp_nil l; exact .alone⟩
theorem r_unionAll (hc : Core .query ts v) (h : No m .query ts v) : Co m (k :: a :: ts) (.list [v, .nil, .nil, .nil]) := by
  obtain ⟨us, e, pl, g, r⟩ := h
  refine ⟨_, _, _, _, rfl, _, _, _, _, .osome e, .onil, .onil, .onil, by simp, ⟨pl, rfl, rfl, rfl⟩, by good, fun p' os fr l => ?_⟩
  flat l
  obtain ⟨k', os, rfl, hk', l⟩ := lp_kw kw (lp_sp l)
  obtain ⟨a', os, rfl, ha', l⟩ := lp_kw kw (lp_sp l)
  exact .unionAll hk' ha' (r _ _ (free_core hc rfl) (lp_sp l))
theorem r_unionDistinct (hc : Core .query ts v) (h : No m .query ts v) : Co m (k :: a :: ts) (.list [.nil, v, .nil, .nil]) := by
  obtain ⟨us, e, pl, g, r⟩ := h
  refine ⟨_, _, _, _, rfl, _, _, _, _, .onil, .osome e, .onil, .onil, by simp, ⟨rfl, pl, rfl, rfl⟩, by good, fun p' os fr l => ?_⟩
  flat l
  obtain ⟨k', os, rfl, hk', l⟩ := lp_kw kw (lp_sp l)
  obtain ⟨a', os, rfl, ha', l⟩ := lp_kw kw (lp_sp l)
  exact .unionDistinct hk' ha' (r _ _ (free_core hc rfl) (lp_sp l))
theorem r_except (hc : Core .query ts v) (h : No m .query ts v) : Co m (k :: ts) (.list [.nil, .nil, v, .nil]) := by
  obtain ⟨us, e, pl, g, r⟩ := h
  refine ⟨_, _, _, _, rfl, _, _, _, _, .onil, .onil, .osome e, .onil, by simp, ⟨rfl, rfl, pl, rfl⟩, by good, fun p' os fr l => ?_⟩
  flat l
  obtain ⟨k', os, rfl, hk', l⟩ := lp_kw kw (lp_sp l)
  exact .except hk' (r _ _ (free_core hc rfl) (lp_sp l))
theorem r_intersect (hc : Core .query ts v) (h : No m .query ts v) : Co m (k :: ts) (.list [.nil, .nil, .nil, v]) := by
  obtain ⟨us, e, pl, g, r⟩ := h
  refine ⟨_, _, _, _, rfl, _, _, _, _, .onil, .onil, .onil, .osome e, by simp, ⟨rfl, rfl, rfl, pl⟩, by good, fun p' os fr l => ?_⟩
  flat l
  obtain ⟨k', os, rfl, hk', l⟩ := lp_kw kw (lp_sp l)
  exact .intersect hk' (r _ _ (free_core hc rfl) (lp_sp l))

theorem r_query {es is fs ps ws gs hs os ls ss us : List Token} {e i f p w g h o y z s n ua ud ex it : V}
    (hf : Fit m (es ++ k :: (ds ++ (is ++ (fs ++ (ps ++ (ws ++ (gs ++ (hs ++ (os ++ (ls ++ (ss ++ (ms ++ us)))))))))))))
    (c0 : Core .with_ es e) (hk : isWord k b!"SELECT") (hd : Core .distinct ds (.bool b))
    (c1 : Core .items is i) (c2 : Core .from_ fs f) (c3 : Core .prewhere ps p) (c4 : Core .where_ ws w) (c5 : Core .groupBy gs g) (c6 : Core .having hs h)
    (c7 : Core .orderBy os o) (c8 : Core .limits ls (.list [y, z])) (c9 : Core .settings ss s) (c10 : Core .format ms n) (c11 : Core .compound us (.list [ua, ud, ex, it]))
    (hx : ex = .nil ∧ it = .nil ∨ f ≠ .nil) (h0 : Cl m .with_ es e)
    (h1 : Li m .items is i) (h2 : Cl m .from_ fs f) (h3 : Cl m .prewhere ps p) (h4 : Cl m .where_ ws w) (h5 : Cl m .groupBy gs g) (h6 : Cl m .having hs h)
    (h7 : Cl m .orderBy os o) (h8 : Ls m ls (.list [y, z])) (h9 : Cl m .settings ss s) (h10 : Cl m .format ms n) (h11 : Co m us (.list [ua, ud, ex, it])) :
    No m .query (es ++ k :: (ds ++ (is ++ (fs ++ (ps ++ (ws ++ (gs ++ (hs ++ (os ++ (ls ++ (ss ++ (ms ++ us))))))))))))
      (N.SelectQuery (with_ := e) (hasDistinct := b) (selectItems := i) (from_ := f) (prewhere := p) (where_ := w) (groupBy := g) (having := h) (orderBy := o)
        (limitBy := y) (limit := z) (settings := s) (format_ := n) (unionAll := ua) (unionDistinct := ud) (except := ex) (intersect := it)) := by
  obtain ⟨u0, e0, p0, g0, r0⟩ := unspace h0
  obtain ⟨u1, e1, p1, g1, r1⟩ := h1
  obtain ⟨u2, e2, p2, g2, r2⟩ := h2
  obtain ⟨u3, e3, p3, g3, r3⟩ := h3
  obtain ⟨u4, e4, p4, g4, r4⟩ := h4
  obtain ⟨u5, e5, p5, g5, r5⟩ := h5
  obtain ⟨u6, e6, p6, g6, r6⟩ := h6
  obtain ⟨u7, e7, p7, g7, r7⟩ := h7
  obtain ⟨y, z, hyl, u8, u8', e8, e8', p8, g8, r8⟩ := h8
  cases hyl
  obtain ⟨u9, e9, p9, g9, r9⟩ := h9
  obtain ⟨u10, e10, p10, g10, r10⟩ := h10
  obtain ⟨ua, ud, ex, it, hu, u11, u12, u13, u14, e11, e12, e13, e14, x11, p11, g11, r11⟩ := h11
  cases hu
  obtain ⟨v, vs, rfl⟩ := items_cons c1
  have gb := good_bl (m := m) (b := e.nonNil)
  rw [good_append] at g8
  rw [good_append, good_append, good_append] at g11
  refine ⟨_, Echo.select (d := b) e0 .onil (by simp [V.nonNil]) .onil e1 (by simp) e2 e3 e4 e5 e6 e7 e8 e8' e9 e10 e11 e12 e13 e14 x11.1 x11.2.1 x11.2.2,
    by simp only [V.plain, V.plainL, Bool.and_eq_true] at p1; plain, ?_, fun p' os' fr l => ?_⟩
  · obtain ⟨g8, g8'⟩ := g8
    obtain ⟨g11, g12, g13, g14⟩ := g11
    cases b
    · simp only [Bool.false_eq_true, if_false]
      good
    · simp only [if_true]
      good
  · have key : ∀ (q : Option Token) (x : List Token), Free is q →
        LexedP q (u1 ++ (u2 ++ (u3 ++ (u4 ++ (u5 ++ (u6 ++ (u7 ++ (u8 ++ (u8' ++ (u9 ++ (u10 ++ (u11 ++ (u12 ++ (u13 ++ u14)))))))))))))) x →
        ∃ is fs ps ws gs hs os ls ss ms us, x = is ++ (fs ++ (ps ++ (ws ++ (gs ++ (hs ++ (os ++ (ls ++ (ss ++ (ms ++ us))))))))) ∧
          Core .items is (.list (v :: vs)) ∧ Core .from_ fs f ∧
          Core .prewhere ps p ∧ Core .where_ ws w ∧ Core .groupBy gs g ∧ Core .having hs h ∧ Core .orderBy os o ∧ Core .limits ls (.list [y, z]) ∧ Core .settings ss s ∧
          Core .format ms n ∧ Core .compound us (.list [ua, ud, ex, it]) := by
      intro q x fr l
      obtain ⟨a1, x, _, rfl, l1, l⟩ := lp_app l
      obtain ⟨a2, x, _, rfl, l2, l⟩ := lp_app l
      obtain ⟨a3, x, _, rfl, l3, l⟩ := lp_app l
      obtain ⟨a4, x, _, rfl, l4, l⟩ := lp_app l
      obtain ⟨a5, x, _, rfl, l5, l⟩ := lp_app l
      obtain ⟨a6, x, _, rfl, l6, l⟩ := lp_app l
      obtain ⟨a7, x, _, rfl, l7, l⟩ := lp_app l
      rw [← List.append_assoc u8] at l
      obtain ⟨a8, x, _, rfl, l8, l⟩ := lp_app l
      obtain ⟨a9, x, _, rfl, l9, l⟩ := lp_app l
      obtain ⟨a10, a11, _, rfl, l10, l11⟩ := lp_app l
      exact ⟨a1, a2, a3, a4, a5, a6, a7, a8, a9, a10, a11, rfl, r1 _ _ fr l1, r2 _ _ (free_core c2 rfl) l2, r3 _ _ (free_core c3 rfl) l3, r4 _ _ (free_core c4 rfl) l4,
        r5 _ _ (free_core c5 rfl) l5, r6 _ _ (free_core c6 rfl) l6, r7 _ _ (free_core c7 rfl) l7, r8 _ _ (free_core c8 rfl) l8, r9 _ _ (free_core c9 rfl) l9,
        r10 _ _ (free_core c10 rfl) l10, r11 _ _ (free_core c11 rfl) l11⟩
    flat l
    obtain ⟨es, x, _, rfl, l0, l⟩ := lp_app l
    have d0 := r0 _ _ (free_core c0 rfl) l0
    obtain ⟨k', x, rfl, hk', l⟩ := lp_kw kw (lp_bl l)
    cases hd with
    | distinctNo =>
      simp only [Bool.false_eq_true, if_false, List.nil_append] at l
      simp only [List.nil_append] at hf
      obtain ⟨is, fs, ps, ws, gs, hs, os, ls, ss, ms, us, rfl, d1, d2, d3, d4, d5, d6, d7, d8, d9, d10, d11⟩ := key _ _ (hf.right.freeW hk hk').left (lp_sp l)
      exact .query (ds := []) d0 hk' .distinctNo d1 d2 d3 d4 d5 d6 d7 d8 d9 d10 d11 hx
    | distinctYes hd =>
      simp only [if_true, List.cons_append, List.nil_append] at l
      simp only [List.cons_append, List.nil_append] at hf
      obtain ⟨d', x, rfl, hd', l⟩ := lp_kw kw (lp_sp l)
      obtain ⟨is, fs, ps, ws, gs, hs, os, ls, ss, ms, us, rfl, d1, d2, d3, d4, d5, d6, d7, d8, d9, d10, d11⟩ := key _ _ (hf.right.tail.freeW hd hd').left (lp_sp l)
      exact .query (ds := [d']) d0 hk' (.distinctYes hd') d1 d2 d3 d4 d5 d6 d7 d8 d9 d10 d11 hx

end Verif.Again

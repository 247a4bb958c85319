/-
Units of the core language are printed and read again.  No definition here is part of the model.
-/
import Verif.Again.Expr

namespace Verif.Again
open Verif.Spec Verif.Echo

variable {p q : Nat} {us ws : List E} {os ts xs ys ds : List Token} {m b : Bool} {t o a n c f k d e : Token} {v w x : V} {vs : List V}

/-- A list with commas that is printed and read again. -/
abbrev Li (m : Bool) (c : Cat) (ts : List Token) (v : V) : Prop := Claim m (.l comma) ts v fun os => Core c os v

theorem name_eq (h : o.content = t.content) : Spec.name o = Spec.name t := by
  obtain ⟨_, h1, _, h2⟩ := content_at h
  unfold Spec.name
  rw [h1, h2]
theorem any_eq (h : o.content = t.content) (ht : isAnyName t) : isAnyName o := by
  unfold isAnyName
  rw [(content_at h).1]
  exact ht
theorem plainName_eq (h : o.content = t.content) (ht : isPlainName t) : isPlainName o := by
  unfold isPlainName
  rw [(content_at h).1]
  exact ht

/-- A name, as it is printed. -/
theorem name_print (hf : Src t ∧ (m = true → 10 ∉ t.str)) (ht : isAnyName t) :
    Echo .n (Spec.name t) [.word t.str t.quote] ∧ (Spec.name t).plain = true ∧ GoodE m (.word t.str t.quote) ∧ (Spec.name t).ty? = some .Ident :=
  ⟨.word, rfl, name_good hf.1 ht hf.2, rfl⟩

theorem r_name (hf : Fit m [t]) (ht : isPlainName t) : Ex m .atom [t] (Spec.name t) := by
  obtain ⟨e, pl, g, _⟩ := name_print hf.head (.inl ht)
  refine ⟨_, e, pl, by good, fun p' os fr l => ?_⟩
  obtain ⟨o, os, rfl, ho, l⟩ := lp_word l
  cases lp_nil l
  have hc := name_same hf.head.1 (.inl ht) ho
  exact ⟨name_eq hc ▸ .name (plainName_eq hc ht), .content hc⟩
theorem r_number (hf : Fit m [t]) (ht : t.kind = .int ∨ t.kind = .float) : Ex m .atom [t] (N.NumberLiteral (literal := t.str) (base := t.base)) := by
  have g := num_good hf.head.1 ht hf.head.2
  refine ⟨_, Echo.num, by plain, by good, fun p' os fr l => ?_⟩
  obtain ⟨o, os, rfl, ho, l⟩ := lp_num ht (fr t rfl) l
  cases lp_nil l
  have hc := num_same hf.head.1 ht ho
  obtain ⟨h1, h2, h3, _⟩ := content_at hc
  have := Core.number (t := o) (by rw [h1]; exact ht)
  rw [h2, h3] at this
  exact ⟨this, .content hc⟩
theorem r_string (hf : Fit m [t]) (ht : t.kind = .string) : Ex m .atom [t] (N.StringLiteral (literal := t.str)) := by
  have g := str_good hf.head.1 ht hf.head.2
  refine ⟨_, Echo.str, by plain, by good, fun p' os fr l => ?_⟩
  obtain ⟨o, os, rfl, ho, l⟩ := lp_str l
  cases lp_nil l
  have hc := str_same hf.head.1 ht ho
  obtain ⟨h1, h2, _⟩ := content_at hc
  have := Core.string (t := o) (by rw [h1]; exact ht)
  rw [h2] at this
  exact ⟨this, .content hc⟩
theorem r_star (hf : Fit m [t]) (ht : isSign t b!"*") : Ex m .atom [t] (N.Ident (name := b!"*")) := by
  refine ⟨_, Echo.star, by plain, by good, fun p' os fr l => ?_⟩
  obtain ⟨o, os, rfl, ho, hs, l⟩ := lp_op l
  cases lp_nil l
  exact ⟨.star ho, .sign ht ho (by rw [hs, src_op hf.head.1 ht (by decide)])⟩

theorem r_cast (hf : Fit m (ts ++ [o, t])) (hp : p < 16) (ht : isPlainName t) (hs : t.str ≠ b!"Tuple") (h : Ex m (.expr 15) ts v) :
    Ex m (.expr p) (ts ++ [o, t]) (N.BinaryOperation (leftExpr := v) (operation := b!"::") (rightExpr := Spec.name t)) := by
  obtain ⟨us, e, pl, g, r⟩ := h
  obtain ⟨e', pl', g', _⟩ := name_print hf.right.tail.head (.inl ht)
  refine ⟨_, Echo.cast e e', by plain, by good, fun p' os fr l => ?_⟩
  flat l
  obtain ⟨b, c, _, rfl, l1, l⟩ := lp_app l
  obtain ⟨o', c, rfl, ho', _, l⟩ := lp_op l
  obtain ⟨t', c, rfl, ht', l⟩ := lp_word l
  cases lp_nil l
  have hn := name_same hf.right.tail.head.1 (.inl ht) ht'
  obtain ⟨c1, d1⟩ := r _ _ fr.left l1
  exact ⟨name_eq hn ▸ .cast hp ho' (plainName_eq hn ht) (by rw [(content_at hn).2.1]; exact hs) c1, d1.append⟩

/-- Names with points between them. -/
abbrev Do (m : Bool) (ts : List Token) (v : V) : Prop := Claim m (.l [.op b!"."]) ts v fun os => Core .dotted os v

theorem r_dotOne (hf : Fit m [t]) (ht : isAnyName t) : Do m [t] (.list [Spec.name t]) := by
  obtain ⟨e, pl, g, _⟩ := name_print hf.head ht
  refine ⟨_, Echo.lone e, by plain, by good, fun p' os fr l => ?_⟩
  obtain ⟨o, os, rfl, ho, l⟩ := lp_word l
  cases lp_nil l
  have hc := name_same hf.head.1 ht ho
  exact name_eq hc ▸ .dotOne (any_eq hc ht)

/-- Lists in a list of dotted names are not empty. -/
theorem dotted_cons (h : Core .dotted ts (.list vs)) : ∃ v ws, vs = v :: ws := by
  cases h with
  | dotOne => exact ⟨_, _, rfl⟩
  | dotMore => exact ⟨_, _, rfl⟩

theorem r_dotMore (hf : Fit m (t :: d :: ts)) (ht : isAnyName t) (hc : Core .dotted ts (.list vs)) (h : Do m ts (.list vs)) : Do m (t :: d :: ts) (.list (Spec.name t :: vs)) := by
  obtain ⟨us, e, pl, g, r⟩ := h
  obtain ⟨e', pl', g', _⟩ := name_print hf.head ht
  obtain ⟨v, vs, rfl⟩ := dotted_cons hc
  refine ⟨_, Echo.lcons e' e, by simp [V.plain, V.plainL] at pl pl' ⊢; exact ⟨pl', pl⟩, by good, fun p' os fr l => ?_⟩
  flat l
  obtain ⟨o, os, rfl, ho, l⟩ := lp_word l
  obtain ⟨d', os, rfl, hd', _, l⟩ := lp_op l
  have hn := name_same hf.head.1 ht ho
  exact name_eq hn ▸ .dotMore (any_eq hn ht) hd' (r _ _ (free_core hc rfl) l)

theorem r_path (hf : Fit m (t :: d :: ts)) (ht : isPlainName t) (hc : Core .dotted ts (.list vs)) (h : Do m ts (.list vs)) :
    Ex m .atom (t :: d :: ts) (N.Path (fields := .list (Spec.name t :: vs))) := by
  obtain ⟨us, e, pl, g, r⟩ := h
  obtain ⟨e', pl', g', _⟩ := name_print hf.head (.inl ht)
  obtain ⟨v, vs, rfl⟩ := dotted_cons hc
  refine ⟨_, Echo.path (Echo.lcons e' e), by simp [V.plain, V.plainL, N.Path, plainNode] at pl pl' ⊢; exact ⟨pl', pl⟩, by good, fun p' os fr l => ?_⟩
  flat l
  obtain ⟨o, os, rfl, ho, l⟩ := lp_word l
  obtain ⟨d', os, rfl, hd', _, l⟩ := lp_op l
  have hn := name_same hf.head.1 (.inl ht) ho
  exact ⟨name_eq hn ▸ .path (plainName_eq hn ht) hd' (r _ _ (free_core hc rfl) l), .content hn⟩

theorem r_tableStar {s : Token} (hf : Fit m [t, d, s]) (ht : isPlainName t) :
    Ex m .atom [t, d, s] (N.NestedIdentifier (ident := Spec.name t) (dotIdent := N.Ident (name := b!"*"))) := by
  obtain ⟨e', pl', g', _⟩ := name_print hf.head (.inl ht)
  refine ⟨_, Echo.nested e' (.osome .star), by plain, by good, fun p' os fr l => ?_⟩
  flat l
  obtain ⟨o, os, rfl, ho, l⟩ := lp_word l
  obtain ⟨d', os, rfl, hd', _, l⟩ := lp_op l
  obtain ⟨s', os, rfl, hs', _, l⟩ := lp_op l
  cases lp_nil l
  have hn := name_same hf.head.1 (.inl ht) ho
  exact ⟨name_eq hn ▸ .tableStar (plainName_eq hn ht) hd' hs', .content hn⟩

/-! ### Lists of arguments -/

theorem r_arg (h : Ex m (.expr 0) ts v) : Ex m .arg ts (N.ColumnExpr (expr := v)) := by
  obtain ⟨us, e, pl, g, r⟩ := h
  refine ⟨_, Echo.column e .onil, by plain, by good, fun p' os fr l => ?_⟩
  flat l
  obtain ⟨r1, r2⟩ := r _ _ fr l
  exact ⟨.arg r1, r2⟩
theorem r_argAs (hf : Fit m (ts ++ [a, t])) (ht : isAnyName t) (h : Ex m (.expr 0) ts v) : Ex m .arg (ts ++ [a, t]) (N.ColumnExpr (expr := v) («alias» := Spec.name t)) := by
  obtain ⟨us, e, pl, g, r⟩ := h
  obtain ⟨e', pl', g', _⟩ := name_print hf.right.tail.head ht
  refine ⟨_, Echo.column e (.osome e'), by simp [V.plain, V.plainL, plainNode, N.ColumnExpr, pl, pl'], by good, fun p' os fr l => ?_⟩
  flat l
  obtain ⟨b, c, _, rfl, l1, l⟩ := lp_app l
  obtain ⟨a', c, rfl, ha', l⟩ := lp_kw kw (lp_sp l)
  obtain ⟨t', c, rfl, ht', l⟩ := lp_word (lp_sp l)
  cases lp_nil l
  have hn := name_same hf.right.tail.head.1 ht ht'
  obtain ⟨r1, r2⟩ := r _ _ fr.left l1
  exact ⟨name_eq hn ▸ .argAs r1 ha' (any_eq hn ht), r2.append⟩

/-- A list of arguments, not empty. -/
abbrev Ar (m : Bool) (ts : List Token) (v : V) : Prop := Claim m (.l comma) ts v fun os => Core .args1 os v ∧ Lead ts os

theorem r_argOne (h : Ex m .arg ts v) : Ar m ts (.list [v]) := by
  obtain ⟨us, e, pl, g, r⟩ := h
  refine ⟨_, Echo.lone e, by simp [V.plain, V.plainL, pl], g, fun p' os fr l => ?_⟩
  obtain ⟨r1, r2⟩ := r _ _ fr l
  exact ⟨.argOne r1, r2⟩
theorem args_cons (h : Core .args1 ts (.list vs)) : ∃ v ws, vs = v :: ws := by
  cases h with
  | argOne => exact ⟨_, _, rfl⟩
  | argMore => exact ⟨_, _, rfl⟩
theorem r_argMore (hf : Fit m (ts ++ c :: xs)) (hc : isSign c b!",") (h1 : Ex m .arg ts v) (h : Core .args1 xs (.list vs)) (h2 : Ar m xs (.list vs)) :
    Ar m (ts ++ c :: xs) (.list (v :: vs)) := by
  obtain ⟨us, e1, p1, g1, r1⟩ := h1
  obtain ⟨ws, e2, p2, g2, r2⟩ := h2
  obtain ⟨w, vs, rfl⟩ := args_cons h
  refine ⟨_, Echo.lcons e1 e2, by simp [V.plain, V.plainL] at p2 ⊢; exact ⟨p1, p2⟩, by good, fun p' os fr l => ?_⟩
  flat l
  obtain ⟨a, b, _, rfl, l1, l⟩ := lp_app l
  obtain ⟨o', b, rfl, ho', _, l⟩ := lp_op l
  obtain ⟨c1, d1⟩ := r1 _ _ fr.left l1
  obtain ⟨c2, _⟩ := r2 _ _ (hf.right.freeS hc ho') (lp_sp l)
  exact ⟨.argMore c1 ho' c2, d1.append⟩
theorem r_args (h : Ar m ts v) : Li m .args ts v := by
  obtain ⟨us, e, pl, g, r⟩ := h
  exact ⟨us, e, pl, g, fun p' os fr l => .args (r _ _ fr l).1⟩
theorem r_argsNo : Li m .args [] (.list []) := ⟨[], .lnil, rfl, by good, fun p' os fr l => by cases lp_nil l; exact .argsNo⟩

theorem r_columns {s : Str} (hf : Fit m (o :: (ds ++ (xs ++ ys)))) (ho : isSign o s) (hd : Core .distinct ds (.bool b)) (h : Li m .args xs (.list vs)) :
    ∃ us, Echo .n (columns b vs) us ∧ (columns b vs).plain = true ∧ Good m us ∧
      ∀ o' os, isSign o' s → LexedP (some o') us os → ∃ d os', os = d ++ os' ∧ Core .distinct d (.bool b) ∧ Core .args os' (.list vs) := by
  obtain ⟨us, e, pl, g, r⟩ := h
  simp only [V.plain] at pl
  cases hd with
  | distinctNo =>
    rw [List.nil_append] at hf
    exact ⟨_, Echo.exprs e, by plain, g, fun o' os ho' l => ⟨[], os, rfl, .distinctNo, r _ _ (hf.freeS ho ho').left l⟩⟩
  | distinctYes ht =>
    simp only [List.cons_append, List.nil_append] at hf
    refine ⟨_, Echo.exprsD e, by plain, by good, fun o' os ho' l => ?_⟩
    flat l
    obtain ⟨d, os, rfl, hd, l⟩ := lp_kw kw l
    exact ⟨[d], os, rfl, .distinctYes hd, r _ _ (hf.tail.freeW ht hd).left (lp_sp l)⟩

theorem r_params (hf : Fit m (o :: (ds ++ (xs ++ [c])))) (ho : isSign o b!"(") (hd : Core .distinct ds (.bool b)) (h : Li m .args xs (.list vs)) :
    ∃ us, Echo .n (N.ParamExprList (items := columns b vs)) us ∧ (N.ParamExprList (items := columns b vs)).plain = true ∧ Good m us ∧
      ∀ p os, LexedP p us os → ∃ o' d os' c', os = o' :: (d ++ (os' ++ [c'])) ∧ isSign o' b!"(" ∧ o'.str = b!"(" ∧ Core .distinct d (.bool b) ∧
        Core .args os' (.list vs) ∧ isSign c' b!")" := by
  obtain ⟨us, e, pl, g, r⟩ := r_columns hf ho hd h
  refine ⟨_, Echo.params e .onil, by simp [V.plain, V.plainL, N.ParamExprList, plainNode, pl], by good, fun p' os l => ?_⟩
  flat l
  obtain ⟨o', os, rfl, ho', hs, l⟩ := lp_op l
  obtain ⟨x, y, _, rfl, l1, l⟩ := lp_app l
  obtain ⟨c', os, rfl, hc', _, l⟩ := lp_op l
  cases lp_nil l
  obtain ⟨d, os', rfl, h1, h2⟩ := r _ _ ho' l1
  exact ⟨o', d, os', c', by simp, ho', hs, h1, h2, hc'⟩

theorem r_list (hf : Fit m (o :: (ds ++ (xs ++ [c])))) (ho : isSign o b!"(") (hd : Core .distinct ds (.bool b)) (h : Li m .args xs (.list vs)) :
    Ex m .atom (o :: (ds ++ (xs ++ [c]))) (N.ParamExprList (items := columns b vs)) := by
  obtain ⟨us, e, pl, g, r⟩ := r_params hf ho hd h
  refine ⟨us, e, pl, g, fun p' os fr l => ?_⟩
  obtain ⟨o', d, os, c', rfl, h1, h0, h2, h3, h4⟩ := r _ _ l
  exact ⟨.list h1 h2 h3 h4, .sign ho h1 (by rw [h0, src_op hf.head.1 ho (by decide)])⟩
theorem r_array (hf : Fit m (o :: (ds ++ (xs ++ [c])))) (ho : isSign o b!"[") (hd : Core .distinct ds (.bool b)) (h : Li m .args xs (.list vs)) (hb : b = false) :
    Ex m .atom (o :: (ds ++ (xs ++ [c]))) (N.ArrayParamList (items := columns b vs)) := by
  subst hb
  cases hd
  simp only [List.nil_append] at hf
  obtain ⟨us, e, pl, g, r⟩ := h
  simp only [V.plain] at pl
  refine ⟨_, Echo.array e, by plain, by good, fun p' os fr l => ?_⟩
  flat l
  obtain ⟨o', os, rfl, ho', hs, l⟩ := lp_op l
  obtain ⟨x, y, _, rfl, l1, l⟩ := lp_app l
  obtain ⟨c', os, rfl, hc', _, l⟩ := lp_op l
  cases lp_nil l
  have := r _ _ (hf.freeS ho ho').left l1
  exact ⟨.array (ts := []) ho' .distinctNo this hc', .sign ho ho' (by rw [hs, src_op hf.head.1 ho (by decide)])⟩
theorem r_call (hf : Fit m (f :: o :: (ds ++ (xs ++ [c])))) (hn : isPlainName f) (hk : upper f.str ∉ keywordCalls) (ho : isSign o b!"(") (hd : Core .distinct ds (.bool b))
    (h : Li m .args xs (.list vs)) :
    Ex m .call (f :: o :: (ds ++ (xs ++ [c]))) (N.FunctionExpr (name := Spec.name f) (params := N.ParamExprList (items := columns b vs))) := by
  obtain ⟨us, e, pl, g, r⟩ := r_params hf.tail ho hd h
  obtain ⟨e', pl', g', _⟩ := name_print hf.head (.inl hn)
  refine ⟨_, Echo.func e' e, by simp [V.plain, V.plainL, N.FunctionExpr, plainNode, pl, pl'], by good, fun p' os fr l => ?_⟩
  flat l
  obtain ⟨f', os, rfl, hf', l⟩ := lp_word l
  have hc := name_same hf.head.1 (.inl hn) hf'
  obtain ⟨o', d, os, c', rfl, h1, h0, h2, h3, h4⟩ := r _ _ l
  exact ⟨name_eq hc ▸ .call (plainName_eq hc hn) (by rw [(content_at hc).2.1]; exact hk) h1 h2 h3 h4, .content hc⟩

/-! ### Queries as expressions, and `CASE` -/

/-- A node that is printed and read again. -/
abbrev No (m : Bool) (c : Cat) (ts : List Token) (v : V) : Prop := Claim m .n ts v fun os => Core c os v

theorem r_sub (hf : Fit m (o :: (ts ++ [c]))) (ho : isSign o b!"(") (h : No m .query ts v) :
    ∃ us, Echo .n (N.SubQuery (hasParen := true) (select := v)) us ∧ (N.SubQuery (hasParen := true) (select := v)).plain = true ∧ Good m us ∧
      ∀ p os, LexedP p us os → ∃ o' os' c', os = o' :: (os' ++ [c']) ∧ isSign o' b!"(" ∧ o'.str = b!"(" ∧ Core .query os' v ∧ isSign c' b!")" := by
  obtain ⟨us, e, pl, g, r⟩ := h
  refine ⟨_, Echo.subParen e, by plain, by good, fun p' os l => ?_⟩
  flat l
  obtain ⟨o', os, rfl, ho', hs, l⟩ := lp_op l
  obtain ⟨x, y, _, rfl, l1, l⟩ := lp_app l
  obtain ⟨c', os, rfl, hc', _, l⟩ := lp_op l
  cases lp_nil l
  exact ⟨o', x, c', rfl, ho', hs, r _ _ (hf.freeS ho ho').left l1, hc'⟩
/-- A query is read again with `WITH` in front only if it was there before. -/
theorem query_head (h : Core .query ts v) (h' : Core .query os v) (hw : ∀ t ∈ ts.head?, ¬ isWord t b!"WITH") : ∀ t ∈ os.head?, ¬ isWord t b!"WITH" := by
  cases h with
  | query h1 hk =>
    cases h1 with
    | with_ hk' _ => exact absurd hk' (hw _ rfl)
    | withNo =>
      cases h' with
      | query h1 hk =>
        cases h1 with
        | withNo =>
          intro t ht
          cases ht
          intro h
          have := hk.2.symm.trans h.2
          simp at this

theorem r_subquery (hf : Fit m (o :: (ts ++ [c]))) (ho : isSign o b!"(") (hc : Core .query ts v) (hw : ∀ t ∈ ts.head?, ¬ isWord t b!"WITH") (h : No m .query ts v) :
    Ex m .atom (o :: (ts ++ [c])) (N.SubQuery (hasParen := true) (select := v)) := by
  obtain ⟨us, e, pl, g, r⟩ := r_sub hf ho h
  refine ⟨us, e, pl, g, fun p' os fr l => ?_⟩
  obtain ⟨o', os, c', rfl, h1, h0, h2, h3⟩ := r _ _ l
  exact ⟨.subquery h1 h2 (query_head hc h2 hw) h3, .sign ho h1 (by rw [h0, src_op hf.head.1 ho (by decide)])⟩

/-- The branches of `CASE`. -/
abbrev Wh (m : Bool) (ts : List Token) (v : V) : Prop := Claim m (.p [.sp]) ts v fun os => Core .whens os v
/-- The last branch of `CASE`. -/
abbrev El (m : Bool) (ts : List Token) (v : V) : Prop := Claim m (.o [.sp, .kw b!"ELSE", .sp]) ts v fun os => Core .else_ os v

theorem r_whenOne (hf : Fit m (k :: (ts ++ t :: xs))) (hk : isWord k b!"WHEN") (ht : isWord t b!"THEN") (h1 : Ex m (.expr 0) ts v) (h2 : Ex m (.expr 0) xs x) :
    Wh m (k :: (ts ++ t :: xs)) (.list [N.WhenClause (when := v) (then_ := x)]) := by
  obtain ⟨us, e1, p1, g1, r1⟩ := h1
  obtain ⟨ws, e2, p2, g2, r2⟩ := h2
  refine ⟨_, Echo_pcons (.when e1 e2) .pnil rfl, by plain, by good, fun p' os fr l => ?_⟩
  flat l
  obtain ⟨k', os, rfl, hk', l⟩ := lp_kw kw (lp_sp l)
  obtain ⟨a, b, _, rfl, l1, l⟩ := lp_app (lp_sp l)
  obtain ⟨t', b, rfl, ht', l⟩ := lp_kw kw (lp_sp l)
  exact .whenOne hk' (r1 _ _ (hf.freeW hk hk').left l1).1 ht' (r2 _ _ (hf.tail.right.freeW ht ht') (lp_sp l)).1
theorem r_whenMore (hf : Fit m (k :: (ts ++ t :: (xs ++ ys)))) (hk : isWord k b!"WHEN") (ht : isWord t b!"THEN") (h1 : Ex m (.expr 0) ts v) (h2 : Ex m (.expr 0) xs x)
    (hc : Core .whens ys (.list vs)) (h3 : Wh m ys (.list vs)) : Wh m (k :: (ts ++ t :: (xs ++ ys))) (.list (N.WhenClause (when := v) (then_ := x) :: vs)) := by
  obtain ⟨us, e1, p1, g1, r1⟩ := h1
  obtain ⟨ws, e2, p2, g2, r2⟩ := h2
  obtain ⟨zs, e3, p3, g3, r3⟩ := h3
  simp only [V.plain] at p3
  refine ⟨_, Echo_pcons (.when e1 e2) e3 rfl, by plain, by good, fun p' os fr l => ?_⟩
  flat l
  obtain ⟨k', os, rfl, hk', l⟩ := lp_kw kw (lp_sp l)
  obtain ⟨a, b, _, rfl, l1, l⟩ := lp_app (lp_sp l)
  obtain ⟨t', b, rfl, ht', l⟩ := lp_kw kw (lp_sp l)
  obtain ⟨d, b, _, rfl, l2, l⟩ := lp_app (lp_sp l)
  exact .whenMore hk' (r1 _ _ (hf.freeW hk hk').left l1).1 ht' (r2 _ _ (hf.tail.right.freeW ht ht').left l2).1 (r3 _ _ (free_core hc rfl) l)
theorem r_elseNo : El m [] .nil := ⟨[], .onil, rfl, by good, fun p' os fr l => by cases lp_nil l; exact .elseNo⟩
theorem r_elseYes (hf : Fit m (k :: ts)) (hk : isWord k b!"ELSE") (h : Ex m (.expr 0) ts v) : El m (k :: ts) v := by
  obtain ⟨us, e1, p1, g1, r1⟩ := h
  refine ⟨_, .osome e1, by plain, by good, fun p' os fr l => ?_⟩
  flat l
  obtain ⟨k', os, rfl, hk', l⟩ := lp_kw kw (lp_sp l)
  exact .elseYes hk' (r1 _ _ (hf.freeW hk hk') (lp_sp l)).1

theorem r_case (hk : isWord k b!"CASE") (hc1 : Core .whens ts (.list vs)) (hc2 : Core .else_ xs v) (h1 : Wh m ts (.list vs)) (h2 : El m xs v) :
    Ex m .atom (k :: (ts ++ (xs ++ [e]))) (N.CaseExpr (whens := .list vs) (else_ := v)) := by
  obtain ⟨us, e1, p1, g1, r1⟩ := h1
  obtain ⟨ws, e2, p2, g2, r2⟩ := h2
  simp only [V.plain] at p1
  refine ⟨_, Echo.caseEnd .onil e1 e2, by plain, by good, fun p' os fr l => ?_⟩
  flat l
  obtain ⟨k', os, rfl, hk', l⟩ := lp_kw kw l
  obtain ⟨a, b, _, rfl, l1, l⟩ := lp_app l
  obtain ⟨d, b, _, rfl, l2, l⟩ := lp_app l
  obtain ⟨e', b, rfl, he', l⟩ := lp_kw kw (lp_sp l)
  cases lp_nil l
  exact ⟨.case_ hk' (r1 _ _ (free_core hc1 rfl) l1) (r2 _ _ (free_core hc2 rfl) l2) he', .word hk hk'⟩

theorem cont_eq (h : o.kind = t.kind) (hu : upper o.str = upper t.str) (ht : ¬ isContinuation t) : ¬ isContinuation o := by
  unfold isContinuation isSign isWord at *
  rw [h, hu]
  exact ht

theorem r_caseOf (hf : Fit m (k :: (ts ++ (xs ++ (ys ++ [e]))))) (hk : isWord k b!"CASE") (hh : ∀ t ∈ ts.head?, ¬ isContinuation t) (h0 : Ex m (.expr 0) ts x)
    (hc1 : Core .whens xs (.list vs)) (hc2 : Core .else_ ys v) (h1 : Wh m xs (.list vs)) (h2 : El m ys v) :
    Ex m .atom (k :: (ts ++ (xs ++ (ys ++ [e])))) (N.CaseExpr (expr := x) (whens := .list vs) (else_ := v)) := by
  obtain ⟨zs, e0, p0, g0, r0⟩ := h0
  obtain ⟨us, e1, p1, g1, r1⟩ := h1
  obtain ⟨ws, e2, p2, g2, r2⟩ := h2
  simp only [V.plain] at p1
  refine ⟨_, Echo.caseEnd (.osome e0) e1 e2, by plain, by good, fun p' os fr l => ?_⟩
  flat l
  obtain ⟨k', os, rfl, hk', l⟩ := lp_kw kw l
  obtain ⟨f, b, _, rfl, l0, l⟩ := lp_app (lp_sp l)
  obtain ⟨a, b, _, rfl, l1, l⟩ := lp_app l
  obtain ⟨d, b, _, rfl, l2, l⟩ := lp_app l
  obtain ⟨e', b, rfl, he', l⟩ := lp_kw kw (lp_sp l)
  cases lp_nil l
  obtain ⟨c0, t, o, ts', os', rfl, rfl, hl⟩ := r0 _ _ (hf.freeW hk hk').left l0
  refine ⟨.caseOf hk' ?_ c0 (r1 _ _ (free_core hc1 rfl) l1) (r2 _ _ (free_core hc2 rfl) l2) he', .word hk hk'⟩
  intro t' ht'
  cases ht'
  exact cont_eq hl.1 hl.2 (hh t rfl)

end Verif.Again

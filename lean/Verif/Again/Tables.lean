/-
Tables and joins of the core language are printed and read again.  No definition here is part of the model.
-/
import Verif.Again.Atom

namespace Verif.Again
open Verif.Spec Verif.Echo

variable {p q : Nat} {us ws : List E} {os ts xs ys zs ks ms : List Token} {m b : Bool} {t o a n c f k d e j u : Token} {v w x y : V} {vs : List V}

theorem r_tableName (hf : Fit m [t]) (ht : isPlainName t) : No m .table [t] (N.TableIdentifier (table := Spec.name t)) := by
  obtain ⟨e, pl, g, _⟩ := name_print hf.head (.inl ht)
  refine ⟨_, Echo.tableName e, by plain, by good, fun p' os fr l => ?_⟩
  obtain ⟨o, os, rfl, ho, l⟩ := lp_word l
  cases lp_nil l
  have hc := name_same hf.head.1 (.inl ht) ho
  exact name_eq hc ▸ .tableName (plainName_eq hc ht)
theorem r_tableOf (hf : Fit m [d, k, t]) (hd : isPlainName d) (ht : isAnyName t) :
    No m .table [d, k, t] (N.TableIdentifier (database := Spec.name d) (table := Spec.name t)) := by
  obtain ⟨e, pl, g, _⟩ := name_print hf.head (.inl hd)
  obtain ⟨e', pl', g', _⟩ := name_print hf.tail.tail.head ht
  refine ⟨_, Echo.tableName2 e (.osome e') (by simp [Spec.name, N.Ident]), by plain, by good, fun p' os fr l => ?_⟩
  flat l
  obtain ⟨o, os, rfl, ho, l⟩ := lp_word l
  obtain ⟨k', os, rfl, hk', _, l⟩ := lp_op l
  obtain ⟨o', os, rfl, ho', l⟩ := lp_word l
  cases lp_nil l
  have hc := name_same hf.head.1 (.inl hd) ho
  have hc' := name_same hf.tail.tail.head.1 ht ho'
  exact name_eq hc ▸ name_eq hc' ▸ .tableOf (plainName_eq hc hd) hk' (any_eq hc' ht)
theorem r_tableQuery (hf : Fit m (o :: (ts ++ [c]))) (ho : isSign o b!"(") (h : No m .query ts v) : No m .table (o :: (ts ++ [c])) (N.SubQuery (hasParen := true) (select := v)) := by
  obtain ⟨us, e, pl, g, r⟩ := r_sub hf ho h
  refine ⟨us, e, pl, g, fun p' os fr l => ?_⟩
  obtain ⟨o', os, c', rfl, h1, h0, h2, h3⟩ := r _ _ l
  exact .tableQuery h1 h2 h3

theorem table_ty (h : Core .table ts v) : v.ty? ≠ some .SelectQuery := by cases h <;> simp [V.ty?, N.TableIdentifier, N.SubQuery]

theorem r_bare (h : No m .table ts v) : No m .aliased ts v := by
  obtain ⟨us, e, pl, g, r⟩ := h
  exact ⟨us, e, pl, g, fun p' os fr l => .bare (r _ _ fr l)⟩
theorem r_aliasAs (hf : Src t ∧ (m = true → 10 ∉ t.str)) (ht : isAnyName t) (hc : Core .table ts v) (h : No m .table ts v) :
    No m .aliased xs (N.AliasExpr (expr := v) («alias» := Spec.name t)) := by
  obtain ⟨us, e, pl, g, r⟩ := h
  obtain ⟨e', pl', g', _⟩ := name_print hf ht
  refine ⟨_, .alias e e' (table_ty hc), by plain, by good, fun p' os fr l => ?_⟩
  flat l
  obtain ⟨b, c, _, rfl, l1, l⟩ := lp_app l
  obtain ⟨a', c, rfl, ha', l⟩ := lp_as (lp_sp l)
  obtain ⟨t', c, rfl, ht', l⟩ := lp_word (lp_sp l)
  cases lp_nil l
  have hn := name_same hf.1 ht ht'
  exact name_eq hn ▸ .aliasAs (r _ _ (free_core hc rfl) l1) ha' (any_eq hn ht)
theorem r_ref (h : No m .aliased ts v) (hb : Core .final xs (.bool b)) : No m .ref (ts ++ xs) (N.JoinTableExpr (table := N.TableExpr (expr := v) (hasFinal := b))) := by
  obtain ⟨us, e, pl, g, r⟩ := h
  cases hb with
  | finalNo =>
    refine ⟨_, Echo.joinTable (.table e) .onil, by plain, by good, fun p' os fr l => ?_⟩
    flat l
    have := Core.ref (r _ _ fr.left l) .finalNo
    rwa [List.append_nil] at this
  | finalYes =>
    refine ⟨_, Echo.joinTable (.tableFinal e) .onil, by plain, by good, fun p' os fr l => ?_⟩
    flat l
    obtain ⟨b, c, _, rfl, l1, l⟩ := lp_app l
    obtain ⟨t', c, rfl, ht', l⟩ := lp_kw kw (lp_sp l)
    cases lp_nil l
    exact .ref (r _ _ fr.left l1) (.finalYes ht')

/-! ### Kinds of joins -/

theorem raw_good (h : Src t) (hk : t.kind = .keyword) (hn : m = true → 10 ∉ t.str) : GoodE m (.raw t.str) := by
  have ok : (E.raw t.str).ok t := ⟨by rw [isKind, hk], rfl⟩
  exact ⟨fun _ => fits_of h (fun k h => by rw [hk] at h; cases h) ok rfl, hn⟩

/-- The word of a kind of join. -/
def joinStr (t : Token) : Str := if upper t.str = b!"CROSS" then b!"CROSS" else t.str
theorem joinStr_upper : upper (joinStr t) = upper t.str := by
  unfold joinStr
  split
  · rename_i h
    rw [h]
    rfl
  · rfl
theorem joinText_eq (h : o.str = joinStr t) : joinText o = .str (joinStr t) := by
  have : upper o.str = upper t.str := by rw [h, joinStr_upper]
  show V.str (if upper o.str = b!"CROSS" then b!"CROSS" else o.str) = _
  rw [this, h]
  unfold joinStr
  split <;> rfl
theorem joinText_str : joinText t = .str (joinStr t) := rfl
theorem join_good (h : Src t ∧ (m = true → 10 ∉ t.str)) (hk : t.kind = .keyword) : GoodE m (.raw (joinStr t)) := by
  unfold joinStr
  split
  · exact (good_letters rfl).2
  · exact raw_good h.1 hk h.2
theorem join_kw : ∀ l ∈ joinWords, ∀ w ∈ l, isKw w = true := by decide +kernel
theorem join_len : ∀ l ∈ joinWords, l.length ≤ 2 := by decide +kernel

/-- Modifiers of a join. -/
abbrev Mo (m : Bool) (ts : List Token) (v : V) : Prop := Claim m .m ts v fun os => Core .joinKind os v

theorem r_joinKind (hf : Fit m (ms ++ [j])) (hk : ∀ t ∈ ms, t.kind = .keyword) (hw : ms.map (fun t => upper t.str) ∈ joinWords) :
    Mo m (ms ++ [j]) (.list (ms.map joinText ++ [.str b!"JOIN"])) := by
  have hl := join_len _ hw
  rw [List.length_map] at hl
  have hkw : ∀ t ∈ ms, isKw (upper (joinStr t)) = true := fun t ht => by
    rw [joinStr_upper]
    exact join_kw _ hw _ (List.mem_map.2 ⟨t, ht, rfl⟩)
  have jp : ∀ t, (joinText t).plain = true := fun _ => rfl
  match ms, hl with
  | [], _ =>
    refine ⟨_, Echo.mone, by plain, by simp only [good_cons, good_nil, and_true]; exact (good_letters rfl).2, fun p' os fr l => ?_⟩
    obtain ⟨j', os, rfl, h1, h2, l⟩ := lp_raw kw l
    cases lp_nil l
    exact .joinKind (ms := []) (by simp) hw ⟨h1, by rw [h2]; rfl⟩
  | [x], _ =>
    have g := join_good (hf.src x (by simp)) (hk x (by simp))
    have gj : GoodE m (.raw b!"JOIN") := (good_letters rfl).2
    refine ⟨_, Echo.msnoc (by simp) (.mone (s := joinStr x)), by plain, by good, fun p' os fr l => ?_⟩
    flat l
    obtain ⟨x', os, rfl, h1, h2, l⟩ := lp_raw (hkw x (by simp)) l
    obtain ⟨j', os, rfl, h3, h4, l⟩ := lp_raw kw (lp_sp l)
    cases lp_nil l
    have := Core.joinKind (j := j') (ms := [x']) (by simpa using h1) (by simpa [h2, joinStr_upper] using hw) ⟨h3, by rw [h4]; rfl⟩
    simpa [joinText_eq h2, joinText_str] using this
  | [x, y], _ =>
    have g := join_good (hf.src x (by simp)) (hk x (by simp))
    have g' := join_good (hf.src y (by simp)) (hk y (by simp))
    have gj : GoodE m (.raw b!"JOIN") := (good_letters rfl).2
    refine ⟨_, Echo.msnoc (vs := [joinText x, joinText y]) (by simp) (.msnoc (vs := [joinText x]) (s := joinStr y) (by simp) (.mone (s := joinStr x))), by plain, by good,
      fun p' os fr l => ?_⟩
    flat l
    obtain ⟨x', os, rfl, h1, h2, l⟩ := lp_raw (hkw x (by simp)) l
    obtain ⟨y', os, rfl, h5, h6, l⟩ := lp_raw (hkw y (by simp)) (lp_sp l)
    obtain ⟨j', os, rfl, h3, h4, l⟩ := lp_raw kw (lp_sp l)
    cases lp_nil l
    have := Core.joinKind (j := j') (ms := [x', y']) (by simpa using ⟨h1, h5⟩) (by simpa [h2, h6, joinStr_upper] using hw) ⟨h3, by rw [h4]; rfl⟩
    simpa [joinText_eq h2, joinText_eq h6, joinText_str] using this

/-! ### Constraints -/

/-- A list of columns without parentheses. -/
theorem r_plainColumns (h : Ar m ts (.list vs)) : Claim m .n ts (columns false vs) fun os => Core .args1 os (.list vs) ∧ Lead ts os := by
  obtain ⟨us, e, pl, g, r⟩ := h
  simp only [V.plain] at pl
  exact ⟨_, Echo.exprs e, by plain, g, r⟩

theorem r_on (hf : Fit m (o :: ts)) (ho : isWord o b!"ON") (h : Ar m ts (.list vs)) : No m .on (o :: ts) (N.OnClause (on := columns false vs)) := by
  obtain ⟨us, e, pl, g, r⟩ := r_plainColumns h
  refine ⟨_, Echo.on e, by simp [V.plain, V.plainL, N.OnClause, plainNode, pl], by good, fun p' os fr l => ?_⟩
  flat l
  obtain ⟨o', os, rfl, ho', l⟩ := lp_kw kw l
  exact .on ho' (r _ _ (hf.freeW ho ho') (lp_sp l)).1
theorem r_usingBare (hf : Fit m (u :: ts)) (hu : isWord u b!"USING") (hh : ∀ t ∈ ts.head?, ¬ isSign t b!"(") (h : Ar m ts (.list vs)) :
    No m .on (u :: ts) (N.UsingClause (using_ := columns false vs)) := by
  obtain ⟨us, e, pl, g, r⟩ := r_plainColumns h
  refine ⟨_, Echo.using_ e, by simp [V.plain, V.plainL, N.UsingClause, plainNode, pl], by good, fun p' os fr l => ?_⟩
  flat l
  obtain ⟨u', os, rfl, hu', l⟩ := lp_kw kw l
  obtain ⟨c, t, o, ts', os', rfl, rfl, h1, h2⟩ := r _ _ (hf.freeW hu hu') (lp_sp l)
  refine .usingBare hu' (fun t' ht' => ?_) c
  cases ht'
  unfold isSign at *
  rw [h1]
  exact hh t rfl

/-- The columns of a join. -/
abbrev Us (m : Bool) (ts : List Token) (v : V) : Prop := Claim m (.o [.sp]) ts v fun os => (v = .nil ∧ os = []) ∨ Core .on os v

theorem r_usingNo : Us m [] .nil := ⟨[], .onil, rfl, by good, fun p' os fr l => by cases lp_nil l; exact .inl ⟨rfl, rfl⟩⟩
theorem r_using (hf : Fit m (u :: o :: (ts ++ [c]))) (hu : isWord u b!"USING") (ho : isSign o b!"(") (hc : Core .args1 ts (.list vs)) (h : Ar m ts (.list vs)) :
    Us m (u :: o :: (ts ++ [c])) (N.UsingClause (using_ := columns false vs)) := by
  obtain ⟨us, e, pl, g, r⟩ := r_plainColumns h
  refine ⟨_, .osome (Echo.using_ e), by simp [V.plain, V.plainL, N.UsingClause, plainNode, pl], by good, fun p' os fr l => .inr ?_⟩
  flat l
  obtain ⟨u', os, rfl, hu', l⟩ := lp_kw kw (lp_sp l)
  obtain ⟨t, xs, rfl⟩ : ∃ t xs, ts = t :: xs := by
    rcases Complete.core_head hc with ⟨h, _⟩ | ⟨t, xs, rfl, _⟩
    · cases h
    · exact ⟨t, xs, rfl⟩
  have h3 := hf.three u o t (List.IsPrefix.isInfix ⟨xs ++ [c], by simp⟩) hu ho
  obtain ⟨c, t', o, ts', os', e1, rfl, h1, h2⟩ := r (some u') _ (fun b hb hs => by cases hb; exact absurd hs h3.2) (lp_sp l)
  cases e1
  refine .usingBare hu' (fun t' ht' => ?_) c
  cases ht'
  have := h3.1
  unfold isSign at *
  rw [h1]
  exact this

/-! ### Joins -/

/-- What is after the first table. -/
abbrev Ta (m : Bool) (ts : List Token) (v : V) : Prop := Claim m .j ts v fun os => Core .tail os v ∧ (afterComma v = false → Core .join os v)
/-- A join. -/
abbrev Jo (m : Bool) (ts : List Token) (v : V) : Prop := Claim m .j ts v fun os => Core .join os v
/-- Tables. -/
abbrev Tb (m : Bool) (ts : List Token) (v : V) : Prop :=
  ∃ us, Echo .n v us ∧ Echo .j v (.op b!"," :: us) ∧ v.plain = true ∧ Good m us ∧ ∀ p os, Free ts p → LexedP p us os → Core .tables os v

theorem ref_ty (h : Core .ref ts v) : v.ty? = some .JoinTableExpr ∧ afterComma v = true := by cases h <;> exact ⟨rfl, rfl⟩
theorem tables_comma (h : Core .tables ts v) : afterComma v = true := by
  cases h with
  | tablesOne h => exact (ref_ty h).2
  | tablesMore => rfl

theorem r_tablesOne (hc : Core .ref ts v) (h : No m .ref ts v) : Tb m ts v := by
  obtain ⟨us, e, pl, g, r⟩ := h
  exact ⟨us, e, .jtable (ref_ty hc).1 e, pl, g, fun p' os fr l => .tablesOne (r _ _ fr l)⟩
theorem r_tablesMore (hc : Core .tail xs w) (h1 : No m .ref ts v) (h2 : Ta m xs w) : Tb m (ts ++ xs) (N.JoinExpr (left := v) (right := w)) := by
  obtain ⟨us, e1, p1, g1, r1⟩ := h1
  obtain ⟨ws, e2, p2, g2, r2⟩ := h2
  refine ⟨_, .join e1 e2, .jcomma e1 e2, by plain, by good, fun p' os fr l => ?_⟩
  obtain ⟨b, c, _, rfl, l1, l⟩ := lp_app l
  exact .tablesMore (r1 _ _ fr.left l1) (r2 _ _ (free_core hc rfl) l).1
theorem r_tailComma (hc : Core .tables ts v) (h : Tb m ts v) : Ta m (c :: ts) v := by
  obtain ⟨us, _, e, pl, g, r⟩ := h
  refine ⟨_, e, pl, by good, fun p' os fr l => ?_⟩
  obtain ⟨o', os, rfl, ho', _, l⟩ := lp_op l
  exact ⟨.tailComma ho' (r _ _ (free_core hc rfl) l), fun h => by rw [tables_comma hc] at h; cases h⟩
theorem r_tailJoin (h : Jo m ts v) : Ta m ts v := by
  obtain ⟨us, e, pl, g, r⟩ := h
  exact ⟨us, e, pl, g, fun p' os fr l => ⟨.tailJoin (r _ _ fr l), fun _ => r _ _ fr l⟩⟩

/-- A join that is read again, from the pieces. -/
theorem r_join {A B : List Token → Prop} (hk : Core .joinKind ks y) (ht : Core .ref ts v) (h0 : Mo m ks y) (h1 : No m .ref ts v)
    (h2 : Claim m (.o [.sp]) xs w A) (h3 : Claim m .j ys x B) (hx : ∀ p, Free xs p) (hy : ∀ p, Free ys p) :
    ∃ us, Echo .j (N.JoinExpr (left := v) (right := x) (modifiers := y) (constraints := w)) us ∧
      (N.JoinExpr (left := v) (right := x) (modifiers := y) (constraints := w)).plain = true ∧ Good m us ∧
      ∀ p os, LexedP p us os → ∃ a b c d, os = a ++ (b ++ (c ++ d)) ∧ Core .joinKind a y ∧ Core .ref b v ∧ A c ∧ B d := by
  obtain ⟨us0, e0, p0, g0, r0⟩ := h0
  obtain ⟨us1, e1, p1, g1, r1⟩ := h1
  obtain ⟨us2, e2, p2, g2, r2⟩ := h2
  obtain ⟨us3, e3, p3, g3, r3⟩ := h3
  obtain ⟨l, rfl, hl⟩ : ∃ l, y = .list l ∧ l ≠ [] := by cases hk; exact ⟨_, rfl, by simp⟩
  refine ⟨_, .jmods e0 hl e1 e2 e3, by simp only [V.plain] at p0; plain, by good, fun p' os l => ?_⟩
  flat l
  obtain ⟨a, b, _, rfl, l0, l⟩ := lp_app (lp_sp l)
  obtain ⟨b, c, _, rfl, l1, l⟩ := lp_app (lp_sp l)
  obtain ⟨c, d, _, rfl, l2, l⟩ := lp_app l
  exact ⟨a, b, c, d, rfl, r0 _ _ (free_core hk rfl) l0, r1 _ _ (free_core ht rfl) l1, r2 _ _ (hx _) l2, r3 _ _ (hy _) l⟩

theorem claim_nil : Claim m .j [] .nil fun os => os = [] := ⟨[], .jnil, rfl, by good, fun p' os fr l => lp_nil l⟩
theorem using_free (h : Core .using_ ts v) : ∀ p, Free ts p := fun _ => free_core h rfl
theorem on_some (h : No m .on ts v) : Claim m (.o [.sp]) ts v fun os => Core .on os v := by
  obtain ⟨us, e, pl, g, r⟩ := h
  exact ⟨_, .osome e, pl, by good, fun p' os fr l => r _ _ fr (lp_sp l)⟩

theorem r_joinEnd (hk : Core .joinKind ks y) (ht : Core .ref ts v) (hu : Core .using_ xs w) (h0 : Mo m ks y) (h1 : No m .ref ts v) (h2 : Us m xs w) :
    Jo m zs (N.JoinExpr (left := v) (modifiers := y) (constraints := w)) := by
  obtain ⟨us, e, pl, g, r⟩ := r_join hk ht h0 h1 h2 claim_nil (fun _ => free_core hu rfl) (fun _ => free_nil)
  refine ⟨us, e, pl, g, fun p' os fr l => ?_⟩
  obtain ⟨a, b, c, d, rfl, c0, c1, c2, rfl⟩ := r _ _ l
  rw [List.append_nil]
  rcases c2 with ⟨rfl, rfl⟩ | c2
  · exact .joinEnd c0 c1 .usingNo
  · exact .joinOn c0 c1 c2
theorem r_joinMore (hk : Core .joinKind ks y) (ht : Core .ref ts v) (hu : Core .using_ xs w) (hx : Core .tail ys x) (h0 : Mo m ks y) (h1 : No m .ref ts v) (h2 : Us m xs w)
    (h3 : Ta m ys x) (hkept : keptNode .JoinExpr [.nat 0, v, x, y, w] = true) :
    Jo m zs (N.JoinExpr (left := v) (right := x) (modifiers := y) (constraints := w)) := by
  obtain ⟨us, e, pl, g, r⟩ := r_join hk ht h0 h1 h2 h3 (fun _ => free_core hu rfl) (fun _ => free_core hx rfl)
  refine ⟨us, e, pl, g, fun p' os fr l => ?_⟩
  obtain ⟨a, b, c, d, rfl, c0, c1, c2, c3⟩ := r _ _ l
  rcases c2 with ⟨rfl, rfl⟩ | c2
  · exact .joinMore c0 c1 .usingNo c3.1
  · refine .joinOnMore c0 c1 c2 (c3.2 ?_)
    cases hu with
    | usingNo => cases c2
    | using_ => simpa [keptNode, N.UsingClause] using hkept
theorem r_joinOn (hk : Core .joinKind ks y) (ht : Core .ref ts v) (hu : Core .on xs w) (h0 : Mo m ks y) (h1 : No m .ref ts v) (h2 : No m .on xs w) :
    Jo m zs (N.JoinExpr (left := v) (modifiers := y) (constraints := w)) := by
  obtain ⟨us, e, pl, g, r⟩ := r_join hk ht h0 h1 (on_some h2) claim_nil (fun _ => free_core hu rfl) (fun _ => free_nil)
  refine ⟨us, e, pl, g, fun p' os fr l => ?_⟩
  obtain ⟨a, b, c, d, rfl, c0, c1, c2, rfl⟩ := r _ _ l
  rw [List.append_nil]
  exact .joinOn c0 c1 c2
theorem r_joinOnMore (hk : Core .joinKind ks y) (ht : Core .ref ts v) (hu : Core .on xs w) (hx : Core .join ys x) (h0 : Mo m ks y) (h1 : No m .ref ts v) (h2 : No m .on xs w)
    (h3 : Jo m ys x) : Jo m zs (N.JoinExpr (left := v) (right := x) (modifiers := y) (constraints := w)) := by
  obtain ⟨us, e, pl, g, r⟩ := r_join hk ht h0 h1 (on_some h2) h3 (fun _ => free_core hu rfl) (fun _ => free_core hx rfl)
  refine ⟨us, e, pl, g, fun p' os fr l => ?_⟩
  obtain ⟨a, b, c, d, rfl, c0, c1, c2, c3⟩ := r _ _ l
  exact .joinOnMore c0 c1 c2 c3

/-- A clause, or nothing. -/
abbrev Cl (m : Bool) (c : Cat) (ts : List Token) (v : V) : Prop := Claim m (.o [.sp]) ts v fun os => Core c os v
/-- Nothing. -/
theorem r_nothing {c : Cat} (h : Core c [] .nil) : Cl m c [] .nil := ⟨[], .onil, rfl, by good, fun p' os fr l => by cases lp_nil l; exact h⟩

/-! ### Window functions -/

theorem r_called (h : Ex m .call ts v) : Ex m .atom ts v := by
  obtain ⟨us, e, pl, g, r⟩ := h
  exact ⟨us, e, pl, g, fun p' os fr l => ⟨.called (r _ _ fr l).1, (r _ _ fr l).2⟩⟩
theorem r_overName (hf : Fit m (ts ++ [k, t])) (ht : isAnyName t) (h : Ex m .call ts v) :
    Ex m .atom (ts ++ [k, t]) (N.WindowFunctionExpr (function := v) (overExpr := Spec.name t)) := by
  obtain ⟨us, e, pl, g, r⟩ := h
  obtain ⟨e', pl', g', _⟩ := name_print hf.right.tail.head ht
  refine ⟨_, Echo.over e e', by plain, by good, fun p' os fr l => ?_⟩
  flat l
  obtain ⟨b, c, _, rfl, l1, l⟩ := lp_app l
  obtain ⟨k', c, rfl, hk', l⟩ := lp_kw kw (lp_sp l)
  obtain ⟨t', c, rfl, ht', l⟩ := lp_word (lp_sp l)
  cases lp_nil l
  have hn := name_same hf.right.tail.head.1 ht ht'
  obtain ⟨c1, d1⟩ := r _ _ fr.left l1
  exact ⟨name_eq hn ▸ .overName c1 hk' (any_eq hn ht), d1.append⟩
theorem r_partition (hf : Fit m (k :: d :: ts)) (hd : isWord d b!"BY") (h : Ar m ts (.list vs)) :
    Cl m .partition (k :: d :: ts) (N.PartitionByClause (expr := columns false vs)) := by
  obtain ⟨us, e, pl, g, r⟩ := r_plainColumns h
  refine ⟨_, .osome (.partition e), by simp [columns, N.ColumnExprList, V.plain, V.plainL, plainNode] at pl; plain, by good, fun p' os fr l => ?_⟩
  flat l
  obtain ⟨k', os, rfl, hk', l⟩ := lp_kw kw (lp_sp l)
  obtain ⟨d', os, rfl, hd', l⟩ := lp_kw kw (lp_sp l)
  exact .partition hk' hd' (r _ _ (hf.tail.freeW hd hd') (lp_sp l)).1
theorem lp_bl {p : Option Token} (h : LexedP p (bl b ++ us) os) : LexedP p us os := by
  cases b with
  | false => exact h
  | true => exact lp_sp h
theorem good_bl : Good m (bl b) := by
  cases b with
  | false => exact good_nil.2 True.intro
  | true => simp only [bl, if_true]; good
theorem r_overWindow (hc1 : Core .partition xs w) (hc2 : Core .orderBy ys x) (h : Ex m .call ts v) (h1 : Cl m .partition xs w) (h2 : Cl m .orderBy ys x) :
    Ex m .atom (ts ++ k :: o :: (xs ++ (ys ++ [c]))) (N.WindowFunctionExpr (function := v) (overExpr := N.WindowExpr (partitionBy := w) (orderBy := x))) := by
  obtain ⟨us, e, pl, g, r⟩ := h
  obtain ⟨u1, e1, p1, g1, r1⟩ := unspace h1
  obtain ⟨u2, e2, p2, g2, r2⟩ := unspace h2
  have gb := good_bl (m := m) (b := w.nonNil && x.nonNil)
  refine ⟨_, Echo.over e (.window .onil e1 e2), by plain, ?_, fun p' os fr l => ?_⟩
  · simp only [V.nonNil, Bool.false_and, Bool.false_or, show bl false = [] from rfl]
    good
  · simp only [V.nonNil, Bool.false_and, Bool.false_or, show bl false = [] from rfl] at l
    flat l
    obtain ⟨b, c, _, rfl, l1, l⟩ := lp_app l
    obtain ⟨k', c, rfl, hk', l⟩ := lp_kw kw (lp_sp l)
    obtain ⟨o', c, rfl, ho', _, l⟩ := lp_op (lp_sp l)
    obtain ⟨ps, c, _, rfl, l2, l⟩ := lp_app l
    obtain ⟨os, c, _, rfl, l3, l⟩ := lp_app (lp_bl l)
    obtain ⟨c', c, rfl, hc', _, l⟩ := lp_op l
    cases lp_nil l
    obtain ⟨d1, d2⟩ := r _ _ fr.left l1
    exact ⟨.overWindow d1 hk' ho' (r1 _ _ (free_core hc1 rfl) l2) (r2 _ _ (free_core hc2 rfl) l3) hc', d2.append⟩

theorem r_from (hf : Fit m (k :: ts)) (hk : isWord k b!"FROM") (h : Tb m ts v) : Cl m .from_ (k :: ts) (N.FromClause (expr := v)) := by
  obtain ⟨us, e, _, pl, g, r⟩ := h
  refine ⟨_, .osome (.from_ e), by plain, by good, fun p' os fr l => ?_⟩
  flat l
  obtain ⟨k', os, rfl, hk', l⟩ := lp_kw kw (lp_sp l)
  exact .from_ hk' (r _ _ (hf.freeW hk hk') (lp_sp l))

end Verif.Again

/-
What the methods for joins, tables and unions of queries do with the tokens.  No definition here is part of the model.
-/
import Verif.Echo.Select

namespace Verif.Echo
open Verif.Spec Verif.Echo.Sym

set_option linter.unusedTactic false
set_option linter.unreachableTactic false
set_option linter.unusedSimpArgs false

/-! ### Tables -/

theorem val_table {l l' : Lx} {p q e : V} (h : Val l e l') : Val l (.mk .TableExpr [p, q, .nil, e, .bool false]) l' := by
  refine ⟨by simp, fun hg => ?_⟩
  plain hg
  obtain ⟨us, hr, he⟩ := h.open hg.2.2
  exact ⟨us, hr, .table he⟩
theorem val_tableFinal {l l' : Lx} {p q e : V} (h : Val l e l') (hk : l'.matchKw b!"FINAL" = true) :
    Val l (.mk .TableExpr [p, q, .nil, e, .bool true]) l'.advance := by
  refine ⟨by simp, fun hg => ?_⟩
  plain hg
  obtain ⟨us, hr, he⟩ := h.open hg.2.2
  exact ⟨_, hr.trans (.sp (.kw' hk .nil)), .tableFinal he⟩
theorem val_asT {l l1 l' : Lx} {p e w : V} (h : Val l e l1) (hk : l1.matchKw b!"AS" = true) (hw : Val l1.advance w l')
    (ht : e.ty? ≠ some .SelectQuery) : Val l (.mk .AliasExpr [e, p, w]) l' := by
  refine ⟨by simp, fun hg => ?_⟩
  plain hg
  obtain ⟨us, hr, he⟩ := h.open hg.1
  obtain ⟨ws, hr', he'⟩ := hw.open hg.2.2
  exact ⟨_, by rw [List.append_assoc]; exact hr.trans (.sp (.as' hk (.sp hr'))), .alias he he' ht⟩
theorem val_noAsT {l l1 l' : Lx} {p e w : V} (h : Val l e l1) (hk : l1.matchKinds [b!"<ident>"] = true) (hw : Val l1 w l')
    (ht : e.ty? ≠ some .SelectQuery) : Val l (.mk .AliasExpr [e, p, w]) l' := by
  refine ⟨by simp, fun hg => ?_⟩
  plain hg
  obtain ⟨us, hr, he⟩ := h.open hg.1
  obtain ⟨ws, hr', he'⟩ := hw.open hg.2.2
  exact ⟨_, by rw [List.append_assoc]; exact hr.trans (.sp (.noAs' hk (.sp hr'))), .alias he he' ht⟩
theorem val_tfun {l l1 l' : Lx} {a b v : V} (h : Val l (.mk .TableIdentifier [a, b]) l1) (ha : a.nonNil = false) (hv : Val l1 v l') :
    Val l (.mk .TableFunctionExpr [b, v]) l' := by
  have : a = .nil := by cases a <;> simp_all [V.nonNil]
  subst this
  refine ⟨by simp, fun hg => ?_⟩
  plain hg
  obtain ⟨us, hr, he⟩ := h.open (by simp [V.plain, V.plainL, plainNode, hg.1])
  obtain ⟨ws, hr', he'⟩ := hv.open hg.2
  generalize hn : V.mk Ty.TableIdentifier [.nil, b] = x at he
  generalize hk : K.n = k at he
  cases he <;> cases hk <;> cases hn
  case tableName he => exact ⟨_, hr.trans hr', .tableFunc he he'⟩
  case tableName2 he _ _ =>
    generalize hn : V.nil = x at he
    generalize hk : K.n = k at he
    cases he <;> cases hk <;> cases hn
theorem not_select {t : Ty} {v : V} (h : v.ty? = some t) (ht : t ≠ .SelectQuery) : v.ty? ≠ some .SelectQuery := by rw [h]; simpa using ht

theorem m_parseTableExpr : Meth .parseTableExpr := by
  method
  enter hr
  sym
  all_goals
    (try have hf := val_tfun (by assumption) (by assumption) (by assumption))
    (try have hs := not_select hv3b (by decide))
    first
    | exact val_tableFinal (val_asT (by assumption) (by assumption) (by assumption) (by first | assumption | simp [V.ty?])) (by assumption)
    | exact val_tableFinal (val_noAsT (by assumption) (by assumption) (by assumption) (by first | assumption | simp [V.ty?])) (by assumption)
    | exact val_tableFinal (by assumption) (by assumption)
    | exact val_table (val_asT (by assumption) (by assumption) (by assumption) (by first | assumption | simp [V.ty?]))
    | exact val_table (val_noAsT (by assumption) (by assumption) (by assumption) (by first | assumption | simp [V.ty?]))
    | exact val_table (by assumption)
    | skip

/-! ### Joins -/

theorem kw2 {l : Lx} {k1 k2 : Str} (h : l.matchKw k1 = true ∨ l.matchKw k2 = true) : ∃ k, l.matchKw k = true := by
  try simp only [or_assoc] at h
  rcases h with h | h <;> exact ⟨_, h⟩
theorem kw4 {l : Lx} {k1 k2 k3 k4 : Str} (h : ((l.matchKw k1 = true ∨ l.matchKw k2 = true) ∨ l.matchKw k3 = true) ∨ l.matchKw k4 = true) : ∃ k, l.matchKw k = true := by
  simp only [or_assoc] at h
  rcases h with h | h | h | h <;> exact ⟨_, h⟩
theorem kw5 {l : Lx} {k1 k2 k3 k4 k5 : Str} (h : (((l.matchKw k1 = true ∨ l.matchKw k2 = true) ∨ l.matchKw k3 = true) ∨ l.matchKw k4 = true) ∨ l.matchKw k5 = true) : ∃ k, l.matchKw k = true := by
  simp only [or_assoc] at h
  rcases h with h | h | h | h | h <;> exact ⟨_, h⟩
theorem kw6 {l : Lx} {k1 k2 k3 k4 k5 k6 : Str} (h : ((((l.matchKw k1 = true ∨ l.matchKw k2 = true) ∨ l.matchKw k3 = true) ∨ l.matchKw k4 = true) ∨ l.matchKw k5 = true) ∨ l.matchKw k6 = true) : ∃ k, l.matchKw k = true := by
  simp only [or_assoc] at h
  rcases h with h | h | h | h | h | h <;> exact ⟨_, h⟩
theorem Mods.word1 {l l1 : Lx} {vs : List V} {t : Token} (h : Mods l (.list vs) l1) (ht : l1.cur = some t) (hk : ∃ k, l1.matchKw k = true) :
    Mods l (.list (vs ++ [.str t.str])) l1.advance := hk.elim fun _ hk => h.word ht hk

theorem Mods.startI {l : Lx} : Mods l (.list V.nil.items) l := .start0
theorem m_parseJoinType : Meth .parseJoinType := by
  method
  enter hr
  sym
  all_goals
    first
    | with_reducible exact Mods.start
    | with_reducible exact Mods.kw .start (by assumption)
    | (repeat' first
        | with_reducible exact Mods.startI
        | with_reducible refine Mods.word1 ?_ (by assumption) ?_
        | with_reducible exact ⟨_, by assumption⟩
        | with_reducible exact kw2 (by assumption)
        | with_reducible exact kw4 (by assumption)
        | with_reducible exact kw5 (by assumption)
        | with_reducible exact kw6 (by assumption))
theorem Echo.mprep {s : Str} : ∀ {vs : List V} {us : List E}, vs ≠ [] → Echo .m (.list vs) us →
    Echo .m (.list (.str s :: vs)) ([.raw s, .sp] ++ us) := by
  suffices h : ∀ n vs us, vs.length = n → vs ≠ [] → Echo .m (.list vs) us → Echo .m (.list (.str s :: vs)) ([.raw s, .sp] ++ us) by
    intro vs us; exact h _ vs us rfl
  intro n
  induction n with
  | zero => intro vs us h hn; simp_all
  | succ n ih =>
    intro vs us hl hn he
    generalize hv : V.list vs = v at he
    generalize hk : K.m = k at he
    cases he <;> cases hk <;> cases hv
    · exact Echo.msnoc (vs := [.str s]) (by simp) .mone
    · exact Echo.mkws (vs := [.str s]) (by simp) .mone
    · rename_i ws xs z hne he
      have := ih ws xs (by simp at hl; omega) hne he
      exact Echo.msnoc (vs := .str s :: ws) (by simp) this
    · rename_i ws xs z hne he
      have := ih ws xs (by simp at hl; omega) hne he
      exact Echo.mkws (vs := .str s :: ws) (by simp) this
theorem Mods.prep {l l' : Lx} {v : V} {t : Token} (h : Mods l.advance v l') (ht : l.cur = some t) (hk : isKind t .keyword) :
    Mods l (.list ([.str t.str] ++ v.items)) l' := by
  rcases h with ⟨h, rfl⟩ | ⟨vs, us, rfl, hne, hr, he⟩
  · rw [h]
    exact .inr ⟨_, _, rfl, by simp, .tok (u := .raw t.str) ht ⟨hk, rfl⟩ .nil, .mone⟩
  · exact .inr ⟨_, _, rfl, by simp, .tok (u := .raw t.str) ht ⟨hk, rfl⟩ (.sp hr), .mprep hne he⟩
theorem kw_oneOf {l : Lx} {ks : List Str} (h : l.matchOneOf ks = true) : ∃ t, l.cur = some t ∧ isKind t .keyword := by
  simp only [Lx.matchOneOf, List.any_eq_true] at h
  obtain ⟨k, _, h⟩ := h
  obtain ⟨t, ht, h1, _⟩ := An.matchKw_iff.1 h
  exact ⟨t, ht, h1⟩
theorem eval_prep {s : PS} {a b v w : V} {o : Option Token} {t : Token} (ho : o = some t)
    (h : Exp.eval s [a, b, tokV o, v] ((Exp.empty.append ((Exp.var 2).fld 3)).appendAll (Exp.var 3)) = some w) :
    w = .list ([.str t.str] ++ v.items) := by
  subst ho
  simp [Exp.eval, tokV, Token.toV, V.items, N.Token, V.field] at h
  exact h.symm
theorem m_parseJoinModifiers : Meth .parseJoinModifiers := by
  method
  enter hr
  sym
  · assumption
  · exact Mods.start
  all_goals
    obtain ⟨t, ht, hk⟩ := kw_oneOf c1
  · rw [eval_prep ht hw6]
    exact hv2.prep ht hk
  · rw [eval_prep ht hw5]
    exact hv2.prep ht hk
theorem Mods.none {l l' : Lx} {v : V} (h : Mods l v l') (hv : v.items.length = 0) : l' = l := by
  rcases h with ⟨_, h⟩ | ⟨vs, us, rfl, hne, _⟩
  · exact h
  · exact absurd (List.length_eq_zero_iff.1 hv) hne
theorem Rest.mods {l l1 l2 l3 l4 : Lx} {v a c b p : V} (h : Mods l v l1) (hk : l1.matchKw b!"JOIN" = true) (ha : Val l1.advance a l2)
    (hc : Opt [.sp] l2 c l3) (hb : Rest l3 b l4) : Rest l (.mk .JoinExpr [p, a, b, .list (v.items ++ [.str b!"JOIN"]), c]) l4 := by
  refine ⟨by simp, fun hg => ?_⟩
  simp only [V.plain, V.plainL, plainNode, Bool.and_eq_true] at hg
  obtain ⟨us, r1, e1⟩ := ha.open hg.2.2.1
  obtain ⟨ws, r2, e2⟩ := hc.open hg.2.2.2.2.2.1
  obtain ⟨xs, r3, e3⟩ := hb.open hg.2.2.2.1
  rcases h.kw hk with ⟨h, _⟩ | ⟨vs, zs, h, hne, r0, e0⟩
  · simp [V.items] at h
  · cases h
    exact ⟨_, by simp only [List.append_assoc]; exact .sp (r0.trans (.sp (r1.trans (r2.trans r3)))), .jmods e0 hne e1 e2 e3⟩
theorem m_parseJoinRightExpr : Meth .parseJoinRightExpr := by
  method
  enter hr
  sym
  all_goals first
    | exact Rest.mods (by assumption) (by assumption) (by assumption) .none (by assumption)
    | exact Rest.mods (by assumption) (by assumption) (by assumption) (by assumption) (by assumption)
    | skip
  · refine Ok2.of fun he => ?_
    obtain ⟨hv, hj⟩ := hv2 he
    refine ⟨fun hn => absurd hn hv.ne, fun hg => ?_⟩
    obtain ⟨us, hr, he⟩ := hj hg
    exact ⟨_, .op' c1 hr, he⟩
  · rw [c5] at c6; cases c6
  · have := hv2.none (by
      rcases hv2 with ⟨h, _⟩ | ⟨vs, us, rfl, _⟩
      · rw [h]; rfl
      · simpa [Exp.eval, V.toNat?, V.toBool?, V.items] using hw4)
    subst this
    exact Rest.none

/-! ### Unions -/

theorem plain_sel {p q w top d don its fr wi pw wh gb tt hv ob lb lm st fm a b c e : V} :
    plainNode .SelectQuery [p, q, w, top, d, don, its, fr, wi, pw, wh, gb, tt, hv, ob, lb, lm, st, fm, a, b, c, e] =
      plainNode .SelectQuery [p, q, w, top, d, don, its, fr, wi, pw, wh, gb, tt, hv, ob, lb, lm, st, fm, .nil, .nil, .nil, .nil] := by
  cases d <;> try rfl
  cases its <;> try rfl
  rename_i vs
  cases vs <;> try rfl
  cases tt <;> rfl
theorem Echo.not_nil {us : List E} (h : Echo .n .nil us) : False := by
  generalize hn : V.nil = x at h
  generalize hk : K.n = k at h
  cases h <;> cases hk <;> cases hn
theorem Echo.o_nil {pre us : List E} (h : Echo (.o pre) .nil us) : us = [] := by
  generalize hn : V.nil = x at h
  generalize hk : K.o pre = k at h
  cases h <;> cases hk <;> cases hn
  · rfl
  · rename_i h; exact absurd h Echo.not_nil

theorem sel_open {l l' : Lx} {p q w top d don its fr wi pw wh gb tt hv ob lb lm st fm a b c e : V}
    (h : Val l (.mk .SelectQuery [p, q, w, top, d, don, its, fr, wi, pw, wh, gb, tt, hv, ob, lb, lm, st, fm, .nil, .nil, .nil, .nil]) l')
    (hg : (V.mk .SelectQuery [p, q, w, top, d, don, its, fr, wi, pw, wh, gb, tt, hv, ob, lb, lm, st, fm, a, b, c, e]).plain = true) :
    (a.plain = true ∧ b.plain = true ∧ c.plain = true ∧ e.plain = true) ∧ ∃ us, Reads l us l' ∧
      ∀ u1 u2 u3 u4, Echo (.o [.sp, .kw b!"UNION", .sp, .kw b!"ALL", .sp]) a u1 → Echo (.o [.sp, .kw b!"UNION", .sp, .kw b!"DISTINCT", .sp]) b u2 →
      Echo (.o [.sp, .kw b!"EXCEPT", .sp]) c u3 → Echo (.o [.sp, .kw b!"INTERSECT", .sp]) e u4 →
      (a ≠ .nil → b = .nil ∧ c = .nil ∧ e = .nil) → (b ≠ .nil → c = .nil ∧ e = .nil) → (c ≠ .nil → e = .nil) →
      Echo .n (V.mk .SelectQuery [p, q, w, top, d, don, its, fr, wi, pw, wh, gb, tt, hv, ob, lb, lm, st, fm, a, b, c, e]) (us ++ (u1 ++ (u2 ++ (u3 ++ u4)))) := by
  simp only [V.plain, V.plainL, Bool.and_eq_true, plain_sel (a := a)] at hg
  obtain ⟨us, hr, he⟩ := h.open (by simp only [V.plain, V.plainL, Bool.and_eq_true, Bool.and_true]; simp_all)
  refine ⟨by simp_all, us, hr, fun u1 u2 u3 u4 e1 e2 e3 e4 h1 h2 h3 => ?_⟩
  generalize hn : V.mk Ty.SelectQuery _ = x at he
  generalize hk : K.n = k at he
  cases he <;> cases hk <;> cases hn
  rename_i ei ene ew et ed ehd efr epw ewh egb ehv eob elb elm est efm e14 e15 e16 e17 _ _ _
  cases e14.o_nil
  cases e15.o_nil
  cases e16.o_nil
  cases e17.o_nil
  simp only [List.append_nil]
  have hs := Echo.select (p := p) (q := q) ew ed ehd et ei ene efr epw ewh egb ehv eob elb elm est efm e1 e2 e3 e4 h1 h2 h3
  simpa only [List.append_assoc] using hs

theorem Val.paren {l m : Lx} {v : V} (h : Val l.advance v m) (hl : l.matchKinds [b!"("] = true)
    (hk : l.advance.matchKw b!"SELECT" = true ∨ l.advance.matchKw b!"WITH" = true) (hm : m.matchKinds [b!")"] = true) : Val l v m.advance := by
  refine ⟨h.1, fun hg => ?_⟩
  obtain ⟨us, hr, he⟩ := h.2 hg
  obtain ⟨t, ht, h1⟩ := tok_of_op hl
  obtain ⟨t', ht', h2⟩ := tok_of_op hm
  refine ⟨us, ?_, he⟩
  simpa using Reads.paren ht h1 hk hr ht' h2 .nil

theorem val_all {l l1 l' : Lx} {p q w top d don its fr wi pw wh gb tt hv ob lb lm st fm v : V}
    (h : Val l (.mk .SelectQuery [p, q, w, top, d, don, its, fr, wi, pw, wh, gb, tt, hv, ob, lb, lm, st, fm, .nil, .nil, .nil, .nil]) l1)
    (h1 : l1.matchKw b!"UNION" = true) (h2 : l1.advance.matchKw b!"ALL" = true) (hx : Val l1.advance.advance v l') :
    Val l (.mk .SelectQuery [p, q, w, top, d, don, its, fr, wi, pw, wh, gb, tt, hv, ob, lb, lm, st, fm, v, .nil, .nil, .nil]) l' := by
  refine ⟨by simp, fun hg => ?_⟩
  obtain ⟨⟨g, -⟩, us, r, e⟩ := sel_open h hg
  obtain ⟨ws, r', e'⟩ := hx.open g
  exact ⟨_, r.trans (.sp (.kw' h1 (.sp (.kw' h2 (.sp (r'.trans .nil)))))), e _ _ _ _ (.osome e') .onil .onil .onil (by simp) (by simp) (by simp)⟩
theorem val_distinct {l l1 l' : Lx} {p q w top d don its fr wi pw wh gb tt hv ob lb lm st fm v : V}
    (h : Val l (.mk .SelectQuery [p, q, w, top, d, don, its, fr, wi, pw, wh, gb, tt, hv, ob, lb, lm, st, fm, .nil, .nil, .nil, .nil]) l1)
    (h1 : l1.matchKw b!"UNION" = true) (h2 : l1.advance.matchKw b!"DISTINCT" = true) (hx : Val l1.advance.advance v l') :
    Val l (.mk .SelectQuery [p, q, w, top, d, don, its, fr, wi, pw, wh, gb, tt, hv, ob, lb, lm, st, fm, .nil, v, .nil, .nil]) l' := by
  refine ⟨by simp, fun hg => ?_⟩
  obtain ⟨⟨-, g, -⟩, us, r, e⟩ := sel_open h hg
  obtain ⟨ws, r', e'⟩ := hx.open g
  exact ⟨_, r.trans (.sp (.kw' h1 (.sp (.kw' h2 (.sp (r'.trans .nil)))))), e _ _ _ _ .onil (.osome e') .onil .onil (by simp) (by simp) (by simp)⟩
theorem val_except {l l1 l' : Lx} {p q w top d don its fr wi pw wh gb tt hv ob lb lm st fm v : V}
    (h : Val l (.mk .SelectQuery [p, q, w, top, d, don, its, fr, wi, pw, wh, gb, tt, hv, ob, lb, lm, st, fm, .nil, .nil, .nil, .nil]) l1)
    (h1 : l1.matchKw b!"EXCEPT" = true) (hx : Val l1.advance v l') :
    Val l (.mk .SelectQuery [p, q, w, top, d, don, its, fr, wi, pw, wh, gb, tt, hv, ob, lb, lm, st, fm, .nil, .nil, v, .nil]) l' := by
  refine ⟨by simp, fun hg => ?_⟩
  obtain ⟨⟨-, -, g, -⟩, us, r, e⟩ := sel_open h hg
  obtain ⟨ws, r', e'⟩ := hx.open g
  exact ⟨_, r.trans (.sp (.kw' h1 (.sp (r'.trans .nil)))), e _ _ _ _ .onil .onil (.osome e') .onil (by simp) (by simp) (by simp)⟩
theorem val_intersect {l l1 l' : Lx} {p q w top d don its fr wi pw wh gb tt hv ob lb lm st fm v : V}
    (h : Val l (.mk .SelectQuery [p, q, w, top, d, don, its, fr, wi, pw, wh, gb, tt, hv, ob, lb, lm, st, fm, .nil, .nil, .nil, .nil]) l1)
    (h1 : l1.matchKw b!"INTERSECT" = true) (hx : Val l1.advance v l') :
    Val l (.mk .SelectQuery [p, q, w, top, d, don, its, fr, wi, pw, wh, gb, tt, hv, ob, lb, lm, st, fm, .nil, .nil, .nil, v]) l' := by
  refine ⟨by simp, fun hg => ?_⟩
  obtain ⟨⟨-, -, -, g⟩, us, r, e⟩ := sel_open h hg
  obtain ⟨ws, r', e'⟩ := hx.open g
  exact ⟨_, r.trans (.sp (.kw' h1 (.sp r'))), e _ _ _ _ .onil .onil .onil (.osome e') (by simp) (by simp) (by simp)⟩

theorem m_parseSelectQuery : Meth .parseSelectQuery := by
  method
  enter hr
  sym
  all_goals refine ⟨?_, rfl, ?_⟩
  all_goals
    try have hx := val_all hv3 c5 c6 (by assumption)
    try have hx := val_distinct hv3 c5 c7 (by assumption)
    try have hx := val_except hv3 c6 (by assumption)
    try have hx := val_intersect hv3 c7 (by assumption)
    first
    | exact fun hp => ⟨_, hx, by assumption, rfl⟩
    | exact fun hp => ⟨_, hv3, by assumption, rfl⟩
    | exact fun hp => absurd hp (by rw [c2]; simp)
    | exact hx.paren c2 (by assumption) (by assumption)
    | exact hx
    | exact hv3.paren c2 (by assumption) (by assumption)
    | exact hv3

end Verif.Echo

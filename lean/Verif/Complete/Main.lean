/-
The parser follows the grammar of the core language.  No definition here is part of the model.
-/
import Verif.Complete.Query

namespace Verif.Complete
open Verif.Spec Verif.Echo Verif.Echo.Sym Verif.Complete.Tac Verif.Group

/-- What the parser does with a part of a query. -/
def Meaning : Cat → List Token → V → Prop
  | .expr p, ts, v => ME p ts v
  | .atom, ts, v => MA ts v
  | .dotted, ts, v => ∃ vs, v = .list vs ∧ Names ts vs
  | .call, ts, v => MC ts v
  | .partition, ts, v => MPar ts v
  | .arg, ts, v => MArg ts v
  | .args1, ts, v => ∃ vs, v = .list vs ∧ Sep MArg ts vs
  | .args, ts, v => ∃ vs, v = .list vs ∧ MArgs ts vs
  | .distinct, ts, v => ∃ b, v = .bool b ∧ MDis ts b
  | .whens, ts, v => ∃ vs, v = .list vs ∧ Whens ts vs
  | .else_, ts, v => MElse ts v
  | .item, ts, v => MItem ts v
  | .items, ts, v => ∃ vs, v = .list vs ∧ Sep MItem ts vs
  | .table, ts, v => MTab ts v
  | .aliased, ts, v => MAli ts v
  | .final, ts, v => ∃ b, v = .bool b ∧ MFin ts b
  | .ref, ts, v => MRef ts v
  | .tables, ts, v => MTables ts v
  | .tail, ts, v => MTail ts v
  | .join, ts, v => MJoin ts v
  | .joinKind, ts, v => MKind ts v
  | .using_, ts, v => MUsing ts v
  | .on, ts, v => MOn ts v
  | .from_, ts, v => MPart .tryParseFromClause b!"FROM" fromFol ts v
  | .prewhere, ts, v => MPart .tryParsePrewhereClause b!"PREWHERE" (b!"WHERE" :: b!"GROUP" :: b!"HAVING" :: b!"ORDER" :: b!"LIMIT" :: b!"OFFSET" :: lastWords) ts v
  | .where_, ts, v => MPart .tryParseWhereClause b!"WHERE" (b!"GROUP" :: b!"HAVING" :: b!"ORDER" :: b!"LIMIT" :: b!"OFFSET" :: lastWords) ts v
  | .groupBy, ts, v => MPart .tryParseGroupByClause b!"GROUP" (b!"HAVING" :: b!"ORDER" :: b!"LIMIT" :: b!"OFFSET" :: lastWords) ts v
  | .having, ts, v => MPart .tryParseHavingClause b!"HAVING" (b!"ORDER" :: b!"LIMIT" :: b!"OFFSET" :: lastWords) ts v
  | .orderItem, ts, v => MOrd ts v
  | .orderItems, ts, v => ∃ vs, v = .list vs ∧ Sep MOrd ts vs
  | .orderBy, ts, v => MOrder ts v
  | .limit, ts, v => MLimit ts v
  | .limits, ts, v => ∃ y w, v = .list [y, w] ∧ MLims ts y w
  | .cte, ts, v => MCte ts v
  | .ctes, ts, v => ∃ vs, v = .list vs ∧ Sep MCte ts vs
  | .with_, ts, v => MPart .tryParseWithClause b!"WITH" [b!"SELECT"] ts v
  | .setting, ts, v => MSet ts v
  | .settingItems, ts, v => ∃ vs, v = .list vs ∧ Sep MSet ts vs
  | .settings, ts, v => MPart .tryParseSettingsClause b!"SETTINGS" [b!"FORMAT", b!"UNION", b!"EXCEPT", b!"INTERSECT"] ts v
  | .format, ts, v => MPart .tryParseFormat b!"FORMAT" [b!"UNION", b!"EXCEPT", b!"INTERSECT"] ts v
  | .compound, ts, v => ∃ u1 u2 u3 u4, v = .list [u1, u2, u3, u4] ∧ MComp ts u1 u2 u3 u4
  | .query, ts, v => MQ ts v

theorem query_node {ts : List Token} {v : V} (h : Core .query ts v) : v ≠ .nil := by
  cases h
  exact fun h => nomatch h
theorem from_node {f : V} (h : Core .from_ [] f) : f = .nil := by
  cases h
  rfl

/-- An expression that does not make `CASE` a name. -/
theorem begins_case {xs : List Token} (h : Begins exprKinds exprWords xs) (hc : ∀ t ∈ xs.head?, ¬ isContinuation t) : Begins afterCase [b!"CASE"] xs := by
  obtain ⟨t, us, rfl, h⟩ := h
  have hc := hc t (by simp)
  unfold isContinuation isSign isWord at hc
  simp only [not_or, not_and] at hc
  obtain ⟨c1, c2, c3, c4⟩ := hc
  refine ⟨t, us, rfl, ?_⟩
  rcases h with h | ⟨h1, h2⟩
  · left
    have hop : ∀ s : Str, s.head? ≠ some 60 → t.kind.toStr = s → s ≠ [] → t.kind = .op s := by
      intro s hs h _
      cases hk : t.kind <;> rw [hk] at h <;> simp only [Kind.toStr] at h
      all_goals first
        | (rw [h])
        | (exact absurd (by rw [← h]; decide) hs)
    simp only [exprKinds, List.mem_cons, List.not_mem_nil, or_false] at h
    simp only [afterCase, List.mem_cons, List.not_mem_nil, or_false]
    rcases h with h | h | h | h | h | h | h | h | h
    · exact .inl h
    · exact .inr (.inl h)
    · exact .inr (.inr (.inl h))
    · exact .inr (.inr (.inr (.inl h)))
    · exact absurd (hop _ (by decide) h (by decide)) c3
    · exact .inr (.inr (.inr (.inr (.inl h))))
    · exact .inr (.inr (.inr (.inr (.inr h))))
    · exact absurd (hop _ (by decide) h (by decide)) c1
    · exact absurd (hop _ (by decide) h (by decide)) c2
  · right
    simp only [exprWords, List.mem_cons, List.not_mem_nil, or_false] at h2
    exact ⟨h1, by simp [h2.resolve_left (c4 h1)]⟩

theorem part {c : Cat} {ts : List Token} {v : V} {f : Fn} {k : Str} {fol : List Str} (h : Core c ts v) (hc : heads c = (true, [], [k])) (hm : MCl f fol ts v) : MPart f k fol ts v := by
  refine ⟨?_, hm⟩
  have := core_head h
  rw [hc] at this
  exact this.imp And.right id

theorem meaning {c : Cat} {ts : List Token} {v : V} (h : Core c ts v) : Meaning c ts v := by
  induction h with
  | atom h ih => exact e_atom (core_begins h rfl) ih
  | sign h _ ih => exact e_sign h ih
  | not_ hp h _ ih => exact e_not hp h ih
  | infix_ h1 h2 _ _ i1 i2 => exact e_infix h1 h2 i1 i2
  | notInfix h1 h2 h3 h4 _ _ i1 i2 => exact e_notInfix h1 h2 h3 h4 i1 i2
  | between h1 h2 h3 _ _ _ i1 i2 i3 => exact e_between h1 h2 h3 i1 i2 i3
  | notBetween h1 h2 h3 h4 _ _ _ i1 i2 i3 => exact e_notBetween h1 h2 h3 h4 i1 i2 i3
  | isNull h1 h2 h3 _ ih => exact e_isNull h1 h2 h3 ih
  | isNotNull h1 h2 h3 h4 _ ih => exact e_isNotNull h1 h2 h3 h4 ih
  | global h1 h2 h3 _ _ i1 i2 => exact e_global h1 h2 h3 i1 i2
  | globalNot h1 h2 h3 h4 _ _ i1 i2 => exact e_globalNot h1 h2 h3 h4 i1 i2
  | cast h1 h2 h3 h4 _ ih => exact e_cast h1 h2 h3 h4 ih (e_atom (core_begins (.name h3) rfl) (a_name h3))
  | ternary h1 h2 _ _ _ i1 i2 i3 => exact e_ternary h1 h2 i1 i2 i3
  | lambda h1 _ _ i1 i2 => exact e_lambda h1 i1 i2
  | name h => exact a_name h
  | number h => exact a_number h
  | string h => exact a_string h
  | star h => exact a_star h
  | path h1 h2 _ ih =>
    obtain ⟨vs, hv, ih⟩ := ih
    cases hv
    exact a_path h1 h2 ih
  | dotOne h => exact ⟨_, rfl, .one h⟩
  | dotMore h1 h2 _ ih =>
    obtain ⟨vs, hv, ih⟩ := ih
    cases hv
    exact ⟨_, rfl, .more h1 h2 ih⟩
  | tableStar h1 h2 h3 => exact a_tableStar h1 h2 h3
  | list h1 _ _ h2 i1 i2 =>
    obtain ⟨_, hb, i1⟩ := i1
    obtain ⟨_, hv, i2⟩ := i2
    cases hb; cases hv
    exact a_list h1 i1 i2 h2
  | array h1 _ _ h2 i1 i2 =>
    obtain ⟨_, hb, i1⟩ := i1
    obtain ⟨_, hv, i2⟩ := i2
    cases hb; cases hv
    exact a_array h1 i1 i2 h2
  | call h0 hw h1 _ _ h2 i1 i2 =>
    obtain ⟨_, hb, i1⟩ := i1
    obtain ⟨_, hv, i2⟩ := i2
    cases hb; cases hv
    exact ⟨_, _, _, _, _, _, _, rfl, rfl, h0, hw, h1, i1, i2, h2⟩
  | called _ ih => exact a_call ih
  | overName _ h1 h2 ih => exact a_overName ih h1 h2
  | overWindow _ h1 h2 _ _ h3 i1 i2 i3 => exact a_overWindow i1 h1 h2 i2 i3 h3
  | partitionNo => exact b_no
  | partition h1 h2 _ ih =>
    obtain ⟨_, hv, ih⟩ := ih
    cases hv
    exact b_yes h1 h2 ih
  | subquery h1 _ hw h2 ih => exact a_subquery h1 ih hw h2
  | case_ h1 _ _ h2 i1 i2 =>
    obtain ⟨_, hv, i1⟩ := i1
    cases hv
    exact a_case (xs := []) h1 (.inl ⟨rfl, rfl⟩) i1 i2 h2
  | caseOf h1 hc h _ _ h2 i0 i1 i2 =>
    obtain ⟨_, hv, i1⟩ := i1
    cases hv
    exact a_case h1 (.inr ⟨i0, begins_case (core_begins h rfl) hc⟩) i1 i2 h2
  | whenOne h1 _ h2 _ i1 i2 => exact ⟨_, rfl, .one h1 i1 h2 i2⟩
  | whenMore h1 _ h2 _ _ i1 i2 i3 =>
    obtain ⟨_, hv, i3⟩ := i3
    cases hv
    exact ⟨_, rfl, .more h1 i1 h2 i2 i3⟩
  | elseNo => exact .inl ⟨rfl, rfl⟩
  | elseYes h _ ih => exact .inr ⟨_, _, rfl, h, ih⟩
  | arg h ih => exact m_arg (core_begins h rfl) ih
  | argAs h h1 h2 ih => exact m_argAs (core_begins h rfl) ih h1 h2
  | argOne _ ih => exact ⟨_, rfl, .one ih⟩
  | argMore _ h _ i1 i2 =>
    obtain ⟨_, hv, i2⟩ := i2
    cases hv
    exact ⟨_, rfl, .more i1 h i2⟩
  | argsNo => exact ⟨_, rfl, .inl ⟨rfl, rfl⟩⟩
  | args _ ih =>
    obtain ⟨_, rfl, ih⟩ := ih
    exact ⟨_, rfl, .inr ih⟩
  | distinctNo => exact ⟨_, rfl, .inl ⟨rfl, rfl⟩⟩
  | distinctYes h => exact ⟨_, rfl, .inr ⟨rfl, _, rfl, h⟩⟩
  | item h ih => exact i_item (core_begins h rfl) ih
  | itemAs h h1 h2 ih => exact i_itemAs (core_begins h rfl) ih h1 h2
  | itemName h h1 ih => exact i_itemName (core_begins h rfl) ih h1
  | itemOne _ ih => exact ⟨_, rfl, .one ih⟩
  | itemMore _ h _ i1 i2 =>
    obtain ⟨_, hv, i2⟩ := i2
    cases hv
    exact ⟨_, rfl, .more i1 h i2⟩
  | tableName h => exact .name h
  | tableOf h1 h2 h3 => exact .of h1 h2 h3
  | tableQuery h1 _ h2 ih => exact .query h1 ih h2
  | bare _ ih => exact r_refBare ih
  | aliasAs _ h1 h2 ih => exact r_refAs ih h1 h2
  | aliasName _ h ih => exact r_refName ih h
  | finalNo => exact ⟨_, rfl, .inl ⟨rfl, rfl⟩⟩
  | finalYes h => exact ⟨_, rfl, .inr ⟨_, rfl, h, rfl⟩⟩
  | ref _ _ i1 i2 =>
    obtain ⟨_, hb, i2⟩ := i2
    cases hb
    exact r_ref i1 i2
  | tablesOne _ ih => exact t_one ih
  | tablesMore _ _ i1 i2 => exact t_more i1 i2
  | tailComma h _ ih => exact t_comma h ih
  | tailJoin _ ih => exact ih.tail
  | joinKind h1 h2 h3 => exact ⟨_, _, rfl, h1, h2, h3, rfl⟩
  | joinEnd _ _ _ i1 i2 i3 => exact j_end i1 i2 i3
  | joinMore _ _ _ _ i1 i2 i3 i4 => exact j_more i1 i2 i3 i4
  | joinOn _ _ _ i1 i2 i3 => exact j_on i1 i2 i3
  | joinOnMore _ _ _ _ i1 i2 i3 i4 => exact j_onMore i1 i2 i3 i4
  | usingNo => exact u_no
  | using_ h1 h2 _ h3 ih =>
    obtain ⟨_, hv, ih⟩ := ih
    cases hv
    exact u_using h1 h2 ih h3
  | on h _ ih =>
    obtain ⟨_, hv, ih⟩ := ih
    cases hv
    exact u_on h ih
  | usingBare h hp _ ih =>
    obtain ⟨_, hv, ih⟩ := ih
    cases hv
    exact u_bare h hp ih
  | fromNo => exact part .fromNo rfl f_no
  | from_ h h' ih => exact part (.from_ h h') rfl (f_yes h ih)
  | prewhereNo => exact part .prewhereNo rfl p_no
  | prewhere h h' ih => exact part (.prewhere h h') rfl (p_yes h ih)
  | whereNo => exact part .whereNo rfl w_no
  | where_ h h' ih => exact part (.where_ h h') rfl (w_yes h ih)
  | groupByNo => exact part .groupByNo rfl g_no
  | groupBy h hb h' ih =>
    obtain ⟨_, hv, ih⟩ := ih
    cases hv
    exact part (.groupBy h hb h') rfl (g_yes h hb ih)
  | havingNo => exact part .havingNo rfl h_no
  | having h h' ih => exact part (.having h h') rfl (h_yes h ih)
  | orderItem h ih => exact o_item (core_begins h rfl) ih
  | orderAsc h h1 ih => exact o_asc (core_begins h rfl) ih h1
  | orderDesc h h1 ih => exact o_desc (core_begins h rfl) ih h1
  | orderOne _ ih => exact ⟨_, rfl, .one ih⟩
  | orderMore _ h _ i1 i2 =>
    obtain ⟨_, hv, i2⟩ := i2
    cases hv
    exact ⟨_, rfl, .more i1 h i2⟩
  | orderByNo => exact ⟨.inl rfl, o_no⟩
  | orderBy h hb h' ih =>
    obtain ⟨_, rfl, ih⟩ := ih
    exact ⟨.inr ⟨_, _, _, rfl, h, hb⟩, o_yes h hb ih⟩
  | limit h _ ih => exact l_limit h ih
  | limitOffset h _ h' _ i1 i2 => exact l_both h i1 h' i2
  | limitsNo => exact ⟨_, _, rfl, .no⟩
  | limitsOne _ ih => exact ⟨_, _, rfl, ls_one ih⟩
  | limitsOffset h _ ih => exact ⟨_, _, rfl, ls_offset h ih⟩
  | limitsBy _ h _ i1 i2 =>
    obtain ⟨_, hv, i2⟩ := i2
    cases hv
    exact ⟨_, _, rfl, ls_by i1 h i2⟩
  | limitsBoth _ h _ _ i1 i2 i3 =>
    obtain ⟨_, hv, i2⟩ := i2
    cases hv
    exact ⟨_, _, rfl, ls_both i1 h i2 i3⟩
  | cteQuery _ h1 h2 _ h3 i1 i2 => exact e_query i1 h1 h2 i2 h3
  | cteName _ h1 h2 ih => exact e_name ih h1 h2
  | cteOne _ ih => exact ⟨_, rfl, .one ih⟩
  | cteMore _ h _ i1 i2 =>
    obtain ⟨_, hv, i2⟩ := i2
    cases hv
    exact ⟨_, rfl, .more i1 h i2⟩
  | withNo => exact part .withNo rfl e_no
  | with_ h h' ih =>
    obtain ⟨_, rfl, ih⟩ := ih
    exact part (.with_ h h') rfl (e_yes h ih)
  | settingNumber h1 h2 h3 => exact s_number h1 h2 h3
  | settingString h1 h2 h3 => exact s_string h1 h2 h3
  | settingBool h1 h2 h3 => exact s_bool h1 h2 h3
  | settingOne _ ih => exact ⟨_, rfl, .one ih⟩
  | settingMore _ h _ i1 i2 =>
    obtain ⟨_, hv, i2⟩ := i2
    cases hv
    exact ⟨_, rfl, .more i1 h i2⟩
  | settingsNo => exact part .settingsNo rfl s_no
  | settings h h' ih =>
    obtain ⟨_, rfl, ih⟩ := ih
    exact part (.settings h h') rfl (s_yes h ih)
  | formatNo => exact part .formatNo rfl m_no
  | format h1 h2 => exact part (.format h1 h2) rfl (m_yes h1 h2)
  | alone => exact ⟨_, _, _, _, rfl, .alone⟩
  | unionAll h1 h2 _ ih => exact ⟨_, _, _, _, rfl, .unionAll h1 h2 ih⟩
  | unionDistinct h1 h2 _ ih => exact ⟨_, _, _, _, rfl, .unionDistinct h1 h2 ih⟩
  | except h1 h ih => exact ⟨_, _, _, _, rfl, .except h1 ih (query_node h)⟩
  | intersect h1 h ih => exact ⟨_, _, _, _, rfl, .intersect h1 ih (query_node h)⟩
  | query h0 h hd hi hf hp hw hg hh ho hl hs hm hu hx i0 i1 i2 i3 i4 i5 i6 i7 i8 i9 i10 i11 i12 =>
    obtain ⟨_, hb, i1⟩ := i1
    obtain ⟨_, rfl, i2⟩ := i2
    obtain ⟨_, _, hy, i9⟩ := i9
    obtain ⟨_, _, _, _, hz, i12⟩ := i12
    cases hb
    cases hy
    cases hz
    refine q_query ⟨i0, h, i1, i2, i3, i4, i5, i6, i7, ⟨i8.begins, i8.2⟩, i9, i10, i11⟩ i12 fun he => ?_
    subst he
    exact hx.resolve_right fun h => h (from_node hf)

end Verif.Complete

/-
What the methods for `GROUP BY` and for windows do with the tokens.  No definition here is part of the model.
-/
import Verif.Echo.Select

namespace Verif.Echo
open Verif.Spec Verif.Echo.Sym

set_option linter.unusedTactic false
set_option linter.unreachableTactic false
set_option linter.unusedSimpArgs false

theorem val_group {l l' : Lx} {p q v : V} (h1 : l.matchKw b!"GROUP" = true) (h2 : l.advance.matchKw b!"BY" = true) (h : Val l.advance.advance v l') :
    Val l (.mk .GroupByClause [p, q, .str [], v, .bool false, .bool false, .bool false]) l' := by
  refine ⟨by simp, fun hg => ?_⟩
  plain hg
  obtain ⟨us, hr, he⟩ := h.open hg.2.2.2
  exact ⟨_, .kw' h1 (.sp (.kw' h2 (.sp hr))), .group he h.ne⟩
theorem val_groupAs {l l' : Lx} {p q v : V} {t : Token} (h1 : l.matchKw b!"GROUP" = true) (h2 : l.advance.matchKw b!"BY" = true)
    (ht : l.advance.advance.cur = some t) (hk : l.advance.advance.matchKw b!"CUBE" = true ∨ l.advance.advance.matchKw b!"ROLLUP" = true)
    (h : Val l.advance.advance.advance v l') :
    Val l (.mk .GroupByClause [p, q, .str t.str, v, .bool false, .bool false, .bool false]) l' := by
  refine ⟨by simp, fun hg => ?_⟩
  plain hg
  obtain ⟨us, hr, he⟩ := h.open hg.2.2.2
  refine ⟨_, .kw' h1 (.sp (.kw' h2 (.sp (.raw2 ht hk hr)))), .groupAs he ?_ h.ne⟩
  rcases hk with hk | hk
  all_goals
    obtain ⟨t', ht', _, h3⟩ := An.matchKw_iff.1 hk
    rw [ht] at ht'; cases ht'
  · exact .inl h3
  · exact .inr h3
theorem val_groupSets {l l' : Lx} {p q v : V} (h1 : l.matchKw b!"GROUP" = true) (h2 : l.advance.matchKw b!"BY" = true)
    (h3 : l.advance.advance.matchKw b!"GROUPING" = true) (h4 : l.advance.advance.advance.matchKw b!"SETS" = true)
    (h : Val l.advance.advance.advance.advance v l') :
    Val l (.mk .GroupByClause [p, q, .str b!"GROUPING SETS", v, .bool false, .bool false, .bool false]) l' := by
  refine ⟨by simp, fun hg => ?_⟩
  plain hg
  obtain ⟨us, hr, he⟩ := h.open hg.2.2.2
  exact ⟨_, .kw' h1 (.sp (.kw' h2 (.sp (.kw' h3 (.sp (.kw' h4 hr)))))), .groupSets he h.ne⟩
theorem val_groupAll {l : Lx} {p q : V} (h1 : l.matchKw b!"GROUP" = true) (h2 : l.advance.matchKw b!"BY" = true)
    (h3 : l.advance.advance.matchKw b!"ALL" = true) :
    Val l (.mk .GroupByClause [p, q, .str b!"ALL", .nil, .bool false, .bool false, .bool false]) l.advance.advance.advance :=
  ⟨by simp, fun _ => ⟨_, .kw' h1 (.sp (.kw' h2 (.sp (.kw' h3 .nil)))), .groupAll⟩⟩

/-- A `GROUP BY` clause, and perhaps flags after it. -/
def Grp (l : Lx) (v : V) (l' : Lx) : Prop := ∃ p q s e c r t, v = .mk .GroupByClause [p, q, s, e, .bool c, .bool r, .bool t] ∧ Val l v l'
theorem Grp.not {l l' : Lx} {p q s e : V} {c r t : Bool} (h : c = true ∨ r = true ∨ t = true) :
    Grp l (.mk .GroupByClause [p, q, s, e, .bool c, .bool r, .bool t]) l' :=
  ⟨_, _, _, _, _, _, _, rfl, by simp, fun hg => by
    rcases h with rfl | rfl | rfl <;> simp [V.plain, plainNode] at hg⟩
theorem Grp.of {l l' : Lx} {p q s e : V} {c r t : Bool} (h : Val l (.mk .GroupByClause [p, q, s, e, .bool c, .bool r, .bool t]) l') :
    Grp l (.mk .GroupByClause [p, q, s, e, .bool c, .bool r, .bool t]) l' := ⟨_, _, _, _, _, _, _, rfl, h⟩

set_option maxHeartbeats 2000000 in
theorem m_parseGroupByClause : Meth .parseGroupByClause := by
  method
  enter hr
  sym
  all_goals
    loopInv 20 8 9 10 11 12 13 => (fun l1 x8 _ _ _ _ _ => ∃ p q s e c r t, x8 = .mk .GroupByClause [p, q, s, e, .bool c, .bool r, .bool t] ∧ Val l x8 l1)
  all_goals first
    | exact ⟨_, _, _, _, _, _, _, rfl, val_groupAs c1 c2 (by assumption) c3 (by assumption)⟩
    | exact ⟨_, _, _, _, _, _, _, rfl, val_groupSets c1 c2 c4 c4b (by assumption)⟩
    | exact ⟨_, _, _, _, _, _, _, rfl, val_groupAll c1 c2 (by assumption)⟩
    | exact ⟨_, _, _, _, _, _, _, rfl, val_group c1 c2 (by assumption)⟩
    | assumption
    | exact Grp.not (by simp)

theorem m_tryParseWindowClause : Meth .tryParseWindowClause := by
  method
  enter hr
  sym
  · exact fun _ => rfl
  · exact Ok2.of fun he hn => absurd hn (hv2 he)
theorem m_tryParseWindowFrameClause : Meth .tryParseWindowFrameClause := by
  method
  enter hr
  sym
  · exact fun _ => rfl
  · exact Ok2.of fun he hn => absurd hn (hv2 he)
theorem val_window {l l1 l2 l3 l4 : Lx} {p q a b c f : V} (h0 : l.matchKinds [b!"("] = true) (ha : Opt [] l.advance a l1) (hb : Opt [] l1 b l2)
    (hc : Opt [] l2 c l3) (hf : f = .nil → l4 = l3) (h1 : l4.matchKinds [b!")"] = true) : Val l (.mk .WindowExpr [p, q, a, b, c, f]) l4.advance := by
  refine ⟨by simp, fun hg => ?_⟩
  have : f = .nil ∨ f.nonNil = true := by cases f <;> simp [V.nonNil]
  rcases this with rfl | hn
  · cases hf rfl
    plain hg
    obtain ⟨us, r1, e1⟩ := ha.open hg.2.2.2.1
    obtain ⟨vs, r2, e2⟩ := hb.open hg.2.2.2.2.1
    obtain ⟨ws, r3, e3⟩ := hc.open hg.2.2.2.2.2
    refine ⟨_, ?_, .window e1 e2 e3⟩
    simp only [List.append_assoc]
    exact .op' h0 (r1.trans (.blank (r2.trans (.blank (r3.trans (.op' h1 .nil))))))
  · simp [V.plain, plainNode, hn] at hg
theorem m_parseWindowCondition : Meth .parseWindowCondition := by
  method
  enter hr
  sym
  · exact val_window c1 hv4.opt0 hv6 hv8b hv10 (by assumption)
  · exact val_window c1 .none hv4 hv6b hv8 (by assumption)

end Verif.Echo

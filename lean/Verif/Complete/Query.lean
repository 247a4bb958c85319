/-
A query on known tokens.  No definition here is part of the model.
-/
import Verif.Complete.Tables

namespace Verif.Complete
open Verif.Spec Verif.Echo Verif.Echo.Sym Verif.Complete.Tac Verif.Group

variable {l l' : Lx}

set_option linter.unusedVariables false

theorem n_with (h : l.matchKw b!"WITH" = false) (a : V) : Fw .tryParseWithClause [a] l (Res [.nil, .nil] l) := by
  start; fw []
  exact ⟨rfl, rfl⟩
theorem n_on (h : l.matchKw b!"ON" = false) (a : V) : Fw .tryParseDistinctOn [a] l (Res [.nil, .nil] l) := by
  start; fw []
  exact ⟨rfl, rfl⟩
theorem n_top (h : l.matchKw b!"TOP" = false) (a : V) : Fw .tryParseTopClause [a] l (Res [.nil, .nil] l) := by
  start; fw []
  exact ⟨rfl, rfl⟩
theorem n_window (h : l.matchKw b!"WINDOW" = false) (a : V) : Fw .tryParseWindowClause [a] l (Res [.nil, .nil] l) := by
  start; fw []
  exact ⟨rfl, rfl⟩
theorem n_settings (h : l.matchKw b!"SETTINGS" = false) (a : V) : Fw .tryParseSettingsClause [a] l (Res [.nil, .nil] l) := by
  start; fw []
  exact ⟨rfl, rfl⟩
theorem n_format (h : l.matchKw b!"FORMAT" = false) (a : V) : Fw .tryParseFormat [a] l (Res [.nil, .nil] l) := by
  start; fw []
  exact ⟨rfl, rfl⟩
theorem n_limitBy (h : l.matchKw b!"LIMIT" = false) (a : V) : Fw .tryParseLimitByClause [a] l (Res [.nil, .nil] l) := by
  start; fw []
  exact ⟨rfl, rfl⟩
theorem n_limit (h : l.matchKw b!"LIMIT" = false) (h' : l.matchKw b!"OFFSET" = false) (a : V) : Fw .tryParseLimitClause [a] l (Res [.nil, .nil] l) := by
  start; fw []
  exact ⟨rfl, rfl⟩

/-- A part of a query that may be missing. -/
def MPart (f : Fn) (k : Str) (fol : List Str) (ts : List Token) (v : V) : Prop := (ts = [] ∨ Begins [] [k] ts) ∧ MCl f fol ts v

/-- The parts of a query up to `FORMAT`. -/
structure MSel (es : List Token) (k : Token) (ds is fs ps ws gs hs os ls ss ms : List Token) (e : V) (b : Bool) (vs : List V) (f p w g h o y lm s m : V) : Prop where
  he : MPart .tryParseWithClause b!"WITH" [b!"SELECT"] es e
  hk : isWord k b!"SELECT"
  hd : MDis ds b
  hi : Sep MItem is vs
  hf : MPart .tryParseFromClause b!"FROM" fromFol fs f
  hp : MPart .tryParsePrewhereClause b!"PREWHERE" (b!"WHERE" :: b!"GROUP" :: b!"HAVING" :: b!"ORDER" :: b!"LIMIT" :: b!"OFFSET" :: lastWords) ps p
  hw : MPart .tryParseWhereClause b!"WHERE" (b!"GROUP" :: b!"HAVING" :: b!"ORDER" :: b!"LIMIT" :: b!"OFFSET" :: lastWords) ws w
  hg : MPart .tryParseGroupByClause b!"GROUP" (b!"HAVING" :: b!"ORDER" :: b!"LIMIT" :: b!"OFFSET" :: lastWords) gs g
  hh : MPart .tryParseHavingClause b!"HAVING" (b!"ORDER" :: b!"LIMIT" :: b!"OFFSET" :: lastWords) hs h
  ho : MPart .tryParseOrderByClause b!"ORDER" (b!"LIMIT" :: b!"OFFSET" :: lastWords) os o
  hl : MLims ls y lm
  hs : MPart .tryParseSettingsClause b!"SETTINGS" [b!"FORMAT", b!"UNION", b!"EXCEPT", b!"INTERSECT"] ss s
  hm : MPart .tryParseFormat b!"FORMAT" [b!"UNION", b!"EXCEPT", b!"INTERSECT"] ms m

/-- A query that is not yet combined with another one. -/
def GotS (e : V) (b : Bool) (vs : List V) (f p w g h o y lm s m : V) (l2 : Lx) (rs : List V) (l' : Lx) : Prop :=
  ∃ x0 x1 x2 x6 x7 x9 x10 x11 x13 x14 x15 x16 x17 x18,
    rs = [.mk .SelectQuery [x0, x1, x2, .nil, .bool b, .nil, x6, x7, .nil, x9, x10, x11, .bool false, x13, x14, x15, x16, x17, x18, .nil, .nil, .nil, .nil], .nil] ∧ l2 = l' ∧
    x2.norm id = e ∧ x6.norm id = .list vs ∧ x7.norm id = f ∧ x9.norm id = p ∧ x10.norm id = w ∧ x11.norm id = g ∧ x13.norm id = h ∧ x14.norm id = o ∧ x15.norm id = y ∧
    x16.norm id = lm ∧ x17.norm id = s ∧ x18.norm id = m

macro "got_s" : tactic => `(tactic| (
  refine ⟨_, _, _, _, _, _, _, _, _, _, _, _, _, _, rfl, rfl, ?_⟩
  refine ⟨?_, ?_, ?_, ?_, ?_, ?_, ?_, ?_, ?_, ?_, ?_, ?_⟩
  all_goals first
    | with_reducible assumption
    | with_reducible rfl
    | exact congrArg V.list (by assumption)
    | exact (by assumption : Is _ _).2
    | rfl))

theorem Starts.mono' {os ws os' ws' : List Str} {l : Lx} (h : Starts os ws l) (h1 : ∀ x ∈ os, x ∈ os') (h2 : ∀ x ∈ ws, x ∈ ws') : Starts os' ws' l := by
  rcases h with h | ⟨t, ht, hs | ⟨hk, hs⟩⟩
  · exact .inl h
  · exact .inr ⟨t, ht, .inl (h1 _ hs)⟩
  · exact .inr ⟨t, ht, .inr ⟨hk, h2 _ hs⟩⟩

theorem c_select {k : Token} {b : Bool} {es ds is fs ps ws gs hs os ls ss ms : List Token} {vs : List V} {e f p w g h o y lm s m : V}
    (hq : MSel es k ds is fs ps ws gs hs os ls ss ms e b vs f p w g h o y lm s m)
    (ha : Ahead l (es ++ k :: (ds ++ (is ++ (fs ++ (ps ++ (ws ++ (gs ++ (hs ++ (os ++ (ls ++ (ss ++ ms))))))))))) l') (hn : NoErr l)
    (hu : Starts [b!")", b!";"] [b!"UNION", b!"EXCEPT", b!"INTERSECT"] l') (hu' : fs = [] → Starts [b!")", b!";"] [b!"UNION"] l') (a : V) :
    Fw .parseSelectStmt [a] l (GotS e b vs f p w g h o y lm s m l') := by
  obtain ⟨he, hk, hd, hi, hf, hp, hw, hg, hh, ho, hl, hs, hm⟩ := hq
  obtain ⟨l1, b1, ha⟩ := ha.append
  have ht := ha.cur
  obtain ⟨m0, a0, ha⟩ := ha.rest.append
  obtain ⟨m1, a1, ha⟩ := ha.append
  obtain ⟨m2, a2, ha⟩ := ha.append
  obtain ⟨m3, a3, ha⟩ := ha.append
  obtain ⟨m4, a4, ha⟩ := ha.append
  obtain ⟨m5, a5, ha⟩ := ha.append
  obtain ⟨m6, a6, ha⟩ := ha.append
  obtain ⟨m7, a7, ha⟩ := ha.append
  obtain ⟨m8, a8, ha⟩ := ha.append
  obtain ⟨m9, a9, a10⟩ := ha.append
  have nl := b1.noErr hn
  have n0 := a0.noErr nl.adv
  have n1 := a1.noErr n0
  have n2 := a2.noErr n1
  have n3 := a3.noErr n2
  have n4 := a4.noErr n3
  have n5 := a5.noErr n4
  have n6 := a6.noErr n5
  have n7 := a7.noErr n6
  have n8 := a8.noErr n7
  have n9 := a9.noErr n8
  have n10 := a10.noErr n9
  have s9 : ∀ W, Starts [b!")", b!";"] W l' → Starts [b!")", b!";"] (b!"FORMAT" :: W) m9 := fun W hW => opens hm.1 a10 hW
  have s8 : ∀ W, Starts [b!")", b!";"] W l' → Starts [b!")", b!";"] (b!"SETTINGS" :: b!"FORMAT" :: W) m8 := fun W hW => opens hs.1 a9 (s9 W hW)
  have s7 : ∀ W, Starts [b!")", b!";"] W l' → Starts [b!")", b!";"] (b!"LIMIT" :: b!"OFFSET" :: b!"SETTINGS" :: b!"FORMAT" :: W) m7 := by
    intro W hW
    have hW := s8 W hW
    cases hl with
    | no =>
      cases a8
      exact Starts.mono' hW (by simp) (by intro x hx; simp only [List.mem_cons] at hx ⊢; tauto)
    | one hb _ => exact Starts.mono' (hb.starts a8).1 (by simp) (by simp)
    | offset hb _ => exact Starts.mono' (hb.starts a8).1 (by simp) (by simp)
    | by_ hb _ _ _ => exact Starts.mono' (hb.append.starts a8).1 (by simp) (by simp)
  have s6 := fun W hW => opens ho.1 a7 (s7 W hW)
  have s5 := fun W hW => opens hh.1 a6 (s6 W hW)
  have s4 := fun W hW => opens hg.1 a5 (s5 W hW)
  have s3 := fun W hW => opens hw.1 a4 (s4 W hW)
  have s2 := fun W hW => opens hp.1 a3 (s3 W hW)
  have s1 : Starts [b!")", b!";"] clauseWords m1 := by
    rcases hf.1 with rfl | hb
    · cases a2
      exact (s2 _ (hu' rfl)).mono (by decide)
    · exact (hb.starts a2).1.mono (by decide)
  have s0 := ((sep_begins (fun _ _ h => h.1) hi).starts a1).1
  have s2 := (s2 _ hu).mono (os' := [b!")", b!";"]) (ws' := fromFol) (by decide)
  have s3 := s3 _ hu
  have s4 := s4 _ hu
  have s5 := s5 _ hu
  have s6 := s6 _ hu
  have s7 := s7 _ hu
  have s8 := s8 _ hu
  have s9 := s9 _ hu
  simp only [List.nil_append, List.cons_append] at s3 s4 s5 s6
  have e0 := he.2 _ _ b1 hn (starts_word ht hk (by decide))
  have e1 := c_items hi a1 n0 s1
  have e2 := hf.2 _ _ a2 n1 s2
  have e3 := hp.2 _ _ a3 n2 (s3.mono (by decide))
  have e4 := hw.2 _ _ a4 n3 (s4.mono (by decide))
  have e5 := hg.2 _ _ a5 n4 (s5.mono (by decide))
  have e6 := hh.2 _ _ a6 n5 (s6.mono (by decide))
  have e7 := ho.2 _ _ a7 n6 (s7.mono (by decide))
  have e9 := hs.2 _ _ a9 n8 (s9.mono (by decide))
  have e10 := hm.2 _ _ a10 n9 hu
  clear hi hf hp hw hg hh ho hs hm he hu'
  obtain ⟨hk, hks⟩ := hk
  have hdis : (b = false ∧ m0 = l1.advance ∧ l1.advance.matchKw b!"DISTINCT" = false) ∨ (b = true ∧ m0 = l1.advance.advance ∧ l1.advance.matchKw b!"DISTINCT" = true) := by
    rcases hd with ⟨rfl, rfl⟩ | ⟨rfl, t, rfl, ht⟩
    · cases a0
      exact .inl ⟨rfl, rfl, st_kw s0 (by decide)⟩
    · cases a0.rest
      exact .inr ⟨rfl, rfl, mw_kw a0.cur ht.1 ht.2 (by decide)⟩
  cases hl with
  | no =>
    cases a8
    clear s7
    rcases hdis with ⟨rfl, rfl, hx⟩ | ⟨rfl, rfl, hx⟩
    all_goals
      start; fw [n_on, n_top, n_window, n_limitBy, n_limit]
      got_s
  | one hb e8 =>
    obtain ⟨t, ht8, hk8, hs8⟩ := begins_one hb a8
    have e8 := e8 _ _ a8 n7 (s8.mono (by decide))
    clear s7
    rcases hdis with ⟨rfl, rfl, hx⟩ | ⟨rfl, rfl, hx⟩
    all_goals
      start; fw [n_on, n_top, n_window]
      got_s
  | offset hb e8 =>
    obtain ⟨t, ht8, hk8, hs8⟩ := begins_one hb a8
    have e8 := e8 _ _ a8 n7 (s8.mono (by decide))
    have e9 : ∀ a, Fw .tryParseLimitByClause [a] m7 (Res [.nil, .nil] m7) := fun a => n_limitBy (mw_kw ht8 hk8 hs8 (by decide)) a
    clear s7
    rcases hdis with ⟨rfl, rfl, hx⟩ | ⟨rfl, rfl, hx⟩
    all_goals
      start; fw [n_on, n_top, n_window]
      got_s
  | by_ hb hb2 e8 e8' =>
    obtain ⟨m75, a75, a8⟩ := a8.append
    have n75 := a75.noErr n7
    obtain ⟨t, ht8, hk8, hs8⟩ := begins_one hb a75
    have e8 := e8 _ _ a75 n7 ((opens hb2 a8 s8).mono (by decide))
    have e8' := e8' _ _ a8 n75 (s8.mono (by decide))
    clear s7
    rcases hdis with ⟨rfl, rfl, hx⟩ | ⟨rfl, rfl, hx⟩
    all_goals
      start; fw [n_on, n_top, n_window]
      got_s

/-! ### Queries combined with others -/

/-- What follows the first query, with the fields for `UNION ALL`, `UNION DISTINCT`, `EXCEPT` and `INTERSECT`. -/
inductive MComp : List Token → V → V → V → V → Prop
  | alone : MComp [] .nil .nil .nil .nil
  | unionAll {k a : Token} {ts : List Token} {v : V} : isWord k b!"UNION" → isWord a b!"ALL" → MQ ts v → MComp (k :: a :: ts) v .nil .nil .nil
  | unionDistinct {k a : Token} {ts : List Token} {v : V} : isWord k b!"UNION" → isWord a b!"DISTINCT" → MQ ts v → MComp (k :: a :: ts) .nil v .nil .nil
  | except {k : Token} {ts : List Token} {v : V} : isWord k b!"EXCEPT" → MQ ts v → v ≠ .nil → MComp (k :: ts) .nil .nil v .nil
  | intersect {k : Token} {ts : List Token} {v : V} : isWord k b!"INTERSECT" → MQ ts v → v ≠ .nil → MComp (k :: ts) .nil .nil .nil v

theorem MComp.starts {us : List Token} {u1 u2 u3 u4 : V} (h : MComp us u1 u2 u3 u4) (ha : Ahead l us l') (hs : Starts [b!")", b!";"] [] l') :
    Starts [b!")", b!";"] [b!"UNION", b!"EXCEPT", b!"INTERSECT"] l := by
  cases h with
  | alone => cases ha; exact hs.mono (by decide)
  | unionAll h _ _ => exact starts_word ha.cur h (by decide)
  | unionDistinct h _ _ => exact starts_word ha.cur h (by decide)
  | except h _ _ => exact starts_word ha.cur h (by decide)
  | intersect h _ _ => exact starts_word ha.cur h (by decide)
theorem MComp.starts' {us : List Token} {u1 u2 u3 u4 : V} (h : MComp us u1 u2 u3 u4) (hx : u3 = .nil ∧ u4 = .nil) (ha : Ahead l us l') (hs : Starts [b!")", b!";"] [] l') :
    Starts [b!")", b!";"] [b!"UNION"] l := by
  cases h with
  | alone => cases ha; exact hs.mono (by decide)
  | unionAll h _ _ => exact starts_word ha.cur h (by decide)
  | unionDistinct h _ _ => exact starts_word ha.cur h (by decide)
  | except h _ hv => exact absurd hx.1 hv
  | intersect h _ hv => exact absurd hx.2 hv

/-- The query with what follows it. -/
theorem c_comp {b : Bool} {us : List Token} {vs : List V} {e f p w g h o y lm s m u1 u2 u3 u4 : V} {l l1 m1 l2 l' : Lx}
    (hfirst : (l.matchKw b!"SELECT" = true ∨ l.matchKw b!"WITH" = true) ∧ l.matchKinds [b!"("] = false ∧ l1 = l ∧ l' = l2 ∨
      (∃ o, l.cur = some o ∧ o.kind = .op b!"(") ∧ l1 = l.advance ∧ (∃ c, l2.cur = some c ∧ c.kind = .op b!")") ∧ l' = l2.advance)
    (h1 : ∀ a, Fw .parseSelectStmt [a] l1 (GotS e b vs f p w g h o y lm s m m1))
    (hu : MComp us u1 u2 u3 u4) (ha : Ahead m1 us l2) (hn : NoErr l) (hm : NoErr m1) (hs : Starts [b!")", b!";"] [] l2) (a : V) :
    Fw .parseSelectQuery [a] l (Got (N.SelectQuery (with_ := e) (hasDistinct := b) (selectItems := .list vs) (from_ := f) (prewhere := p) (where_ := w) (groupBy := g) (having := h)
      (orderBy := o) (limitBy := y) (limit := lm) (settings := s) (format_ := m) (unionAll := u1) (unionDistinct := u2) (except := u3) (intersect := u4)) l') := by
  have h2 := ha.noErr hm
  rcases hfirst with ⟨hf | hf, hp, rfl, rfl⟩ | ⟨⟨o, ho, hok⟩, rfl, ⟨c, hc, hck⟩, rfl⟩
  all_goals
    cases hu with
    | alone =>
      cases ha
      start; fw []
      obtain ⟨x0, x1, x2, x6, x7, x9, x10, x11, x13, x14, x15, x16, x17, x18, rfl, rfl, g1, g2, g3, g4, g5, g6, g7, g8, g9, g10, g11, g12⟩ := hp1
      fw []
      got
    | unionAll k1 k2 hq =>
      have t1 := ha.cur
      have t2 := ha.rest.cur
      have e := hq.2.1 _ _ ha.rest.rest hm.adv.adv hs
      obtain ⟨k1, k1s⟩ := k1
      obtain ⟨k2, k2s⟩ := k2
      start; fw []
      obtain ⟨x0, x1, x2, x6, x7, x9, x10, x11, x13, x14, x15, x16, x17, x18, rfl, rfl, g1, g2, g3, g4, g5, g6, g7, g8, g9, g10, g11, g12⟩ := hp1
      fw []
      got
    | unionDistinct k1 k2 hq =>
      have t1 := ha.cur
      have t2 := ha.rest.cur
      have e := hq.2.1 _ _ ha.rest.rest hm.adv.adv hs
      obtain ⟨k1, k1s⟩ := k1
      obtain ⟨k2, k2s⟩ := k2
      start; fw []
      obtain ⟨x0, x1, x2, x6, x7, x9, x10, x11, x13, x14, x15, x16, x17, x18, rfl, rfl, g1, g2, g3, g4, g5, g6, g7, g8, g9, g10, g11, g12⟩ := hp1
      fw []
      got
    | except k1 hq _ =>
      have t1 := ha.cur
      have e := hq.2.1 _ _ ha.rest hm.adv hs
      obtain ⟨k1, k1s⟩ := k1
      start; fw []
      obtain ⟨x0, x1, x2, x6, x7, x9, x10, x11, x13, x14, x15, x16, x17, x18, rfl, rfl, g1, g2, g3, g4, g5, g6, g7, g8, g9, g10, g11, g12⟩ := hp1
      fw []
      got
    | intersect k1 hq _ =>
      have t1 := ha.cur
      have e := hq.2.1 _ _ ha.rest hm.adv hs
      obtain ⟨k1, k1s⟩ := k1
      start; fw []
      obtain ⟨x0, x1, x2, x6, x7, x9, x10, x11, x13, x14, x15, x16, x17, x18, rfl, rfl, g1, g2, g3, g4, g5, g6, g7, g8, g9, g10, g11, g12⟩ := hp1
      fw []
      got

theorem q_query {k : Token} {b : Bool} {es ds is fs ps ws gs hs os ls ss ms us : List Token} {vs : List V} {e f p w g h o y lm s m u1 u2 u3 u4 : V}
    (hq : MSel es k ds is fs ps ws gs hs os ls ss ms e b vs f p w g h o y lm s m) (hu : MComp us u1 u2 u3 u4) (hx : fs = [] → u3 = .nil ∧ u4 = .nil) :
    MQ (es ++ k :: (ds ++ (is ++ (fs ++ (ps ++ (ws ++ (gs ++ (hs ++ (os ++ (ls ++ (ss ++ (ms ++ us))))))))))))
      (N.SelectQuery (with_ := e) (hasDistinct := b) (selectItems := .list vs) (from_ := f) (prewhere := p) (where_ := w) (groupBy := g) (having := h)
        (orderBy := o) (limitBy := y) (limit := lm) (settings := s) (format_ := m) (unionAll := u1) (unionDistinct := u2) (except := u3) (intersect := u4)) := by
  have hb : Begins [] [b!"SELECT", b!"WITH"] (es ++ k :: (ds ++ (is ++ (fs ++ (ps ++ (ws ++ (gs ++ (hs ++ (os ++ (ls ++ (ss ++ (ms ++ us)))))))))))) := by
    rcases hq.he.1 with h | h
    · rw [h]
      exact begins_word hq.hk (by decide)
    · exact (h.mono (by decide)).append
  have hcat : ∀ xs, es ++ k :: (ds ++ (is ++ (fs ++ (ps ++ (ws ++ (gs ++ (hs ++ (os ++ (ls ++ (ss ++ (ms ++ xs))))))))))) =
      (es ++ k :: (ds ++ (is ++ (fs ++ (ps ++ (ws ++ (gs ++ (hs ++ (os ++ (ls ++ (ss ++ ms))))))))))) ++ xs := by
    intro xs
    simp only [List.append_assoc, List.cons_append]
  have first : ∀ {l l'}, Ahead l (es ++ k :: (ds ++ (is ++ (fs ++ (ps ++ (ws ++ (gs ++ (hs ++ (os ++ (ls ++ (ss ++ (ms ++ us)))))))))))) l' →
      (l.matchKw b!"SELECT" = true ∨ l.matchKw b!"WITH" = true) ∧ l.matchKinds [b!"("] = false := by
    intro l l' ha
    obtain ⟨t, us, hts, h | ⟨hk, h⟩⟩ := hb
    · exact absurd h (by simp)
    · rw [hts] at ha
      simp only [List.mem_cons, List.not_mem_nil, or_false] at h
      exact ⟨h.imp (fun h => mw_kw ha.cur hk h (by decide)) (fun h => mw_kw ha.cur hk h (by decide)), mk_kw0 ha.cur hk rfl⟩
  refine ⟨hb, fun l l' ha hn he a => ?_, fun o c l l' ho hc ha hn a => ?_⟩
  · have hf := first ha
    rw [hcat] at ha
    obtain ⟨m1, a1, a2⟩ := ha.append
    exact c_comp (.inl ⟨hf.1, hf.2, rfl, rfl⟩) (c_select hq a1 hn (hu.starts a2 he) fun h => hu.starts' (hx h) a2 he) hu a2 hn (a1.noErr hn) he a
  · have ht := ha.cur
    obtain ⟨l2, ha2, hc'⟩ := ha.rest.append
    have htc := hc'.cur
    cases hc'.rest
    have he : Starts [b!")", b!";"] [] l2 := starts_sign htc hc (by decide)
    rw [hcat] at ha2
    obtain ⟨m1, a1, a2⟩ := ha2.append
    exact c_comp (.inr ⟨⟨_, ht, ho⟩, rfl, ⟨_, htc, hc⟩, rfl⟩) (c_select hq a1 hn.adv (hu.starts a2 he) fun h => hu.starts' (hx h) a2 he) hu a2 hn (a1.noErr hn.adv) he a

end Verif.Complete

/-
`CREATE DATABASE`, `CREATE TABLE` and `CREATE VIEW`.  No definition here is part of the model.
-/
import Verif.Complete.Engine

namespace Verif.Complete
open Verif.Spec Verif.Echo Verif.Echo.Sym Verif.Complete.Tac

variable {l l' : Lx} {k d t : Token} {ts us : List Token} {v w : V} {vs : List V} {b q : Bool}

set_option linter.unusedVariables false
set_option linter.unusedTactic false

theorem ms_createDatabase {bs cs es ms : List Token} {c e m : V} (hk : isWord k b!"CREATE") (hd : isWord d b!"DATABASE") (hb : Piece .ifNotExists bs (.bool b))
    (ht : isPlainName t) (hc : Piece .cluster cs c) (he : Piece (.engine false) es e) (hm : Piece .comment ms m) :
    MS (k :: d :: (bs ++ t :: (cs ++ (es ++ ms)))) (N.CreateDatabase (name := name t) (ifNotExists := b) (onCluster := c) (engine := e) (comment := m)) := by
  refine ms_of (f := .parseDDL) hk (by decide) fun l l' ha hn hs a => ?_
  have h1 := ha.cur
  have h2 := ha.rest.cur
  obtain ⟨l1, a1, ha⟩ := ha.rest.rest.append
  have n1 := a1.noErr hn.adv.adv
  have h3 := ha.cur
  obtain ⟨l2, a2, ha⟩ := ha.rest.append
  have n2 := a2.noErr n1.adv
  obtain ⟨l3, a3, a4⟩ := ha.append
  have n3 := a3.noErr n2
  have s3 : Starts [b!";"] [b!"COMMENT"] l3 := (piece_opens hm a4 hs).mono (by decide)
  have s2 : Starts [b!";"] [b!"ENGINE", b!"COMMENT"] l2 := (piece_opens he a3 s3).mono (by simp [pHeads])
  unfold isPlainName at ht
  have e1 := p_ifNotExists hb a1 (mw_some h3 ht (by decide))
  have e2 := p_clusterC hc a2 n1.adv (st_kw s2 (by decide))
  have e3 := p_tryEngine he a3 n2 (.inl ⟨rfl, s3⟩)
  have e4 := p_comment hm a4 (st_kw hs (by decide))
  obtain ⟨hk, hu⟩ := hk
  obtain ⟨hk2, hu2⟩ := hd
  have key : ∀ a, Fw .parseCreateDatabase [a] l.advance (Got (N.CreateDatabase (name := name t) (ifNotExists := b) (onCluster := c) (engine := e) (comment := m)) l') := by
    intro a
    rcases e2 with ⟨rfl, e2⟩ | e2 <;> rcases e3 with ⟨rfl, hl, e3⟩ | e3
    all_goals
      start; fw [c_ident]
      all_goals fin
      all_goals got
  start; fw []
  exact ⟨_, rfl, rfl, by assumption⟩

/-- `CREATE` or `CREATE OR REPLACE`, and what is created. -/
theorem create_ddl {f : Fn} {r : Bool} {rs us : List Token} (hk : isWord k b!"CREATE") (hr : Piece .orReplace rs (.bool r)) (ha : Ahead l (k :: (rs ++ d :: us)) l') (hd : d.kind = .keyword)
    (hw : (upper d.str, f) ∈ [(b!"TEMPORARY", Fn.parseCreateTable), (b!"TABLE", .parseCreateTable), (b!"VIEW", .parseCreateView)]) (hn : NoErr l)
    (h : ∀ a l1, NoErr l1 → Ahead l1 (d :: us) l' → Fw f [a, .bool r] l1 (Got v l')) (a : V) : Fw .parseDDL [a] l (Got v l') := by
  have h1 := ha.cur
  obtain ⟨l1, a1, a2⟩ := ha.rest.append
  have n1 := a1.noErr hn.adv
  have e := fun a => h a l1 n1 a2
  have h2 := a2.cur
  obtain ⟨hk, hu⟩ := hk
  simp only [List.mem_cons, List.not_mem_nil, or_false, Prod.mk.injEq] at hw
  cases hr with
  | replaceNo =>
    cases a1
    rcases hw with ⟨hw, rfl⟩ | ⟨hw, rfl⟩ | ⟨hw, rfl⟩
    all_goals
      start; fw []
      exact ⟨_, rfl, rfl, by assumption⟩
  | replaceYes q1 q2 =>
    have h3 := a1.cur
    have h4 := a1.rest.cur
    cases a1.rest.rest
    obtain ⟨_, _⟩ := q1
    obtain ⟨_, _⟩ := q2
    rcases hw with ⟨hw, rfl⟩ | ⟨hw, rfl⟩ | ⟨hw, rfl⟩
    all_goals
      start; fw []
      exact ⟨_, rfl, rfl, by assumption⟩

theorem MQ.heads (h : Core .query ts v) (ha : Ahead l ts l') : ∃ t, l.cur = some t ∧ (isWord t b!"SELECT" ∨ isWord t b!"WITH") := by
  obtain ⟨t, us, rfl, hb⟩ := core_begins h rfl
  refine ⟨t, ha.cur, ?_⟩
  rcases hb with h | ⟨h1, h2⟩
  · cases h
  · rcases List.mem_cons.1 h2 with h2 | h2
    · exact .inl ⟨h1, h2⟩
    · exact .inr ⟨h1, List.mem_singleton.1 h2⟩

theorem n_uuid (h : l.matchKw b!"UUID" = false) : Fw .tryParseUUID [] l (Res [.nil, .nil] l) := by
  start; fw []
  exact ⟨rfl, rfl⟩
theorem n_engine (h : l.matchKw b!"ENGINE" = false) (a : V) : Fw .tryParseEngineExpr [a] l (Res [.nil, .nil] l) := by
  start; fw []
  exact ⟨rfl, rfl⟩
theorem n_comment (h : l.matchKw b!"COMMENT" = false) : Fw .tryParseComment [] l (Res [.nil, .nil] l) := by
  start; fw []
  exact ⟨rfl, rfl⟩

theorem p_subQuery (h : Core .query ts v) (ha : Ahead l ts l') (hn : NoErr l) (hs : Starts [b!";"] [] l') (a : V) :
    Fw .parseSubQuery [a] l (Got (N.SubQuery (select := v)) l') := by
  obtain ⟨t, ht, hw⟩ := MQ.heads h ha
  have e := (meaning h : MQ ts v).2.1 l l' ha hn (hs.mono (by decide))
  rcases hw with ⟨_, _⟩ | ⟨_, _⟩
  all_goals
    start; fw []
    all_goals got

theorem ms_createTable {r p b : Bool} {rs ps bs is cs ss es ms : List Token} {i c s e m : V} (hk : isWord k b!"CREATE") (hr : Piece .orReplace rs (.bool r))
    (hp : Piece .temporary ps (.bool p)) (hd : isWord d b!"TABLE") (hb : Piece .ifNotExists bs (.bool b)) (hi : Piece .id is i) (hc : Piece .cluster cs c)
    (hss : Piece .schema ss s) (he : Piece (.engine false) es e) (hm : Piece .comment ms m) :
    MS (k :: (rs ++ (ps ++ d :: (bs ++ (is ++ (cs ++ (ss ++ (es ++ ms))))))))
      (N.CreateTable (orReplace := r) (hasTemporary := p) (ifNotExists := b) (name := i) (onCluster := c) (tableSchema := s) (engine := e) (comment := m)) := by
  refine ms_of1 (f := .parseDDL) hk (by decide) (by cases rs <;> cases ps <;> exact ⟨_, _, rfl⟩) fun l l' ha hn hs a => ?_
  have key : ∀ a l, NoErr l → Ahead l (ps ++ d :: (bs ++ (is ++ (cs ++ (ss ++ (es ++ ms)))))) l' → Fw .parseCreateTable [a, .bool r] l (Got
      (N.CreateTable (orReplace := r) (hasTemporary := p) (ifNotExists := b) (name := i) (onCluster := c) (tableSchema := s) (engine := e) (comment := m)) l') := by
    clear ha hn
    intro a l hn ha
    obtain ⟨l0, a0, ha⟩ := ha.append
    have n0 := a0.noErr hn
    have h2 := ha.cur
    obtain ⟨l1, a1, ha⟩ := ha.rest.append
    have n1 := a1.noErr n0.adv
    obtain ⟨l2, a2, ha⟩ := ha.append
    have n2 := a2.noErr n1
    obtain ⟨l3, a3, ha⟩ := ha.append
    have n3 := a3.noErr n2
    obtain ⟨l4, a4, ha⟩ := ha.append
    have n4 := a4.noErr n3
    obtain ⟨l5, a5, a6⟩ := ha.append
    have n5 := a5.noErr n4
    have s5 : Starts [b!";"] [b!"COMMENT"] l5 := (piece_opens hm a6 hs).mono (by decide)
    have s4 : Starts [b!";"] [b!"ENGINE", b!"COMMENT"] l4 := (piece_opens he a5 s5).mono (by decide)
    have s3 : Starts [b!"(", b!";"] [b!"ENGINE", b!"COMMENT"] l3 := (piece_opens hss a4 s4).mono (by decide)
    have s2 : Starts [b!"(", b!";"] [b!"ON", b!"ENGINE", b!"COMMENT"] l2 := (piece_opens hc a3 s3).mono (by decide)
    have e1 := p_ifNotExists hb a1 (st_kw (piece_starts hi a2 rfl) (by decide))
    have e2 := p_id hi a2 n1 (st_kinds s2 (by decide))
    have e3 := p_cluster hc a3 n2 (st_kw s3 (by decide))
    have e4 := p_schema hss a4 n3 (st_kinds s4 (by decide)) (.inl (st_kw s4 (by decide)))
    have e5 := p_tryEngine he a5 n4 (.inl ⟨rfl, s5⟩)
    have e6 := p_comment hm a6 (st_kw hs (by decide))
    obtain ⟨hk2, hu2⟩ := hd
    rcases temporary_split hp a0 with ⟨rfl, rfl⟩ | ⟨rfl, t, q2, q3, q4, rfl⟩ <;> rcases e5 with ⟨rfl, hl, e5⟩ | e5
    all_goals
      start; fw [n_uuid]
      all_goals fin
      all_goals got
  cases ps with
  | nil => exact create_ddl hk hr ha hd.1 (by simp [hd.2]) hn key a
  | cons t ps =>
    cases hp with
    | temporaryYes hp => exact create_ddl hk hr ha hp.1 (by simp [hp.2]) hn key a

theorem ms_createTableAs {y : Token} {r p b : Bool} {rs ps bs is cs ss es qs : List Token} {i c s e q : V} (hk : isWord k b!"CREATE") (hr : Piece .orReplace rs (.bool r))
    (hp : Piece .temporary ps (.bool p)) (hd : isWord d b!"TABLE") (hb : Piece .ifNotExists bs (.bool b)) (hi : Piece .id is i) (hc : Piece .cluster cs c)
    (hss : Piece .schema ss s) (he : Piece (.engine true) es e) (hy : isWord y b!"AS") (hq : Core .query qs q) (hw : es ≠ [] → ∀ t ∈ qs.head?, ¬ isWord t b!"WITH") :
    MS (k :: (rs ++ (ps ++ d :: (bs ++ (is ++ (cs ++ (ss ++ (es ++ y :: qs))))))))
      (N.CreateTable (orReplace := r) (hasTemporary := p) (ifNotExists := b) (name := i) (onCluster := c) (tableSchema := s) (engine := e)
        (subQuery := N.SubQuery (select := q))) := by
  refine ms_of1 (f := .parseDDL) hk (by decide) (by cases rs <;> cases ps <;> exact ⟨_, _, rfl⟩) fun l l' ha hn hs a => ?_
  have key : ∀ a l, NoErr l → Ahead l (ps ++ d :: (bs ++ (is ++ (cs ++ (ss ++ (es ++ y :: qs)))))) l' → Fw .parseCreateTable [a, .bool r] l (Got
      (N.CreateTable (orReplace := r) (hasTemporary := p) (ifNotExists := b) (name := i) (onCluster := c) (tableSchema := s) (engine := e)
        (subQuery := N.SubQuery (select := q))) l') := by
    clear ha hn
    intro a l hn ha
    obtain ⟨l0, a0, ha⟩ := ha.append
    have n0 := a0.noErr hn
    have h2 := ha.cur
    obtain ⟨l1, a1, ha⟩ := ha.rest.append
    have n1 := a1.noErr n0.adv
    obtain ⟨l2, a2, ha⟩ := ha.append
    have n2 := a2.noErr n1
    obtain ⟨l3, a3, ha⟩ := ha.append
    have n3 := a3.noErr n2
    obtain ⟨l4, a4, ha⟩ := ha.append
    have n4 := a4.noErr n3
    obtain ⟨l5, a5, a6⟩ := ha.append
    have n5 := a5.noErr n4
    have h6 := a6.cur
    obtain ⟨z, hz, hsel⟩ := MQ.heads hq a6.rest
    have s5 : Starts [] [b!"AS"] l5 := starts_word h6 hy (by decide)
    have s4 : Starts [] [b!"ENGINE", b!"AS"] l4 := (piece_opens he a5 s5).mono (by decide)
    have s3 : Starts [b!"("] [b!"ENGINE", b!"AS"] l3 := (piece_opens hss a4 s4).mono (by decide)
    have s2 : Starts [b!"("] [b!"ON", b!"ENGINE", b!"AS"] l2 := (piece_opens hc a3 s3).mono (by decide)
    have e1 := p_ifNotExists hb a1 (st_kw (piece_starts hi a2 rfl) (by decide))
    have e2 := p_id hi a2 n1 (st_kinds s2 (by decide))
    have e3 := p_cluster hc a3 n2 (st_kw s3 (by decide))
    have e6 := p_subQuery hq a6.rest n5.adv hs
    have e4 : ∀ a, Fw .parseTableSchemaClause [a] l3 (GotO s l4) := by
      refine p_schema hss a4 n3 (st_kinds s4 (by decide)) ?_
      cases es with
      | nil =>
        cases a5
        exact .inr ⟨_, _, h6, hy, hz, hsel⟩
      | cons x es =>
        cases he with
        | engine hx => exact .inl (mw_kw a5.cur hx.1 hx.2 (by decide))
    have e5 : (e = .nil ∧ l4 = l5 ∧ ∀ a, Fw .tryParseEngineExpr [a] l4 (Res [.nil, .nil] l5)) ∨ ∀ a, Fw .tryParseEngineExpr [a] l4 (Got e l5) := by
      cases es with
      | nil =>
        cases a5
        cases he
        exact .inl ⟨rfl, rfl, n_engine (st_kw s5 (by decide))⟩
      | cons x es =>
        obtain ⟨z', hz', hs1, hs2⟩ := MQ.word (meaning hq : MQ qs q) (hw nofun) a6.rest
        exact p_tryEngine he a5 n4 (.inr ⟨rfl, _, _, h6, hy, hz', hs1, hs2⟩)
    clear s4
    obtain ⟨hk2, hu2⟩ := hd
    obtain ⟨_, _⟩ := hy
    rcases temporary_split hp a0 with ⟨rfl, rfl⟩ | ⟨rfl, t, q2, q3, q4, rfl⟩ <;> rcases e5 with ⟨rfl, hl, e5⟩ | e5 <;> rcases hsel with ⟨_, _⟩ | ⟨_, _⟩
    all_goals
      start; fw [n_uuid, n_comment]
      all_goals fin
      all_goals got
  cases ps with
  | nil => exact create_ddl hk hr ha hd.1 (by simp [hd.2]) hn key a
  | cons t ps =>
    cases hp with
    | temporaryYes hp => exact create_ddl hk hr ha hp.1 (by simp [hp.2]) hn key a

theorem ms_createView {y : Token} {r b : Bool} {rs bs is cs ss ms qs : List Token} {i c s m q : V} (hk : isWord k b!"CREATE") (hr : Piece .orReplace rs (.bool r))
    (hd : isWord d b!"VIEW") (hb : Piece .ifNotExists bs (.bool b)) (hi : Piece .id is i) (hc : Piece .cluster cs c)
    (hss : Piece .schema ss s) (hm : Piece .comment ms m) (hy : isWord y b!"AS") (hq : Core .query qs q) :
    MS (k :: (rs ++ d :: (bs ++ (is ++ (cs ++ (ss ++ (ms ++ y :: qs)))))))
      (N.CreateView (orReplace := r) (ifNotExists := b) (name := i) (onCluster := c) (tableSchema := s) (comment := m) (subQuery := N.SubQuery (select := q))) := by
  refine ms_of1 (f := .parseDDL) hk (by decide) (by cases rs <;> exact ⟨_, _, rfl⟩) fun l l' ha hn hs a => ?_
  refine create_ddl (f := .parseCreateView) hk hr ha hd.1 (by simp [hd.2]) hn ?_ a
  clear ha hn a l
  intro a l hn ha
  have h2 := ha.cur
  obtain ⟨l1, a1, ha⟩ := ha.rest.append
  have n1 := a1.noErr hn.adv
  obtain ⟨l2, a2, ha⟩ := ha.append
  have n2 := a2.noErr n1
  obtain ⟨l3, a3, ha⟩ := ha.append
  have n3 := a3.noErr n2
  obtain ⟨l4, a4, ha⟩ := ha.append
  have n4 := a4.noErr n3
  obtain ⟨l5, a5, a6⟩ := ha.append
  have n5 := a5.noErr n4
  have h6 := a6.cur
  obtain ⟨z, hz, hsel⟩ := MQ.heads hq a6.rest
  have s5 : Starts [] [b!"AS"] l5 := starts_word h6 hy (by decide)
  have s4 : Starts [] [b!"COMMENT", b!"AS"] l4 := (piece_opens hm a5 s5).mono (by decide)
  have s3 : Starts [b!"("] [b!"COMMENT", b!"AS"] l3 := (piece_opens hss a4 s4).mono (by decide)
  have s2 : Starts [b!"("] [b!"ON", b!"COMMENT", b!"AS"] l2 := (piece_opens hc a3 s3).mono (by decide)
  have e1 := p_ifNotExists hb a1 (st_kw (piece_starts hi a2 rfl) (by decide))
  have e2 := p_id hi a2 n1 (st_kinds s2 (by decide))
  have e3 := p_cluster hc a3 n2 (st_kw s3 (by decide))
  have e5 := p_comment hm a5 (st_kw s5 (by decide))
  have e6 := p_subQuery hq a6.rest n5.adv hs
  have e4 : (s = .nil ∧ l3 = l4 ∧ l3.matchKinds [b!"("] = false) ∨ (l3.matchKinds [b!"("] = true ∧ ∀ a, Fw .parseTableSchemaClause [a] l3 (GotO s l4)) := by
    have q : NoAs l4 := by
      cases ms with
      | nil =>
        cases a5
        exact .inr ⟨_, _, h6, hy, hz, hsel⟩
      | cons x es =>
        cases hm with
        | comment hx => exact .inl (mw_kw a5.cur hx.1 hx.2 (by decide))
    have e := p_schema hss a4 n3 (st_kinds s4 (by decide)) q
    cases hss with
    | schemaNo =>
      cases a4
      exact .inl ⟨rfl, rfl, st_kinds s4 (by decide)⟩
    | schema hx => exact .inr ⟨mk_some a4.cur hx (by decide), e⟩
  clear s4
  obtain ⟨hk2, hu2⟩ := hd
  obtain ⟨_, _⟩ := hy
  rcases e4 with ⟨rfl, rfl, e4⟩ | ⟨q4, e4⟩
  all_goals
    start; fw [n_uuid]
    all_goals fin
    all_goals got

end Verif.Complete

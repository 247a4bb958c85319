/-
The statements without expressions in them.  No definition here is part of the model.
-/
import Verif.Complete.Parts

namespace Verif.Complete
open Verif.Spec Verif.Echo Verif.Echo.Sym Verif.Complete.Tac

variable {l l' : Lx} {t k d : Token} {ts us : List Token} {v w : V} {vs : List V} {b : Bool}

set_option linter.unusedVariables false
set_option linter.unusedTactic false

/-- The tokens are a statement of this tree. -/
def MS (ts : List Token) (v : V) : Prop :=
  (∃ t t' us, ts = t :: t' :: us ∧ t.kind = .keyword) ∧ ∀ l l', Ahead l ts l' → NoErr l → Starts [b!";"] [] l' → ∀ a, Fw .parseStmt [a] l (Got v l')

/-- Which method reads a statement. -/
def stmtFns : List (Str × Fn) :=
  [(b!"CREATE", .parseDDL), (b!"ALTER", .parseDDL), (b!"DROP", .parseDDL), (b!"TRUNCATE", .parseDDL), (b!"RENAME", .parseDDL),
   (b!"DELETE", .parseDeleteClause), (b!"INSERT", .parseInsertStmt), (b!"USE", .parseUseStmt), (b!"SET", .parseSetStmt), (b!"OPTIMIZE", .parseOptimizeStmt),
   (b!"CHECK", .parseCheckStmt), (b!"EXPLAIN", .parseExplainStmt), (b!"SHOW", .parseShowStmt), (b!"DESC", .parseDescribeStmt), (b!"DESCRIBE", .parseDescribeStmt)]

theorem starts_semi (hs : Starts [b!";"] [] l) : l.cur = none ∨ ((∃ t, l.cur = some t) ∧ l.matchKinds [b!";"] = true) := by
  rcases hs with hc | ⟨t', ht', hk' | ⟨_, hk'⟩⟩
  · exact .inl hc
  · refine .inr ⟨⟨t', ht'⟩, ?_⟩
    simp only [List.mem_cons, List.not_mem_nil, or_false] at hk'
    unfold Lx.matchKinds Lx.curKind
    simp only [ht', hk']
    rfl
  · simp at hk'

theorem stmt_of {f : Fn} {w : Str} (hk : isWord k w) (ht : l.cur = some k) (hf : (w, f) ∈ stmtFns) (h : ∀ a, Fw f [a] l (Got v l')) (hs : Starts [b!";"] [] l') (a : V) :
    Fw .parseStmt [a] l (Got v l') := by
  obtain ⟨hk, hu⟩ := hk
  simp only [stmtFns, List.mem_cons, Prod.mk.injEq, List.not_mem_nil, or_false] at hf
  have he := starts_semi hs
  rcases hf with ⟨rfl, rfl⟩ | ⟨rfl, rfl⟩ | ⟨rfl, rfl⟩ | ⟨rfl, rfl⟩ | ⟨rfl, rfl⟩ | ⟨rfl, rfl⟩ | ⟨rfl, rfl⟩ | ⟨rfl, rfl⟩ | ⟨rfl, rfl⟩ | ⟨rfl, rfl⟩ | ⟨rfl, rfl⟩ |
    ⟨rfl, rfl⟩ | ⟨rfl, rfl⟩ | ⟨rfl, rfl⟩ | ⟨rfl, rfl⟩
  all_goals
    rcases he with hc | ⟨⟨t', ht'⟩, hm⟩
    · start; fw [c_format]
      exact ⟨_, rfl, rfl, by assumption⟩
    · start; fw [c_format]
      exact ⟨_, rfl, rfl, by assumption⟩

theorem ms_of {f : Fn} {w : Str} (hk : isWord k w) (hf : (w, f) ∈ stmtFns)
    (h : ∀ l l', Ahead l (k :: d :: ts) l' → NoErr l → Starts [b!";"] [] l' → ∀ a, Fw f [a] l (Got v l')) : MS (k :: d :: ts) v :=
  ⟨⟨_, _, _, rfl, hk.1⟩, fun l l' ha hn hs a => stmt_of hk ha.cur hf (h l l' ha hn hs) hs a⟩
theorem ms_of1 {f : Fn} {w : Str} (hk : isWord k w) (hf : (w, f) ∈ stmtFns) (hd : ∃ d us, ts = d :: us)
    (h : ∀ l l', Ahead l (k :: ts) l' → NoErr l → Starts [b!";"] [] l' → ∀ a, Fw f [a] l (Got v l')) : MS (k :: ts) v := by
  obtain ⟨d, us, rfl⟩ := hd
  exact ms_of hk hf h

theorem ms_query (h : MQ ts v) (h2 : ∃ t t' us, ts = t :: t' :: us) : MS ts v := by
  refine ⟨?_, fun l l' ha hn hs a => c_stmt h ha hn hs a⟩
  obtain ⟨t, t', us, rfl⟩ := h2
  obtain ⟨⟨t0, us0, h0, h | h⟩, _⟩ := h
  · exact absurd h (by simp)
  · cases h0
    exact ⟨_, _, _, rfl, h.1⟩

theorem ms_use (hk : isWord k b!"USE") (h : isPlainName t) : MS [k, t] (N.UseStmt (database := name t)) := by
  refine ms_of (f := .parseUseStmt) hk (by decide) fun l l' ha hn hs a => ?_
  have h1 := ha.cur
  have h2 := ha.rest.cur
  cases ha.rest.rest
  obtain ⟨hk, hu⟩ := hk
  unfold isPlainName at h
  start; fw [c_ident]
  all_goals fin
  all_goals got

theorem ms_showDatabases (hk : isWord k b!"SHOW") (h : isWord t b!"DATABASES") : MS [k, t] (N.ShowStmt (showType := b!"DATABASES")) := by
  refine ms_of (f := .parseShowStmt) hk (by decide) fun l l' ha hn hs a => ?_
  have h1 := ha.cur
  have h2 := ha.rest.cur
  cases ha.rest.rest
  obtain ⟨hk, hu⟩ := hk
  obtain ⟨hk', hu'⟩ := h
  start; fw []
  all_goals fin
  all_goals got
theorem ms_showTables (hk : isWord k b!"SHOW") (h : isWord t b!"TABLES") : MS [k, t] (N.ShowStmt (showType := b!"TABLES")) := by
  refine ms_of (f := .parseShowStmt) hk (by decide) fun l l' ha hn hs a => ?_
  have h1 := ha.cur
  have h2 := ha.rest.cur
  cases ha.rest.rest
  obtain ⟨hk, hu⟩ := hk
  obtain ⟨hk', hu'⟩ := h
  start; fw []
  all_goals fin
  all_goals got
theorem ms_showCreate (hk : isWord k b!"SHOW") (h : isWord t b!"CREATE") (hd : isWord d b!"TABLE") (hi : Piece .id ts v) :
    MS (k :: t :: d :: ts) (N.ShowStmt (showType := b!"CREATE TABLE") (target := v)) := by
  refine ms_of (f := .parseShowStmt) hk (by decide) fun l l' ha hn hs a => ?_
  have h1 := ha.cur
  have h2 := ha.rest.cur
  have h3 := ha.rest.rest.cur
  have e := p_id hi ha.rest.rest.rest hn.adv.adv.adv (st_kinds hs (by decide))
  obtain ⟨hk, hu⟩ := hk
  obtain ⟨hk', hu'⟩ := h
  obtain ⟨hk2, hu2⟩ := hd
  start; fw []
  all_goals fin
  all_goals got
theorem ms_describe (hk : isWord k b!"DESC" ∨ isWord k b!"DESCRIBE") (hi : Piece .id ts v) : MS (k :: ts) (N.DescribeStmt (target := v)) := by
  have h2 : ∃ d us, ts = d :: us := by
    obtain ⟨d, us, h, _⟩ := id_begins hi
    exact ⟨d, us, h⟩
  have key : ∀ l l', Ahead l (k :: ts) l' → NoErr l → Starts [b!";"] [] l' → ∀ a, Fw .parseDescribeStmt [a] l (Got (N.DescribeStmt (target := v)) l') := by
    intro l l' ha hn hs a
    have h1 := ha.cur
    have e := p_id hi ha.rest hn.adv (st_kinds hs (by decide))
    obtain ⟨t, ht, hi⟩ := id_first hi ha.rest
    rcases hk with ⟨hk, hu⟩ | ⟨hk, hu⟩
    all_goals
      start; fw []
      all_goals fin
      all_goals got
  exact hk.elim (ms_of1 · (by decide) h2 key) (ms_of1 · (by decide) h2 key)
theorem ms_describeTable (hk : isWord k b!"DESC" ∨ isWord k b!"DESCRIBE") (hd : isWord d b!"TABLE") (hi : Piece .id ts v) :
    MS (k :: d :: ts) (N.DescribeStmt (describeType := b!"TABLE") (target := v)) := by
  have key : ∀ l l', Ahead l (k :: d :: ts) l' → NoErr l → Starts [b!";"] [] l' → ∀ a,
      Fw .parseDescribeStmt [a] l (Got (N.DescribeStmt (describeType := b!"TABLE") (target := v)) l') := by
    intro l l' ha hn hs a
    have h1 := ha.cur
    have h2 := ha.rest.cur
    have e := p_id hi ha.rest.rest hn.adv.adv (st_kinds hs (by decide))
    obtain ⟨hk2, hu2⟩ := hd
    rcases hk with ⟨hk, hu⟩ | ⟨hk, hu⟩
    all_goals
      start; fw []
      all_goals fin
      all_goals got
  exact hk.elim (ms_of · (by decide) key) (ms_of · (by decide) key)

theorem n_partition (h : l.matchKw b!"PARTITION" = false) (a : V) : Fw .tryParsePartitionClause [a] l (Res [.nil, .nil] l) := by
  start; fw []
  exact ⟨rfl, rfl⟩
theorem n_deduplicate (h : l.matchKw b!"DEDUPLICATE" = false) (a : V) : Fw .tryParseDeduplicateClause [a] l (Res [.nil, .nil] l) := by
  start; fw []
  exact ⟨rfl, rfl⟩
theorem ms_check (hk : isWord k b!"CHECK") (hd : isWord d b!"TABLE") (hi : Piece .id ts v) : MS (k :: d :: ts) (N.CheckStmt (table := v)) := by
  refine ms_of (f := .parseCheckStmt) hk (by decide) fun l l' ha hn hs a => ?_
  have h1 := ha.cur
  have h2 := ha.rest.cur
  have e := p_id hi ha.rest.rest hn.adv.adv (st_kinds hs (by decide))
  obtain ⟨hk, hu⟩ := hk
  obtain ⟨hk2, hu2⟩ := hd
  start; fw [n_partition]
  all_goals fin
  all_goals got

theorem final_split (h : Piece .final ts (.bool b)) (ha : Ahead l ts l') :
    (b = false ∧ l' = l) ∨ (b = true ∧ ∃ t, l.cur = some t ∧ t.kind = .keyword ∧ upper t.str = b!"FINAL" ∧ l' = l.advance) := by
  cases h with
  | finalNo => cases ha; exact .inl ⟨rfl, rfl⟩
  | finalYes h =>
    have ht := ha.cur
    cases ha.rest
    exact .inr ⟨rfl, _, ht, h.1, h.2, rfl⟩
theorem temporary_split (h : Piece .temporary ts (.bool b)) (ha : Ahead l ts l') :
    (b = false ∧ l' = l) ∨ (b = true ∧ ∃ t, l.cur = some t ∧ t.kind = .keyword ∧ upper t.str = b!"TEMPORARY" ∧ l' = l.advance) := by
  cases h with
  | temporaryNo => cases ha; exact .inl ⟨rfl, rfl⟩
  | temporaryYes h =>
    have ht := ha.cur
    cases ha.rest
    exact .inr ⟨rfl, _, ht, h.1, h.2, rfl⟩

theorem ms_optimize {is cs fs : List Token} {i c : V} (hk : isWord k b!"OPTIMIZE") (hd : isWord d b!"TABLE") (hi : Piece .id is i) (hc : Piece .cluster cs c)
    (hf : Piece .final fs (.bool b)) : MS (k :: d :: (is ++ (cs ++ fs))) (N.OptimizeStmt (table := i) (onCluster := c) (hasFinal := b)) := by
  refine ms_of (f := .parseOptimizeStmt) hk (by decide) fun l l' ha hn hs a => ?_
  have h1 := ha.cur
  have h2 := ha.rest.cur
  obtain ⟨l1, a1, ha⟩ := ha.rest.rest.append
  obtain ⟨l2, a2, a3⟩ := ha.append
  have n1 := a1.noErr hn.adv.adv
  have n2 := a2.noErr n1
  have s2 := piece_opens hf a3 hs
  have s1 := piece_opens hc a2 s2
  have e1 := p_id hi a1 hn.adv.adv (st_kinds s1 (by decide))
  have e2 := p_cluster hc a2 n1 (st_kw s2 (by decide))
  obtain ⟨hk, hu⟩ := hk
  obtain ⟨hk2, hu2⟩ := hd
  have q1 : l2.matchKw b!"PARTITION" = false := st_kw s2 (by decide)
  rcases final_split hf a3 with ⟨rfl, rfl⟩ | ⟨rfl, t, q2, q3, q4, rfl⟩
  · start; fw [n_partition, n_deduplicate]
    all_goals fin
    all_goals got
  · start; fw [n_partition, n_deduplicate]
    all_goals fin
    all_goals got

theorem ms_truncate {ps bs is cs : List Token} {p : Bool} {i c : V} (hk : isWord k b!"TRUNCATE") (hp : Piece .temporary ps (.bool p)) (hd : isWord d b!"TABLE")
    (hb : Piece .ifExists bs (.bool b)) (hi : Piece .id is i) (hc : Piece .cluster cs c) :
    MS (k :: (ps ++ d :: (bs ++ (is ++ cs)))) (N.TruncateTable (isTemporary := p) (ifExists := b) (name := i) (onCluster := c)) := by
  refine ms_of1 (f := .parseDDL) hk (by decide) (by cases ps <;> exact ⟨_, _, rfl⟩) fun l l' ha hn hs a => ?_
  have h1 := ha.cur
  obtain ⟨l0, a0, ha⟩ := ha.rest.append
  have n0 := a0.noErr hn.adv
  have h2 := ha.cur
  obtain ⟨l1, a1, ha⟩ := ha.rest.append
  have n1 := a1.noErr n0.adv
  obtain ⟨l2, a2, a3⟩ := ha.append
  have n2 := a2.noErr n1
  have s2 := piece_opens hc a3 hs
  have e1 := p_ifExists hb a1 (st_kw (piece_starts hi a2 rfl) (by decide))
  have e2 := p_id hi a2 n1 (st_kinds s2 (by decide))
  have e3 := p_cluster hc a3 n2 (st_kw hs (by decide))
  obtain ⟨hk, hu⟩ := hk
  obtain ⟨hk2, hu2⟩ := hd
  rcases temporary_split hp a0 with ⟨rfl, rfl⟩ | ⟨rfl, t, q2, q3, q4, rfl⟩
  · have q1 : l.advance.matchKw b!"TEMPORARY" = false := mw_kw h2 hk2 hu2 (by decide)
    have key : ∀ a, Fw .parseTruncateTable [a] l (Got (N.TruncateTable (isTemporary := false) (ifExists := b) (name := i) (onCluster := c)) l') := by
      intro a
      start; fw []
      all_goals fin
      all_goals got
    start; fw []
    exact ⟨_, rfl, rfl, by assumption⟩
  · have key : ∀ a, Fw .parseTruncateTable [a] l (Got (N.TruncateTable (isTemporary := true) (ifExists := b) (name := i) (onCluster := c)) l') := by
      intro a
      start; fw []
      all_goals fin
      all_goals got
    start; fw []
    exact ⟨_, rfl, rfl, by assumption⟩

theorem ms_dropDatabase {bs cs ms : List Token} {m : Str} {c : V} (hk : isWord k b!"DROP") (hd : isWord d b!"DATABASE") (hb : Piece .ifExists bs (.bool b))
    (ht : isPlainName t) (hc : Piece .cluster cs c) (hm : Piece .modifier ms (.str m)) :
    MS (k :: d :: (bs ++ t :: (cs ++ ms))) (N.DropDatabase (name := name t) (ifExists := b) (onCluster := c) (modifier := m)) := by
  refine ms_of (f := .parseDDL) hk (by decide) fun l l' ha hn hs a => ?_
  have h1 := ha.cur
  have h2 := ha.rest.cur
  obtain ⟨l1, a1, ha⟩ := ha.rest.rest.append
  have n1 := a1.noErr hn.adv.adv
  have h3 := ha.cur
  obtain ⟨l2, a2, a3⟩ := ha.rest.append
  have n2 := a2.noErr n1.adv
  have s2 := piece_opens hm a3 hs
  unfold isPlainName at ht
  have e1 := p_ifExists hb a1 (mw_some h3 ht (by decide))
  have e2 := p_cluster hc a2 n1.adv (st_kw s2 (by decide))
  have e3 := p_modifier hm a3 (st_kw hs (by decide)) (st_kw hs (by decide))
  obtain ⟨hk, hu⟩ := hk
  obtain ⟨hk2, hu2⟩ := hd
  have key : ∀ a, Fw .parseDropDatabase [a] l.advance (Got (N.DropDatabase (name := name t) (ifExists := b) (onCluster := c) (modifier := m)) l') := by
    intro a
    start; fw [c_ident]
    all_goals fin
    all_goals got
  start; fw []
  exact ⟨_, rfl, rfl, by assumption⟩

theorem drop_ddl (hk : isWord k b!"DROP") (hd : d.kind = .keyword) (hw : upper d.str ∈ [b!"TEMPORARY", b!"TABLE", b!"VIEW", b!"DICTIONARY"]) (ht : l.cur = some k)
    (ht' : l.advance.cur = some d) (hn : NoErr l) (h : ∀ a, Fw .parseDropStmt [a] l.advance (Got v l')) (a : V) : Fw .parseDDL [a] l (Got v l') := by
  obtain ⟨hk, hu⟩ := hk
  simp only [List.mem_cons, List.not_mem_nil, or_false] at hw
  rcases hw with hw | hw | hw | hw
  all_goals
    start; fw []
    exact ⟨_, rfl, rfl, by assumption⟩

theorem ms_dropTable {ps bs is cs ms : List Token} {p : Bool} {m : Str} {i c : V} (hk : isWord k b!"DROP") (hp : Piece .temporary ps (.bool p)) (hd : isWord d b!"TABLE")
    (hb : Piece .ifExists bs (.bool b)) (hi : Piece .id is i) (hc : Piece .cluster cs c) (hm : Piece .modifier ms (.str m)) :
    MS (k :: (ps ++ d :: (bs ++ (is ++ (cs ++ ms)))))
      (N.DropStmt (dropTarget := b!"TABLE") (name := i) (ifExists := b) (onCluster := c) (isTemporary := p) (modifier := m)) := by
  refine ms_of1 (f := .parseDDL) hk (by decide) (by cases ps <;> exact ⟨_, _, rfl⟩) fun l l' ha hn hs a => ?_
  have h1 := ha.cur
  obtain ⟨l0, a0, ha⟩ := ha.rest.append
  have n0 := a0.noErr hn.adv
  have h2 := ha.cur
  obtain ⟨l1, a1, ha⟩ := ha.rest.append
  have n1 := a1.noErr n0.adv
  obtain ⟨l2, a2, ha⟩ := ha.append
  have n2 := a2.noErr n1
  obtain ⟨l3, a3, a4⟩ := ha.append
  have n3 := a3.noErr n2
  have s3 := piece_opens hm a4 hs
  have s2 := piece_opens hc a3 s3
  have e1 := p_ifExists hb a1 (st_kw (piece_starts hi a2 rfl) (by decide))
  have e2 := p_id hi a2 n1 (st_kinds s2 (by decide))
  have e3 := p_cluster hc a3 n2 (st_kw s3 (by decide))
  have e4 := p_modifier hm a4 (st_kw hs (by decide)) (st_kw hs (by decide))
  obtain ⟨hk2, hu2⟩ := hd
  rcases temporary_split hp a0 with ⟨rfl, rfl⟩ | ⟨rfl, t, q2, q3, q4, rfl⟩
  · refine drop_ddl hk hk2 (by simp [hu2]) h1 h2 hn (fun a => ?_) a
    start; fw []
    all_goals fin
    all_goals got
  · refine drop_ddl hk q3 (by simp [q4]) h1 q2 hn (fun a => ?_) a
    start; fw []
    all_goals fin
    all_goals got
theorem ms_dropOther {bs is cs ms : List Token} {w m : Str} {i c : V} (hk : isWord k b!"DROP") (hw : w = b!"VIEW" ∨ w = b!"DICTIONARY") (hd : isWord d w)
    (hb : Piece .ifExists bs (.bool b)) (hi : Piece .id is i) (hc : Piece .cluster cs c) (hm : Piece .modifier ms (.str m)) :
    MS (k :: d :: (bs ++ (is ++ (cs ++ ms)))) (N.DropStmt (dropTarget := w) (name := i) (ifExists := b) (onCluster := c) (modifier := m)) := by
  refine ms_of (f := .parseDDL) hk (by decide) fun l l' ha hn hs a => ?_
  have h1 := ha.cur
  have h2 := ha.rest.cur
  obtain ⟨l1, a1, ha⟩ := ha.rest.rest.append
  have n1 := a1.noErr hn.adv.adv
  obtain ⟨l2, a2, ha⟩ := ha.append
  have n2 := a2.noErr n1
  obtain ⟨l3, a3, a4⟩ := ha.append
  have n3 := a3.noErr n2
  have s3 := piece_opens hm a4 hs
  have s2 := piece_opens hc a3 s3
  have e1 := p_ifExists hb a1 (st_kw (piece_starts hi a2 rfl) (by decide))
  have e2 := p_id hi a2 n1 (st_kinds s2 (by decide))
  have e3 := p_cluster hc a3 n2 (st_kw s3 (by decide))
  have e4 := p_modifier hm a4 (st_kw hs (by decide)) (st_kw hs (by decide))
  obtain ⟨hk2, hu2⟩ := hd
  rcases hw with rfl | rfl
  all_goals
    refine drop_ddl hk hk2 (by simp [hu2]) h1 h2 hn (fun a => ?_) a
    start; fw []
    all_goals fin
    all_goals got

/-! ### `RENAME` -/

/-- The lists, and what they consist of. -/
def elt : Part → Option Part
  | .names => some .column
  | .types => some .type
  | .literals => some .literal
  | .columnDefs => some .columnDef
  | .pairs => some .pair
  | .cells => some .cell
  | .assignments => some .assignment
  | .alterations => some .alteration
  | _ => none

theorem sep_piece {c c' : Part} (h : Piece c ts v) (hc : elt c = some c') : ∃ vs, v = .list vs ∧ Sep (Piece c') ts vs := by
  induction h
  all_goals first
    | cases hc; done
    | (cases hc; exact ⟨_, rfl, .one (by assumption)⟩)
    | (cases hc; rename_i ih; obtain ⟨_, h, h'⟩ := ih rfl; cases h; exact ⟨_, rfl, .more (by assumption) (by assumption) h'⟩)

theorem p_pair (h : Piece .pair ts v) (ha : Ahead l ts l') (hn : NoErr l) (hi : l'.matchKinds [b!"."] = false) (a : V) :
    Fw .parseTargetPair [a] l (Got v l') := by
  cases h with
  | pair h1 h2 h3 =>
    obtain ⟨l1, a1, ha⟩ := ha.append
    have n1 := a1.noErr hn
    have ht := ha.cur
    obtain ⟨hk, hu⟩ := h2
    have e1 := p_id h1 a1 hn (mk_kw ht hk hu (by decide))
    have e2 := p_id h3 ha.rest n1.adv hi
    start; fw []
    got

theorem more_starts {M : List Token → V → Prop} {os ws : List Str} (h : More M ts vs) (ha : Ahead l ts l') (hs : Starts os ws l') : Starts (b!"," :: os) ws l := by
  cases h with
  | nil =>
    cases ha
    exact hs.mono' (fun _ h => by simp [h]) (fun _ h => h)
  | cons hc _ _ => exact starts_sign ha.cur hc (by simp)

theorem p_clusterC (h : Piece .cluster ts v) (ha : Ahead l ts l') (hn : NoErr l) (hi : l'.matchKw b!"ON" = false) :
    (v = .nil ∧ ∀ a, Fw .tryParseClusterClause [a] l (Res [.nil, .nil] l')) ∨ ∀ a, Fw .tryParseClusterClause [a] l (Got v l') := by
  cases h with
  | clusterNo =>
    cases ha
    refine .inl ⟨rfl, fun a => ?_⟩
    start; fw []; exact ⟨rfl, rfl⟩
  | clusterName h1 h2 h3 =>
    refine .inr fun a => (p_cluster (.clusterName h1 h2 h3) ha hn hi a).mono fun rs l2 h => ?_
    obtain ⟨w, rfl, rfl, h⟩ := h
    refine ⟨_, rfl, rfl, ?_, h⟩
    rintro rfl
    cases h
  | clusterText h1 h2 h3 =>
    refine .inr fun a => (p_cluster (.clusterText h1 h2 h3) ha hn hi a).mono fun rs l2 h => ?_
    obtain ⟨w, rfl, rfl, h⟩ := h
    refine ⟨_, rfl, rfl, ?_, h⟩
    rintro rfl
    cases h

theorem ms_rename {w : Str} {cs : List Token} {c : V} (hk : isWord k b!"RENAME") (hw : w = b!"TABLE" ∨ w = b!"DICTIONARY" ∨ w = b!"DATABASE") (hd : isWord d w)
    (hp : Piece .pairs ts v) (hc : Piece .cluster cs c) : MS (k :: d :: (ts ++ cs)) (N.RenameStmt (renameTarget := w) (targetPairList := v) (onCluster := c)) := by
  refine ms_of (f := .parseDDL) hk (by decide) fun l l' ha hn hs a => ?_
  have h1 := ha.cur
  have h2 := ha.rest.cur
  obtain ⟨l1, a1, a2⟩ := ha.rest.rest.append
  have n1 := a1.noErr hn.adv.adv
  have s1 := piece_opens hc a2 hs
  obtain ⟨vs, rfl, hq⟩ := sep_piece hp rfl
  obtain ⟨xs, ys, x, ws, rfl, rfl, hx, hm⟩ := hq.first
  obtain ⟨l0, b1, b2⟩ := a1.append
  have n0 := b1.noErr hn.adv.adv
  have e1 := p_pair hx b1 hn.adv.adv (st_kinds (more_starts hm b2 s1) (by decide))
  have e2 := p_clusterC hc a2 n1 (st_kw hs (by decide))
  obtain ⟨hk, hu⟩ := hk
  obtain ⟨hk2, hu2⟩ := hd
  suffices key : ∀ a, Fw .parseRenameStmt [a] l (Got (N.RenameStmt (renameTarget := w) (targetPairList := .list (x :: ws)) (onCluster := c)) l') by
    start; fw []
    exact ⟨_, rfl, rfl, by assumption⟩
  intro a
  rcases hw with rfl | rfl | rfl
  all_goals
    start; fw []
    refine f_loopL fun L hL => ?_
    have key : ∀ us zs, More (Piece .pair) us zs → ∀ l acc as x3 x4 x5 x6 x7 x9 x10 x11 x12 x13 m i sv, Ahead l us l1 → NoErr l → V.normL id acc = as → as ++ zs = x :: ws →
        L ⟨[a, .nil, .str (upper d.str), x3, x4, x5, x6, x7, .list acc, x9, x10, x11, x12, x13], sv⟩ ⟨l, m, i⟩ := by
      rw [hu2]
      intro us zs hs'
      induction hs' with
      | nil =>
        intro l acc as x3 x4 x5 x6 x7 x9 x10 x11 x12 x13 m i sv ha hn hacc hvs
        cases ha
        rw [List.append_nil] at hvs
        have hacc := hacc.trans hvs
        have q : l1.matchKinds [b!","] = false := st_kinds s1 (by decide)
        apply hL
        rcases e2 with ⟨rfl, e2⟩ | e2
        · fw []
          all_goals fin
          all_goals got
        · fw []
          all_goals fin
          all_goals got
      | cons hc h hm' ih =>
        intro l acc as x3 x4 x5 x6 x7 x9 x10 x11 x12 x13 m i sv ha hn hacc hvs
        have htc := ha.cur
        obtain ⟨k, b1, b2⟩ := ha.rest.append
        have e := p_pair h b1 hn.adv (st_kinds (more_starts hm' b2 s1) (by decide))
        have hk := b1.noErr hn.adv
        unfold isSign at hc
        apply hL
        fw []
        exact ih _ _ _ _ _ _ _ _ _ _ _ _ _ _ _ _ b2 hk (normL_snoc hacc (by assumption)) (by simpa using hvs)
    rw [hu2] at key
    exact key _ _ hm _ _ [x] _ _ _ _ _ _ _ _ _ _ _ _ _ b2 n0 (by simp [V.normL, (by assumption : Is x _).2]) rfl

/-! ### `EXPLAIN`, `SET` and `DELETE` -/

theorem ms_explain (hk : isWord k b!"EXPLAIN") (ht : t.kind = .keyword) (hw : upper t.str ∈ [b!"SYNTAX", b!"PIPELINE", b!"ESTIMATE", b!"AST"]) (h : MQ ts v) :
    MS (k :: t :: ts) (N.ExplainStmt (type_ := t.str) (statement := v)) := by
  refine ms_of (f := .parseExplainStmt) hk (by decide) fun l l' ha hn hs a => ?_
  have h1 := ha.cur
  have h2 := ha.rest.cur
  have e := h.2.1 _ _ ha.rest.rest hn.adv.adv (hs.mono (by decide))
  obtain ⟨hk, hu⟩ := hk
  simp only [List.mem_cons, List.not_mem_nil, or_false] at hw
  rcases hw with hw | hw | hw | hw
  all_goals
    start; fw []
    all_goals fin
    all_goals got

theorem ms_set (hk : isWord k b!"SET") (h : Sep MSet ts vs) (h2 : ∃ d us, ts = d :: us) :
    MS (k :: ts) (N.SetStmt (settings := N.SettingsClause (items := .list vs))) := by
  refine ms_of1 (f := .parseSetStmt) hk (by decide) h2 fun l l' ha hn hs a => ?_
  have h1 := ha.cur
  have e := c_settings h ha.rest hn.adv (hs.mono (by decide))
  obtain ⟨hk, hu⟩ := hk
  have e : ∀ a, Fw .parseSettingsClause [a] l.advance (Got (N.SettingsClause (items := .list vs)) l') := by
    intro a
    start; fw []
    · obtain ⟨_, _, _, _, _, rfl, _⟩ := h.first
      obtain rfl := List.eq_nil_of_length_eq_zero (beq_iff_eq.1 (by assumption : (List.length _ == 0) = true))
      cases (by assumption : V.normL id [] = _)
    · got
  start; fw []
  got

theorem ms_delete {is cs : List Token} {i c : V} {f : Token} (hk : isWord k b!"DELETE") (hf : isWord f b!"FROM") (hi : Piece .id is i) (hc : Piece .cluster cs c)
    (hd : isWord d b!"WHERE") (h : ME 0 ts v) : MS (k :: f :: (is ++ (cs ++ d :: ts))) (N.DeleteClause (table := i) (onCluster := c) (whereExpr := v)) := by
  refine ms_of (f := .parseDeleteClause) hk (by decide) fun l l' ha hn hs a => ?_
  have h1 := ha.cur
  have h2 := ha.rest.cur
  obtain ⟨l1, a1, ha⟩ := ha.rest.rest.append
  have n1 := a1.noErr hn.adv.adv
  obtain ⟨l2, a2, ha⟩ := ha.append
  have n2 := a2.noErr n1
  have h3 := ha.cur
  have s2 : Starts [] [b!"WHERE"] l2 := starts_word h3 hd (by decide)
  have s1 := piece_opens hc a2 s2
  have e1 := p_id hi a1 hn.adv.adv (st_kinds s1 (by decide))
  have e2 := p_cluster hc a2 n1 (st_kw s2 (by decide))
  have e3 := expr0 h ha.rest n2.adv (hs.mono (by decide))
  obtain ⟨hk, hu⟩ := hk
  obtain ⟨hk2, hu2⟩ := hf
  obtain ⟨hk3, hu3⟩ := hd
  start; fw []
  got

end Verif.Complete

/-
The small parts of statements that are no queries.  No definition here is part of the model.
-/
import Verif.Complete.PartHeads

namespace Verif.Complete
open Verif.Spec Verif.Echo Verif.Echo.Sym Verif.Complete.Tac

variable {l l' : Lx} {t : Token} {ts us : List Token} {v w : V} {vs : List V} {b : Bool}

set_option linter.unusedVariables false

theorem p_ifExists (h : Piece .ifExists ts (.bool b)) (ha : Ahead l ts l') (hi : l'.matchKw b!"IF" = false) :
    Fw .tryParseIfExists [] l (Res [.bool b, .nil] l') := by
  cases h with
  | existsNo => cases ha; start; fw []; exact ⟨rfl, rfl⟩
  | existsYes h1 h2 =>
    have ht := ha.cur
    have ht2 := ha.rest.cur
    obtain ⟨_, _⟩ := h1
    obtain ⟨_, _⟩ := h2
    cases ha.rest.rest
    start; fw []; exact ⟨rfl, rfl⟩
theorem p_ifNotExists (h : Piece .ifNotExists ts (.bool b)) (ha : Ahead l ts l') (hi : l'.matchKw b!"IF" = false) :
    Fw .tryParseIfNotExists [] l (Res [.bool b, .nil] l') := by
  cases h with
  | notExistsNo => cases ha; start; fw []; exact ⟨rfl, rfl⟩
  | notExistsYes h1 h2 h3 =>
    have ht := ha.cur
    have ht2 := ha.rest.cur
    have ht3 := ha.rest.rest.cur
    obtain ⟨_, _⟩ := h1
    obtain ⟨_, _⟩ := h2
    obtain ⟨_, _⟩ := h3
    cases ha.rest.rest.rest
    start; fw []; exact ⟨rfl, rfl⟩
theorem p_cluster (h : Piece .cluster ts v) (ha : Ahead l ts l') (hn : NoErr l) (hi : l'.matchKw b!"ON" = false) (a : V) :
    Fw .tryParseClusterClause [a] l (GotO v l') := by
  cases h with
  | clusterNo => cases ha; start; fw []; exact ⟨_, rfl, rfl, rfl⟩
  | clusterName h1 h2 h3 =>
    have ht := ha.cur
    have ht2 := ha.rest.cur
    have ht3 := ha.rest.rest.cur
    obtain ⟨_, _⟩ := h1
    obtain ⟨_, _⟩ := h2
    unfold isPlainName at h3
    cases ha.rest.rest.rest
    refine Fw.mono (P := Got _ _) ?_ fun _ _ => Got.opt
    start; fw [c_ident]; got
  | clusterText h1 h2 h3 =>
    have ht := ha.cur
    have ht2 := ha.rest.cur
    have ht3 := ha.rest.rest.cur
    obtain ⟨_, _⟩ := h1
    obtain ⟨_, _⟩ := h2
    cases ha.rest.rest.rest
    refine Fw.mono (P := Got _ _) ?_ fun _ _ => Got.opt
    start; fw [c_string]; unfold text; got
theorem p_comment (h : Piece .comment ts v) (ha : Ahead l ts l') (hi : l'.matchKw b!"COMMENT" = false) :
    Fw .tryParseComment [] l (GotO v l') := by
  cases h with
  | commentNo => cases ha; start; fw []; exact ⟨_, rfl, rfl, rfl⟩
  | comment h1 h2 =>
    have ht := ha.cur
    have ht2 := ha.rest.cur
    obtain ⟨_, _⟩ := h1
    cases ha.rest.rest
    refine Fw.mono (P := Got _ _) ?_ fun _ _ => Got.opt
    start; fw [c_string]; exact ⟨_, rfl, rfl, by assumption⟩
theorem p_columnComment (h : Piece .comment ts v) (ha : Ahead l ts l') (hi : l'.matchKw b!"COMMENT" = false) (a : V) :
    Fw .tryParseColumnComment [a] l (GotO v l') := by
  cases h with
  | commentNo => cases ha; start; fw []; exact ⟨_, rfl, rfl, rfl⟩
  | comment h1 h2 =>
    have ht := ha.cur
    have ht2 := ha.rest.cur
    obtain ⟨_, _⟩ := h1
    cases ha.rest.rest
    refine Fw.mono (P := Got _ _) ?_ fun _ _ => Got.opt
    start; fw [c_string]; exact ⟨_, rfl, rfl, by assumption⟩
theorem p_modifier {m : Str} (h : Piece .modifier ts (.str m)) (ha : Ahead l ts l') (hi : l'.matchKw b!"SYNC" = false) (hi' : l'.matchKw b!"NO" = false) :
    Fw .tryParseModifier [] l (Res [.str m, .nil] l') := by
  cases h with
  | modifierNo => cases ha; start; fw []; exact ⟨rfl, rfl⟩
  | sync h1 =>
    have ht := ha.cur
    obtain ⟨_, _⟩ := h1
    cases ha.rest
    start; fw []; exact ⟨rfl, rfl⟩
  | noDelay h1 h2 =>
    have ht := ha.cur
    have ht2 := ha.rest.cur
    obtain ⟨_, _⟩ := h1
    obtain ⟨_, _⟩ := h2
    cases ha.rest.rest
    start; fw []; exact ⟨rfl, rfl⟩

/-- The name of a table. -/
theorem p_id (h : Piece .id ts v) (ha : Ahead l ts l') (hn : NoErr l) (hi : l'.matchKinds [b!"."] = false) (a : V) :
    Fw .parseTableIdentifier [a] l (Got v l') := by
  cases h with
  | idName h1 =>
    have ht := ha.cur
    cases ha.rest
    exact (c_tabId hn ht h1 hi a).mono fun rs l2 h => by
      obtain ⟨rfl, rfl⟩ := h
      exact ⟨_, rfl, rfl, by simp, rfl⟩
  | idOf h1 h2 h3 =>
    have ht := ha.cur
    have ht2 := ha.rest.cur
    have ht3 := ha.rest.rest.cur
    cases ha.rest.rest.rest
    exact (c_tabOf hn ht h1 ht2 h2 ht3 h3 a).mono fun rs l2 h => by
      obtain ⟨rfl, rfl⟩ := h
      exact ⟨_, rfl, rfl, by simp, rfl⟩
theorem id_begins (h : Piece .id ts v) : Begins [b!"<ident>"] [] ts := by
  cases h with
  | idName h => exact begins_kind h (by decide)
  | idOf h _ _ => exact begins_kind h (by decide)
theorem id_first (h : Piece .id ts v) (ha : Ahead l ts l') : ∃ t, l.cur = some t ∧ t.kind = .ident := by
  cases h with
  | idName h => exact ⟨_, ha.cur, h⟩
  | idOf h _ _ => exact ⟨_, ha.cur, h⟩

/-- The name of a column. -/
theorem p_dotNo (h : l.matchKinds [b!"."] = false) (a : V) : Fw .tryParseDotIdent [a] l (Res [.nil, .nil] l) := by
  start; fw []
  exact ⟨rfl, rfl⟩
theorem p_dot {d : Token} (hn : NoErr l) (hd : l.cur = some d) (hdk : isSign d b!".") (ht : l.advance.cur = some t) (hk : isAnyName t) (a : V) :
    Fw .tryParseDotIdent [a] l (Got (name t) l.advance.advance) := by
  unfold isSign at hdk
  start; fw [c_any]
  exact ⟨_, rfl, rfl, by assumption⟩
theorem p_column (h : Piece .column ts v) (ha : Ahead l ts l') (hn : NoErr l) (hi : l'.matchKinds [b!"."] = false) (a : V) :
    Fw .ParseNestedIdentifier [a] l (Got v l') := by
  cases h with
  | column h1 =>
    have ht := ha.cur
    unfold isPlainName at h1
    cases ha.rest
    start; fw [c_ident, p_dotNo]
    got
  | columnOf h1 h2 h3 =>
    have ht := ha.cur
    have ht2 := ha.rest.cur
    have ht3 := ha.rest.rest.cur
    unfold isPlainName at h1
    cases ha.rest.rest.rest
    start; fw [c_ident, p_dot]
    got
theorem column_first (h : Piece .column ts v) (ha : Ahead l ts l') : ∃ t, l.cur = some t ∧ t.kind = .ident := by
  cases h with
  | column h => exact ⟨_, ha.cur, h⟩
  | columnOf h _ _ => exact ⟨_, ha.cur, h⟩

end Verif.Complete

/-
How the parts of statements that are no queries begin.  No definition here is part of the model.
-/
import Verif.Complete.TacRet
import Verif.Spec.Ddl

namespace Verif.Complete
open Verif.Spec

/-- The clauses of an engine. -/
def clauseHeads : List Str := [b!"PRIMARY", b!"PARTITION", b!"SAMPLE", b!"TTL", b!"SETTINGS", b!"ORDER"]
/-- What `ALTER TABLE` may do. -/
def alterHeads : List Str := [b!"ADD", b!"MODIFY", b!"DROP", b!"RENAME", b!"DELETE", b!"UPDATE"]

/-- Whether the part may be empty; the kinds and the words it begins with. -/
def pHeads : Part → Bool × List Str × List Str
  | .ifExists => (true, [], [b!"IF"])
  | .ifNotExists => (true, [], [b!"IF"])
  | .orReplace => (true, [], [b!"OR"])
  | .temporary => (true, [], [b!"TEMPORARY"])
  | .id => (false, [b!"<ident>"], [])
  | .cluster => (true, [], [b!"ON"])
  | .comment => (true, [], [b!"COMMENT"])
  | .modifier => (true, [], [b!"SYNC", b!"NO"])
  | .column => (false, [b!"<ident>"], [])
  | .names => (false, [b!"<ident>"], [])
  | .columnNames => (true, [b!"("], [])
  | .type => (false, [b!"<ident>"], typeWords)
  | .types => (false, [b!"<ident>"], typeWords)
  | .literal => (false, [b!"<int>", b!"<float>", b!"<string>"], [])
  | .literals => (false, [b!"<int>", b!"<float>", b!"<string>"], [])
  | .enumValues => (false, [b!"<string>"], [])
  | .fields => (false, [b!"<ident>"], [])
  | .null => (true, [], [b!"NULL", b!"NOT"])
  | .value => (true, [], [b!"DEFAULT", b!"MATERIALIZED", b!"ALIAS"])
  | .level => (true, [b!"("], [])
  | .codec => (true, [], [b!"CODEC"])
  | .ttl => (true, [], [b!"TTL"])
  | .columnDef => (false, [b!"<ident>"], [])
  | .columnDefs => (false, [b!"<ident>"], [])
  | .schema => (true, [b!"("], [])
  | .params => (true, [b!"("], [])
  | .ttls => (false, exprKinds, exprWords)
  | .engineClauses _ => (true, [], clauseHeads)
  | .engine _ => (true, [], [b!"ENGINE"])
  | .pair => (false, [b!"<ident>"], [])
  | .pairs => (false, [b!"<ident>"], [])
  | .cell => (false, exprKinds, exprWords)
  | .cells => (false, exprKinds, exprWords)
  | .rows => (false, [b!"("], [])
  | .after => (true, [], [b!"AFTER"])
  | .assignment => (false, [b!"<ident>"], [])
  | .assignments => (false, [b!"<ident>"], [])
  | .alteration => (false, [], alterHeads)
  | .alterations => (false, [], alterHeads)
  | .final => (true, [], [b!"FINAL"])

theorem begins_type {t : Token} {us : List Token} (h : isTypeName t) : Begins [b!"<ident>"] typeWords (t :: us) := by
  rcases h with h | h
  · exact begins_kind h (by decide)
  · exact ⟨t, us, rfl, .inr h⟩

theorem piece_head {c : Part} {ts : List Token} {v : V} (h : Piece c ts v) :
    ((pHeads c).1 = true ∧ ts = []) ∨ Begins (pHeads c).2.1 (pHeads c).2.2 ts := by
  induction h
  all_goals first
    | exact .inl ⟨rfl, rfl⟩
    | exact .inr (begins_word (by assumption) (by first | decide | rfl))
    | exact .inr (begins_kind (by assumption) (by first | decide | rfl))
    | exact .inr (begins_sign (by assumption) (by first | decide | rfl))
    | exact .inr (begins_type (by assumption))
    | (rename_i ih; exact .inr ((ih.resolve_left (by simp [pHeads])).mono (by decide)))
    | (rename_i ih; exact .inr ((ih.resolve_left (by simp [pHeads])).mono (by decide)).append)
    | (rename_i ih _; exact .inr ((ih.resolve_left (by simp [pHeads])).mono (by decide)).append)
    | skip
  case literalNumber h => exact .inr (h.elim (begins_kind · (by decide)) (begins_kind · (by decide)))
  case ttlsOne h => exact .inr ((core_begins h rfl).mono (by decide))
  case ttlsMore h _ _ _ => exact .inr ((core_begins h rfl).mono (by decide)).append
  case cell h _ => exact .inr ((core_begins h rfl).mono (by decide))
  case columnDef ih _ _ _ _ _ _ => exact .inr ((ih.resolve_left (by simp [pHeads])).mono (by decide)).append

theorem piece_begins {c : Part} {ts : List Token} {v : V} (h : Piece c ts v) (hc : (pHeads c).1 = false) : Begins (pHeads c).2.1 (pHeads c).2.2 ts :=
  (piece_head h).resolve_left (by simp [hc])

/-- A part that may be empty, and what follows it. -/
theorem piece_opens {c : Part} {ts : List Token} {v : V} {os ws : List Str} {l l' : Lx} (h : Piece c ts v) (ha : Ahead l ts l') (hs : Starts os ws l') :
    Starts ((pHeads c).2.1 ++ os) ((pHeads c).2.2 ++ ws) l :=
  opens ((piece_head h).imp (·.2) id) ha hs
/-- A part that is not empty. -/
theorem piece_starts {c : Part} {ts : List Token} {v : V} {l l' : Lx} (h : Piece c ts v) (ha : Ahead l ts l') (hc : (pHeads c).1 = false) :
    Starts (pHeads c).2.1 (pHeads c).2.2 l := ((piece_begins h hc).starts ha).1

end Verif.Complete

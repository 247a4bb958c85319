/-
The methods of the parser that read a name, a number and the like, on known tokens.  No definition here is part of the model.
-/
import Verif.Complete.Tac
import Verif.Spec.Core

namespace Verif.Complete
open Verif.Spec Verif.Echo Verif.Echo.Sym Verif.Complete.Tac

/-- The tokens between two places. -/
inductive Ahead : Lx → List Token → Lx → Prop
  | nil {l : Lx} : Ahead l [] l
  | cons {l l' : Lx} {t : Token} {ts : List Token} : l.cur = some t → Ahead l.advance ts l' → Ahead l (t :: ts) l'

theorem Ahead.append {l l' : Lx} : ∀ {ts us : List Token}, Ahead l (ts ++ us) l' → ∃ k, Ahead l ts k ∧ Ahead k us l' := by
  intro ts
  induction ts generalizing l with
  | nil => intro us h; exact ⟨l, .nil, h⟩
  | cons t ts ih =>
    intro us h
    cases h with
    | cons h1 h2 =>
      obtain ⟨k, h3, h4⟩ := ih h2
      exact ⟨k, .cons h1 h3, h4⟩
theorem Ahead.noErr {l l' : Lx} {ts : List Token} (h : Ahead l ts l') (hn : NoErr l) : NoErr l' := by
  induction h with
  | nil => exact hn
  | cons _ _ ih => exact ih hn.adv

variable {l : Lx} {t : Token}

set_option linter.unusedVariables false

theorem c_ident (ht : l.cur = some t) (hk : t.kind = .ident) : Fw .parseIdent [] l (Got (name t) l.advance) := by
  start; fw []; got
theorem c_int (a : V) (ht : l.cur = some t) (hk : t.kind = .int) : Fw .parseNumber [a] l (Got (N.NumberLiteral (literal := t.str) (base := t.base)) l.advance) := by
  start; fw []; got
theorem c_float (a : V) (ht : l.cur = some t) (hk : t.kind = .float) : Fw .parseNumber [a] l (Got (N.NumberLiteral (literal := t.str) (base := t.base)) l.advance) := by
  start; fw []; got
theorem c_string (a : V) (ht : l.cur = some t) (hk : t.kind = .string) : Fw .parseString [a] l (Got (N.StringLiteral (literal := t.str)) l.advance) := by
  start; fw []; got
theorem c_star (a : V) (ht : l.cur = some t) (hk : t.kind = .op b!"*") : Fw .parseColumnStar [a] l (Got (N.Ident (name := b!"*")) l.advance) := by
  start; fw []; got
theorem c_anyI (hn : NoErr l) (ht : l.cur = some t) (hk : t.kind = .ident) : Fw .parseAnyKeyword [] l (Got (name t) l.advance) := by
  start; fw []; got
theorem c_anyK (hn : NoErr l) (ht : l.cur = some t) (hk : t.kind = .keyword) : Fw .parseAnyKeyword [] l (Got (name t) l.advance) := by
  start; fw []; got
theorem c_any (hn : NoErr l) (ht : l.cur = some t) (hk : isAnyName t) : Fw .parseAnyKeyword [] l (Got (name t) l.advance) :=
  hk.elim (c_anyI hn ht) (c_anyK hn ht)

/-! ### Looking ahead -/

theorem c_peekKind {t' : Token} {k : Str} (hn : NoErr l) (ht : l.advance.cur = some t') :
    Fw .peekTokenKind [.str k] l (Res [.bool (t'.kind.toStr == k)] l) := by
  start; fw []
  exact ⟨rfl, rfl⟩
theorem c_peekKind0 {k : Str} (hn : NoErr l) (ht : l.advance.cur = none) : Fw .peekTokenKind [.str k] l (Res [.bool false] l) := by
  start; fw []
  all_goals exact ⟨rfl, rfl⟩
theorem c_peekKw {t' : Token} {k : Str} (hn : NoErr l) (ht : l.advance.cur = some t') :
    Fw .peekKeyword [.str k] l (Res [.bool (t'.kind.toStr == Kind.keyword.toStr && equalFold t'.str k)] l) := by
  start; fw []
  exact ⟨rfl, rfl⟩
theorem c_peekKw0 {k : Str} (hn : NoErr l) (ht : l.advance.cur = none) : Fw .peekKeyword [.str k] l (Res [.bool false] l) := by
  start; fw []
  all_goals exact ⟨rfl, rfl⟩
theorem c_peekKindB {k : Str} (hn : NoErr l) : Fw .peekTokenKind [.str k] l (ResB l) := by
  cases hc : l.advance.cur with
  | none => exact (c_peekKind0 hn hc).mono fun rs l' h => ⟨_, h⟩
  | some t => exact (c_peekKind hn hc).mono fun rs l' h => ⟨_, h⟩
theorem c_peekKwB {k : Str} (hn : NoErr l) : Fw .peekKeyword [.str k] l (ResB l) := by
  cases hc : l.advance.cur with
  | none => exact (c_peekKw0 hn hc).mono fun rs l' h => ⟨_, h⟩
  | some t => exact (c_peekKw hn hc).mono fun rs l' h => ⟨_, h⟩

theorem c_startB (hn : NoErr l) : Fw .peekIsClauseStarterKeyword [] l (ResB l) := by
  start; fw [c_peekKwB]
  all_goals exact ⟨_, rfl, rfl⟩
theorem c_contB (hn : NoErr l) : Fw .peekIsExpressionContinuation [] l (ResB l) := by
  start; fw [c_peekKindB, c_peekKwB]
  all_goals exact ⟨_, rfl, rfl⟩
theorem c_itemIdB (hn : NoErr l) : Fw .keywordIsSelectItemIdentifier [] l (ResB l) := by
  start; fw [c_peekKindB, c_peekKwB, c_startB, c_contB]
  all_goals exact ⟨_, rfl, rfl⟩
/-- A token that is no keyword. -/
theorem c_itemId0 (hm : l.matchKinds [b!"<keyword>"] = false) : Fw .keywordIsSelectItemIdentifier [] l (Res [.bool false] l) := by
  start; fw []
  exact ⟨rfl, rfl⟩

end Verif.Complete

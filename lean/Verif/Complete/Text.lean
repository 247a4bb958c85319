/-
Texts with statements of all kinds.  No definition here is part of the model.
-/
import Verif.Complete.Alter

namespace Verif.Complete
open Verif.Spec Verif.Echo Verif.Echo.Sym Verif.Complete.Tac Verif.Group

variable {ts : List Token} {v : V} {vs : List V}

/-- What the parser does with a statement. -/
theorem statement_meaning (h : Statement ts v) : MS ts v := by
  cases h with
  | query h => exact ms_query (meaning h) (query_two h)
  | use h1 h2 => exact ms_use h1 h2
  | set h1 h2 =>
    have h3 := items_cons h2
    obtain ⟨_, rfl, h4⟩ : ∃ vs, _ = V.list vs ∧ Sep MSet _ vs := meaning h2
    exact ms_set h1 h4 h3
  | createDatabase h1 h2 h3 h4 h5 h6 h7 => exact ms_createDatabase h1 h2 h3 h4 h5 h6 h7
  | createTable h1 h2 h3 h4 h5 h6 h7 h8 h9 h10 => exact ms_createTable h1 h2 h3 h4 h5 h6 h7 h8 h9 h10
  | createTableAs h1 h2 h3 h4 h5 h6 h7 h8 h9 h10 h11 h12 => exact ms_createTableAs h1 h2 h3 h4 h5 h6 h7 h8 h9 h10 h11 h12
  | createView h1 h2 h3 h4 h5 h6 h7 h8 h9 h10 => exact ms_createView h1 h2 h3 h4 h5 h6 h7 h8 h9 h10
  | dropDatabase h1 h2 h3 h4 h5 h6 => exact ms_dropDatabase h1 h2 h3 h4 h5 h6
  | dropTable h1 h2 h3 h4 h5 h6 h7 => exact ms_dropTable h1 h2 h3 h4 h5 h6 h7
  | dropOther h1 h2 h3 h4 h5 h6 h7 => exact ms_dropOther h1 h2 h3 h4 h5 h6 h7
  | truncate h1 h2 h3 h4 h5 h6 => exact ms_truncate h1 h2 h3 h4 h5 h6
  | rename h1 h2 h3 h4 h5 => exact ms_rename h1 h2 h3 h4 h5
  | insertValues h1 h2 h3 h4 h5 h6 h7 => exact ms_insertValues h1 h2 h3 h4 h5 h6 h7
  | insertFormat h1 h2 h3 h4 h5 h6 h7 => exact ms_insertFormat h1 h2 h3 h4 h5 h6 h7
  | insertQuery h1 h2 h3 h4 h5 h6 h7 => exact ms_insertQuery h1 h2 h3 h4 h5 h6 h7
  | delete h1 h2 h3 h4 h5 h6 => exact ms_delete h1 h2 h3 h4 h5 (meaning h6)
  | alterTable h1 h2 h3 h4 h5 => exact ms_alterTable h1 h2 h3 h4 h5
  | optimize h1 h2 h3 h4 h5 => exact ms_optimize h1 h2 h3 h4 h5
  | check h1 h2 h3 => exact ms_check h1 h2 h3
  | explain h1 h2 h3 h4 => exact ms_explain h1 h2 h3 (meaning h4)
  | showCreate h1 h2 h3 h4 => exact ms_showCreate h1 h2 h3 h4
  | showDatabases h1 h2 => exact ms_showDatabases h1 h2
  | showTables h1 h2 => exact ms_showTables h1 h2
  | describe h1 h2 => exact ms_describe h1 h2
  | describeTable h1 h2 h3 => exact ms_describeTable h1 h2 h3

theorem statements_end (h : Statements [] vs) : vs = [] := by
  generalize hb : ([] : List Token) = ts at h
  cases h with
  | none => rfl
  | semi => cases hb
  | last h =>
    obtain ⟨⟨_, _, _, rfl, _⟩, _⟩ := statement_meaning h
    cases hb
  | more => simp at hb

theorem s_text {l l' : Lx} (h : Statements ts vs) (ha : Ahead l.advance ts l') (hn : NoErr l) (he : l'.cur = none) (hl : l'.isEOF = true) :
    Fw .ParseStmts [] l (fun rs _ => ∃ w, rs = [w, .nil] ∧ V.normL id w.items = vs) := by
  start; fw []
  refine f_loopL fun L hL => ?_
  have key : ∀ {ts : List Token} {ws : List V}, Statements ts ws → ∀ (l sv : Lx) (acc x1 x2 x3 x4 x5 : V) (m : List Nat) (i : Str), Ahead l.advance ts l' → NoErr l →
      V.normL id acc.items ++ ws = vs → L ⟨[acc, x1, x2, x3, x4, x5], sv⟩ ⟨l, m, i⟩ := by
    intro ts ws h
    induction h with
    | none =>
      intro l sv acc x1 x2 x3 x4 x5 m i ha hn hv
      have hz : l.advance.isEOF = true := eof_none hn (by cases ha; exact he)
      apply hL
      fw []
      exact ⟨_, rfl, by simpa using hv⟩
    | semi hs h' ih =>
      intro l sv acc x1 x2 x3 x4 x5 m i ha hn hv
      have ht := ha.cur
      unfold isSign at hs
      apply hL
      fw []
      · cases eof_last c1 ha.rest
        cases statements_end h'
        exact ⟨_, rfl, by simpa using hv⟩
      · exact ih _ _ _ _ _ _ _ _ _ _ ha.rest hn.adv hv
    | last h =>
      intro l sv acc x1 x2 x3 x4 x5 m i ha hn hv
      obtain ⟨⟨_, t', _, rfl, hk⟩, hq⟩ := statement_meaning h
      have e := hq _ _ ha hn.adv (.inl he)
      have ht := ha.cur
      have ht' := ha.rest.cur
      have hn' := ha.noErr hn.adv
      have hz : l'.advance.isEOF = true := eof_none hn' (advance_eof hl)
      apply hL
      fw []
      apply hL
      fw []
      exact ⟨_, rfl, by rw [← hv, V.items, normL_append, show V.normL id [v1] = [_] from congrArg (· :: []) hv1.2]⟩
    | more h hs _ ih =>
      intro l sv acc x1 x2 x3 x4 x5 m i ha hn hv
      obtain ⟨⟨_, t', _, rfl, hk⟩, hq⟩ := statement_meaning h
      obtain ⟨k, a1, a2⟩ := ha.append
      have e := hq _ _ a1 hn.adv (starts_sign a2.cur hs (by decide))
      have ht := a1.cur
      have ht' := a1.rest.cur
      apply hL
      fw []
      exact ih _ _ _ _ _ _ _ _ _ _ a2.rest (a1.noErr hn.adv) (by
        rw [← hv, V.items, normL_append, show V.normL id [v1] = [_] from congrArg (· :: []) hv1.2, List.append_assoc]
        rfl)
  exact key h _ _ _ _ _ _ _ _ _ _ ha hn rfl

end Verif.Complete

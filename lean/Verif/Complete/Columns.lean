/-
The columns of a table.  No definition here is part of the model.
-/
import Verif.Complete.Types

namespace Verif.Complete
open Verif.Spec Verif.Echo Verif.Echo.Sym Verif.Complete.Tac

variable {l l' : Lx} {k d t : Token} {ts us : List Token} {v w : V} {vs : List V} {b : Bool}

set_option linter.unusedVariables false
set_option linter.unusedTactic false

/-- The kinds that may follow an expression in a statement that is no query. -/
def tailKinds : List Str := [b!",", b!")", b!";"]
/-- The words that may follow one. -/
def tailWords : List Str := [b!"COMMENT", b!"CODEC", b!"TTL", b!"AFTER", b!"PRIMARY", b!"PARTITION", b!"SAMPLE", b!"SETTINGS", b!"ORDER", b!"AS", b!"WHERE"]

theorem prec_tail (h : Starts tailKinds tailWords l) : Prec l 0 := by
  unfold Prec
  start; fw []
  exact ⟨rfl, rfl⟩
theorem fol_tail {p : Nat} (h : Starts tailKinds tailWords l) : Fol p l :=
  ⟨cl_of h (by decide), 0, prec_tail h, by omega, by omega, by omega, fun _ => rfl⟩
theorem exprT (h : Core (.expr 0) ts v) (ha : Ahead l ts l') (hn : NoErr l) (hs : Starts tailKinds tailWords l') (a : V) : Fw .parseExpr [a] l (Got v l') :=
  expr0' (meaning h) ha hn (fol_tail hs) a

theorem p_level (h : Piece .level ts v) (ha : Ahead l ts l') (hi : l'.matchKinds [b!"("] = false) (a : V) : Fw .tryParseCompressionLevel [a] l (GotO v l') := by
  cases h with
  | levelNo => cases ha; start; fw []; exact ⟨_, rfl, rfl, rfl⟩
  | level h1 h2 h3 =>
    have ht := ha.cur
    have ht2 := ha.rest.cur
    have ht3 := ha.rest.rest.cur
    cases ha.rest.rest.rest
    unfold isSign at h1 h3
    refine Fw.mono (P := Got _ _) ?_ fun _ _ => Got.opt
    unfold number
    start; fw [c_int]; exact ⟨_, rfl, rfl, by assumption⟩

theorem p_codec (h : Piece .codec ts v) (ha : Ahead l ts l') (hi : l'.matchKw b!"CODEC" = false) (a : V) : Fw .tryParseCompressionCodecs [a] l (GotO v l') := by
  cases h with
  | codecNo => cases ha; start; fw []; exact ⟨_, rfl, rfl, rfl⟩
  | @codec k o n c ts v h1 h2 h3 h4 h5 h6 =>
    have ht := ha.cur
    have ht2 := ha.rest.cur
    have ht3 := ha.rest.rest.cur
    obtain ⟨m, a1, a2⟩ := ha.rest.rest.rest.append
    have ht4 := a2.cur
    cases a2.rest
    obtain ⟨_, _⟩ := h1
    have e1 := c_identX ht3 h3
    have hid := is_idv n
    unfold isSign at h2 h6
    unfold isPlainName at h3
    have e := p_level h4 a1 (mk_some ht4 h6 (by decide))
    refine Fw.mono (P := Got _ _) ?_ fun _ _ => Got.opt
    by_cases hx : upper n.str ∈ firstCodecs ++ levelCodecs
    · simp only [firstCodecs, levelCodecs, List.cons_append, List.nil_append, List.mem_cons, List.not_mem_nil, or_false] at hx
      rcases hx with hx | hx | hx | hx | hx | hx | hx | hx
      all_goals
        start; fw []
        got
    · cases h4 with
      | level => exact absurd (h5 (by simp)) hx
      | levelNo =>
        cases a1
        simp only [firstCodecs, levelCodecs, List.cons_append, List.nil_append, List.mem_cons, List.not_mem_nil, or_false, not_or] at hx
        have q1 := beq_false_of_ne hx.1
        have q2 := beq_false_of_ne hx.2.1
        have q3 := beq_false_of_ne hx.2.2.1
        have q4 := beq_false_of_ne hx.2.2.2.1
        have q5 := beq_false_of_ne hx.2.2.2.2.1
        have q6 := beq_false_of_ne hx.2.2.2.2.2.1
        have q7 := beq_false_of_ne hx.2.2.2.2.2.2.1
        have q8 := beq_false_of_ne hx.2.2.2.2.2.2.2
        start; fw []
        got
  | @codecs k o f m n c ts us v w h1 h2 h3 h4 h5 h6 h7 h8 h9 h10 =>
    have ht := ha.cur
    have ht2 := ha.rest.cur
    have ht3 := ha.rest.rest.cur
    obtain ⟨m, a1, a2⟩ := ha.rest.rest.rest.append
    have ht4 := a2.cur
    have ht5 := a2.rest.cur
    obtain ⟨m2, a3, a4⟩ := a2.rest.rest.append
    have ht6 := a4.cur
    cases a4.rest
    obtain ⟨_, _⟩ := h1
    have e1 := c_identX ht3 h3
    have hid := is_idv f
    have e2 := c_identX ht5 h7
    have hid2 := is_idv n
    unfold isSign at h2 h6 h10
    unfold isPlainName at h3 h7
    have e := p_level h5 a1 (mk_some ht4 h6 (by decide))
    have e3 := p_level h8 a3 (mk_some ht6 h10 (by decide))
    refine Fw.mono (P := Got _ _) ?_ fun _ _ => Got.opt
    simp only [firstCodecs, List.mem_cons, List.not_mem_nil, or_false] at h4
    by_cases hx : upper n.str ∈ levelCodecs
    · simp only [levelCodecs, List.mem_cons, List.not_mem_nil, or_false] at hx
      rcases h4 with h4 | h4 | h4 | h4 | h4
      all_goals
        rcases hx with hx | hx | hx
        all_goals
          start; fw []
          got
    · cases h8 with
      | level => exact absurd (h9 (by simp)) hx
      | levelNo =>
        cases a3
        simp only [levelCodecs, List.mem_cons, List.not_mem_nil, or_false, not_or] at hx
        have q6 := beq_false_of_ne hx.1
        have q7 := beq_false_of_ne hx.2.1
        have q8 := beq_false_of_ne hx.2.2
        rcases h4 with h4 | h4 | h4 | h4 | h4
        all_goals
          start; fw []
          got

theorem p_ttlExpr (h : Core (.expr 0) ts v) (ha : Ahead l ts l') (hn : NoErr l) (hs : Starts tailKinds tailWords l') (a : V) :
    Fw .parseTTLExpr [a] l (Got (N.TTLExpr (expr := v)) l') := by
  have e := exprT h ha hn hs
  have e2 : ∀ a, Fw .tryParseTTLPolicy [a] l' (Res [.nil, .nil] l') := by
    intro a
    start; fw []; exact ⟨rfl, rfl⟩
  start; fw []
  got

theorem p_ttl (h : Piece .ttl ts v) (ha : Ahead l ts l') (hn : NoErr l) (hs : Starts tailKinds (tailWords.erase b!"TTL") l') (a : V) :
    Fw .tryParseTTLClause [a, .bool false] l (GotO v l') := by
  cases h with
  | ttlNo => cases ha; start; fw []; exact ⟨_, rfl, rfl, rfl⟩
  | @ttl k ts v h1 h2 =>
    have ht := ha.cur
    obtain ⟨_, _⟩ := h1
    have e := p_ttlExpr h2 ha.rest hn.adv (hs.mono (by decide))
    refine Fw.mono (P := Got _ _) ?_ fun _ _ => Got.opt
    have e2 : ∀ a, Fw .parseTTLClause [a, .bool false] l.advance fun rs l2 => ∃ x, rs = [.list [x], .nil] ∧ l' = l2 ∧ Is (N.TTLExpr (expr := v)) x := by
      intro a
      start; fw []
      refine f_loopL fun L hL => ?_
      apply hL; fw []
      exact ⟨_, rfl, rfl, by assumption⟩
    start; fw []
    obtain ⟨x, rfl, rfl, hx⟩ := hp1
    fw []
    all_goals got

theorem p_null {x y : V} (h : Piece .null ts (.list [x, y])) (ha : Ahead l ts l') (hi : l'.matchKw b!"NULL" = false) (hi' : l'.matchKw b!"NOT" = false) :
    (x = .nil ∧ y = .nil ∧ (∀ a, Fw .tryParseNull [a] l (Res [.nil] l')) ∧ (∀ a, Fw .tryParseNotNull [a] l' (Res [.nil, .nil] l'))) ∨
    (x = .nil ∧ y = N.NullLiteral ∧ (∀ a, Fw .tryParseNull [a] l (Res [.mk Ty.NullLiteral [a]] l')) ∧ (∀ a, Fw .tryParseNotNull [a] l' (Res [.nil, .nil] l'))) ∨
    (y = .nil ∧ x = N.NotNullLiteral (nullLiteral := N.NullLiteral) ∧ (∀ a, Fw .tryParseNull [a] l (Res [.nil] l)) ∧ (∀ a, Fw .tryParseNotNull [a] l (Got x l'))) := by
  have e : ∀ a, Fw .tryParseNotNull [a] l' (Res [.nil, .nil] l') := by
    intro a
    start; fw []; exact ⟨rfl, rfl⟩
  cases h with
  | nullNo =>
    cases ha
    refine .inl ⟨rfl, rfl, fun a => ?_, e⟩
    start; fw []; exact ⟨rfl, rfl⟩
  | null h1 =>
    have ht := ha.cur
    obtain ⟨_, _⟩ := h1
    cases ha.rest
    refine .inr (.inl ⟨rfl, rfl, fun a => ?_, e⟩)
    start; fw []; exact ⟨rfl, rfl⟩
  | notNull h1 h2 =>
    have ht := ha.cur
    have ht2 := ha.rest.cur
    obtain ⟨_, _⟩ := h1
    obtain ⟨_, _⟩ := h2
    cases ha.rest.rest
    refine .inr (.inr ⟨rfl, rfl, fun a => ?_, fun a => ?_⟩)
    · start; fw []; exact ⟨rfl, rfl⟩
    · start; fw []; got

theorem p_columnDef (h : Piece .columnDef ts v) (ha : Ahead l ts l') (hn : NoErr l) (hs : Starts tailKinds [b!"AFTER"] l') (a : V) :
    Fw .parseTableColumnExpr [a] l (Got v l') := by
  cases h with
  | columnDef h1 h2 h3 h4 h5 h6 h7 =>
    obtain ⟨l1, a1, ha⟩ := ha.append
    have n1 := a1.noErr hn
    obtain ⟨l2, a2, ha⟩ := ha.append
    have n2 := a2.noErr n1
    obtain ⟨l3, a3, ha⟩ := ha.append
    have n3 := a3.noErr n2
    obtain ⟨l4, a4, ha⟩ := ha.append
    have n4 := a4.noErr n3
    obtain ⟨l5, a5, ha⟩ := ha.append
    have n5 := a5.noErr n4
    obtain ⟨l6, a6, a7⟩ := ha.append
    have n6 := a6.noErr n5
    have s6 := piece_opens h7 a7 hs
    have s5 := piece_opens h6 a6 s6
    have s4 := piece_opens h5 a5 s5
    have s3 := piece_opens h4 a4 s4
    have s2 := piece_opens h3 a3 s3
    have s1 := piece_starts h2 a2 rfl
    have e1 := p_column h1 a1 hn (st_kinds s1 (by decide))
    have e2 := (t_meaning h2 : MTy _ _).fw a2 n1 (st_kinds s2 (by decide))
    have e5 := p_columnComment h5 a5 (st_kw s5 (by decide))
    have e6 := p_codec h6 a6 (st_kw s6 (by decide))
    have e7 := p_ttl h7 a7 n6 (hs.mono (by decide))
    have q1 : l1.matchKinds [b!"<ident>"] = true := by
      obtain ⟨t, us, rfl, ht, _⟩ := (t_meaning h2 : MTy _ _)
      exact type_kinds a2.cur ht
    have q2 : l1.matchKw b!"REMOVE" = false := st_kw s1 (by decide)
    have s4' : Starts tailKinds tailWords l4 := s4.mono (by decide)
    have hN := p_null h3 a3 (st_kw s3 (by decide)) (st_kw s3 (by decide))
    clear s6 s1 s2 s3 h1 h2 h5 h6 h7 a1 a2 a5 a6 a7
    rcases hN with ⟨rfl, rfl, e3, e4⟩ | ⟨rfl, rfl, e3, e4⟩ | ⟨rfl, rfl, e3, e4⟩
    all_goals
      cases h4 with
      | valueNo =>
        cases a4
        start; fw []
        all_goals got
      | default h8 h9 =>
        have ht := a4.cur
        have e8 := exprT h9 a4.rest n3.adv s4'
        obtain ⟨_, _⟩ := h8
        start; fw []
        all_goals got
      | materialized h8 h9 =>
        have ht := a4.cur
        have e8 := exprT h9 a4.rest n3.adv s4'
        obtain ⟨_, _⟩ := h8
        start; fw []
        all_goals got
      | «alias» h8 h9 =>
        have ht := a4.cur
        have e8 := exprT h9 a4.rest n3.adv s4'
        obtain ⟨_, _⟩ := h8
        start; fw []
        all_goals got

end Verif.Complete

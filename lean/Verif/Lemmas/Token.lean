/- Helper lemmas: the current token of a reachable lexer state, and tests on it. -/
import Verif.Lemmas.Reach
import Verif.Spec.Take
import Verif.Analysis.Sound.Lexer
import Verif.Props.Lexer

namespace Verif
open Spec

/-- The kind of a token of the lexer is one of the named kinds or the text of an operator. -/
theorem lexeme_kind {prev : Option Token} {lex follow : Str} {lead : Nat} {t : Token}
    (h : Lexeme prev lex follow lead t) : t.kind ≠ .eof ∧ ∀ s, t.kind = .op s → s.length ≤ 2 ∧ s ≠ [] := by
  cases h with
  | @number n follow flt base p e hn _ => cases flt <;> simp
  | @signed s n follow flt base p e _ _ hn _ => cases flt <;> simp
  | word => simp only; split <;> simp
  | backquoted => simp
  | doublequoted => simp
  | string => simp
  | @op2 s follow p e h =>
    obtain ⟨c, d, rfl⟩ := twoByteOps_len h
    simp only [twoByteKind]; split <;> simp <;> intro s hs <;> subst hs <;> simp
  | op1 => simp

/-- The current token of a reachable state is a lexeme, followed by the unread text. -/
theorem reach_lexeme {input : Str} {l : Lx} (h : Reach input l) {t : Token} (ht : l.cur = some t) :
    ∃ prev lex lead, Lexeme prev lex l.rest lead t := by
  cases h with
  | start => simp [Lx.new] at ht
  | ok _ h =>
    have := (consume_ok_iff _ _).1 h
    cases this with
    | eof => simp at ht
    | token _ hl => simp at ht; subst ht; exact ⟨_, _, _, hl⟩
  | err _ h => simp [(consume_err_shape h).1] at ht

theorem reach_next {input : Str} {l l' : Lx} (h : Reach input l) (hn : Next l l') : Reach input l' := by
  rcases hn with hn | hn
  · exact .ok h hn
  · exact .err h hn

theorem next_advance (l : Lx) : Next l l.advance := by
  unfold Next Lx.advance
  cases l.consume <;> simp

theorem next_eq {l l' : Lx} (h : Next l l') : l' = l.advance := by
  unfold Lx.advance
  rcases h with h | h <;> rw [h]

theorem kind_toStr {k : Kind} (h : k ≠ .eof ∧ ∀ s, k = .op s → s.length ≤ 2 ∧ s ≠ []) {k' : Kind}
    (h' : k' ≠ .eof ∧ ∀ s, k' = .op s → s.length ≤ 2 ∧ s ≠ []) (he : k.toStr = k'.toStr) : k = k' := by
  cases k <;> cases k' <;> simp_all [Kind.toStr] <;> subst he <;> simp at h'

/-- `matchKeyword` tests whether the current token spells the keyword. -/
theorem matchKw_spec {input : Str} {l : Lx} (h : Reach input l) (k : Str) :
    l.matchKw k = true ↔ ∃ t, l.cur = some t ∧ IsKw t k := by
  rw [An.matchKw_iff]
  constructor
  · rintro ⟨t, ht, hk, he⟩
    obtain ⟨_, _, _, hl⟩ := reach_lexeme h ht
    refine ⟨t, ht, kind_toStr (lexeme_kind hl) (by simp) hk, ?_⟩
    rw [← upper_eq_iff]
    simpa [equalFold] using he
  · rintro ⟨t, ht, hk, he⟩
    refine ⟨t, ht, by rw [hk], ?_⟩
    rw [← upper_eq_iff] at he
    simpa [equalFold] using he

theorem reserved_upper {r : Str} (h : r ∈ reservedList) : upper r = r := by
  have : ∀ k ∈ reservedList, upper k = k := by decide +kernel
  exact this r h

theorem isReserved_iff (s : Str) : isReserved (upper s) = true ↔ ∃ r ∈ reservedList, SameLetters s r := by
  simp only [isReserved, List.contains_iff_mem]
  constructor
  · intro h; exact ⟨upper s, h, (upper_eq_iff _ _).1 (by rw [reserved_upper h])⟩
  · rintro ⟨k, hk, h⟩
    rw [(upper_eq_iff _ _).2 h, reserved_upper hk]; exact hk

/-- `matchTokenKind(TokenKindIdent)` tests whether the current token may be a plain identifier. -/
theorem matchIdent_spec {input : Str} {l : Lx} (h : Reach input l) :
    l.matchKinds [Kind.ident.toStr] = true ↔ ∃ t, l.cur = some t ∧ IdentLike t := by
  cases hc : l.cur with
  | none => rw [An.matchKinds_none hc]; simp [Kind.toStr]
  | some t =>
    obtain ⟨_, _, _, hl⟩ := reach_lexeme h hc
    have hk := lexeme_kind hl
    by_cases hkw : t.kind = .keyword
    · rw [An.matchKinds_kw hc (by rw [hkw])]
      simp only [Option.some.injEq, exists_eq_left', IdentLike, hkw]
      have := isReserved_iff t.str
      simp only [Kind.toStr, Bool.or_eq_true, Bool.and_eq_true, Bool.not_eq_true']
      rw [← Bool.not_eq_true, this]
      simp
    · rw [An.matchKinds_kind hc (fun he => hkw (kind_toStr hk (by simp) he))]
      simp only [Option.some.injEq, exists_eq_left', IdentLike, hkw, false_and, or_false]
      simp only [List.contains_cons, List.contains_nil, Bool.or_false, beq_iff_eq]
      constructor
      · intro he; exact kind_toStr hk (by simp) he
      · intro he; rw [he]

end Verif

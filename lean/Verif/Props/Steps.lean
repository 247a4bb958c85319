/-
Single steps of the parser: keyword sequences and identifiers (properties C16, C17).
-/
import Verif.Lemmas.Token
import Verif.Parser.Table

namespace Verif
open Spec
open List (Forall₂)

/-! ### C16 -/

theorem takeKws_spec {input : Str} (ks : List Str) : ∀ {l : Lx}, Reach input l → ∀ l',
    l.takeKws ks = some l' ↔ ∃ ts, Takes l ts l' ∧ AreKws ts ks := by
  induction ks with
  | nil =>
    intro l _ l'
    simp only [Lx.takeKws, Option.some.injEq]
    constructor
    · rintro rfl; exact ⟨[], .nil, .nil⟩
    · rintro ⟨ts, ht, hk⟩; cases hk; cases ht; rfl
  | cons k ks ih =>
    intro l hl l'
    simp only [Lx.takeKws]
    split
    · rename_i hm
      obtain ⟨t, hc, hk⟩ := (matchKw_spec hl k).1 hm
      rw [ih (reach_next hl (next_advance l))]
      constructor
      · rintro ⟨ts, h1, h2⟩; exact ⟨t :: ts, .cons hc (next_advance l) h1, .cons hk h2⟩
      · rintro ⟨ts, h1, h2⟩
        cases h2 with
        | cons h2 h3 =>
          cases h1 with
          | cons _ hn h1 => rw [next_eq hn] at h1; exact ⟨_, h1, h3⟩
    · rename_i hm
      simp only [reduceCtorEq, false_iff]
      rintro ⟨ts, h1, h2⟩
      cases h2 with
      | cons h2 h3 =>
        cases h1 with
        | cons hc _ _ => exact hm ((matchKw_spec hl k).2 ⟨_, hc, h2⟩)

/-- **C16**: in every reachable state and for every sequence of keywords, `tryConsumeKeywords` either
reports true, and has gone on by exactly the tokens of the input, and these spell the keywords in
order; or it reports false, the next tokens do not spell the keywords, and the state is the one
before the call. -/
theorem C16_all_or_nothing (input : Str) (l : Lx) (hl : Reach input l) (ks : List Str) :
    (∃ l' ts, l.tryKws ks = (true, l') ∧ Takes l ts l' ∧ AreKws ts ks) ∨
    (l.tryKws ks = (false, l) ∧ ¬ ∃ ts l', Takes l ts l' ∧ AreKws ts ks) := by
  unfold Lx.tryKws
  cases h : l.takeKws ks with
  | some l' =>
    obtain ⟨ts, h1, h2⟩ := (takeKws_spec ks hl l').1 h
    exact Or.inl ⟨l', ts, rfl, h1, h2⟩
  | none =>
    refine Or.inr ⟨rfl, ?_⟩
    rintro ⟨ts, l', h1, h2⟩
    have := (takeKws_spec ks hl l').2 ⟨ts, h1, h2⟩
    simp [h] at this

/-- The lexer after the first `n` tokens of a text. -/
def lexAt (input : Str) : Nat → Lx
  | 0 => Lx.new input
  | n + 1 => (lexAt input n).advance

theorem reach_lexAt (input : Str) : ∀ n, Reach input (lexAt input n)
  | 0 => .start
  | n + 1 => reach_next (reach_lexAt input n) (next_advance _)

/-- `if not Exists x`: with the keywords IF NOT EXISTS the call succeeds and arrives at `x`; in
`if not x` it fails at the third keyword and stays where it was. -/
example :
    ((lexAt b!"if not Exists x" 1).tryKws [b!"IF", b!"NOT", b!"EXISTS"] = (true, lexAt b!"if not Exists x" 4)) ∧
    ((lexAt b!"if not x" 1).tryKws [b!"IF", b!"NOT", b!"EXISTS"] = (false, lexAt b!"if not x" 1)) := by
  decide +kernel

/-- Every use of `tryConsumeKeywords` in the parser is this step: the rest of the parser state, the
local variables other than the result, and `savedState` stay as they are. -/
theorem C16_in_parser (call : Fn → List V → PS → COut) (n ln x : Nat) (ks : List Str) (fr : Frame) (s : PS) :
    (Stmt.prim ln (.tryKws ks) [x]).run call n fr s =
      .next { fr with env := fr.env.set x (.bool (s.lx.tryKws ks).1) } { s with lx := (s.lx.tryKws ks).2 } := rfl

/-! ### C17 -/

/-- The identifier made from a token. -/
def identOf (t : Token) : V := .mk .Ident [.str t.str, .nat t.quote, .nat t.pos, .nat t.endp]

/-- **C17**: in every reachable state, `parseIdent` returns an identifier iff the current token is an
identifier token or a keyword that is not reserved.  The identifier is the one the token spells, and
the parser goes on by one token; otherwise it stays where it is and returns an error. -/
theorem C17_parse_ident (input : Str) (s : PS) (hl : Reach input s.lx) (n : Nat) :
    (∃ t, s.lx.cur = some t ∧ IdentLike t ∧
      ∃ l', Next s.lx l' ∧ runFn fnTable (n + 1) .parseIdent [] s = .ret [identOf t, .nil] { s with lx := l' }) ∨
    ((¬ ∃ t, s.lx.cur = some t ∧ IdentLike t) ∧
      ∃ e, e.nonNil = true ∧ runFn fnTable (n + 1) .parseIdent [] s = .ret [.nil, e] s) := by
  by_cases h : s.lx.matchKinds [Kind.ident.toStr] = true
  · left
    obtain ⟨t, ht, hi⟩ := (matchIdent_spec hl).1 h
    refine ⟨t, ht, hi, _, next_advance _, ?_⟩
    have h' : s.lx.matchKinds [[60, 105, 100, 101, 110, 116, 62]] = true := h
    have e : tokV s.lx.cur = .mk .Token [.nat t.pos, .nat t.endp, .str t.kind.toStr, .str t.str, .nat t.base, .nat t.quote] := by
      rw [ht]; rfl
    simp [runFn, fnTable, Body.parseIdent, Stmt.run, Exp.eval, Exp.evalL, Prim.run, Lx.tryKind, h', e, V.toStr?, storeAll,
      V.nonNil, V.toBool?, V.field, identOf, List.replicate]
  · right
    refine ⟨fun h' => h ((matchIdent_spec hl).2 h'), kindErr s.lx Kind.ident.toStr, rfl, ?_⟩
    have h' : s.lx.matchKinds [[60, 105, 100, 101, 110, 116, 62]] = false := (Bool.not_eq_true _).mp h
    simp [runFn, fnTable, Body.parseIdent, Stmt.run, Exp.eval, Exp.evalL, Prim.run, Lx.tryKind, h', V.toStr?, storeAll,
      V.nonNil, V.toBool?, V.field, List.replicate, kindErr, Kind.toStr, N.ParseError]

/-- `date` is a keyword that is not reserved, `From` is reserved. -/
example : (∃ t, (lexAt b!"date" 1).cur = some t ∧ t.kind = .keyword ∧ IdentLike t) ∧
    (∃ t, (lexAt b!"From" 1).cur = some t ∧ t.kind = .keyword ∧ ¬ IdentLike t) := by
  constructor
  · have h : (lexAt b!"date" 1).matchKinds [Kind.ident.toStr] = true ∧
        ((lexAt b!"date" 1).cur.map (·.kind)) = some .keyword := by decide +kernel
    obtain ⟨t, ht, hi⟩ := (matchIdent_spec (reach_lexAt b!"date" 1)).1 h.1
    exact ⟨t, ht, by simpa [ht] using h.2, hi⟩
  · have h : (lexAt b!"From" 1).matchKinds [Kind.ident.toStr] = false ∧
        ((lexAt b!"From" 1).cur.map (·.kind)) = some .keyword := by decide +kernel
    cases hc : (lexAt b!"From" 1).cur with
    | none => simp [hc] at h
    | some t =>
      refine ⟨t, rfl, by simpa [hc] using h.2, fun hi => ?_⟩
      have := (matchIdent_spec (reach_lexAt b!"From" 1)).2 ⟨t, hc, hi⟩
      simp [h.1] at this

/-- **C17**, words: a word that stands unquoted in the text is taken as a plain identifier iff it does
not spell a reserved keyword in any letter case. -/
theorem C17_word (o c : Nat) (w f : Str) (prev : Option Token) (hc : WordStart c ∨ c = 36)
    (hw : ∀ d ∈ w, WordPart d) (hf : ¬ Starts WordPart f) :
    ∃ l' t, Lx.consume ⟨o, (c :: w) ++ f, prev⟩ = .ok l' ∧ l'.cur = some t ∧ t.str = c :: w ∧
      (IdentLike t ↔ ¬ ∃ r ∈ reservedList, SameLetters (c :: w) r) := by
  obtain ⟨t, h1, h2, h3, h4, h5⟩ := C07_word o c w f prev hc hw hf
  refine ⟨_, t, h1, rfl, h2, ?_⟩
  have hk : ∀ r ∈ reservedList, r ∈ keywordList := by decide +kernel
  unfold IdentLike
  rw [h2]
  constructor
  · rintro (h | ⟨h, h'⟩) ⟨r, hr, hs⟩
    · rw [h5.2 ⟨r, hk r hr, hs⟩] at h; simp at h
    · exact h' r hr hs
  · intro h
    rcases h4 with h4 | h4
    · exact Or.inr ⟨h4, fun r hr hs => h ⟨r, hr, hs⟩⟩
    · exact Or.inl h4

example : (∃ r ∈ reservedList, SameLetters b!"select" r) ∧ ¬ ∃ r ∈ reservedList, SameLetters b!"interval_" r := by
  rw [← isReserved_iff, ← isReserved_iff]
  decide +kernel

/-- **C17**, quoting: every text in back quotes or double quotes, reserved word or not, is taken as a
plain identifier. -/
theorem C17_quoted (o q : Nat) (b f : Str) (prev : Option Token) (hq : q = 96 ∨ q = 34) (hb : q ∉ b) :
    ∃ l' t, Lx.consume ⟨o, q :: (b ++ q :: f), prev⟩ = .ok l' ∧ l'.cur = some t ∧ t.str = b ∧ IdentLike t := by
  obtain ⟨t, h1, h2, h3, -⟩ := C07_quoted o q b f prev hq hb
  exact ⟨_, t, h1, rfl, h3, Or.inl h2⟩

example : b!"SELECT" ∈ reservedList ∧ 96 ∉ b!"SELECT" := by decide +kernel

end Verif

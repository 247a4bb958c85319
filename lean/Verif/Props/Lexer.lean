/-
Properties C01-C10 and C40: tokenisation.
The specification side is `Verif.Spec.Lexical` (lexical grammar) and `Verif.Spec.Scan`.
-/
import Verif.Lemmas.Reach

namespace Verif
open Spec

/-! ### C01 Token spans are exact -/

/-- C01. In every lexer state reachable on an input, the current token and the token seen by
looking ahead are exact slices of the input. -/
theorem C01_token_spans_exact (input : Str) (l : Lx) (hl : Reach input l) (t : Token)
    (ht : l.cur = some t ∨ ∃ l', l.peek = .ok (some t) l') :
    t.pos ≤ t.endp ∧ t.endp ≤ input.length ∧ t.str = (input.take t.endp).drop t.pos := by
  have key : ∀ l, Reach input l → l.cur = some t →
      t.pos ≤ t.endp ∧ t.endp ≤ input.length ∧ t.str = (input.take t.endp).drop t.pos := by
    intro l hl ht
    obtain ⟨h1, _, h3⟩ := reach_inv hl
    obtain ⟨a, b, c⟩ := h3 t ht
    exact ⟨a, by omega, c⟩
  rcases ht with ht | ⟨l', ht⟩
  · exact key l hl ht
  · unfold Lx.peek at ht
    split at ht
    · next l'' hc =>
      simp at ht
      exact key l'' (.ok hl hc) ht.1
    · simp at ht

/-- A reachable state with a quoted token: ``x `a b` `` after two scans. -/
example : ∃ l t, Reach b!"x `a b`" l ∧ l.cur = some t ∧ t.pos = 3 ∧ t.endp = 6 ∧ t.str = b!"a b" :=
  ⟨⟨7, [], some { pos := 3, endp := 6, kind := .ident, str := b!"a b", quote := 3 }⟩, _,
    .ok (.ok (l' := ⟨1, b!" `a b`", some
        { pos := 0, endp := 1, kind := .ident, str := b!"x", quote := 1 }⟩) .start (by decide +kernel)) (by decide +kernel), rfl, rfl, rfl, rfl⟩

/-- The offset and the unread text always belong together (used by every reading of the model
state as "position in the input"). -/
theorem C01_rest_is_suffix (input : Str) (l : Lx) (hl : Reach input l) :
    l.off ≤ input.length ∧ l.rest = input.drop l.off :=
  ⟨(reach_inv hl).1, (reach_inv hl).2.1⟩

example : Reach b!"ab cd" ⟨2, b!" cd", some
    { pos := 0, endp := 2, kind := .ident, str := b!"ab", quote := 1 }⟩ := .ok .start (by decide +kernel)

/-! ### C02 Tokenisation makes progress and terminates -/

/-- C02. Every input has exactly one complete scan; it has at most `len(input)` tokens, and the
tokens are strictly ordered and do not overlap. -/
theorem C02_scan_terminates (input : Str) :
    ∃ ts fin, Scan (Lx.new input) ts fin ∧
      (∀ ts' fin', Scan (Lx.new input) ts' fin' → ts' = ts ∧ fin' = fin) ∧
      ts.length ≤ input.length ∧
      ts.Pairwise (fun a b => a.pos < b.pos ∧ a.endp ≤ b.pos) := by
  obtain ⟨ts, fin, h⟩ := scan_exists (input.length + 1) (Lx.new input) (by simp [Lx.new])
  obtain ⟨h1, _, h3⟩ := scan_bounds h
  exact ⟨ts, fin, h, fun _ _ h' => scan_unique h' h, h1, h3⟩

/-- C02, one step: a successful scan reports the end of the input or advances the offset. -/
theorem C02_scan_progress (l l' : Lx) (h : l.consume = .ok l') :
    (l'.cur = none ∧ l'.rest = []) ∨ (l'.cur ≠ none ∧ l.off < l'.off) := by
  obtain ⟨_, h2, h3⟩ := consume_ok_shape h
  cases hc : l'.cur with
  | none => exact Or.inl ⟨rfl, h2 hc⟩
  | some t => exact Or.inr ⟨by simp, (h3 t hc).1⟩

/-- `a+1` has three tokens. -/
example : ∃ ts, Scan (Lx.new b!"a+1") ts true ∧ ts.map (·.str) = [b!"a", b!"+", b!"1"] :=
  scan_example (by decide +kernel)

/-! ### C03 No source text disappears between tokens -/

/-- C03. The input is an alternation of gaps (white space and complete comments) and the source
texts of its tokens; if the scan ends without an error, only a gap or an unterminated `--`
comment follows the last token. -/
theorem C03_no_text_lost (input : Str) (ts : List Token) (fin : Bool)
    (h : Scan (Lx.new input) ts fin) :
    Tiling (fun s => fin = true → EndGap s) 0 input ts := scan_tiling h

/-- A text with comments. -/
example : ∃ ts, Scan (Lx.new b!"ab /* c */ cd -- e") ts true ∧ ts.map (·.str) = [b!"ab", b!"cd"] :=
  scan_example (by decide +kernel)

/-! ### C04 White space and comments are insignificant -/

/-- C04. A gap in front of a token changes only positions: scanning with the gap gives what
scanning without it gives, moved by the length of the gap. -/
theorem C04_gap_insignificant (g : Str) (hg : Gap g) (o : Nat) (r : Str) (c : Option Token) :
    Lx.consume ⟨o, g ++ r, c⟩ =
      match Lx.consume ⟨o, r, c⟩ with
      | .ok l => .ok { l with off := l.off + g.length, cur := l.cur.map (shiftTok g.length) }
      | .err l => .err { l with off := l.off + g.length, cur := l.cur.map (shiftTok g.length) } := by
  rw [consume_gap hg, consume_shift]
  cases Lx.consume ⟨o, r, c⟩ <;> rfl

example : Gap b!" -- x\n/* y */\t" :=
  .white (w := [32]) ⟨32, by decide, rfl⟩
    (.line (b := b!" x") (nl := 10) (by simp [OneLine]) (Or.inl rfl)
      (.block (b := b!" y ") (by decide) (.white (w := [9]) ⟨9, by decide, rfl⟩ .nil)))

/-- C04 for whole scans: a gap that begins with white space may be inserted at any token boundary
(in front, between two tokens, at the end).  The tokens before it are unchanged, the tokens behind
it are the same moved by its length, and the scan ends in the same way. -/
theorem C04_gap_between_tokens (a b : Str) (ts1 ts2 : List Token) (cur : Option Token) (fin : Bool)
    (h1 : Run (Lx.new (a ++ b)) ts1 ⟨a.length, b, cur⟩) (h2 : Scan ⟨a.length, b, cur⟩ ts2 fin)
    (w g : Str) (hw : White w) (hg : Gap g) :
    Scan (Lx.new (a ++ b)) (ts1 ++ ts2) fin ∧
    Scan (Lx.new (a ++ ((w ++ g) ++ b))) (ts1 ++ ts2.map (shiftTok (w ++ g).length)) fin := by
  refine ⟨run_scan h1 h2, ?_⟩
  have := run_insert hw g h1 a rfl
  exact run_scan this (scan_gap (Gap.white hw hg) h2)

/-- `a` `-` | `1`: a gap inserted before the `1`. -/
example : ∃ t1 t2 cur, Run (Lx.new (b!"a-" ++ b!"1")) [t1, t2] ⟨2, b!"1", cur⟩ :=
  ⟨{ pos := 0, endp := 1, kind := .ident, str := b!"a", quote := 1 },
   { pos := 1, endp := 2, kind := .minus, str := b!"-" },
   some { pos := 1, endp := 2, kind := .minus, str := b!"-" },
   .tok (l1 := ⟨1, b!"-1", some { pos := 0, endp := 1, kind := .ident, str := b!"a", quote := 1 }⟩)
    (by decide +kernel) rfl
    (.tok (l1 := ⟨2, b!"1", some { pos := 1, endp := 2, kind := .minus, str := b!"-" }⟩)
      (by decide +kernel) rfl .nil)⟩

/-- The condition that the inserted gap begins with white space is needed: a comment directly
behind `-` changes the tokens. -/
theorem C04_comment_after_minus :
    Gap b!"--\n" ∧
    (∃ ts, Scan (Lx.new b!"a-b") ts true ∧ ts.map (·.str) = [b!"a", b!"-", b!"b"]) ∧
    (∃ ts, Scan (Lx.new b!"a---\nb") ts true ∧ ts.map (·.str) = [b!"a", b!"b"]) :=
  ⟨.line (b := []) (nl := 10) (by simp [OneLine]) (Or.inl rfl) .nil,
   scan_example (by decide +kernel), scan_example (by decide +kernel)⟩

/-! ### C05 String literals are scanned by their grammar -/

/-- C05. A scan at a single quote succeeds exactly when a closing quote is reachable through
plain bytes, escapes and doubled quotes; the token is the body, unchanged. -/
theorem C05_string_grammar (o : Nat) (s : Str) (c : Option Token) (l' : Lx) :
    Lx.consume ⟨o, 39 :: s, c⟩ = .ok l' ↔
      ∃ b f, s = b ++ 39 :: f ∧ StrBody b ∧ ¬ Starts (· = 39) f ∧
        l' = ⟨o + b.length + 2, f,
          some { pos := o + 1, endp := o + 1 + b.length, kind := .string, str := b }⟩ := by
  constructor
  · intro h
    have hng : NoGap (39 :: s) := noGap_cons (by omega) (by decide) (by simp) (by simp)
    have h' : Lx.consume ⟨o, 39 :: s, c⟩ = consumeString ⟨o, 39 :: s, none⟩ := by
      simp only [Lx.consume, Lx.skipN, skipCommentsLen_noGap hng, List.drop_zero, hng.1,
        Nat.add_zero, Bool.false_eq_true, if_false]
      simp [scanToken, isDigit]
    rw [h'] at h
    cases hl : stringLen s with
    | none => simp [consumeString, hl] at h
    | some n =>
      obtain ⟨b, f, rfl, hb, hf, rfl⟩ := stringLen_sound _ _ hl
      have := consumeString_complete hb hf o none
      rw [List.cons_append, List.append_assoc, List.singleton_append] at this
      rw [this] at h
      simp only [LRes.ok.injEq] at h
      refine ⟨b, f, rfl, hb, hf, ?_⟩
      rw [← h]; simp; omega
  · rintro ⟨b, f, rfl, hb, hf, rfl⟩
    rw [consume_ok_iff]
    have hl : Lexeme c (39 :: (b ++ [39])) f 1
        { pos := o + 1, endp := o + 1 + b.length, kind := .string, str := b } := .string hb hf
    have := Step.token (off := o) (g := []) .nil hl (by simp) (by simp)
    simpa [Nat.add_assoc] using this

/-- C05: where the literal ends is determined by the text: it ends at the first unescaped,
undoubled quote. -/
theorem C05_string_end_unique (b b' f f' : Str) (hb : StrBody b) (hb' : StrBody b')
    (hf : ¬ Starts (· = 39) f) (hf' : ¬ Starts (· = 39) f')
    (h : b ++ 39 :: f = b' ++ 39 :: f') : b = b' ∧ f = f' := by
  have h1 := stringLen_complete hb hf
  have h2 := stringLen_complete hb' hf'
  rw [h, h2] at h1
  simp at h1
  exact (List.append_inj h h1.symm).imp id (fun h => by simpa using h)

/-- `'it''s \' ok' x`: the body is `it''s \' ok`. -/
example : StrBody b!"it''s \\' ok" :=
  .plain (by decide) (by decide) <| .plain (by decide) (by decide) <| .dbl <|
  .plain (by decide) (by decide) <| .plain (by decide) (by decide) <| .esc <|
  .plain (by decide) (by decide) <| .plain (by decide) (by decide) <|
  .plain (by decide) (by decide) .nil

/-! ### C06 Number literals are scanned by their grammar -/

/-- C06, soundness. Every number token is a number of the grammar (with an optional sign), its
kind and base follow from its form, and no byte that could continue an identifier follows it. -/
theorem C06_number_token_is_number (l l' : Lx) (t : Token) (h : l.consume = .ok l')
    (ht : l'.cur = some t) (hk : t.kind = .int ∨ t.kind = .float) :
    ∃ sg n flt, OptSign sg ∧ t.str = sg ++ n ∧ Number n flt t.base ∧
      (t.kind = .float ↔ flt = true) ∧ ¬ Starts (fun c => WordPart c ∨ c = 46) l'.rest := by
  rw [consume_ok_iff] at h
  cases h with
  | eof => simp at ht
  | token hg hl hp he =>
    simp at ht; subst ht
    cases hl with
    | @number n _ flt base p e hn hf =>
      refine ⟨[], _, flt, Or.inl rfl, rfl, hn, ?_, hf⟩
      cases flt <;> simp
    | @signed s n _ flt base p e hs _ hn hf =>
      refine ⟨[s], n, flt, ?_, rfl, hn, ?_, hf⟩
      · rcases hs with rfl | rfl <;> simp [OptSign]
      · cases flt <;> simp
    | @word c w _ p e hc hw hf =>
      simp only at hk; split at hk <;> simp at hk
    | op2 h =>
      simp only [twoByteOps, List.mem_cons, List.not_mem_nil, or_false] at h
      rcases h with rfl | rfl | rfl | rfl | rfl | rfl | rfl | rfl | rfl <;> simp [twoByteKind] at hk
    | _ => simp at hk

/-- C06, completeness and rejection. Where the unread text starts with a digit, the scan succeeds
exactly if a number of the grammar stands there that is not continued by an identifier byte or a
dot, and then the token is that number. -/
theorem C06_number_grammar (o c : Nat) (s : Str) (prev : Option Token) (hc : Digit c) (l' : Lx) :
    Lx.consume ⟨o, c :: s, prev⟩ = .ok l' ↔
      ∃ n f flt base, c :: s = n ++ f ∧ Number n flt base ∧
        ¬ Starts (fun d => WordPart d ∨ d = 46) f ∧
        l' = ⟨o + n.length, f, some
            { pos := o, endp := o + n.length, str := n, base := base, kind := if flt then .float else .int }⟩ := by
  constructor
  · intro h
    simp only [Digit] at hc
    have hsp : c ∉ spaceCodePoints := by
      intro h; have := space_small (by omega) h; omega
    have hng : NoGap (c :: s) := noGap_cons (by omega) hsp (by omega) (by omega)
    have h' : Lx.consume ⟨o, c :: s, prev⟩ = consumeNumber ⟨o, c :: s, none⟩ := by
      simp only [Lx.consume, Lx.skipN, skipCommentsLen_noGap hng, List.drop_zero, hng.1,
        Nat.add_zero, Bool.false_eq_true, if_false]
      have e1 : (c == 62 || c == 60 || c == 33 || c == 61 || c == 124) = false := by
        simp; omega
      have e2 : (c == 43 || c == 45) = false := by simp; omega
      have e3 : isDigit c = true := by simp [isDigit]; omega
      simp [scanToken, e1, e2, e3]
    rw [h'] at h
    obtain ⟨n, f, flt, base, h1, h2, h3, h4⟩ := consumeNumber_sound (sg := []) (Or.inl rfl)
      ⟨c, s, rfl, hc⟩ h
    exact ⟨n, f, flt, base, h1, h2, h3, by simpa using h4⟩
  · rintro ⟨n, f, flt, base, h1, h2, h3, rfl⟩
    rw [consume_ok_iff, h1]
    have hl : Lexeme prev n f 0
        { pos := o, endp := o + n.length, str := n, base := base, kind := if flt then .float else .int } := .number h2 h3
    have := Step.token (off := o) (g := []) .nil hl (by simp) (by simp)
    simpa using this

/-- `1.5e-3` is a floating-point number, `0x1F` an integer of base 16. -/
example : Number b!"1.5e-3" true 10 ∧ Number b!"0x1F" false 16 := by
  constructor
  · left
    refine ⟨⟨b!"1", b!".5", b!"e-3", rfl, by simp, by simp [Digit], Or.inr ⟨b!"5", rfl, by simp [Digit]⟩,
      Or.inr ⟨101, b!"-", b!"3", rfl, by simp, by simp [OptSign], by simp, by simp [Digit]⟩, by simp⟩, rfl⟩
  · right
    exact ⟨⟨b!"1F", rfl, by simp, by simp [HexDigit, Digit]⟩, rfl, rfl⟩

/-! ### C07 Identifiers and keywords are classified correctly -/

theorem upperByte_eq_iff (a b : Nat) : upperByte a = upperByte b ↔
    a = b ∨ (65 ≤ a ∧ a ≤ 90 ∧ b = a + 32) ∨ (65 ≤ b ∧ b ≤ 90 ∧ a = b + 32) := by
  simp only [upperByte, Bool.and_eq_true, decide_eq_true_eq]
  split <;> split <;> omega

theorem upper_eq_iff (s t : Str) : upper s = upper t ↔ SameLetters s t := by
  induction s generalizing t with
  | nil => cases t <;> simp [upper, SameLetters]
  | cons a s ih =>
    cases t with
    | nil => simp [upper, SameLetters]
    | cons b t =>
      have := ih t
      simp only [upper] at this
      simp only [upper, List.map_cons, List.cons.injEq, SameLetters, upperByte_eq_iff, this]

theorem upper_keyword {k : Str} (h : k ∈ keywordList) : upper k = k := by
  have : ∀ k ∈ keywordList, upper k = k := by decide +kernel
  exact this k h

theorem upper_mem_iff (s : Str) : upper s ∈ keywordList ↔ ∃ k ∈ keywordList, SameLetters s k := by
  constructor
  · intro h
    exact ⟨upper s, h, (upper_eq_iff _ _).1 (by rw [upper_keyword h])⟩
  · rintro ⟨k, hk, h⟩
    rw [(upper_eq_iff _ _).2 h, upper_keyword hk]; exact hk

/-- C07, words. A word is the longest run of identifier bytes (a leading `$` is allowed); it is a
keyword token iff it spells a keyword in any letter case, and an identifier token otherwise. -/
theorem C07_word (o c : Nat) (w f : Str) (prev : Option Token) (hc : WordStart c ∨ c = 36)
    (hw : ∀ d ∈ w, WordPart d) (hf : ¬ Starts WordPart f) :
    ∃ t, Lx.consume ⟨o, (c :: w) ++ f, prev⟩ = .ok ⟨o + (c :: w).length, f, some t⟩ ∧
      t.str = c :: w ∧ t.quote = qUnquoted ∧
      (t.kind = .keyword ∨ t.kind = .ident) ∧
      (t.kind = .keyword ↔ ∃ k ∈ keywordList, SameLetters (c :: w) k) := by
  have hl : Lexeme prev (c :: w) f 0
      { pos := o, endp := o + (c :: w).length, str := c :: w, quote := 1, kind := if upper (c :: w) ∈ keywordList then .keyword else .ident } :=
    .word hc hw hf
  have hst := Step.token (off := o) (g := []) .nil hl (by simp) (by simp)
  refine ⟨_, (consume_ok_iff _ _).2 (by simpa using hst), rfl, rfl, ?_, ?_⟩
  · simp only; split <;> simp
  · simp only [← upper_mem_iff]; split <;> simp_all

/-- `sElEcT` spells a keyword; `selects` is an identifier. -/
example : (∃ k ∈ keywordList, SameLetters b!"sElEcT" k) ∧
    ¬ (∃ k ∈ keywordList, SameLetters b!"selects" k) := by
  rw [← upper_mem_iff, ← upper_mem_iff]
  decide +kernel

/-- C07, letter case. Two spellings of a word that differ only in letter case get tokens of the
same kind. -/
theorem C07_case_insensitive (s s' : Str) (h : SameLetters s s') :
    (∃ k ∈ keywordList, SameLetters s k) ↔ (∃ k ∈ keywordList, SameLetters s' k) := by
  rw [← upper_mem_iff, ← upper_mem_iff, (upper_eq_iff _ _).2 h]

example : SameLetters b!"From" b!"fROM" := by simp [SameLetters]

/-- C07, quoted identifiers. Text in back quotes or double quotes is an identifier token with
every byte up to the matching quote, never a keyword. -/
theorem C07_quoted (o q : Nat) (b f : Str) (prev : Option Token) (hq : q = 96 ∨ q = 34)
    (hb : q ∉ b) :
    ∃ t, Lx.consume ⟨o, q :: (b ++ q :: f), prev⟩ = .ok ⟨o + b.length + 2, f, some t⟩ ∧
      t.kind = .ident ∧ t.str = b ∧ t.quote = (if q = 96 then qBack else qDouble) := by
  rcases hq with rfl | rfl
  · have hl : Lexeme prev (96 :: (b ++ [96])) f 1

          { pos := o + 1, endp := o + 1 + b.length, kind := .ident, str := b, quote := 3 } := .backquoted hb
    refine ⟨_, (consume_ok_iff _ _).2 (by
      simpa [Nat.add_assoc] using Step.token (off := o) (g := []) .nil hl (by simp) (by simp)), rfl, rfl, rfl⟩
  · have hl : Lexeme prev (34 :: (b ++ [34])) f 1

          { pos := o + 1, endp := o + 1 + b.length, kind := .ident, str := b, quote := 2 } := .doublequoted hb
    refine ⟨_, (consume_ok_iff _ _).2 (by
      simpa [Nat.add_assoc] using Step.token (off := o) (g := []) .nil hl (by simp) (by simp)), rfl, rfl, rfl⟩

/-- C07, unclosed quotes. Without a matching quote the scan fails. -/
theorem C07_quoted_unclosed (o q : Nat) (b : Str) (prev : Option Token) (hq : q = 96 ∨ q = 34)
    (hb : q ∉ b) : ∃ l', Lx.consume ⟨o, q :: b, prev⟩ = .err l' := by
  cases h : Lx.consume ⟨o, q :: b, prev⟩ with
  | err l' => exact ⟨l', rfl⟩
  | ok l' =>
    exfalso
    have hsp : q ∉ spaceCodePoints := by rcases hq with rfl | rfl <;> decide
    have hng : NoGap (q :: b) := noGap_cons (by omega) hsp (by omega) (by omega)
    have hl : quotedLen q b = none := by
      cases hl : quotedLen q b with
      | none => rfl
      | some n =>
        obtain ⟨b', f, rfl, _⟩ := (quotedLen_iff _ _ _).1 hl
        simp at hb
    have h' : Lx.consume ⟨o, q :: b, prev⟩ = consumeIdent ⟨o, q :: b, none⟩ := by
      simp only [Lx.consume, Lx.skipN, skipCommentsLen_noGap hng, List.drop_zero, hng.1,
        Nat.add_zero, Bool.false_eq_true, if_false]
      rcases hq with rfl | rfl <;> simp [scanToken, isDigit]
    rw [h'] at h
    have hq' : (q == 96 || q == 34) = true := by simpa using hq
    simp [consumeIdent, hq', hl] at h

example : (96 : Nat) ∉ b!"SELECT \"x" ∧ ((96 : Nat) = 96 ∨ (96 : Nat) = 34) := by decide

/-- C07, converse. Every identifier or keyword token is a word or a quoted identifier. -/
theorem C07_ident_forms (l l' : Lx) (t : Token) (h : l.consume = .ok l') (ht : l'.cur = some t)
    (hk : t.kind = .ident ∨ t.kind = .keyword) :
    (t.quote = qUnquoted ∧ (∃ c w, t.str = c :: w ∧ (WordStart c ∨ c = 36) ∧ ∀ d ∈ w, WordPart d) ∧
      ¬ Starts WordPart l'.rest) ∨
    (t.quote = qBack ∧ t.kind = .ident ∧ 96 ∉ t.str) ∨
    (t.quote = qDouble ∧ t.kind = .ident ∧ 34 ∉ t.str) := by
  rw [consume_ok_iff] at h
  cases h with
  | eof => simp at ht
  | token hg hl hp he =>
    simp at ht; subst ht
    cases hl with
    | @number n _ flt => cases flt <;> simp at hk
    | @signed s n _ flt => cases flt <;> simp at hk
    | word hc hw hf => exact Or.inl ⟨rfl, ⟨_, _, rfl, hc, hw⟩, hf⟩
    | backquoted hb => exact Or.inr (Or.inl ⟨rfl, rfl, hb⟩)
    | doublequoted hb => exact Or.inr (Or.inr ⟨rfl, rfl, hb⟩)
    | op2 h =>
      simp only [twoByteOps, List.mem_cons, List.not_mem_nil, or_false] at h
      rcases h with rfl | rfl | rfl | rfl | rfl | rfl | rfl | rfl | rfl <;> simp [twoByteKind] at hk
    | _ => simp at hk

/-! ### C08 A sign is part of a number only where an operand may start -/

/-- C08. A sign directly followed by a digit becomes a token of its own if the previous token ends
an operand (identifier, keyword, number, string, `)` or `]`). -/
theorem C08_sign_after_operand (o s d : Nat) (r : Str) (prev : Option Token)
    (hs : s = 43 ∨ s = 45) (hd : Digit d) (hp : AfterOperand prev) :
    Lx.consume ⟨o, s :: d :: r, prev⟩ = .ok ⟨o + 1, d :: r,
      some { pos := o, endp := o + 1, kind := .op [s], str := [s] }⟩ := by
  rw [consume_ok_iff]
  simp only [Digit] at hd
  have hl : Lexeme prev [s] (d :: r) 0
      { pos := o, endp := o + 1, kind := .op [s], str := [s] } := by
    refine .op1 (by omega) ?_ (by simp [Digit]; omega) (by simp [WordStart]; omega) (by omega)
      (by omega) (by omega) (by omega) ?_ (fun _ _ => hp)
    · rcases hs with rfl | rfl <;> decide
    · intro d' t h
      simp at h
      refine ⟨by rw [twoByteOps_iff]; omega, by simp; omega, by simp; omega⟩
  simpa using Step.token (off := o) (g := []) .nil hl (by simp) (by simp)

/-- C08. If the previous token does not end an operand, the sign belongs to the number: the scan
gives a number token that starts with the sign, or fails; never a sign token. -/
theorem C08_sign_before_operand (o s d : Nat) (r : Str) (prev : Option Token)
    (hs : s = 43 ∨ s = 45) (hd : Digit d) (hp : ¬ AfterOperand prev) (l' : Lx)
    (h : Lx.consume ⟨o, s :: d :: r, prev⟩ = .ok l') :
    ∃ n f flt base, d :: r = n ++ f ∧ Number n flt base ∧
      l' = ⟨o + (n.length + 1), f, some
          { pos := o, endp := o + (n.length + 1), str := s :: n, base := base, kind := if flt then .float else .int }⟩ := by
  simp only [Digit] at hd
  have hsp : s ∉ spaceCodePoints := by rcases hs with rfl | rfl <;> decide
  have hng : NoGap (s :: d :: r) := noGap_cons (by omega) hsp (by simp; omega) (by omega)
  have h' : Lx.consume ⟨o, s :: d :: r, prev⟩ = consumeNumber ⟨o, [s] ++ (d :: r), none⟩ := by
    simp only [Lx.consume, Lx.skipN, skipCommentsLen_noGap hng, List.drop_zero, hng.1,
      Nat.add_zero, Bool.false_eq_true, if_false]
    have e1 : (s == 62 || s == 60 || s == 33 || s == 61 || s == 124) = false := by simp; omega
    have e2 : (s == 43 || s == 45) = true := by simpa using hs
    have e3 : isDigit d = true := by simp [isDigit]; omega
    have e4 : hasPrecedenceToken prev = false := by
      rw [Bool.eq_false_iff, ne_eq, hasPrecedenceToken_iff]; exact hp
    simp [scanToken, e1, e2, e3, e4]
  rw [h'] at h
  obtain ⟨n, f, flt, base, h1, h2, h3, h4⟩ := consumeNumber_sound (sg := [s])
    (by rcases hs with rfl | rfl <;> simp [OptSign]) ⟨d, r, rfl, hd⟩ h
  refine ⟨n, f, flt, base, h1, h2, ?_⟩
  rw [h4]; simp

/-- C08: `a-1`, `a -1` and `a - 1` have the same tokens `a`, `-`, `1`; `(-1` has `(`, `-1`. -/
example :
    (∃ ts, Scan (Lx.new b!"a-1") ts true ∧ ts.map (·.str) = [b!"a", b!"-", b!"1"]) ∧
    (∃ ts, Scan (Lx.new b!"a -1") ts true ∧ ts.map (·.str) = [b!"a", b!"-", b!"1"]) ∧
    (∃ ts, Scan (Lx.new b!"a - 1") ts true ∧ ts.map (·.str) = [b!"a", b!"-", b!"1"]) ∧
    (∃ ts, Scan (Lx.new b!"(-1") ts true ∧ ts.map (·.str) = [b!"(", b!"-1"]) :=
  ⟨scan_example (by decide +kernel), scan_example (by decide +kernel),
   scan_example (by decide +kernel), scan_example (by decide +kernel)⟩

/-! ### C09 Lookahead has no side effects -/

/-- C09 (part). When the next token can be scanned, looking at it leaves the state untouched and
shows exactly the token that consuming would give.  Missing: the case of a lexical error, where the
property is false (`C09_lookahead_disturbs_on_error`). -/
theorem C09_lookahead_pure_partial (l l' : Lx) (t : Option Token) (h : l.peek = .ok t l') :
    l' = l ∧ ∃ l'', l.consume = .ok l'' ∧ l''.cur = t := by
  unfold Lx.peek at h
  split at h
  · next l'' hc => simp at h; exact ⟨h.2.symm, l'', hc, h.1⟩
  · simp at h

example : (Lx.new b!"a b").peek = .ok (some
    { pos := 0, endp := 1, kind := .ident, str := b!"a", quote := 1 }) (Lx.new b!"a b") := by decide +kernel

/-- C09 is false when the next token cannot be scanned: looking ahead then loses the current token
and moves the offset. Witness: ``a `b`` after `a`, whose next token is an unclosed identifier. -/
theorem C09_lookahead_disturbs_on_error :
    ¬ (∀ input l, Reach input l → ∀ l', (l.peek = .err l' ∨ ∃ t, l.peek = .ok t l') → l' = l) := by
  intro h
  have h1 : Reach b!"a `b" ⟨1, b!" `b", some
      { pos := 0, endp := 1, kind := .ident, str := b!"a", quote := 1 }⟩ := .ok .start (by decide +kernel)
  have h2 := h _ _ h1 ⟨3, b!"b", none⟩ (Or.inl (by decide +kernel))
  simp at h2

/-! ### C10 Non-ASCII bytes outside quotes and comments are rejected -/

/-- C10. Where a token is wanted and the unread text starts with a byte `≥ 0x80` that does not
start a white-space character, the scan fails. -/
theorem C10_non_ascii_rejected (o c : Nat) (r : Str) (prev : Option Token) (hc : 128 ≤ c)
    (hw : ∀ w s, White w → c :: r ≠ w ++ s) : ∃ l', Lx.consume ⟨o, c :: r, prev⟩ = .err l' := by
  cases h : Lx.consume ⟨o, c :: r, prev⟩ with
  | err l' => exact ⟨l', rfl⟩
  | ok l' =>
    exfalso
    rw [consume_ok_iff] at h
    have hgap : ∀ g s, Gap g → g ++ s = c :: r → g = [] := by
      intro g s hg h
      cases hg with
      | nil => rfl
      | @white w g hw' _ => exact absurd h.symm (by rw [List.append_assoc]; exact hw w _ hw')
      | line => simp at h; omega
      | block => simp at h; omega
    generalize hl : (⟨o, c :: r, prev⟩ : Lx) = l at h
    cases h with
    | eof he =>
      simp at hl
      cases he with
      | gap hg =>
        have := hgap _ [] hg (by rw [List.append_nil, ← hl.2.1])
        simp [this] at hl
      | line hg hb =>
        have := hgap _ _ hg hl.2.1.symm
        subst this
        simp at hl; omega
    | token hg hlx hp he =>
      simp at hl
      have := hgap _ _ hg hl.2.1.symm
      subst this
      have hl' := hl.2.1
      simp at hl'
      cases hlx with
      | number hn =>
        obtain ⟨d, t, rfl, hd⟩ := number_starts hn
        simp [Digit] at hd; simp at hl'; omega
      | signed hs => simp at hl'; omega
      | word hc => simp [WordStart] at hc; simp at hl'; omega
      | op2 h =>
        obtain ⟨a, b, rfl⟩ := twoByteOps_len h
        rw [twoByteOps_iff] at h; simp at hl'; omega
      | op1 h => simp at hl'; omega
      | _ => simp at hl'; omega

/-- `é` is rejected; U+00A0 is white space. -/
example : (Lx.new b!"é").consume = .err (Lx.new b!"é") ∧
    White [0xC2, 0xA0] ∧ ∃ ts, Scan (Lx.new [0xC2, 0xA0, 97]) ts true ∧ ts.map (·.str) = [b!"a"] :=
  ⟨by decide +kernel, ⟨0xA0, by decide, by decide⟩, scan_example (by decide +kernel)⟩

/-- C10. Every token outside quotes is pure ASCII. -/
theorem C10_unquoted_ascii (l l' : Lx) (t : Token) (h : l.consume = .ok l') (ht : l'.cur = some t)
    (hk : t.kind ≠ .string) (hq : t.quote ≠ qBack ∧ t.quote ≠ qDouble) : ∀ c ∈ t.str, c < 128 := by
  rw [consume_ok_iff] at h
  cases h with
  | eof => simp at ht
  | token hg hl hp he =>
    simp at ht; subst ht
    have hd : ∀ c, Digit c → c < 128 := by intro c h; simp [Digit] at h; omega
    have hh : ∀ c, HexDigit c → c < 128 := by intro c h; simp [HexDigit, Digit] at h; omega
    have hwp : ∀ c, WordPart c → c < 128 := by
      intro c h; simp [WordPart, WordStart, Digit] at h; omega
    have num : ∀ n flt base, Number n flt base → ∀ c ∈ n, c < 128 := by
      rintro n flt base (⟨⟨d, frac, exp, rfl, _, h1, h2, h3, _⟩, _⟩ | ⟨⟨h, rfl, _, h1⟩, _⟩) c hc
      · simp only [List.mem_append] at hc
        rcases hc with (hc | hc) | hc
        · exact hd c (h1 c hc)
        · rcases h2 with rfl | ⟨f, rfl, h2⟩
          · simp at hc
          · rcases List.mem_cons.1 hc with rfl | hc
            · omega
            · exact hd c (h2 c hc)
        · rcases h3 with rfl | ⟨e, sg, x, rfl, he, hs, _, h3⟩
          · simp at hc
          · simp only [List.mem_cons, List.mem_append] at hc
            rcases hc with rfl | hc | hc
            · omega
            · rcases hs with rfl | rfl | rfl <;> simp at hc <;> omega
            · exact hd c (h3 c hc)
      · simp only [List.mem_append] at hc
        rcases hc with hc | hc
        · simp at hc; omega
        · exact hh c (h1 c hc)
    intro c hc
    cases hl with
    | number hn => exact num _ _ _ hn c hc
    | signed hs _ hn =>
      rcases List.mem_cons.1 hc with rfl | hc
      · omega
      · exact num _ _ _ hn c hc
    | word hs hw =>
      rcases List.mem_cons.1 hc with rfl | hc
      · simp [WordStart] at hs; omega
      · exact hwp c (hw c hc)
    | backquoted => simp [qBack] at hq
    | doublequoted => simp [qDouble] at hq
    | string => simp at hk
    | op2 h =>
      simp only at hc
      obtain ⟨a, b, rfl⟩ := twoByteOps_len h
      rw [twoByteOps_iff] at h
      simp at hc; omega
    | op1 h => simp at hc; omega

example : ∃ l' t, (Lx.new b!"abc").consume = .ok l' ∧ l'.cur = some t ∧ t.kind ≠ .string ∧
    t.quote ≠ qBack ∧ t.quote ≠ qDouble :=
  ⟨⟨3, [], some { pos := 0, endp := 3, kind := .ident, str := b!"abc", quote := 1 }⟩, _,
    by decide +kernel, rfl, by decide, by decide, by decide⟩

/-! ### C40 Maximal munch for operators -/

/-- C40. Where a two-byte operator stands, it is taken as one token. -/
theorem C40_two_byte_operator (o : Nat) (s r : Str) (prev : Option Token) (hs : s ∈ twoByteOps) :
    ∃ t, Lx.consume ⟨o, s ++ r, prev⟩ = .ok ⟨o + 2, r, some t⟩ ∧ t.str = s ∧
      t.kind = twoByteKind s := by
  have hl : Lexeme prev s r 0 { pos := o, endp := o + s.length, kind := twoByteKind s, str := s } :=
    .op2 hs
  have := Step.token (off := o) (g := []) .nil hl (by simp) (by simp)
  obtain ⟨a, b, rfl⟩ := twoByteOps_len hs
  refine ⟨{ pos := o, endp := o + 2, kind := twoByteKind [a, b], str := [a, b] },
    (consume_ok_iff _ _).2 (by simpa using this), rfl, rfl⟩

/-- C40, converse. A one-byte operator token is never the first half of a two-byte operator. -/
theorem C40_one_byte_operator (l l' : Lx) (t : Token) (c : Nat) (h : l.consume = .ok l')
    (ht : l'.cur = some t) (hk : t.kind = .op [c]) :
    t.str = [c] ∧ ∀ d r, l'.rest = d :: r → [c, d] ∉ twoByteOps := by
  rw [consume_ok_iff] at h
  cases h with
  | eof => simp at ht
  | token hg hl hp he =>
    simp at ht; subst ht
    cases hl with
    | @number n _ flt => cases flt <;> simp at hk
    | @signed s n _ flt => cases flt <;> simp at hk
    | word hc hw hf => simp only at hk; split at hk <;> simp at hk
    | op2 h =>
      simp only [twoByteOps, List.mem_cons, List.not_mem_nil, or_false] at h
      rcases h with rfl | rfl | rfl | rfl | rfl | rfl | rfl | rfl | rfl <;> simp [twoByteKind] at hk
    | op1 h1 h2 h3 h4 h5 h6 h7 h8 h9 h10 =>
      simp at hk; subst hk
      exact ⟨rfl, fun d r hr => (h9 d r hr).1⟩
    | _ => simp at hk

example : ∃ l' t, (Lx.new b!"< =").consume = .ok l' ∧ l'.cur = some t ∧ t.kind = .op [60] :=
  ⟨⟨1, b!" =", some { pos := 0, endp := 1, kind := .lt, str := b!"<" }⟩, _,
    by decide +kernel, rfl, rfl⟩

end Verif

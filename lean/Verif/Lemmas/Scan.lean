/- Helper lemmas: the scanner against the lexical grammar. -/
import Verif.Lemmas.Lexemes

namespace Verif
open Spec

theorem hasPrecedenceToken_iff (prev : Option Token) :
    hasPrecedenceToken prev = true ↔ AfterOperand prev := by
  cases prev with
  | none => simp [hasPrecedenceToken, AfterOperand]
  | some t =>
    simp [hasPrecedenceToken, AfterOperand, EndsOperand, Kind.rparen, Kind.rbracket, or_assoc]

/-- A number starts with a digit. -/
theorem number_starts {n : Str} {flt : Bool} {base : Nat} (h : Number n flt base) :
    ∃ c t, n = c :: t ∧ Digit c := by
  rcases h with ⟨⟨d, frac, exp, rfl, hd, hdd, -⟩, -⟩ | ⟨⟨h, rfl, -⟩, -⟩
  · cases d with
    | nil => exact absurd rfl hd
    | cons c t => exact ⟨c, _, rfl, hdd c (by simp)⟩
  · exact ⟨48, _, rfl, by simp [Digit]⟩

theorem signLen_optSign {sg x : Str} (hs : OptSign sg) (hx : Starts Digit x) :
    signLen (sg ++ x) = sg.length := by
  obtain ⟨c, t, rfl, hc⟩ := hx
  rcases hs with rfl | rfl | rfl
  · simp [signLen, Digit] at hc ⊢; omega
  · simp [signLen]
  · simp [signLen]

theorem hexPrefix_decimal {n follow : Str} {flt : Bool} (h : Decimal n flt)
    (hf : ¬ Starts (fun c => WordPart c ∨ c = 46) follow) : hexPrefix (n ++ follow) = false := by
  obtain ⟨d, frac, exp, rfl, hd, hdd, hfr, hex, -⟩ := h
  unfold hexPrefix
  split
  · next h =>
    exfalso
    cases d with
    | nil => exact hd rfl
    | cons a d =>
      cases d with
      | cons b d =>
        have := hdd b (by simp)
        simp at h; simp [Digit] at this; omega
      | nil =>
        rcases hfr with rfl | ⟨f, rfl, _⟩
        · rcases hex with rfl | ⟨e, sg, x, rfl, he, _⟩
          · simp at h
            exact hf ⟨120, _, h.2, Or.inl (Or.inl (by simp [WordStart]))⟩
          · simp at h; omega
        · simp at h
  · rfl

/-- The number scanner accepts every number of the grammar, with an optional sign. -/
theorem consumeNumber_complete {sg n follow : Str} {flt : Bool} {base : Nat} (hs : OptSign sg)
    (hn : Number n flt base) (hf : ¬ Starts (fun c => WordPart c ∨ c = 46) follow)
    (o : Nat) (cur : Option Token) :
    consumeNumber ⟨o, (sg ++ n) ++ follow, cur⟩ =
      .ok ⟨o + (sg ++ n).length, follow,
        some { pos := o, endp := o + (sg ++ n).length, kind := if flt then .float else .int,
               str := sg ++ n, base := base }⟩ := by
  obtain ⟨c0, t0, hn0, hc0⟩ := number_starts hn
  have hsl : signLen ((sg ++ n) ++ follow) = sg.length := by
    rw [List.append_assoc]
    exact signLen_optSign hs ⟨c0, t0 ++ follow, by simp [hn0], hc0⟩
  have hdrop : ((sg ++ n) ++ follow).drop sg.length = n ++ follow := by simp
  have hwp : ¬ ((follow.head?.map isIdentPart).getD false = true) := by
    rw [headP_iff _ _ isIdentPart_iff]
    rintro ⟨c, t, h, hc⟩; exact hf ⟨c, t, h, Or.inl hc⟩
  rcases hn with ⟨hdec, rfl⟩ | ⟨⟨h, rfl, hne, hh⟩, rfl, rfl⟩
  · have hhp := hexPrefix_decimal hdec hf
    obtain ⟨d, frac, exp, rfl, hd, hdd, hfr, hex, hflt⟩ := hdec
    have hflt' : flt = (!frac.isEmpty || !exp.isEmpty) := by
      cases flt <;> simp at hflt ⊢
      · exact hflt
      · rcases hflt with h | h
        · left; exact h
        · right; exact h
    have hnl := numLoop_decimal hd hdd hfr hex hf sg.length
    simp only [consumeNumber, hsl, hdrop, hhp, Bool.false_eq_true, if_false]
    rw [show d ++ frac ++ exp ++ follow = d ++ (frac ++ (exp ++ follow)) by simp, hnl]
    simp only [hwp, Bool.not_true, Bool.or_false, if_false, Lx.skipN, ← hflt', Bool.false_eq_true]
    have : sg.length + (d ++ (frac ++ exp)).length = (sg ++ (d ++ frac ++ exp)).length := by simp
    rw [this, List.drop_left, List.take_left]
  · have hhp : hexPrefix (b!"0x" ++ h ++ follow) = true := rfl
    have hd2 : ((sg ++ (b!"0x" ++ h)) ++ follow).drop (sg.length + 2) = h ++ follow := by
      rw [← List.drop_drop, hdrop]; simp
    simp only [consumeNumber, hsl, hdrop, hhp, if_true, hd2]
    rw [numLoop_hex _ _ _ h hh, numLoop_stop _ _ _ _ _ _ _ hf]
    have he : h.isEmpty = false := by cases h <;> simp at hne ⊢
    simp only [hwp, he, Bool.not_false, Bool.or_true, Bool.not_true, Bool.or_false,
      Bool.false_eq_true, if_false, Lx.skipN]
    have : sg.length + 2 + h.length = (sg ++ (b!"0x" ++ h)).length := by simp; omega
    rw [this, List.drop_left, List.take_left]

/-- What the number scanner accepts is a number of the grammar. -/
theorem consumeNumber_sound {sg x : Str} (hs : OptSign sg) (hx : Starts Digit x)
    {o : Nat} {cur : Option Token} {l' : Lx}
    (h : consumeNumber ⟨o, sg ++ x, cur⟩ = .ok l') :
    ∃ n follow flt base, x = n ++ follow ∧ Number n flt base ∧
      ¬ Starts (fun c => WordPart c ∨ c = 46) follow ∧
      l' = ⟨o + (sg ++ n).length, follow,
        some { pos := o, endp := o + (sg ++ n).length, kind := if flt then .float else .int,
               str := sg ++ n, base := base }⟩ := by
  have hsl := signLen_optSign hs hx
  have hdrop : (sg ++ x).drop sg.length = x := by simp
  simp only [consumeNumber, hsl, hdrop] at h
  cases hh : hexPrefix x with
  | false =>
    simp only [hh, Bool.false_eq_true, if_false, hdrop] at h
    cases hnl : numLoop false false false false false sg.length x with
    | none => simp [hnl] at h
    | some v =>
      obtain ⟨j, flt, hn, rem⟩ := v
      rw [hnl] at h
      simp only [] at h
      split at h
      · simp at h
      · next hc =>
        simp only [LRes.ok.injEq] at h
        obtain ⟨d, frac, exp, h1, h2, h3, h4, h5, -, -, h8, h9⟩ := numLoop_sound10 _ _ _ _ _ _ _ _ _ _ hnl
        simp only [Bool.or_eq_true, not_or, headP_iff _ _ isIdentPart_iff] at hc
        refine ⟨d ++ (frac ++ exp), rem, flt, 10, h1, ?_, ?_, ?_⟩
        · left
          refine ⟨⟨d, frac, exp, by simp, ?_, h3, h4, h5, ?_⟩, rfl⟩
          · rintro rfl
            obtain ⟨c, t, rfl, hd⟩ := hx
            simp [Digit] at hd
            rcases h4 with rfl | ⟨f, rfl, _⟩
            · rcases h5 with rfl | ⟨e, sg, x, rfl, he, _⟩
              · simp at h1
                exact h9 ⟨c, t, h1.symm, Or.inl (by simp [Digit]; omega)⟩
              · simp at h1; omega
            · simp at h1; omega
          · rw [h8]; simp
        · rintro ⟨c, t, h', hcc⟩
          rcases hcc with hcc | rfl
          · exact hc.1 ⟨c, t, h', hcc⟩
          · exact h9 ⟨46, t, h', Or.inr rfl⟩
        · rw [← h]
          have e : j = (sg ++ (d ++ (frac ++ exp))).length := by rw [h2]; simp
          simp only [Lx.skipN]
          rw [h1, ← List.append_assoc sg, e, List.drop_left, List.take_left]
  | true =>
    obtain ⟨x', rfl⟩ : ∃ x', x = 48 :: 120 :: x' := by
      unfold hexPrefix at hh
      split at hh
      · next x' => exact ⟨x', rfl⟩
      · simp at hh
    have hd2 : (sg ++ 48 :: 120 :: x').drop (sg.length + 2) = x' := by
      rw [← List.drop_drop, hdrop]; rfl
    simp only [hh, if_true, hd2] at h
    cases hnl : numLoop true false false false false (sg.length + 2) x' with
    | none => simp [hnl] at h
    | some v =>
      obtain ⟨j, flt, hn, rem⟩ := v
      rw [hnl] at h
      simp only [] at h
      split at h
      · simp at h
      · next hc =>
        simp only [LRes.ok.injEq] at h
        obtain ⟨d, h1, h2, h3, h4, h5, h6⟩ := numLoop_sound16 _ _ _ _ _ _ _ _ _ _ hnl
        simp only [Bool.or_eq_true, not_or, headP_iff _ _ isIdentPart_iff] at hc
        refine ⟨b!"0x" ++ d, rem, false, 16, by simp [h1], Or.inr ⟨⟨d, rfl, ?_, h3⟩, rfl, rfl⟩, ?_, ?_⟩
        · rintro rfl; simp [h5] at hc
        · rintro ⟨c, t, h', hcc⟩
          rcases hcc with hcc | rfl
          · exact hc.1 ⟨c, t, h', hcc⟩
          · exact h6 ⟨46, t, h', rfl⟩
        · rw [← h]
          have e : j = (sg ++ (b!"0x" ++ d)).length := by rw [h2]; simp; omega
          have e2 : sg ++ 48 :: 120 :: x' = (sg ++ (b!"0x" ++ d)) ++ rem := by simp [h1]
          simp only [Lx.skipN, h4]
          rw [e2, e, List.drop_left, List.take_left]

/-! where a lexeme starts, no gap starts -/

theorem spaceLen_ascii {c : Nat} (hc : c < 128) (hs : c ∉ spaceCodePoints) (t : Str) :
    spaceLen (c :: t) = 0 := by
  have h1 : isSpace1 c = false := by
    rw [Bool.eq_false_iff, ne_eq, isSpace1_iff]
    intro h; apply hs; simp [spaceCodePoints]; omega
  have h2 : ∀ d, isSpace2 c d = false := by
    intro d; simp [isSpace2]; omega
  have h3 : ∀ d e, isSpace3 c d e = false := by
    intro d e; simp [isSpace3]; omega
  rw [spaceLen.eq_def]
  simp only [h1, h2, h3, Bool.false_eq_true, if_false]
  cases t with
  | nil => rfl
  | cons d t => cases t <;> rfl

theorem noGap_cons {c : Nat} {t : Str} (hc : c < 128) (hs : c ∉ spaceCodePoints)
    (h1 : c = 45 → t.head? ≠ some 45) (h2 : c = 47 → t.head? ≠ some 42) : NoGap (c :: t) := by
  refine ⟨spaceLen_ascii hc hs t, ?_, ?_⟩
  · rw [prefix2_iff]; rintro ⟨rfl, h⟩; exact h1 rfl h
  · rw [prefix2_iff]; rintro ⟨rfl, h⟩; exact h2 rfl h

theorem space_small {c : Nat} (h : c < 128) (hs : c ∈ spaceCodePoints) : c ≤ 32 := by
  simp [spaceCodePoints] at hs; omega

theorem twoByteOps_iff (c d : Nat) : [c, d] ∈ twoByteOps ↔
    (c = 62 ∧ d = 61) ∨ (c = 60 ∧ d = 61) ∨ (c = 33 ∧ d = 61) ∨ (c = 61 ∧ d = 61) ∨
    (c = 124 ∧ d = 124) ∨ (c = 60 ∧ d = 62) ∨ (c = 45 ∧ d = 62) ∨ (c = 43 ∧ d = 62) ∨
    (c = 58 ∧ d = 58) := by
  simp [twoByteOps]

theorem twoByteOps_len {s : Str} (h : s ∈ twoByteOps) : ∃ c d, s = [c, d] := by
  simp only [twoByteOps, List.mem_cons, List.not_mem_nil, or_false] at h
  rcases h with rfl | rfl | rfl | rfl | rfl | rfl | rfl | rfl | rfl <;> exact ⟨_, _, rfl⟩

theorem lexeme_noGap {prev : Option Token} {lex follow : Str} {lead : Nat} {t : Token}
    (h : Lexeme prev lex follow lead t) : NoGap (lex ++ follow) := by
  have sp : ∀ c, c < 128 → 32 < c → c ∉ spaceCodePoints := by
    intro c h1 h2 h3; have := space_small h1 h3; omega
  cases h with
  | number hn hf =>
    obtain ⟨c, t, rfl, hc⟩ := number_starts hn
    simp [Digit] at hc
    exact noGap_cons (by omega) (sp c (by omega) (by omega)) (by omega) (by omega)
  | @signed s n _ flt base p e hs hp hn hf =>
    obtain ⟨c, t, rfl, hc⟩ := number_starts hn
    simp [Digit] at hc
    exact noGap_cons (by omega) (sp s (by omega) (by omega)) (by simp; omega) (by simp; omega)
  | @word c w _ p e hc hw hf =>
    simp [WordStart] at hc
    exact noGap_cons (by omega) (sp c (by omega) (by omega)) (by simp; omega) (by simp; omega)
  | backquoted => exact noGap_cons (by omega) (sp _ (by omega) (by omega)) (by simp) (by simp)
  | doublequoted => exact noGap_cons (by omega) (sp _ (by omega) (by omega)) (by simp) (by simp)
  | string => exact noGap_cons (by omega) (sp _ (by omega) (by omega)) (by simp) (by simp)
  | op2 h =>
    obtain ⟨c, d, rfl⟩ := twoByteOps_len h
    rw [twoByteOps_iff] at h
    exact noGap_cons (by omega) (sp c (by omega) (by omega)) (by simp; omega) (by simp; omega)
  | @op1 c _ p e h1 h2 _ _ _ _ _ _ h3 =>
    refine noGap_cons h1 h2 ?_ ?_
    · rintro rfl hh
      obtain ⟨d, t, rfl⟩ : ∃ d t, follow = d :: t := by
        cases follow with
        | nil => simp at hh
        | cons d t => exact ⟨d, t, rfl⟩
      simp at hh; subst hh
      exact (h3 _ _ rfl).2.1 rfl
    · rintro rfl hh
      obtain ⟨d, t, rfl⟩ : ∃ d t, follow = d :: t := by
        cases follow with
        | nil => simp at hh
        | cons d t => exact ⟨d, t, rfl⟩
      simp at hh; subst hh
      exact (h3 _ _ rfl).2.2 rfl

/-! one token -/

theorem isKeyword_iff (s : Str) : isKeyword s = true ↔ s ∈ keywordList := by
  simp [isKeyword]

theorem kw_ite (s : Str) :
    (if isKeyword s = true then Kind.keyword else Kind.ident) =
    (if s ∈ keywordList then Kind.keyword else Kind.ident) := by
  by_cases h : s ∈ keywordList
  · rw [if_pos h, if_pos ((isKeyword_iff s).2 h)]
  · rw [if_neg h, if_neg (fun h' => h ((isKeyword_iff s).1 h'))]

theorem consumeIdent_word {c : Nat} {w follow : Str} (hc : WordStart c ∨ c = 36)
    (hw : ∀ d ∈ w, WordPart d) (hf : ¬ Starts WordPart follow) (o : Nat) (cur : Option Token) :
    consumeIdent ⟨o, (c :: w) ++ follow, cur⟩ =
      .ok ⟨o + (c :: w).length, follow,
        some { pos := o, endp := o + (c :: w).length, str := c :: w, quote := 1,
               kind := if upper (c :: w) ∈ keywordList then .keyword else .ident }⟩ := by
  have hq : (c == 96 || c == 34) = false := by simp [WordStart] at hc ⊢; omega
  have hi : (if c == 36 then 1 + identLen (w ++ follow) else identLen (c :: (w ++ follow))) =
      (c :: w).length := by
    rw [identLen_append hw hf]
    split
    · simp; omega
    · next h36 =>
      have : WordStart c := by
        rcases hc with h | h
        · exact h
        · simp [h] at h36
      rw [← List.cons_append]
      exact identLen_append (fun d hd => by
        rcases List.mem_cons.1 hd with rfl | hd
        · exact Or.inl this
        · exact hw d hd) hf
  simp only [consumeIdent, List.cons_append, hq, Bool.false_eq_true, if_false, hi, Lx.skipN]
  rw [← List.cons_append, List.drop_left, List.take_left, kw_ite]
  rfl

theorem consumeIdent_quoted {q : Nat} (hq : q = 96 ∨ q = 34) {b follow : Str} (hb : q ∉ b)
    (o : Nat) (cur : Option Token) :
    consumeIdent ⟨o, (q :: (b ++ [q])) ++ follow, cur⟩ =
      .ok ⟨o + (q :: (b ++ [q])).length, follow,
        some { pos := o + 1, endp := o + 1 + b.length, str := b, kind := .ident,
               quote := if q = 96 then 3 else 2 }⟩ := by
  have hq' : (q == 96 || q == 34) = true := by simpa using hq
  have hl : quotedLen q (b ++ [q] ++ follow) = some b.length :=
    (quotedLen_iff _ _ _).2 ⟨b, follow, by simp, hb, rfl⟩
  have e : b.length + 1 = (b ++ [q]).length := by simp
  have ed : (b ++ [q] ++ follow).drop (b.length + 1) = follow := by rw [e, List.drop_left]
  have et : (b ++ [q] ++ follow).take b.length = b := by rw [List.append_assoc, List.take_left]
  simp only [consumeIdent, List.cons_append, hq', if_true, hl, Lx.skipN, List.drop_succ_cons,
    List.drop_zero, ed, et]
  simp [qBack, qDouble]
  omega

theorem consumeString_complete {b follow : Str} (hb : StrBody b) (hf : ¬ Starts (· = 39) follow)
    (o : Nat) (cur : Option Token) :
    consumeString ⟨o, (39 :: (b ++ [39])) ++ follow, cur⟩ =
      .ok ⟨o + (39 :: (b ++ [39])).length, follow,
        some { pos := o + 1, endp := o + 1 + b.length, str := b, kind := .string }⟩ := by
  have hl : stringLen (b ++ [39] ++ follow) = some b.length := by
    rw [List.append_assoc]; exact stringLen_complete hb hf
  have ed : (39 :: (b ++ [39] ++ follow)).drop (b.length + 2) = follow := by
    have e : b.length + 1 = (b ++ [39]).length := by simp
    rw [List.drop_succ_cons, e, List.drop_left]
  have et : (b ++ [39] ++ follow).take b.length = b := by rw [List.append_assoc, List.take_left]
  simp only [consumeString, List.cons_append, List.drop_succ_cons, List.drop_zero, hl, Lx.skipN,
    et]
  rw [List.drop_succ_cons] at ed
  rw [ed]
  simp
  omega

theorem scanToken_complete {prev : Option Token} {lex follow : Str} {lead : Nat} {t : Token}
    (h : Lexeme prev lex follow lead t) (o : Nat) (hp : t.pos = o + lead)
    (he : t.endp = t.pos + t.str.length) {c : Nat} {tl : Str} (hct : lex ++ follow = c :: tl)
    (cur : Option Token) :
    scanToken prev ⟨o, lex ++ follow, cur⟩ c tl = .ok ⟨o + lex.length, follow, some t⟩ := by
  cases h with
  | @number n _ flt base p e hn hf =>
    have := consumeNumber_complete (Or.inl rfl) hn hf o cur
    obtain ⟨c', t', rfl, hc⟩ := number_starts hn
    simp at hct hp he
    obtain ⟨rfl, rfl⟩ := hct
    subst hp; subst he
    have hd : isDigit c' = true := (isDigit_iff _).2 hc
    simp [Digit] at hc
    have e1 : (c' == 62 || c' == 60 || c' == 33 || c' == 61 || c' == 124) = false := by
      simp; omega
    have e2 : (c' == 43 || c' == 45) = false := by simp; omega
    simp only [scanToken, e1, e2, hd, Bool.false_and, Bool.false_eq_true, if_false, if_true]
    simpa using this
  | @signed s n _ flt base p e hs hprev hn hf =>
    have := consumeNumber_complete (sg := [s]) (by rcases hs with rfl | rfl <;> simp [OptSign]) hn hf o cur
    obtain ⟨c', t', rfl, hc⟩ := number_starts hn
    simp at hct hp he
    obtain ⟨rfl, rfl⟩ := hct
    subst hp; subst he
    have hd : isDigit c' = true := (isDigit_iff _).2 hc
    have e1 : (s == 62 || s == 60 || s == 33 || s == 61 || s == 124) = false := by
      simp; omega
    have e2 : (s == 43 || s == 45) = true := by simpa using hs
    have e3 : hasPrecedenceToken prev = false := by
      rw [Bool.eq_false_iff, ne_eq, hasPrecedenceToken_iff]; exact hprev
    simp only [scanToken, e1, e2, e3, hd, Bool.false_and, Bool.false_eq_true, if_false, if_true,
      List.head?_cons, Option.map_some, Option.getD_some, Bool.not_false, Bool.and_self]
    simpa using this
  | @word c' w _ p e hc hw hf =>
    have := consumeIdent_word hc hw hf o cur
    simp at hct hp he
    obtain ⟨rfl, rfl⟩ := hct
    subst hp; subst he
    have e1 : (c' == 62 || c' == 60 || c' == 33 || c' == 61 || c' == 124) = false := by
      simp [WordStart] at hc ⊢; omega
    have e2 : (c' == 43 || c' == 45) = false := by simp [WordStart] at hc ⊢; omega
    have e3 : isDigit c' = false := by simp [WordStart, isDigit] at hc ⊢; omega
    have e4 : (c' == 39) = false := by simp [WordStart] at hc ⊢; omega
    have e5 : (c' == 58) = false := by simp [WordStart] at hc ⊢; omega
    have e6 : (c' == 46) = false := by simp [WordStart] at hc ⊢; omega
    simp only [scanToken, e1, e2, e3, e4, e5, e6, Bool.false_and, Bool.false_eq_true, if_false]
    split
    · exact this
    · next h =>
      have hws : isIdentStart c' = true := by
        rw [isIdentStart_iff]
        rcases hc with hc | rfl
        · exact hc
        · simp at h
      rw [if_pos hws]; exact this
  | @backquoted b _ p e hb =>
    have := consumeIdent_quoted (Or.inl rfl) hb (follow := follow) o cur
    simp at hct hp he
    obtain ⟨rfl, rfl⟩ := hct
    subst hp; subst he
    simpa [scanToken, isDigit] using this
  | @doublequoted b _ p e hb =>
    have := consumeIdent_quoted (Or.inr rfl) hb (follow := follow) o cur
    simp at hct hp he
    obtain ⟨rfl, rfl⟩ := hct
    subst hp; subst he
    simpa [scanToken, isDigit] using this
  | @string b _ p e hb hf =>
    have := consumeString_complete hb hf o cur
    simp at hct hp he
    obtain ⟨rfl, rfl⟩ := hct
    subst hp; subst he
    simpa [scanToken, isDigit] using this
  | op2 h =>
    simp at hp he
    subst hp; subst he
    simp only [twoByteOps, List.mem_cons, List.not_mem_nil, or_false] at h
    rcases h with rfl | rfl | rfl | rfl | rfl | rfl | rfl | rfl | rfl <;>
      (simp at hct; obtain ⟨rfl, rfl⟩ := hct) <;>
      simp [scanToken, isTwoByteOp, opToken, Lx.skipN, twoByteKind, isDigit, Kind.arrow, Kind.dash]
  | @op1 c' _ p e h1 h2 h3 h4 h5 h6 h7 h8 h9 h10 =>
    simp at hct hp he
    obtain ⟨rfl, rfl⟩ := hct
    subst hp; subst he
    have hfol : ∀ d, follow.head? = some d → [c', d] ∉ twoByteOps := by
      intro d hd
      cases follow with
      | nil => simp at hd
      | cons x t => simp at hd; subst hd; exact (h9 _ _ rfl).1
    have e1 : ((c' == 62 || c' == 60 || c' == 33 || c' == 61 || c' == 124) &&
        isTwoByteOp c' follow.head?) = false := by
      rw [Bool.eq_false_iff]
      intro hh
      simp only [Bool.and_eq_true, Bool.or_eq_true, beq_iff_eq, isTwoByteOp, bne_iff_ne] at hh
      obtain ⟨ha, hb⟩ := hh
      rcases hb with ((⟨rfl, hb⟩ | ⟨rfl, hb⟩) | ⟨rfl, hb⟩) | ⟨hb', hb⟩ <;>
        (apply hfol _ hb; rw [twoByteOps_iff]; omega)
    have e2 : ((c' == 43 || c' == 45) && !hasPrecedenceToken prev &&
        (follow.head?.map isDigit).getD false) = false := by
      rw [Bool.eq_false_iff]
      intro hh
      simp only [Bool.and_eq_true, Bool.or_eq_true, beq_iff_eq, Bool.not_eq_true',
        headP_iff _ _ isDigit_iff] at hh
      obtain ⟨⟨ha, hb⟩, hc⟩ := hh
      rw [Bool.eq_false_iff, ne_eq, hasPrecedenceToken_iff] at hb
      exact hb (h10 ha hc)
    have e3 : ((c' == 43 || c' == 45) && follow.head? == some 62) = false := by
      rw [Bool.eq_false_iff]
      intro hh
      simp only [Bool.and_eq_true, Bool.or_eq_true, beq_iff_eq] at hh
      apply hfol _ hh.2; rw [twoByteOps_iff]; omega
    have e4 : isDigit c' = false := by rw [Bool.eq_false_iff, ne_eq, isDigit_iff]; exact h3
    have e5 : (c' == 96 || c' == 36 || c' == 34) = false := by simp; omega
    have e6 : (c' == 39) = false := by simp; omega
    have e7 : (c' == 58 && follow.head? == some 58) = false := by
      rw [Bool.eq_false_iff]
      intro hh
      simp only [Bool.and_eq_true, beq_iff_eq] at hh
      apply hfol _ hh.2; rw [twoByteOps_iff]; omega
    have e8 : isIdentStart c' = false := by rw [Bool.eq_false_iff, ne_eq, isIdentStart_iff]; exact h4
    simp only [scanToken, e1, e2, e3, e4, e5, e6, e7, e8, Bool.false_eq_true, if_false]
    have e9 : ¬ (128 ≤ c') := by omega
    simp only [e9, if_false]
    split
    · next h46 => simp at h46; subst h46; rfl
    · rfl

theorem scanToken_sound {prev : Option Token} {o : Nat} {c : Nat} {tl : Str} {cur : Option Token}
    {l' : Lx} (hng : NoGap (c :: tl)) (h : scanToken prev ⟨o, c :: tl, cur⟩ c tl = .ok l') :
    ∃ lex follow lead t, c :: tl = lex ++ follow ∧ Lexeme prev lex follow lead t ∧
      t.pos = o + lead ∧ t.endp = t.pos + t.str.length ∧
      l' = ⟨o + lex.length, follow, some t⟩ := by
  -- a two-byte operator
  have two : ∀ d k, tl.head? = some d → [c, d] ∈ twoByteOps → twoByteKind [c, d] = k →
      opToken ⟨o, c :: tl, cur⟩ 2 k = .ok l' →
      ∃ lex follow lead t, c :: tl = lex ++ follow ∧ Lexeme prev lex follow lead t ∧
      t.pos = o + lead ∧ t.endp = t.pos + t.str.length ∧
      l' = ⟨o + lex.length, follow, some t⟩ := by
    intro d k hd hm hk ho
    obtain ⟨t', rfl⟩ : ∃ t', tl = d :: t' := by
      cases tl with
      | nil => simp at hd
      | cons x t => simp at hd; subst hd; exact ⟨t, rfl⟩
    simp only [opToken, LRes.ok.injEq] at ho
    refine ⟨[c, d], t', 0, _, rfl, .op2 (p := o) (e := o + 2) hm, by simp, by simp, ?_⟩
    rw [← ho, ← hk]; simp [Lx.skipN]
  unfold scanToken at h
  split at h
  · next h1 =>
    simp only [Bool.and_eq_true, Bool.or_eq_true, beq_iff_eq, isTwoByteOp, bne_iff_ne] at h1
    have hk : ∀ d, tl.head? = some d → c ≠ 43 →
        twoByteKind [c, d] = .op ((c :: tl).take 2) := by
      intro d hd hc
      cases tl with
      | nil => simp at hd
      | cons x t => simp at hd; subst hd; simp [twoByteKind, hc]
    obtain ⟨ha, hb⟩ := h1
    rcases hb with ((⟨rfl, hb⟩ | ⟨rfl, hb⟩) | ⟨rfl, hb⟩) | ⟨hb', hb⟩ <;>
      exact two _ _ hb (by rw [twoByteOps_iff]; omega) (hk _ hb (by omega)) h
  · next h1 =>
  split at h
  · next h2 =>
    simp only [Bool.and_eq_true, Bool.or_eq_true, beq_iff_eq, Bool.not_eq_true',
        headP_iff _ _ isDigit_iff] at h2
    obtain ⟨⟨hs, hp⟩, hd⟩ := h2
    rw [Bool.eq_false_iff, ne_eq, hasPrecedenceToken_iff] at hp
    obtain ⟨n, follow, flt, base, rfl, hn, hf, rfl⟩ := consumeNumber_sound (sg := [c])
      (by rcases hs with rfl | rfl <;> simp [OptSign]) hd h
    exact ⟨c :: n, follow, 0, _, rfl, .signed (p := o) (e := o + (n.length + 1)) hs hp hn hf, by simp, by simp, by simp⟩
  · next h2 =>
  split at h
  · next h3 =>
    simp only [Bool.and_eq_true, Bool.or_eq_true, beq_iff_eq] at h3
    refine two 62 _ h3.2 (by rw [twoByteOps_iff]; omega) ?_ h
    rcases h3.1 with rfl | rfl <;> simp [twoByteKind, Kind.arrow]
  · next h3 =>
  split at h
  · next h4 =>
    obtain ⟨n, follow, flt, base, hx, hn, hf, rfl⟩ := consumeNumber_sound (sg := []) (x := c :: tl)
      (Or.inl rfl) ⟨c, tl, rfl, (isDigit_iff _).1 h4⟩ h
    exact ⟨n, follow, 0, _, hx, .number (p := o) (e := o + n.length) hn hf, by simp, by simp, by simp⟩
  · next h4 =>
  have word : (WordStart c ∨ c = 36) → consumeIdent ⟨o, c :: tl, cur⟩ = .ok l' →
      ∃ lex follow lead t, c :: tl = lex ++ follow ∧ Lexeme prev lex follow lead t ∧
      t.pos = o + lead ∧ t.endp = t.pos + t.str.length ∧
      l' = ⟨o + lex.length, follow, some t⟩ := by
    intro hc h
    obtain ⟨w, f, rfl, hw, hf, hl⟩ := identLen_spec tl
    have := consumeIdent_word hc hw hf o cur
    rw [List.cons_append] at this
    rw [this] at h
    simp only [LRes.ok.injEq] at h
    exact ⟨c :: w, f, 0, _, rfl, .word (p := o) (e := o + (c :: w).length) hc hw hf, by simp, by simp, h.symm⟩
  split at h
  · next h5 =>
    simp only [Bool.or_eq_true, beq_iff_eq] at h5
    by_cases h36 : c = 36
    · exact word (Or.inr h36) h
    · have hq : c = 96 ∨ c = 34 := by omega
      cases hl : quotedLen c tl with
      | none =>
        have hq' : (c == 96 || c == 34) = true := by simpa using hq
        simp [consumeIdent, hq', hl] at h
      | some n =>
        obtain ⟨b, f, rfl, hb, rfl⟩ := (quotedLen_iff _ _ _).1 hl
        have := consumeIdent_quoted hq hb (follow := f) o cur
        rw [List.cons_append, List.append_assoc, List.singleton_append] at this
        rw [this] at h
        simp only [LRes.ok.injEq] at h
        refine ⟨c :: (b ++ [c]), f, 1, _, by simp, ?_, ?_, ?_, h.symm⟩
        · rcases hq with rfl | rfl
          · exact .backquoted (p := o + 1) (e := o + 1 + b.length) hb
          · exact .doublequoted (p := o + 1) (e := o + 1 + b.length) hb
        · simp
        · simp
  · next h5 =>
  split at h
  · next h6 =>
    simp at h6; subst h6
    cases hl : stringLen tl with
    | none => simp [consumeString, hl] at h
    | some n =>
      obtain ⟨b, f, rfl, hb, hf, rfl⟩ := stringLen_sound _ _ hl
      have := consumeString_complete hb hf o cur
      rw [List.cons_append, List.append_assoc, List.singleton_append] at this
      rw [this] at h
      simp only [LRes.ok.injEq] at h
      exact ⟨39 :: (b ++ [39]), f, 1, _, by simp, .string (p := o + 1) (e := o + 1 + b.length) hb hf, by simp, by simp, h.symm⟩
  · next h6 =>
  split at h
  · next h7 =>
    simp only [Bool.and_eq_true, beq_iff_eq] at h7
    obtain ⟨rfl, h7⟩ := h7
    exact two 58 _ h7 (by rw [twoByteOps_iff]; omega) (by simp [twoByteKind, Kind.dash]) h
  · next h7 =>
  -- a one-byte token
  have one : ¬ WordStart c → c < 128 → opToken ⟨o, c :: tl, cur⟩ 1 (.op [c]) = .ok l' →
      ∃ lex follow lead t, c :: tl = lex ++ follow ∧ Lexeme prev lex follow lead t ∧
      t.pos = o + lead ∧ t.endp = t.pos + t.str.length ∧
      l' = ⟨o + lex.length, follow, some t⟩ := by
    intro hws hlt ho
    simp only [opToken, LRes.ok.injEq] at ho
    simp only [Bool.or_eq_true, beq_iff_eq, not_or] at h5
    refine ⟨[c], tl, 0, _, rfl, .op1 (p := o) (e := o + 1) hlt ?_ ?_ hws (by omega) (by simpa using h6)
      (by omega) (by omega) ?_ ?_, by simp, by simp, by rw [← ho]; simp [Lx.skipN]⟩
    · intro hsp
      have : isSpace1 c = true := by
        rw [isSpace1_iff]; simp [spaceCodePoints] at hsp; omega
      have := hng.1
      rw [spaceLen_1 (by assumption)] at this; omega
    · rw [← isDigit_iff]; exact h4
    · rintro d t rfl
      refine ⟨?_, ?_, ?_⟩
      · rw [twoByteOps_iff]
        simp [isTwoByteOp] at h1 h3 h7
        omega
      · rintro hh; simp at hh; apply hng.2.1; rw [prefix2_iff]; simp [hh]
      · rintro hh; simp at hh; apply hng.2.2; rw [prefix2_iff]; simp [hh]
    · intro hc hd
      apply Classical.byContradiction
      intro hp
      apply h2
      simp only [Bool.and_eq_true, Bool.or_eq_true, beq_iff_eq, Bool.not_eq_true',
        headP_iff _ _ isDigit_iff]
      refine ⟨⟨hc, ?_⟩, hd⟩
      rw [Bool.eq_false_iff, ne_eq, hasPrecedenceToken_iff]; exact hp
  split at h
  · next h8 =>
    simp at h8; subst h8
    exact one (by simp [WordStart]) (by omega) h
  · next h8 =>
  split at h
  · next h9 => exact word (Or.inl ((isIdentStart_iff _).1 h9)) h
  · next h9 =>
  split at h
  · simp at h
  · next h10 =>
    exact one (by rw [← isIdentStart_iff]; exact h9) (by omega) h

/-- The scanner takes exactly the steps the lexical grammar prescribes. -/
theorem consume_ok_iff (l l' : Lx) : l.consume = .ok l' ↔ Step l l' := by
  constructor
  · intro h
    obtain ⟨o, r, prev⟩ := l
    unfold Lx.consume at h
    simp only [] at h
    cases hs : skipCommentsLen r with
    | mk n e =>
      rw [hs] at h
      simp only [] at h
      cases e with
      | true => simp at h
      | false =>
        obtain ⟨hn, hng, hgap⟩ := skipCommentsF_sound _ _ _ (Nat.lt_succ_self _) hs
        have hsp := hng.1
        simp only [Lx.skipN, Bool.false_eq_true, if_false, hsp, List.drop_zero, Nat.add_zero] at h
        cases hr : r.drop n with
        | nil =>
          rw [hr] at h
          simp at h
          subst h
          have hlen : n = r.length := by
            have := congrArg List.length hr; simp at this; omega
          have he : EndGap r := by
            rcases hgap with h | ⟨_, h⟩
            · rw [hlen, List.take_length] at h; exact .gap h
            · exact h
          rw [hlen]; exact .eof he
        | cons c tl =>
          rw [hr] at h hng
          simp only [] at h
          have hg : Gap (r.take n) := by
            rcases hgap with h | ⟨h, _⟩
            · exact h
            · rw [hr] at h; simp at h
          obtain ⟨lex, follow, lead, t, h1, h2, h3, h4, rfl⟩ := scanToken_sound hng h
          have hlen : (r.take n).length = n := by simp; omega
          have hrr : r = r.take n ++ (lex ++ follow) := by
            rw [← h1, ← hr, List.take_append_drop]
          rw [← hlen]
          have key := Step.token (off := o) hg h2 (by rw [hlen]; exact h3) h4
          rw [← hrr] at key
          exact key
  · intro h
    cases h with
    | @eof off g prev he =>
      obtain ⟨n, h1, h2⟩ := skipCommentsLen_endGap he
      simp only [Lx.consume, h1, Bool.false_eq_true, if_false, Lx.skipN]
      have : List.drop (spaceLen (List.drop n g)) (List.drop n g) = [] := by
        rw [List.drop_drop, h2]; simp
      rw [this]
      simp only [LRes.ok.injEq, Lx.mk.injEq, and_true]
      omega
    | @token off g lex follow prev lead t hg hl hp he =>
      have hng := lexeme_noGap hl
      simp only [Lx.consume, skipCommentsLen_gap hg, skipCommentsLen_noGap hng, Nat.add_zero,
        Bool.false_eq_true, if_false, Lx.skipN, List.drop_left, hng.1, List.drop_zero]
      cases hr : lex ++ follow with
      | nil =>
        exfalso
        simp at hr
        obtain ⟨rfl, rfl⟩ := hr
        cases hl with
        | number hn => obtain ⟨_, _, h, _⟩ := number_starts hn; simp at h
        | op2 h => obtain ⟨_, _, h⟩ := twoByteOps_len h; simp at h
      | cons c tl =>
        simp only []
        have := scanToken_complete hl (off + g.length) hp he hr none
        rw [hr] at this
        exact this

end Verif

/-
Texts with the same tokens: by white space and comments, by the letter case of keywords.
-/
import Verif.Spec.Same
import Verif.Props.Lexer
import Mathlib.Data.List.Forall2

namespace Verif
open Spec
open List (Forall₂)

variable {R : Str → Str → Prop}

/-! ### Spellings -/

theorem spelling_eq : Spelling Eq where
  refl _ := rfl
  upper h := by rw [h]
  word h := by rw [h]; simp
  pre h := by rw [h]; simp
  suf h := by rw [h]; simp

theorem upper_append (s t : Str) : upper (s ++ t) = upper s ++ upper t := by simp [upper]

theorem spelling_case : Spelling CaseOnly where
  refl s := ⟨rfl, by simp⟩
  upper h := h.1
  word h := h.2
  pre {s t} h p hp := by
    refine ⟨by rw [upper_append, upper_append, h.1], ?_⟩
    have key : ∀ p ∈ prefixes, 32 ∈ p ∨ 46 ∈ p := by decide +kernel
    have hw : ∀ w ∈ exactWords, 32 ∉ w ∧ 46 ∉ w := by decide +kernel
    have : ∀ (u : Str) w, w ∈ exactWords → p ++ u ≠ w := by
      intro u w h e
      rcases key p hp with k | k
      · exact (hw w h).1 (by rw [← e]; simp [k])
      · exact (hw w h).2 (by rw [← e]; simp [k])
    intro w hw
    exact ⟨fun e => absurd e (this _ _ hw), fun e => absurd e (this _ _ hw)⟩
  suf {s t} h p hp := by
    refine ⟨by rw [upper_append, upper_append, h.1], ?_⟩
    have key : ∀ p ∈ suffixes, 32 ∈ p := by decide +kernel
    have hw : ∀ w ∈ exactWords, 32 ∉ w := by decide +kernel
    have : ∀ (u : Str) w, w ∈ exactWords → u ++ p ≠ w := by
      intro u w h e
      exact hw w h (by rw [← e]; simp [key p hp])
    intro w hw
    exact ⟨fun e => absurd e (this _ _ hw), fun e => absurd e (this _ _ hw)⟩

/-! ### Lexers with the same tokens -/

theorem scan_nil_rest {l : Lx} {ts : List Token} (h : Scan l ts true) (hr : l.rest = []) : ts = [] := by
  have := (scan_bounds h).1
  rw [hr] at this
  simpa using this

theorem scan_nil {l l' : Lx} (h : Scan l [] true) (h' : l.consume = .ok l') : l'.cur = none := by
  cases h with
  | eof h1 h2 => rw [h1] at h'; cases h'; exact h2

theorem run_nil {l l' : Lx} {ts : List Token} (h : Run l ts l') (hs : Scan l [] true) : l' = l := by
  cases h with
  | nil => rfl
  | tok h1 h2 _ => rw [scan_nil hs h1] at h2; cases h2

/-- The last token stands at the end. -/
def TightL (l : Lx) : Prop := ∃ ts l', Run l ts l' ∧ l'.rest = []

/-- Lexers with the same tokens to come. -/
def Alike (R : Str → Str → Prop) (l m : Lx) : Prop :=
  ∃ ts us, Scan l ts true ∧ Scan m us true ∧ Forall₂ (Token.Sim R) ts us ∧
    Option.Rel (Token.Sim R) l.cur m.cur ∧ (TightL l ↔ TightL m)

theorem tight_nil {l : Lx} (h : Scan l [] true) : TightL l ↔ l.isEOF = true := by
  constructor
  · rintro ⟨ts, l', hr, he⟩
    rw [run_nil hr h] at he
    simp [Lx.isEOF, he]
  · intro he
    exact ⟨[], l, .nil, by simpa [Lx.isEOF] using he⟩

theorem tight_step {l l' : Lx} {t : Token} {ts : List Token} (h : l.consume = .ok l') (ht : l'.cur = some t) (hs : Scan l' ts true) :
    TightL l ↔ TightL l' := by
  constructor
  · rintro ⟨us, m, hr, he⟩
    cases hr with
    | nil =>
      have := scan_nil_rest (.tok h ht hs) he
      simp at this
    | tok h1 h2 h3 =>
      rw [h] at h1
      cases h1
      exact ⟨_, _, h3, he⟩
  · rintro ⟨us, m, hr, he⟩
    exact ⟨_, _, .tok h ht hr, he⟩

theorem tight_end {l l' : Lx} (h : l.consume = .ok l') (ht : l'.cur = none) : TightL l' :=
  ⟨[], l', .nil, (consume_ok_shape h).2.1 ht⟩

theorem scan_end {l l' : Lx} (h : l.consume = .ok l') (ht : l'.cur = none) : Scan l' [] true := by
  have hr := (consume_ok_shape h).2.1 ht
  obtain ⟨o, r, c⟩ := l'
  simp only at hr
  subst hr
  exact .eof (l' := ⟨o, [], none⟩) rfl rfl

theorem alike_bisim (R : Str → Str → Prop) : Bisim R (Alike R) where
  cur h := by obtain ⟨_, _, _, _, _, h, _⟩ := h; exact h
  eof {l m} h := by
    obtain ⟨ts, us, h1, h2, h3, _, h5⟩ := h
    cases h3 with
    | nil =>
      rw [tight_nil h1, tight_nil h2] at h5
      cases h6 : l.isEOF <;> cases h7 : m.isEOF <;> simp_all
    | cons _ _ =>
      have e1 : l.rest ≠ [] := fun e => by have := scan_nil_rest h1 e; simp at this
      have e2 : m.rest ≠ [] := fun e => by have := scan_nil_rest h2 e; simp at this
      simp only [Lx.isEOF]
      cases h6 : l.rest <;> cases h7 : m.rest <;> simp_all
  step {l m} h := by
    obtain ⟨ts, us, h1, h2, h3, h4, h5⟩ := h
    cases h3 with
    | nil =>
      cases h1 with
      | eof a1 a2 =>
        cases h2 with
        | eof b1 b2 =>
          rw [a1, b1]
          refine ⟨[], [], scan_end a1 a2, scan_end b1 b2, .nil, ?_, ?_⟩
          · rw [a2, b2]; exact .none
          · exact ⟨fun _ => tight_end b1 b2, fun _ => tight_end a1 a2⟩
    | cons ht hts =>
      cases h1 with
      | tok a1 a2 a3 =>
        cases h2 with
        | tok b1 b2 b3 =>
          rw [a1, b1]
          refine ⟨_, _, a3, b3, hts, ?_, ?_⟩
          · rw [a2, b2]; exact .some ht
          · rw [← tight_step a1 a2 a3, ← tight_step b1 b2 b3]; exact h5

theorem sameText_scans {a b : Str} {ts us : List Token} (ha : Scan (Lx.new a) ts true) (hb : Scan (Lx.new b) us true)
    (h : Forall₂ (Token.Sim R) ts us) (ht : Tight a ↔ Tight b) : SameText R a b :=
  ⟨_, alike_bisim R, ts, us, ha, hb, h, .none, ht⟩

theorem sim_of_content {ts us : List Token} (h : ts.map Token.content = us.map Token.content) : Forall₂ (Token.Sim Eq) ts us := by
  induction ts generalizing us with
  | nil => cases us with
    | nil => exact .nil
    | cons u us => simp at h
  | cons t ts ih => cases us with
    | nil => simp at h
    | cons u us =>
      simp only [List.map_cons, List.cons.injEq, Token.content, Prod.mk.injEq] at h
      obtain ⟨⟨h1, h2, h3, h4⟩, h⟩ := h
      exact .cons ⟨h1, h2, fun _ => h2, h3, h4⟩ (ih (by simpa [Token.content] using h))

/-! ### Letter case -/

theorem same_length : ∀ {s t : Str}, SameLetters s t → s.length = t.length
  | [], [], _ => rfl
  | _ :: _, _ :: _, h => by simp [same_length h.2]
  | [], _ :: _, h => h.elim
  | _ :: _, [], h => h.elim

theorem same_split : ∀ {s u t : Str}, SameLetters (s ++ u) t → ∃ s' u', t = s' ++ u' ∧ s'.length = s.length ∧ SameLetters s s' ∧ SameLetters u u'
  | [], u, t, h => ⟨[], t, rfl, rfl, trivial, h⟩
  | c :: s, u, [], h => h.elim
  | c :: s, u, d :: t, h => by
    obtain ⟨s', u', rfl, h1, h2, h3⟩ := same_split h.2
    exact ⟨d :: s', u', rfl, by simp [h1], ⟨h.1, h2⟩, h3⟩

/-- Two bytes are the same letter. -/
def SameByte (a b : Nat) : Prop := a = b ∨ (65 ≤ a ∧ a ≤ 90 ∧ b = a + 32) ∨ (65 ≤ b ∧ b ≤ 90 ∧ a = b + 32)

theorem sameByte_word {a b : Nat} (h : SameByte a b) (hne : a ≠ b) : WordPart a ∧ WordPart b ∧ WordStart a ∧ WordStart b ∧
    ¬ Digit b ∧ b ≠ 46 ∧ b ≠ 39 ∧ b ≠ 45 ∧ b ≠ 42 ∧ b ≠ 62 ∧ b ≠ 61 ∧ b ≠ 58 ∧ b ≠ 124 := by
  simp only [WordPart, WordStart, Digit, SameByte] at h ⊢
  omega

/-- A lexeme stays the same lexeme if the first letter behind it changes its case. -/
theorem lexeme_recase {prev prev' : Option Token} {lex f f' : Str} {lead : Nat} {t : Token}
    (h : Lexeme prev lex f lead t) (hp : AfterOperand prev ↔ AfterOperand prev') (hf : SameLetters f f') : Lexeme prev' lex f' lead t := by
  have hst : ∀ (P : Nat → Prop), (∀ a b, SameByte a b → a ≠ b → ¬ P a → ¬ P b) → ¬ Starts P f → ¬ Starts P f' := by
    rintro P hP hPf ⟨d, t', rfl, hd⟩
    cases f with
    | nil => exact hf.elim
    | cons c f =>
      have hc : ¬ P c := fun hc => hPf ⟨c, f, rfl, hc⟩
      by_cases e : c = d
      · subst e; exact hc hd
      · exact hP c d hf.1 e hc hd
  have wp : ∀ a b, SameByte a b → a ≠ b → ¬ WordPart a → ¬ WordPart b := fun a b h hne hn => absurd (sameByte_word h hne).1 hn
  have wn : ∀ a b, SameByte a b → a ≠ b → ¬ (WordPart a ∨ a = 46) → ¬ (WordPart b ∨ b = 46) :=
    fun a b h hne hn => absurd (Or.inl (sameByte_word h hne).1) hn
  have ws : ∀ a b, SameByte a b → a ≠ b → ¬ a = 39 → ¬ b = 39 := fun a b h hne _ => (sameByte_word h hne).2.2.2.2.2.2.1
  cases h with
  | number h1 h2 => exact .number h1 (hst _ wn h2)
  | signed h1 h2 h3 h4 => exact .signed h1 (fun h => h2 (hp.2 h)) h3 (hst _ wn h4)
  | word h1 h2 h3 => exact .word h1 h2 (hst _ wp h3)
  | backquoted h => exact .backquoted h
  | doublequoted h => exact .doublequoted h
  | string h1 h2 => exact .string h1 (hst _ ws h2)
  | op2 h => exact .op2 h
  | @op1 c _ p e h1 h2 h3 h4 h5 h6 h7 h8 h9 h10 =>
    refine .op1 h1 h2 h3 h4 h5 h6 h7 h8 ?_ ?_
    · rintro d t rfl
      cases f with
      | nil => exact hf.elim
      | cons d' f =>
        by_cases e : d' = d
        · subst e; exact h9 _ _ rfl
        · obtain ⟨_, _, _, _, _, _, _, k1, k2, k3, k4, k5, k6⟩ := sameByte_word hf.1 e
          refine ⟨?_, by simp; omega, by simp; omega⟩
          simp [twoByteOps]; omega
    · rintro hc ⟨d, t, rfl, hd⟩
      cases f with
      | nil => exact hf.elim
      | cons d' f =>
        by_cases e : d' = d
        · subst e; exact hp.1 (h10 hc ⟨_, _, rfl, hd⟩)
        · exact absurd hd (sameByte_word hf.1 e).2.2.2.2.1

theorem same_word : ∀ {s t : Str}, SameLetters s t → (∀ d ∈ s, WordPart d) → ∀ d ∈ t, WordPart d
  | [], [], _, _ => by simp
  | [], _ :: _, h, _ => h.elim
  | _ :: _, [], h, _ => h.elim
  | c :: s, d :: t, h, hw => by
    intro x hx
    rcases List.mem_cons.1 hx with rfl | hx
    · by_cases e : c = x
      · subst e; exact hw _ List.mem_cons_self
      · exact (sameByte_word h.1 e).2.1
    · exact same_word h.2 (fun d hd => hw d (List.mem_cons_of_mem _ hd)) x hx

theorem same_notWord {f f' : Str} (h : SameLetters f f') (hf : ¬ Starts WordPart f) : ¬ Starts WordPart f' := by
  rintro ⟨d, t, rfl, hd⟩
  cases f with
  | nil => exact h.elim
  | cons c f =>
    by_cases e : c = d
    · subst e; exact hf ⟨c, f, rfl, hd⟩
    · exact hf ⟨c, f, rfl, (sameByte_word h.1 e).1⟩

theorem same_getElem {s t : Str} (h : ∀ i : Nat, s[i]? = t[i]?) : s = t := List.ext_getElem? h

/-- Changing letters in keywords changes only the spelling of keywords. -/
theorem recase_scan {l : Lx} {ts : List Token} (h : Scan l ts true) : ∀ (m : Lx), m.off = l.off → SameLetters l.rest m.rest →
    (AfterOperand l.cur ↔ AfterOperand m.cur) →
    (∀ i : Nat, l.rest[i]? ≠ m.rest[i]? → ∃ t ∈ ts, t.kind = .keyword ∧ upper t.str ∉ exactWords.map upper ∧ t.pos ≤ l.off + i ∧ l.off + i < t.endp) →
    (∃ us, Scan m us true ∧ Forall₂ (Token.Sim CaseOnly) ts us) ∧ (TightL l ↔ TightL m) := by
  generalize hfin : true = fin at h
  induction h with
  | err => cases hfin
  | @eof l l' h1 h2 =>
    intro m ho hs hp hd
    have e : l.rest = m.rest := by
      apply same_getElem
      intro i
      by_contra hne
      obtain ⟨t, ht, _⟩ := hd i hne
      simp at ht
    have h1' := h1
    rw [consume_ok_iff] at h1
    cases h1 with
    | token _ _ _ _ => simp at h2
    | @eof off g prev hg =>
      have hm : m.consume = .ok ⟨m.off + m.rest.length, [], none⟩ := by
        rw [consume_ok_iff]
        obtain ⟨o, r, c⟩ := m
        simp only at e
        subst e
        exact .eof hg
      have sl : Scan (⟨off, g, prev⟩ : Lx) [] true := .eof h1' rfl
      have sm : Scan m [] true := .eof hm rfl
      refine ⟨⟨[], sm, .nil⟩, ?_⟩
      rw [tight_nil sl, tight_nil sm]
      simp [Lx.isEOF, ← e]
  | @tok l l' t ts fin h1 h2 h3 ih =>
    subst hfin
    intro m ho hs hp hd
    have h1' := h1
    rw [consume_ok_iff] at h1
    cases h1 with
    | eof => simp at h2
    | @token off g lex follow prev lead t' hg hl hpos hend =>
      simp only [Option.some.injEq] at h2
      subst h2
      obtain ⟨mo, mr, mc⟩ := m
      simp only at ho hs hp hd ih
      subst ho
      obtain ⟨g', r', rfl, hg1, -, hr⟩ := same_split hs
      obtain ⟨lex', follow', rfl, hl1, hl2, hf2⟩ := same_split hr
      have hb := scan_bounds h3
      have hlen := covers_len (lexeme_covers hl)
      -- differences at `i` inside the gap or the lexeme come from this token
      have hbefore : ∀ i : Nat, i < g.length + lex.length → (g ++ (lex ++ follow))[i]? ≠ (g' ++ (lex' ++ follow'))[i]? →
          t'.kind = .keyword ∧ upper t'.str ∉ exactWords.map upper ∧ t'.pos ≤ mo + i ∧ mo + i < t'.endp := by
        intro i hi hne
        obtain ⟨u, hu, k1, k2, k3, k4⟩ := hd i hne
        rcases List.mem_cons.1 hu with rfl | hu
        · exact ⟨k1, k2, k3, k4⟩
        · have := (hb.2.1 u hu).1
          simp only at this
          omega
      have hgg : g' = g := by
        apply same_getElem
        intro i
        by_cases hi : i < g.length
        · by_contra hne
          have := hbefore i (by omega) (by
            rw [List.getElem?_append_left hi, List.getElem?_append_left (by omega)]
            exact fun e => hne e.symm)
          omega
        · rw [List.getElem?_eq_none (by omega), List.getElem?_eq_none (by omega)]
      subst hgg
      -- the new token
      obtain ⟨t'', hsim, hl'', hk, hpos'', hend''⟩ : ∃ t'', Token.Sim CaseOnly t' t'' ∧ Lexeme mc lex' follow' lead t'' ∧ t''.kind = t'.kind ∧
          t''.pos = mo + g'.length + lead ∧ t''.endp = t''.pos + t''.str.length := by
        by_cases hkw : t'.kind = .keyword ∧ upper t'.str ∉ exactWords.map upper
        · obtain ⟨hkw, hex⟩ := hkw
          cases hl with
          | @word c w _ p e hc hw hf =>
            have hu := (upper_eq_iff (c :: w) lex').2 hl2
            refine ⟨{ pos := p, endp := e, str := lex', quote := 1, kind := .keyword }, ⟨hkw, ⟨hu, ?_⟩, fun h => absurd hkw h, rfl, rfl⟩, ?_, hkw.symm, hpos, ?_⟩
            · intro v hv
              have : ∀ s, upper s = upper (c :: w) → s ≠ v := by
                rintro s hs rfl
                exact hex (by rw [← hs]; exact List.mem_map_of_mem hv)
              exact ⟨fun e => absurd e (this _ rfl), fun e => absurd e (this _ hu.symm)⟩
            · cases lex' with
              | nil => exact hl2.elim
              | cons c' w' =>
                have hk' : (if upper (c' :: w') ∈ keywordList then Kind.keyword else Kind.ident) = .keyword := by
                  rw [← hu]; exact hkw
                have := Lexeme.word (prev := mc) (c := c') (w := w') (follow := follow') (p := p) (e := e) ?_ ?_ ?_
                · rw [hk'] at this; exact this
                · by_cases e : c = c'
                  · subst e; exact hc
                  · exact Or.inl (sameByte_word hl2.1 e).2.2.2.1
                · exact same_word hl2.2 hw
                · exact same_notWord hf2 hf
            · rw [hend]; simp only at hl1 ⊢; rw [hl1]
          | number _ _ => simp only at hkw; split at hkw <;> cases hkw
          | signed _ _ _ _ => simp only at hkw; split at hkw <;> cases hkw
          | backquoted _ => cases hkw
          | doublequoted _ => cases hkw
          | string _ _ => cases hkw
          | op2 h => simp only [twoByteKind] at hkw; split at hkw <;> cases hkw
          | op1 => cases hkw
        · have e : lex' = lex := by
            apply same_getElem
            intro i
            by_cases hi : i < lex.length
            · by_contra hne
              have := hbefore (g'.length + i) (by omega) (by
                rw [List.getElem?_append_right (by omega), Nat.add_sub_cancel_left, List.getElem?_append_left hi,
                  List.getElem?_append_right (by omega), Nat.add_sub_cancel_left, List.getElem?_append_left (by omega)]
                exact fun e => hne e.symm)
              exact hkw ⟨this.1, this.2.1⟩
            · rw [List.getElem?_eq_none (by omega), List.getElem?_eq_none (by omega)]
          subst e
          exact ⟨t', ⟨rfl, ⟨rfl, by simp⟩, fun _ => rfl, rfl, rfl⟩, lexeme_recase hl hp hf2, rfl, hpos, hend⟩
      have hm : Lx.consume ⟨mo, g' ++ (lex' ++ follow'), mc⟩ = .ok ⟨mo + g'.length + lex'.length, follow', some t''⟩ := by
        rw [consume_ok_iff]; exact .token hg hl'' hpos'' hend''
      have := ih trivial ⟨mo + g'.length + lex'.length, follow', some t''⟩ (by simp [hl1]) hf2
        (by simp [AfterOperand, hk]) (by
          intro i hne
          obtain ⟨u, hu, k1, k2, k3, k4⟩ := hd (g'.length + lex.length + i) (by
            rw [Nat.add_assoc, List.getElem?_append_right (by omega), Nat.add_sub_cancel_left, List.getElem?_append_right (by omega),
              Nat.add_sub_cancel_left, List.getElem?_append_right (by omega), Nat.add_sub_cancel_left, ← hl1,
              List.getElem?_append_right (by omega), Nat.add_sub_cancel_left]
            exact hne)
          rcases List.mem_cons.1 hu with rfl | hu
          · omega
          · exact ⟨u, hu, k1, k2, by omega, by omega⟩)
      obtain ⟨⟨us, hus, hf⟩, htt⟩ := this
      refine ⟨⟨t'' :: us, .tok hm rfl hus, .cons hsim hf⟩, ?_⟩
      rw [tight_step h1' rfl h3, tight_step hm rfl hus]
      exact htt

theorem sameText_recased {a b : Str} {ts : List Token} (h : Recased a b ts) : SameText CaseOnly a b := by
  obtain ⟨⟨us, hu, hf⟩, ht⟩ := recase_scan h.1 (Lx.new b) rfl h.2.1 Iff.rfl (by
    intro i hi
    obtain ⟨t, h1, h2, h3, h4, h5⟩ := h.2.2 i hi
    exact ⟨t, h1, h2, h3, by simpa [Lx.new] using h4, by simpa [Lx.new] using h5⟩)
  exact sameText_scans h.1 hu hf ht

/-! ### Moved texts -/

/-- The same text lies ahead. -/
def Moved (l m : Lx) : Prop := l.rest = m.rest ∧ Option.Rel (Token.Sim Eq) l.cur m.cur

theorem sim_shift (k k' : Nat) : ∀ c : Option Token, Option.Rel (Token.Sim Eq) (c.map (shiftTok k)) (c.map (shiftTok k'))
  | none => .none
  | some _ => .some ⟨rfl, rfl, fun _ => rfl, rfl, rfl⟩

theorem consume_moved {l m : Lx} (hr : l.rest = m.rest) (hc : hasPrecedenceToken l.cur = hasPrecedenceToken m.cur) :
    match l.consume, m.consume with
    | .ok l', .ok m' => Moved l' m'
    | .err l', .err m' => Moved l' m'
    | _, _ => False := by
  obtain ⟨lo, r, lc⟩ := l
  obtain ⟨mo, r', mc⟩ := m
  simp only at hr hc
  subst hr
  have e1 := consume_shift lo 0 r lc
  have e2 := consume_shift mo 0 r mc
  rw [← consume_prev (o := 0) hc] at e2
  rw [Nat.zero_add] at e1 e2
  rw [e1, e2]
  cases Lx.consume ⟨0, r, lc⟩ with
  | ok l' => exact ⟨rfl, sim_shift _ _ _⟩
  | err l' => exact ⟨rfl, sim_shift _ _ _⟩

theorem sim_precedence {c d : Option Token} (h : Option.Rel (Token.Sim Eq) c d) : hasPrecedenceToken c = hasPrecedenceToken d := by
  cases h with
  | none => rfl
  | some h => simp only [hasPrecedenceToken, h.1]

theorem moved_bisim : Bisim Eq Moved where
  cur h := h.2
  eof h := by simp [Lx.isEOF, h.1]
  step h := consume_moved h.1 (sim_precedence h.2)

/-- Lexers in front of and behind a place where a gap is inserted. -/
def Gapped (a b w g : Str) (cur : Option Token) (l m : Lx) : Prop :=
  Moved l m ∨ ∃ ts, Run l ts ⟨a.length, b, cur⟩ ∧ Run m ts ⟨a.length, (w ++ g) ++ b, cur⟩ ∧ l.cur = m.cur

theorem sim_same : ∀ c : Option Token, Option.Rel (Token.Sim Eq) c c
  | none => .none
  | some _ => .some ⟨rfl, rfl, fun _ => rfl, rfl, rfl⟩

theorem gapped_bisim {a b w g : Str} {cur : Option Token} (hb : b ≠ []) (hg : Gap (w ++ g)) : Bisim Eq (Gapped a b w g cur) where
  cur h := by
    rcases h with h | ⟨_, _, _, h⟩
    · exact h.2
    · rw [h]; exact sim_same _
  eof {l m} h := by
    rcases h with h | ⟨_, h1, h2, h⟩
    · exact moved_bisim.eof h
    · obtain ⟨x, hx, _⟩ := run_shape h1
      obtain ⟨y, hy, _⟩ := run_shape h2
      have e1 : l.rest ≠ [] := by rw [hx]; simp [hb]
      have e2 : m.rest ≠ [] := by rw [hy]; simp [hb]
      rw [← List.isEmpty_eq_false_iff] at e1 e2
      simp only [Lx.isEOF, e1, e2]
  step {l m} h := by
    rcases h with h | ⟨_, h1, h2, h⟩
    · have := moved_bisim.step h
      revert this
      cases l.consume <;> cases m.consume <;> intro h <;> first | exact Or.inl h | exact h
    · cases h1 with
      | nil =>
        cases h2
        rw [consume_gap hg]
        have := consume_moved (l := ⟨a.length, b, cur⟩) (m := ⟨a.length + (w ++ g).length, b, cur⟩) rfl rfl
        revert this
        cases Lx.consume ⟨a.length, b, cur⟩ <;> cases Lx.consume ⟨a.length + (w ++ g).length, b, cur⟩ <;>
          intro h <;> first | exact Or.inl h | exact h
      | tok a1 a2 a3 =>
        cases h2 with
        | tok b1 b2 b3 =>
          rw [a1, b1]
          exact Or.inr ⟨_, a3, b3, a2.trans b2.symm⟩

theorem sameText_gap {a b w g : Str} {cur : Option Token} {ts : List Token} (h : Run (Lx.new (a ++ b)) ts ⟨a.length, b, cur⟩)
    (hb : b ≠ []) (hw : White w) (hg : Gap g) : SameText Eq (a ++ b) (a ++ ((w ++ g) ++ b)) :=
  ⟨_, gapped_bisim hb (.white hw hg), Or.inr ⟨ts, h, run_insert hw g h a rfl, rfl⟩⟩

end Verif

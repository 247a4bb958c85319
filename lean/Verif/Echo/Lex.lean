/-
How a text is read that consists of printed elements.  No definition here is part of the model.
-/
import Verif.Echo.Glue2
import Verif.Lemmas.Token

namespace Verif.Echo
open Verif.Spec

/-- The element is written so that it can be read as this token. -/
inductive Fits : E → Token → Prop
  | word {u : E} {c : Nat} {w : Str} {t : Token} : (WordStart c ∨ c = 36) → (∀ d ∈ w, WordPart d) → u.text = c :: w → u ≠ .sp → (∀ k, u ≠ .op k) →
      t.content = (if upper (c :: w) ∈ keywordList then .keyword else .ident, c :: w, 0, 1) → Fits u t
  | back {n : Str} {t : Token} : 96 ∉ n → t.content = (.ident, n, 0, 3) → Fits (.word n 3) t
  | dbl {n : Str} {t : Token} : 34 ∉ n → t.content = (.ident, n, 0, 2) → Fits (.word n 2) t
  | str {s : Str} {t : Token} : StrBody s → t.content = (.string, s, 0, 0) → Fits (.str s) t
  | num {n : Str} {flt : Bool} {base : Nat} {t : Token} : Number n flt base → t.content = (if flt then .float else .int, n, base, 0) → Fits (.num n) t
  | signed {s : Nat} {n : Str} {flt : Bool} {base : Nat} {t : Token} : (s = 43 ∨ s = 45) → Number n flt base →
      t.content = (if flt then .float else .int, s :: n, base, 0) → Fits (.num (s :: n)) t
  | op2 {k : Str} {t : Token} : k ∈ twoByteOps → k ≠ b!"+>" → t.content = (.op k, k, 0, 0) → Fits (.op k) t
  | op1 {c : Nat} {t : Token} : c < 128 → c ∉ spaceCodePoints → ¬ Digit c → ¬ WordStart c → c ≠ 36 → c ≠ 39 → c ≠ 34 → c ≠ 96 →
      t.content = (.op [c], [c], 0, 0) → Fits (.op [c]) t

/-- The elements are read as these tokens.  After an operand a signed number is read as two. -/
inductive Lexed : List E → List Token → Prop
  | nil : Lexed [] []
  | sp {us ts} : Lexed us ts → Lexed (.sp :: us) ts
  | tok {u t us ts} : Fits u t → Lexed us ts → Lexed (u :: us) (t :: ts)
  | split {s : Nat} {n : Str} {flt : Bool} {base : Nat} {t t' us ts} : (s = 43 ∨ s = 45) → Number n flt base → t.content = (.op [s], [s], 0, 0) →
      t'.content = (if flt then .float else .int, n, base, 0) → Lexed us ts → Lexed (.num (s :: n) :: us) (t :: t' :: ts)

/-- The same, with the token before the elements: a signed number is read as two exactly after an operand. -/
inductive LexedP : Option Token → List E → List Token → Prop
  | nil {p} : LexedP p [] []
  | sp {p us ts} : LexedP p us ts → LexedP p (.sp :: us) ts
  | tok {p u t us ts} : Fits u t → LexedP (some t) us ts → LexedP p (u :: us) (t :: ts)
  | split {p} {s : Nat} {n : Str} {flt : Bool} {base : Nat} {t t' us ts} : AfterOperand p → (s = 43 ∨ s = 45) → Number n flt base →
      t.content = (.op [s], [s], 0, 0) → t'.content = (if flt then .float else .int, n, base, 0) → LexedP (some t') us ts →
      LexedP p (.num (s :: n) :: us) (t :: t' :: ts)

theorem LexedP.lexed {p : Option Token} {us : List E} {ts : List Token} (h : LexedP p us ts) : Lexed us ts := by
  induction h with
  | nil => exact .nil
  | sp _ ih => exact .sp ih
  | tok hf _ ih => exact .tok hf ih
  | split _ h1 h2 h3 h4 _ ih => exact .split h1 h2 h3 h4 ih

theorem blank_white {c : Nat} (h : isBlank c = true) : White [c] := by
  simp [isBlank] at h
  refine ⟨c, by simp only [spaceCodePoints, List.mem_cons]; omega, ?_⟩
  unfold utf8
  rw [if_pos (by omega)]

/-- The tokens that are read, up to the end; the last one stands at the end unless the text ends with white space. -/
structure ScanT (l : Lx) (ts : List Token) : Prop where
  scan : Scan l ts true
  tight : (∀ c, l.rest.getLast? = some c → isBlank c = false) → TightL l

theorem last_append {a s : Str} {P : Nat → Prop} (h : ∀ c, (a ++ s).getLast? = some c → P c) (c : Nat) (hc : s.getLast? = some c) : P c :=
  h c (by rw [List.getLast?_append, hc]; rfl)

/-- White space before the tokens. -/
theorem scan_blank {c : Nat} (hc : isBlank c = true) {o : Nat} {s : Str} {p : Option Token} {ts : List Token}
    (h : ScanT ⟨o + 1, s, p⟩ ts) : ScanT ⟨o, c :: s, p⟩ ts := by
  have hg : Gap [c] := by simpa using Gap.white (blank_white hc) .nil
  have e := consume_gap hg o s p
  simp only [List.cons_append, List.nil_append, List.length_cons, List.length_nil, Nat.zero_add] at e
  obtain ⟨h, ht⟩ := h
  refine ⟨?_, fun hl => ?_⟩
  · cases h with
    | eof h1 h2 => exact .eof (e.trans h1) h2
    | tok h1 h2 h3 => exact .tok (e.trans h1) h2 h3
  · obtain ⟨us, l', hr, he⟩ := ht (last_append (a := [c]) hl)
    cases hr with
    | nil =>
      have he : s = [] := he
      subst he
      have := hl c rfl
      rw [hc] at this
      cases this
    | tok h1 h2 h3 => exact ⟨_, _, .tok (e.trans h1) h2 h3, he⟩

theorem scan_lexeme {o : Nat} {lex s : Str} {p : Option Token} {lead : Nat} {t : Token} {ts : List Token} (h : Lexeme p lex s lead t)
    (h1 : t.pos = o + lead) (h2 : t.endp = t.pos + t.str.length) (hs : ScanT ⟨o + lex.length, s, some t⟩ ts) : ScanT ⟨o, lex ++ s, p⟩ (t :: ts) := by
  have := Step.token (off := o) .nil h (by simpa using h1) h2
  simp only [List.nil_append, List.length_nil, Nat.add_zero] at this
  have hc := (consume_ok_iff _ _).2 this
  exact ⟨.tok hc rfl hs.scan, fun hl => (tight_step hc rfl hs.scan).2 (hs.tight (last_append hl))⟩

/-- The first byte of an element that is no operator. -/
theorem fits_first {u : E} {t : Token} (h : Fits u t) : ∃ c s, u.text = c :: s ∧ ((∀ k, u ≠ .op k) → c ≠ 61 ∧ c ≠ 42) := by
  cases h with
  | @word _ c w _ hc _ ht =>
    refine ⟨c, w, ht, fun _ => ?_⟩
    simp only [WordStart] at hc
    omega
  | back => exact ⟨96, _, rfl, fun _ => by omega⟩
  | dbl => exact ⟨34, _, rfl, fun _ => by omega⟩
  | str => exact ⟨39, _, rfl, fun _ => by omega⟩
  | num hn =>
    obtain ⟨c, t, rfl, hc⟩ := number_starts hn
    refine ⟨c, t, rfl, fun _ => ?_⟩
    simp only [Digit] at hc
    omega
  | signed hs => exact ⟨_, _, rfl, fun _ => by omega⟩
  | op2 hk =>
    obtain ⟨c, d, rfl⟩ := twoByteOps_len hk
    exact ⟨c, _, rfl, fun h => absurd rfl (h _)⟩
  | op1 => exact ⟨_, _, rfl, fun h => absurd rfl (h _)⟩

theorem fits_sp {t : Token} : ¬ Fits .sp t := by
  intro h
  cases h with
  | word _ _ _ h => exact h rfl

/-- What follows an element. -/
theorem rend_follow {m : Bool} {us : List E} {s : Str} (h : Rend m us s) {u : E} (ha : ∀ w, us.head? = some w → adj u w = true)
    (hf : ∀ w ∈ us, w ≠ .sp → ∃ t, Fits w t) {d : Nat} {s' : Str} (hs : s = d :: s') :
    isBlank d = true ∨ ∃ w t x, Fits w t ∧ adj u w = true ∧ w.text = d :: x := by
  cases h with
  | nil => cases hs
  | gap _ hb => cases hs; exact .inl hb
  | sp hb => cases hs; exact .inl hb
  | @tok w us s hne _ =>
    obtain ⟨t, ht⟩ := hf w (by simp) hne
    obtain ⟨c, x, hc, _⟩ := fits_first ht
    rw [hc] at hs
    cases hs
    exact .inr ⟨w, t, x, ht, ha w rfl, hc⟩

theorem adj_nonop {u w : E} (hu : ∀ k, u ≠ .op k) (hu' : u ≠ .sp) (hw : w ≠ .sp) (h : adj u w = true) :
    ∃ k ∈ rightOps, w = .op k ∧ ((∃ s, u = .num s) → k ≠ b!".") := by
  cases u with
  | sp => exact absurd rfl hu'
  | op k => exact absurd rfl (hu k)
  | num s =>
    cases w <;> simp [adj] at h hw
    exact ⟨_, h.1, rfl, fun _ => h.2⟩
  | _ =>
    cases w <;> simp [adj] at h hw
    exact ⟨_, h, rfl, by rintro ⟨s, hs⟩; cases hs⟩

/-- The byte after an element that is no operator. -/
theorem nonop_follow {m : Bool} {us : List E} {s : Str} (h : Rend m us s) {u : E} (ha : ∀ w, us.head? = some w → adj u w = true)
    (hf : ∀ w ∈ us, w ≠ .sp → ∃ t, Fits w t) (hu : ∀ k, u ≠ .op k) (hu' : u ≠ .sp) {d : Nat} {s' : Str} (hs : s = d :: s') :
    (d ≤ 32 ∨ d ∈ [40, 41, 91, 93, 44, 46, 58, 61, 47, 42, 63, 43, 45, 59]) ∧ ((∃ n, u = .num n) → d ≠ 46) := by
  rcases rend_follow h ha hf hs with hb | ⟨w, t, x, hw, hadj, hx⟩
  · simp [isBlank] at hb
    exact ⟨.inl (by omega), fun _ => by omega⟩
  · obtain ⟨k, hk, rfl, hn⟩ := adj_nonop hu hu' (by rintro rfl; exact fits_sp hw) hadj
    simp only [E.text] at hx
    subst hx
    simp [rightOps] at hk
    refine ⟨.inr ?_, fun h => ?_⟩
    · rcases hk with ⟨rfl, _⟩ | ⟨rfl, _⟩ | ⟨rfl, _⟩ | ⟨rfl, _⟩ | ⟨rfl, _⟩ | ⟨rfl, _⟩ | ⟨rfl, _⟩ | ⟨rfl, _⟩ | ⟨rfl, _⟩ | ⟨rfl, _⟩ | ⟨rfl, _⟩ | ⟨rfl, _⟩ | ⟨rfl, _⟩ | ⟨rfl, _⟩ <;> simp
    · rcases hk with ⟨rfl, _⟩ | ⟨rfl, _⟩ | ⟨rfl, _⟩ | ⟨rfl, _⟩ | ⟨rfl, _⟩ | ⟨rfl, rfl⟩ | ⟨rfl, _⟩ | ⟨rfl, _⟩ | ⟨rfl, _⟩ | ⟨rfl, _⟩ | ⟨rfl, _⟩ | ⟨rfl, _⟩ | ⟨rfl, _⟩ | ⟨rfl, _⟩ <;> first | decide | exact absurd rfl (hn h)

theorem nonop_word {m : Bool} {us : List E} {s : Str} (h : Rend m us s) {u : E} (ha : ∀ w, us.head? = some w → adj u w = true)
    (hf : ∀ w ∈ us, w ≠ .sp → ∃ t, Fits w t) (hu : ∀ k, u ≠ .op k) (hu' : u ≠ .sp) : ¬ Starts WordPart s ∧ ¬ Starts (· = 39) s ∧
      ((∃ n, u = .num n) → ¬ Starts (fun c => WordPart c ∨ c = 46) s) := by
  have key : ∀ d, (d ≤ 32 ∨ d ∈ [40, 41, 91, 93, 44, 46, 58, 61, 47, 42, 63, 43, 45, 59]) → ¬ WordPart d ∧ d ≠ 39 := by
    intro d hd
    simp only [List.mem_cons, List.not_mem_nil, or_false] at hd
    simp only [WordPart, WordStart, Digit]
    omega
  refine ⟨?_, ?_, ?_⟩
  · rintro ⟨d, s', rfl, hd⟩
    exact (key d (nonop_follow h ha hf hu hu' rfl).1).1 hd
  · rintro ⟨d, s', rfl, hd⟩
    exact (key d (nonop_follow h ha hf hu hu' rfl).1).2 hd
  · rintro hn ⟨d, s', rfl, hd⟩
    rcases hd with hd | hd
    · exact (key d (nonop_follow h ha hf hu hu' rfl).1).1 hd
    · exact (nonop_follow h ha hf hu hu' rfl).2 hn hd

/-- The byte after an operator of one byte. -/
theorem op_follow {m : Bool} {us : List E} {s : Str} (h : Rend m us s) {c : Nat} (ha : ∀ w, us.head? = some w → adj (.op [c]) w = true)
    (hf : ∀ w ∈ us, w ≠ .sp → ∃ t, Fits w t) {d : Nat} {s' : Str} (hs : s = d :: s') :
    ([c, d] ∉ twoByteOps ∧ [c, d] ≠ b!"--" ∧ [c, d] ≠ b!"/*") ∧ (c = 43 ∨ c = 45 → ¬ Digit d) := by
  rw [twoByteOps_iff]
  rcases rend_follow h ha hf hs with hb | ⟨w, t, x, hw, hadj, hx⟩
  · simp [isBlank] at hb
    refine ⟨⟨by omega, ?_, ?_⟩, ?_⟩
    · simp; omega
    · simp; omega
    · simp only [Digit]; omega
  · obtain ⟨c', s', hc', hq⟩ := fits_first hw
    rw [hx] at hc'
    cases hc'
    cases w with
    | sp => exact absurd hw fits_sp
    | op k =>
      simp only [E.text] at hx
      subst hx
      simp [adj, leftOps, rightOps] at hadj
      obtain ⟨⟨⟨hc, hk⟩, h1⟩, h2⟩ := hadj
      rcases hc with rfl | rfl | rfl | rfl | rfl | rfl | rfl | rfl | rfl | rfl
      all_goals rcases hk with ⟨rfl, _⟩ | ⟨rfl, _⟩ | ⟨rfl, _⟩ | ⟨rfl, _⟩ | ⟨rfl, _⟩ | ⟨rfl, _⟩ | ⟨rfl, _⟩ | ⟨rfl, rfl⟩ | ⟨rfl, _⟩ | ⟨rfl, rfl⟩ | ⟨rfl, _⟩ | ⟨rfl, _⟩ | ⟨rfl, _⟩ | ⟨rfl, _⟩
      all_goals first | (simp at h1; done) | (simp at h2; done) | simp
    | _ =>
      have hl : leftOps.contains [c] = true := hadj
      have := hq (by simp)
      simp [leftOps] at hl
      refine ⟨⟨by omega, ?_, ?_⟩, by omega⟩
      · simp; omega
      · simp; omega

theorem content_at {t : Token} {k : Kind} {s : Str} {b q : Nat} (h : t.content = (k, s, b, q)) : t.kind = k ∧ t.str = s ∧ t.base = b ∧ t.quote = q := by
  simpa [Token.content] using h

/-- A text of elements that fit and can stand next to each other is read element by element. -/
theorem lexP {m : Bool} {us : List E} {b : Str} (h : Rend m us b) : us.IsChain (fun a b => adj a b = true) → (∀ w ∈ us, w ≠ .sp → ∃ t, Fits w t) →
    ∀ o p, ∃ ts, ScanT ⟨o, b, p⟩ ts ∧ LexedP p us ts := by
  induction h with
  | nil => exact fun _ _ o p => ⟨[], ⟨.eof (l' := ⟨o, [], none⟩) rfl rfl, fun _ => ⟨[], _, .nil, rfl⟩⟩, .nil⟩
  | gap _ hb _ ih =>
    intro hc hf o p
    obtain ⟨ts, h1, h2⟩ := ih hc hf (o + 1) p
    exact ⟨ts, scan_blank hb h1, h2⟩
  | sp hb _ ih =>
    intro hc hf o p
    rw [List.isChain_cons] at hc
    obtain ⟨ts, h1, h2⟩ := ih hc.2 (fun w hw => hf w (by simp [hw])) (o + 1) p
    exact ⟨ts, scan_blank hb h1, .sp h2⟩
  | @tok u us s hne hr ih =>
    intro hc hf o p
    rw [List.isChain_cons] at hc
    have hf' : ∀ w ∈ us, w ≠ .sp → ∃ t, Fits w t := fun w hw => hf w (by simp [hw])
    have ha : ∀ w, us.head? = some w → adj u w = true := fun w hw => hc.1 w hw
    replace ih := ih hc.2 hf'
    obtain ⟨t, ht⟩ := hf u (by simp) hne
    cases ht with
    | @word _ c w _ hc hw ht hne' hno hk =>
      let t' : Token := { pos := o, endp := o + (c :: w).length, str := c :: w, quote := 1, kind := if upper (c :: w) ∈ keywordList then .keyword else .ident }
      obtain ⟨ts, h1, h2⟩ := ih (o + (c :: w).length) (some t')
      rw [ht]
      exact ⟨t' :: ts, scan_lexeme (.word hc hw (nonop_word hr ha hf' hno hne').1) rfl rfl h1, .tok (.word hc hw ht hne' hno rfl) h2⟩
    | @back n _ hn hk =>
      let t' : Token := { pos := o + 1, endp := o + 1 + n.length, kind := .ident, str := n, quote := 3 }
      obtain ⟨ts, h1, h2⟩ := ih (o + (96 :: (n ++ [96])).length) (some t')
      exact ⟨t' :: ts, scan_lexeme (.backquoted hn) rfl rfl h1, .tok (.back hn rfl) h2⟩
    | @dbl n _ hn hk =>
      let t' : Token := { pos := o + 1, endp := o + 1 + n.length, kind := .ident, str := n, quote := 2 }
      obtain ⟨ts, h1, h2⟩ := ih (o + (34 :: (n ++ [34])).length) (some t')
      exact ⟨t' :: ts, scan_lexeme (.doublequoted hn) rfl rfl h1, .tok (.dbl hn rfl) h2⟩
    | @str n _ hn hk =>
      let t' : Token := { pos := o + 1, endp := o + 1 + n.length, kind := .string, str := n }
      obtain ⟨ts, h1, h2⟩ := ih (o + (39 :: (n ++ [39])).length) (some t')
      exact ⟨t' :: ts, scan_lexeme (.string hn (nonop_word hr ha hf' (by simp) (by simp)).2.1) rfl rfl h1, .tok (.str hn rfl) h2⟩
    | @num n flt base _ hn hk =>
      let t' : Token := { pos := o, endp := o + n.length, kind := if flt then .float else .int, str := n, base := base }
      obtain ⟨ts, h1, h2⟩ := ih (o + n.length) (some t')
      exact ⟨t' :: ts, scan_lexeme (.number hn ((nonop_word hr ha hf' (by simp) (by simp)).2.2 ⟨_, rfl⟩)) rfl rfl h1, .tok (.num hn rfl) h2⟩
    | @signed sg n flt base _ hsg hn hk =>
      have hfol := (nonop_word hr ha hf' (by simp) (by simp)).2.2 ⟨_, rfl⟩
      by_cases hp : AfterOperand p
      · let t1 : Token := { pos := o, endp := o + 1, kind := .op [sg], str := [sg] }
        let t' : Token := { pos := o + 1, endp := o + 1 + n.length, kind := if flt then .float else .int, str := n, base := base }
        obtain ⟨ts, h1, h2⟩ := ih (o + 1 + n.length) (some t')
        refine ⟨t1 :: t' :: ts, ?_, .split hp hsg hn rfl rfl h2⟩
        have hstep := scan_lexeme (p := some t1) (.number hn hfol) rfl rfl h1
        obtain ⟨d, x, rfl, hd⟩ := number_starts hn
        refine scan_lexeme (lex := [sg]) (lead := 0) (t := t1) (.op1 ?_ ?_ ?_ ?_ ?_ ?_ ?_ ?_ ?_ fun _ _ => hp) rfl rfl hstep
        · rcases hsg with rfl | rfl <;> simp
        · rcases hsg with rfl | rfl <;> simp [spaceCodePoints]
        · rcases hsg with rfl | rfl <;> simp [Digit]
        · rcases hsg with rfl | rfl <;> simp [WordStart]
        · omega
        · omega
        · omega
        · omega
        · intro d' t' he
          simp only [List.cons_append, List.cons.injEq] at he
          obtain ⟨rfl, _⟩ := he
          simp only [Digit] at hd
          rw [twoByteOps_iff]
          refine ⟨by omega, ?_, ?_⟩
          · simp; omega
          · simp; omega
      · let t' : Token := { pos := o, endp := o + (sg :: n).length, kind := if flt then .float else .int, str := sg :: n, base := base }
        obtain ⟨ts, h1, h2⟩ := ih (o + (sg :: n).length) (some t')
        exact ⟨t' :: ts, scan_lexeme (.signed hsg hp hn hfol) rfl rfl h1, .tok (.signed hsg hn rfl) h2⟩
    | @op2 k _ hk hne' hkc =>
      let t' : Token := { pos := o, endp := o + k.length, kind := .op k, str := k }
      obtain ⟨ts, h1, h2⟩ := ih (o + k.length) (some t')
      have hl : Lexeme p k s 0 t' := by
        have := Lexeme.op2 (prev := p) (follow := s) (p := o) (e := o + k.length) hk
        simpa [twoByteKind, hne', t'] using this
      exact ⟨t' :: ts, scan_lexeme hl rfl rfl h1, .tok (.op2 hk hne' rfl) h2⟩
    | @op1 c _ a1 a2 a3 a4 a5 a6 a7 a8 hk =>
      let t' : Token := { pos := o, endp := o + 1, kind := .op [c], str := [c] }
      obtain ⟨ts, h1, h2⟩ := ih (o + 1) (some t')
      refine ⟨t' :: ts, scan_lexeme (.op1 a1 a2 a3 a4 a5 a6 a7 a8 (fun d x hx => (op_follow hr ha hf' hx).1) fun hs hd => ?_) rfl rfl h1, .tok (.op1 a1 a2 a3 a4 a5 a6 a7 a8 rfl) h2⟩
      obtain ⟨d, x, hx, hd⟩ := hd
      exact absurd hd ((op_follow hr ha hf' hx).2 hs)

theorem lex {m : Bool} {us : List E} {b : Str} (h : Rend m us b) (hc : us.IsChain (fun a b => adj a b = true)) (hf : ∀ w ∈ us, w ≠ .sp → ∃ t, Fits w t) (o : Nat)
    (p : Option Token) : ∃ ts, ScanT ⟨o, b, p⟩ ts ∧ Lexed us ts := by
  obtain ⟨ts, h1, h2⟩ := lexP h hc hf o p
  exact ⟨ts, h1, h2.lexed⟩

end Verif.Echo

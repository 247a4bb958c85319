/- Helper lemmas: one lexeme at a time. -/
import Verif.Lemmas.Gaps

namespace Verif
open Spec

theorem isDigit_iff (c : Nat) : isDigit c = true ↔ Digit c := by simp [isDigit, Digit]
theorem isHexDigit_iff (c : Nat) : isHexDigit c = true ↔ HexDigit c := by
  simp [isHexDigit, HexDigit, Digit, or_assoc]
theorem isIdentStart_iff (c : Nat) : isIdentStart c = true ↔ WordStart c := by
  simp [isIdentStart, WordStart, or_assoc]
theorem isIdentPart_iff (c : Nat) : isIdentPart c = true ↔ WordPart c := by
  simp [isIdentPart, WordPart, WordStart, Digit]; omega

theorem headP_iff (p : Nat → Bool) (P : Nat → Prop) (h : ∀ c, p c = true ↔ P c) (s : Str) :
    (s.head?.map p).getD false = true ↔ Starts P s := by
  cases s with
  | nil => simp [Starts]
  | cons c t => simp [Starts, h]

theorem not_starts_nil (P : Nat → Prop) : ¬ Starts P [] := by rintro ⟨c, t, h, _⟩; simp at h
theorem starts_cons (P : Nat → Prop) (c : Nat) (t : Str) : Starts P (c :: t) ↔ P c := by
  simp [Starts]

/-! words -/

theorem identLen_spec (r : Str) :
    ∃ w f, r = w ++ f ∧ (∀ d ∈ w, WordPart d) ∧ ¬ Starts WordPart f ∧ identLen r = w.length := by
  induction r with
  | nil => exact ⟨[], [], rfl, by simp, not_starts_nil _, rfl⟩
  | cons c t ih =>
    by_cases h : isIdentPart c = true
    · obtain ⟨w, f, rfl, h1, h2, h3⟩ := ih
      refine ⟨c :: w, f, rfl, ?_, h2, ?_⟩
      · intro d hd; rcases List.mem_cons.1 hd with rfl | hd
        · exact (isIdentPart_iff _).1 h
        · exact h1 d hd
      · simp only [identLen, h, if_true, h3, List.length_cons]; omega
    · refine ⟨[], c :: t, rfl, by simp, ?_, ?_⟩
      · rw [starts_cons, ← isIdentPart_iff]; exact h
      · simp [identLen, h]

theorem identLen_append {w f : Str} (hw : ∀ d ∈ w, WordPart d) (hf : ¬ Starts WordPart f) :
    identLen (w ++ f) = w.length := by
  induction w with
  | nil =>
    cases f with
    | nil => rfl
    | cons c t =>
      rw [starts_cons, ← isIdentPart_iff] at hf
      simp [identLen, hf]
  | cons c t ih =>
    have := (isIdentPart_iff c).2 (hw c (by simp))
    simp only [List.cons_append, identLen, this, if_true, List.length_cons]
    rw [ih (fun d hd => hw d (by simp [hd]))]; omega

/-! quoted identifiers and strings -/

theorem quotedLen_iff (q : Nat) (r : Str) (n : Nat) :
    quotedLen q r = some n ↔ ∃ b f, r = b ++ q :: f ∧ q ∉ b ∧ n = b.length := by
  induction r generalizing n with
  | nil => simp [quotedLen]
  | cons c t ih =>
    by_cases h : c = q
    · subst h
      simp only [quotedLen, beq_self_eq_true, if_true, Option.some.injEq]
      constructor
      · rintro rfl; exact ⟨[], t, rfl, by simp, rfl⟩
      · rintro ⟨b, f, hb, hq, rfl⟩
        cases b with
        | nil => rfl
        | cons d b => simp at hb; simp [hb.1] at hq
    · have h' : (c == q) = false := by simpa using h
      simp only [quotedLen, h', Bool.false_eq_true, if_false, Option.map_eq_some_iff]
      constructor
      · rintro ⟨m, hm, rfl⟩
        obtain ⟨b, f, rfl, hq, rfl⟩ := (ih m).1 hm
        exact ⟨c :: b, f, rfl, by simp [hq, Ne.symm h], rfl⟩
      · rintro ⟨b, f, hb, hq, rfl⟩
        cases b with
        | nil => simp at hb; exact absurd hb.1 h
        | cons d b =>
          simp at hb hq
          obtain ⟨rfl, rfl⟩ := hb
          exact ⟨b.length, (ih _).2 ⟨b, f, rfl, hq.2, rfl⟩, rfl⟩

theorem stringLen_complete {b : Str} (hb : StrBody b) {f : Str} (hf : ¬ Starts (· = 39) f) :
    stringLen (b ++ 39 :: f) = some b.length := by
  induction hb with
  | nil =>
    rw [List.nil_append, stringLen.eq_def]
    cases f with
    | nil => simp
    | cons d f =>
      rw [starts_cons] at hf
      simp [hf]
  | plain h1 h2 _ ih => rw [List.cons_append, stringLen.eq_def]; simp [h1, h2, ih]
  | esc _ ih =>
    rw [List.cons_append, List.cons_append, stringLen.eq_def]; simp [ih]
  | dbl _ ih =>
    rw [List.cons_append, List.cons_append, stringLen.eq_def]; simp [ih]

theorem stringLen_sound (r : Str) : ∀ n, stringLen r = some n →
    ∃ b f, r = b ++ 39 :: f ∧ StrBody b ∧ ¬ Starts (· = 39) f ∧ n = b.length := by
  induction r using stringLen.induct with
  | case1 => simp [stringLen]
  | case2 c h => intro n hn; rw [stringLen.eq_def] at hn; simp [h] at hn
  | case3 c h d t ih =>
    intro n hn
    rw [stringLen.eq_def] at hn
    simp only [h, if_true, Option.map_eq_some_iff] at hn
    obtain ⟨m, hm, rfl⟩ := hn
    obtain ⟨b, f, rfl, h1, h2, rfl⟩ := ih m hm
    simp at h; subst h
    exact ⟨92 :: d :: b, f, rfl, .esc h1, h2, rfl⟩
  | case4 c h h' =>
    intro n hn
    rw [stringLen.eq_def] at hn
    simp [h, h'] at hn
    simp at h'
    subst h'; subst hn
    exact ⟨[], [], rfl, .nil, not_starts_nil _, rfl⟩
  | case5 c h h' d t hd ih =>
    intro n hn
    rw [stringLen.eq_def] at hn
    simp only [h, h', hd, if_true, Option.map_eq_some_iff, Bool.false_eq_true, if_false] at hn
    obtain ⟨m, hm, rfl⟩ := hn
    obtain ⟨b, f, rfl, h1, h2, rfl⟩ := ih m hm
    simp at h' hd; subst h'; subst hd
    exact ⟨39 :: 39 :: b, f, rfl, .dbl h1, h2, rfl⟩
  | case6 c h h' d t hd =>
    intro n hn
    rw [stringLen.eq_def] at hn
    simp [h, h', hd] at hn
    simp at h'
    subst h'; subst hn
    exact ⟨[], d :: t, rfl, .nil, by rw [starts_cons]; simpa using hd, rfl⟩
  | case7 c t h h' ih =>
    intro n hn
    rw [stringLen.eq_def] at hn
    simp only [h, h', Option.map_eq_some_iff, Bool.false_eq_true, if_false] at hn
    obtain ⟨m, hm, rfl⟩ := hn
    obtain ⟨b, f, rfl, h1, h2, rfl⟩ := ih m hm
    simp at h h'
    exact ⟨c :: b, f, rfl, .plain h' h h1, h2, rfl⟩

/-! numbers -/

theorem numLoop_digits (he hd fl : Bool) (d : Str) (h : ∀ c ∈ d, Digit c) (r : Str) :
    ∀ hn i, numLoop false he hd fl hn i (d ++ r) =
      numLoop false he hd fl (hn || !d.isEmpty) (i + d.length) r := by
  induction d with
  | nil => simp
  | cons c t ih =>
    intro hn i
    have hc := (isDigit_iff c).2 (h c (by simp))
    rw [List.cons_append, numLoop.eq_def]
    simp only [hc, Bool.not_false, Bool.and_self, Bool.true_or, if_true]
    rw [ih (fun d hd => h d (by simp [hd]))]
    simp [Nat.add_assoc, Nat.add_comm 1]

theorem numLoop_hex (he hd fl : Bool) (d : Str) (h : ∀ c ∈ d, HexDigit c) (r : Str) :
    ∀ hn i, numLoop true he hd fl hn i (d ++ r) =
      numLoop true he hd fl (hn || !d.isEmpty) (i + d.length) r := by
  induction d with
  | nil => simp
  | cons c t ih =>
    intro hn i
    have hc := (isHexDigit_iff c).2 (h c (by simp))
    rw [List.cons_append, numLoop.eq_def]
    simp only [hc, Bool.not_true, Bool.false_and, Bool.and_self, Bool.or_true, if_true]
    rw [ih (fun d hd => h d (by simp [hd]))]
    simp [Nat.add_assoc, Nat.add_comm 1]

theorem numLoop_stop (b he hd fl hn : Bool) (i : Nat) (r : Str)
    (h : ¬ Starts (fun c => WordPart c ∨ c = 46) r) :
    numLoop b he hd fl hn i r = some (i, fl, hn, r) := by
  cases r with
  | nil => rw [numLoop]
  | cons c t =>
    rw [starts_cons] at h
    have h1 : isDigit c = false := by
      rw [Bool.eq_false_iff, ne_eq, isDigit_iff]
      exact fun hc => h (Or.inl (Or.inr (Or.inl hc)))
    have h2 : isHexDigit c = false := by
      rw [Bool.eq_false_iff, ne_eq, isHexDigit_iff]
      intro hc; apply h; left
      simp only [HexDigit, WordPart, WordStart, Digit] at *; omega
    have h3 : c ≠ 46 := fun hc => h (Or.inr hc)
    have h4 : c ≠ 101 ∧ c ≠ 69 := by
      constructor <;> (rintro rfl; apply h; left; left; simp [WordStart])
    rw [numLoop.eq_def]
    simp [h1, h2, h3, h4]

theorem numLoop_decimal {d frac exp follow : Str} (hd : d ≠ []) (hdd : ∀ c ∈ d, Digit c)
    (hf : frac = [] ∨ ∃ f, frac = 46 :: f ∧ ∀ c ∈ f, Digit c)
    (he : exp = [] ∨ ∃ e sg x, exp = e :: (sg ++ x) ∧ (e = 101 ∨ e = 69) ∧ OptSign sg ∧ x ≠ [] ∧
      ∀ c ∈ x, Digit c)
    (hfol : ¬ Starts (fun c => WordPart c ∨ c = 46) follow) (i : Nat) :
    numLoop false false false false false i (d ++ (frac ++ (exp ++ follow))) =
      some (i + (d ++ (frac ++ exp)).length, (!frac.isEmpty || !exp.isEmpty), true, follow) := by
  rw [numLoop_digits false false false d hdd]
  have hde : d.isEmpty = false := by cases d <;> simp at hd ⊢
  simp only [hde, Bool.not_false, Bool.or_true]
  -- the exponent phase
  have hexp : ∀ (hdot fl : Bool) (j : Nat), numLoop false false hdot fl true j (exp ++ follow) =
      some (j + exp.length, (fl || !exp.isEmpty), true, follow) := by
    intro hdot fl j
    rcases he with rfl | ⟨e, sg, x, rfl, he, hsg, hx, hxd⟩
    · rw [List.nil_append, numLoop_stop _ _ _ _ _ _ _ hfol]; simp
    · have hed : isDigit e = false := by rcases he with rfl | rfl <;> decide
      have he46 : (e == 46) = false := by rcases he with rfl | rfl <;> decide
      have hee : (e == 101 || e == 69) = true := by rcases he with rfl | rfl <;> decide
      obtain ⟨x0, xt, rfl⟩ : ∃ a b, x = a :: b := by
        cases x with
        | nil => exact absurd rfl hx
        | cons a b => exact ⟨a, b, rfl⟩
      have hx0 : isDigit x0 = true := (isDigit_iff _).2 (hxd x0 (by simp))
      have hx0' : Digit x0 := hxd x0 (by simp)
      rcases hsg with rfl | rfl | rfl
      · have hns : (x0 == 43 || x0 == 45) = false := by simp [Digit] at hx0' ⊢; omega
        simp only [List.nil_append, List.cons_append]
        rw [numLoop.eq_def]
        simp only [hed, he46, hee, hns, hx0, Bool.not_false, Bool.and_false, Bool.false_and,
          Bool.or_self, Bool.false_eq_true, if_false, Bool.and_self, if_true]
        rw [← List.cons_append, numLoop_digits _ _ _ (x0 :: xt) hxd, numLoop_stop _ _ _ _ _ _ _ hfol]
        simp; omega
      · simp only [List.cons_append, List.nil_append]
        rw [numLoop.eq_def]
        simp only [hed, he46, hee, List.head?_cons, Option.map_some, Option.getD_some, hx0,
          Bool.not_false, Bool.and_false, Bool.false_and, Bool.or_self, Bool.false_eq_true, if_false,
          Bool.and_self, if_true, beq_self_eq_true, Bool.true_or]
        rw [← List.cons_append, numLoop_digits _ _ _ (x0 :: xt) hxd, numLoop_stop _ _ _ _ _ _ _ hfol]
        simp; omega
      · simp only [List.cons_append, List.nil_append]
        rw [numLoop.eq_def]
        simp only [hed, he46, hee, List.head?_cons, Option.map_some, Option.getD_some, hx0,
          Bool.not_false, Bool.and_false, Bool.false_and, Bool.or_self, Bool.false_eq_true, if_false,
          Bool.and_self, if_true, beq_self_eq_true, Bool.or_true]
        rw [← List.cons_append, numLoop_digits _ _ _ (x0 :: xt) hxd, numLoop_stop _ _ _ _ _ _ _ hfol]
        simp; omega
  rcases hf with rfl | ⟨f, rfl, hff⟩
  · rw [List.nil_append, hexp]; simp; omega
  · rw [List.cons_append, numLoop.eq_def]
    have h46 : isDigit 46 = false := by decide
    simp only [h46, Bool.and_false, Bool.false_and, Bool.or_self, Bool.false_eq_true, if_false,
      beq_self_eq_true, if_true]
    rw [numLoop_digits _ _ _ f hff, Bool.true_or, hexp]
    simp; omega

/-- What the number loop takes off, base 10. -/
theorem numLoop_sound10 (hasExp hasDot flt hasNum : Bool) (i : Nat) (r : Str) :
    ∀ j flt' hn rem, numLoop false hasExp hasDot flt hasNum i r = some (j, flt', hn, rem) →
    ∃ d frac exp, r = (d ++ (frac ++ exp)) ++ rem ∧ j = i + (d ++ (frac ++ exp)).length ∧
      (∀ c ∈ d, Digit c) ∧
      (frac = [] ∨ ∃ f, frac = 46 :: f ∧ ∀ c ∈ f, Digit c) ∧
      (exp = [] ∨ ∃ e sg x, exp = e :: (sg ++ x) ∧ (e = 101 ∨ e = 69) ∧ OptSign sg ∧ x ≠ [] ∧
        ∀ c ∈ x, Digit c) ∧
      (hasExp = true → frac = [] ∧ exp = []) ∧ (hasDot = true → frac = []) ∧
      flt' = (flt || !frac.isEmpty || !exp.isEmpty) ∧
      ¬ Starts (fun c => Digit c ∨ c = 46) rem := by
  generalize hb : false = b16
  fun_induction numLoop b16 hasExp hasDot flt hasNum i r with
  | case1 he hd fl hn i =>
    intro j flt' hn rem h
    simp at h
    obtain ⟨rfl, rfl, rfl, rfl⟩ := h
    exact ⟨[], [], [], by simp [not_starts_nil]⟩
  | case2 he hd fl hn i c t hc ih =>
    subst hb
    intro j flt' hn rem h
    obtain ⟨d, frac, exp, h1, h2, h3, h4, h5, h6, h7, h8, h9⟩ := ih j flt' hn rem h
    simp at hc
    refine ⟨c :: d, frac, exp, by simp [h1], by simp [h2]; omega, ?_, h4, h5, h6, h7, h8, h9⟩
    intro x hx; rcases List.mem_cons.1 hx with rfl | hx
    · exact (isDigit_iff _).1 hc
    · exact h3 x hx
  | case3 => intro _ _ _ _ h; simp at h
  | case4 he hd fl hn i c t hc h46 hdot ih =>
    subst hb
    intro j flt' hn rem h
    obtain ⟨d, frac, exp, h1, h2, h3, h4, h5, h6, h7, h8, h9⟩ := ih j flt' hn rem h
    simp at h46 hdot
    have hfr := h7 rfl
    subst hfr; subst h46
    refine ⟨[], 46 :: d, exp, by simp [h1], by simp [h2]; omega, by simp, Or.inr ⟨d, rfl, h3⟩,
      h5, ?_, ?_, by simp [h8], h9⟩
    · intro hh; rw [hdot.2] at hh; simp at hh
    · intro hh; rw [hdot.1] at hh; simp at hh
  | case5 => intro _ _ _ _ h; simp at h
  | case6 => intro _ _ _ _ h; simp at h
  | case7 he hd fl hn i c hc h46 hexp he1 d t' hds hdig ih =>
    subst hb
    intro j flt' hn rem h
    obtain ⟨dd, frac, exp, h1, h2, h3, h4, h5, h6, h7, h8, h9⟩ := ih j flt' hn rem h
    obtain ⟨rfl, rfl⟩ := h6 rfl
    simp at h1 h2 hexp hds
    rw [headP_iff _ _ isDigit_iff] at hdig
    have hdn : dd ≠ [] := by
      rintro rfl
      rw [h1] at hdig
      obtain ⟨a, b, hab, hd⟩ := hdig
      exact h9 ⟨a, b, by simpa using hab, Or.inl hd⟩
    refine ⟨[], [], c :: ([d] ++ dd), by simp [h1], by simp [h2]; omega, by simp, Or.inl rfl,
      Or.inr ⟨c, [d], dd, rfl, by simpa using hexp, ?_, hdn, h3⟩, ?_, by simp, by simp [h8], h9⟩
    · rcases hds with rfl | rfl <;> simp [OptSign]
    · intro hh; simp [hh] at he1
  | case8 => intro _ _ _ _ h; simp at h
  | case9 he hd fl hn i c hc h46 hexp he1 d t' hds hdig ih =>
    subst hb
    intro j flt' hn rem h
    obtain ⟨dd, frac, exp, h1, h2, h3, h4, h5, h6, h7, h8, h9⟩ := ih j flt' hn rem h
    obtain ⟨rfl, rfl⟩ := h6 rfl
    simp at h1 h2 hexp
    have hdn : dd ≠ [] := by
      rintro rfl
      exact h9 ⟨d, t', by simpa using h1.symm, Or.inl ((isDigit_iff _).1 hdig)⟩
    refine ⟨[], [], c :: ([] ++ dd), by simp [h1], by simp [h2]; omega, by simp, Or.inl rfl,
      Or.inr ⟨c, [], dd, rfl, by simpa using hexp, Or.inl rfl, hdn, h3⟩, ?_, by simp, by simp [h8], h9⟩
    · intro hh; simp [hh] at he1
  | case10 => intro _ _ _ _ h; simp at h
  | case11 he hd fl hn i c t hc h46 hexp =>
    subst hb
    intro j flt' hn rem h
    simp at h
    obtain ⟨rfl, rfl, rfl, rfl⟩ := h
    refine ⟨[], [], [], by simp, by simp, by simp, by simp, by simp, by simp, by simp, by simp, ?_⟩
    rw [starts_cons]
    simp at hc h46
    rintro (h | h)
    · rw [← isDigit_iff, hc] at h; simp at h
    · exact h46 h

theorem numLoop_sound16 (hasExp hasDot flt hasNum : Bool) (i : Nat) (r : Str) :
    ∀ j flt' hn rem, numLoop true hasExp hasDot flt hasNum i r = some (j, flt', hn, rem) →
    ∃ d, r = d ++ rem ∧ j = i + d.length ∧ (∀ c ∈ d, HexDigit c) ∧ flt' = flt ∧
      hn = (hasNum || !d.isEmpty) ∧ ¬ Starts (fun c => c = 46) rem := by
  generalize hb : true = b16
  fun_induction numLoop b16 hasExp hasDot flt hasNum i r with
  | case1 he hd fl hn i =>
    intro j flt' hn rem h
    simp at h
    obtain ⟨rfl, rfl, rfl, rfl⟩ := h
    exact ⟨[], by simp [not_starts_nil]⟩
  | case2 he hd fl hn i c t hc ih =>
    subst hb
    intro j flt' hn rem h
    obtain ⟨d, h1, h2, h3, h4, h5, h6⟩ := ih j flt' hn rem h
    simp at hc
    refine ⟨c :: d, by simp [h1], by simp [h2]; omega, ?_, h4, by simp [h5], h6⟩
    intro x hx; rcases List.mem_cons.1 hx with rfl | hx
    · exact (isHexDigit_iff _).1 hc
    · exact h3 x hx
  | case3 => intro _ _ _ _ h; simp at h
  | case4 he hd fl hn i c t hc h46 hdot ih => subst hb; simp at hdot
  | case5 => intro _ _ _ _ h; simp at h
  | case6 => intro _ _ _ _ h; simp at h
  | case7 he hd fl hn i c hc h46 hexp he1 d t' hds hdig ih => subst hb; simp at hexp
  | case8 => intro _ _ _ _ h; simp at h
  | case9 he hd fl hn i c hc h46 hexp he1 d t' hds hdig ih => subst hb; simp at hexp
  | case10 => intro _ _ _ _ h; simp at h
  | case11 he hd fl hn i c t hc h46 hexp =>
    subst hb
    intro j flt' hn rem h
    simp at h
    obtain ⟨rfl, rfl, rfl, rfl⟩ := h
    refine ⟨[], by simp, by simp, by simp, by simp, by simp, ?_⟩
    rw [starts_cons]
    simpa using h46

end Verif

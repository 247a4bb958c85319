/- Properties C11-C13 (positions shown to the user) and C15 (sets). -/
import Verif.Lemmas.Source
import Verif.GoSet

namespace Verif
open Spec

/-! ### C11 Line and column are right for every offset -/

/-- C11. For every offset of the input, the reported line is one more than the number of newlines
before it and the column one more than the number of bytes since the last newline. -/
theorem C11_line_column (input : Str) (off : Nat) (h : off ≤ input.length) :
    position (newLineStarts input) off = (lineOf input off, columnOf input off) :=
  position_eq input off h

example : position (newLineStarts b!"ab\ncd\n\nx") 5 = (2, 3) ∧ 5 ≤ b!"ab\ncd\n\nx".length := by
  decide +kernel

theorem lineStarts_mono (s : Str) : ∀ i, (i :: lineStartsFrom i s).Pairwise (· < ·) := by
  induction s with
  | nil => simp [lineStartsFrom]
  | cons c t ih =>
    intro i
    have h1 := ih (i + 1)
    rw [List.pairwise_cons] at h1 ⊢
    simp only [lineStartsFrom]
    split
    · refine ⟨?_, ?_⟩
      · intro x hx
        rcases List.mem_cons.1 hx with rfl | hx
        · omega
        · have := h1.1 x hx; omega
      · exact ih (i + 1)
    · exact ⟨fun x hx => by have := h1.1 x hx; omega, h1.2⟩

/-- C11. Offset and (line, column) determine each other. -/
theorem C11_position_injective (input : Str) (o o' : Nat) (h : o ≤ input.length)
    (h' : o' ≤ input.length)
    (heq : position (newLineStarts input) o = position (newLineStarts input) o') : o = o' := by
  -- the column is the distance to the line start, which the line number determines
  have key : ∀ o, o ≤ input.length →
      o = (newLineStarts input).getD ((position (newLineStarts input) o).1 - 1) 0 +
        ((position (newLineStarts input) o).2 - 1) := by
    intro o ho
    have h1 := C11_line_column input o ho
    have h2 : (newLineStarts input).getD ((position (newLineStarts input) o).1 - 1) 0 ≤ o := by
      rw [h1]
      simp only [lineOf, Nat.add_sub_cancel]
      have hs : input = input.take o ++ input.drop o := (List.take_append_drop _ _).symm
      have hlen : (input.take o).length = o := by simp; omega
      generalize input.take o = a at hs hlen
      generalize input.drop o = b at hs
      have hst : newLineStarts input = (0 :: lineStartsFrom 0 a) ++ lineStartsFrom o b := by
        rw [hs, newLineStarts, lineStartsFrom_append, hlen]; simp
      have hl := lineStartsFrom_length 0 a
      have hk : a.count 10 < (0 :: lineStartsFrom 0 a).length := by
        rw [List.length_cons, hl]; omega
      rw [hst, List.getD_eq_getElem?_getD, List.getElem?_append_left hk, List.getElem?_eq_getElem hk]
      have hm := List.getElem_mem hk
      rcases List.mem_cons.1 hm with h | h
      · simp only [Option.getD_some]; omega
      · have := lineStartsFrom_bounds 0 a _ h
        simp only [Option.getD_some]; omega
    unfold position at h2 ⊢
    simp only [Nat.add_sub_cancel] at h2 ⊢
    omega
  rw [key o h, key o' h', heq]

example : position (newLineStarts b!"a\nb") 1 ≠ position (newLineStarts b!"a\nb") 2 := by decide +kernel

/-! ### C12 The excerpt line is the right line -/

theorem dropCR_slice (s : Str) (a e : Nat) (he : e ≤ s.length) :
    slice s a (if e > a && s.getD (e - 1) 0 == 13 then e - 1 else e) = dropCR (slice s a e) := by
  by_cases hlt : a < e
  · have hlast : (slice s a e).getLast? = some (s.getD (e - 1) 0) := by
      rw [slice, List.getLast?_eq_getElem?]
      simp only [List.length_drop, List.length_take, List.getElem?_drop, List.getD_eq_getElem?_getD]
      have e1 : a + (min e s.length - a - 1) = e - 1 := by omega
      rw [e1, List.getElem?_take_of_lt (by omega), List.getElem?_eq_getElem (by omega)]
      rfl
    unfold dropCR
    rw [hlast]
    by_cases hcr : s.getD (e - 1) 0 = 13
    · simp only [hcr, hlt, decide_true, beq_self_eq_true, Bool.and_self, if_true, slice]
      rw [List.dropLast_eq_take, List.length_drop, List.length_take, List.drop_take, List.drop_take,
        List.take_take]
      congr 1
      omega
    · rw [if_neg (by simp only [Bool.and_eq_true, beq_iff_eq]; exact fun h => hcr h.2),
        if_neg (by simpa using hcr)]
  · have : ¬ (e > a && s.getD (e - 1) 0 == 13) = true := by simp; omega
    rw [if_neg this]
    have h0 : slice s a e = [] := by
      rw [slice, List.drop_eq_nil_iff]; simp; omega
    rw [h0]; rfl

/-- C12. The text shown for line `k` is the `k`-th line of the input, without the newline and
without one trailing carriage return; for a line that does not exist it is empty. -/
theorem C12_line_text (input : Str) (k : Nat) :
    lineText (newLineStarts input) input k =
      if k = 0 then [] else match (lines input)[k - 1]? with
        | some l => dropCR l
        | none => [] := by
  have hg := lines_get input 0 (k - 1)
  have hb : ∀ j, j < (newLineStarts input).length → (newLineStarts input).getD j 0 ≤ input.length := by
    intro j hj
    rw [List.getD_eq_getElem?_getD, List.getElem?_eq_getElem hj]
    have hm := List.getElem_mem hj
    rcases List.mem_cons.1 hm with h | h
    · simp only [Option.getD_some]; omega
    · have := lineStartsFrom_bounds 0 input _ h
      simp only [Option.getD_some]; omega
  unfold lineText
  by_cases hk : k = 0
  · subst hk; simp
  · rw [if_neg hk, hg]
    have e0 : (0 :: lineStartsFrom 0 input) = newLineStarts input := rfl
    rw [e0]
    by_cases hk2 : k - 1 < (newLineStarts input).length
    · have hc : ¬ (decide (k < 1) || decide (k > (newLineStarts input).length)) = true := by
        simp; omega
      rw [if_neg hc, if_pos hk2]
      simp only []
      have e1 : k - 1 + 1 = k := by omega
      rw [e1]
      simp only [Nat.sub_zero]
      rw [dropCR_slice]
      split
      · next hlt => have := hb k hlt; omega
      · exact Nat.le_refl _
    · have hc : (decide (k < 1) || decide (k > (newLineStarts input).length)) = true := by
        simp; omega
      rw [if_pos hc, if_neg hk2]

/-- C12. The lines joined by newlines give back the input, and contain no newline. -/
theorem C12_lines_join (input : Str) :
    unlines (lines input) = input ∧ ∀ l ∈ lines input, 10 ∉ l :=
  ⟨unlines_lines input, lines_noNewline input⟩

example : lines b!"ab\r\ncd\n" = [b!"ab\r", b!"cd", b!""] ∧
    lineText (newLineStarts b!"ab\r\ncd\n") b!"ab\r\ncd\n" 1 = b!"ab" := by decide +kernel

/-! ### C13 The caret points at the offending byte -/

theorem takeWhile_all {α : Type} (p : α → Bool) (l : List α) (h : ∀ x ∈ l, p x = true) :
    l.takeWhile p = l := by
  induction l with
  | nil => rfl
  | cons a t ih =>
    rw [List.takeWhile_cons, if_pos (h a (by simp)), ih (fun x hx => h x (by simp [hx]))]

theorem column_line (s : Str) (off : Nat) :
    ∃ l, (lines s)[lineOf s off - 1]? = some l ∧ columnOf s off - 1 ≤ l.length ∧
      ∀ c, s[off]? = some c → c ≠ 10 → l[columnOf s off - 1]? = some c := by
  simp only [lineOf, columnOf, Nat.add_sub_cancel]
  induction s generalizing off with
  | nil => exact ⟨[], by simp [lines], by simp, by simp⟩
  | cons c t ih =>
    cases off with
    | zero =>
      by_cases hc : c = 10
      · subst hc
        exact ⟨[], by simp [lines], by simp, by simp⟩
      · cases hl : lines t with
        | nil => exact absurd hl (lines_ne_nil t)
        | cons l ls =>
          refine ⟨c :: l, by simp [lines, hc, hl], by simp, by simp⟩
    | succ off =>
      obtain ⟨l, h1, h2, h3⟩ := ih off
      simp only [List.take_succ_cons, List.reverse_cons, List.takeWhile_append, List.getElem?_cons_succ]
      by_cases hc : c = 10
      · subst hc
        refine ⟨l, by simpa [lines] using h1, ?_⟩
        have e : (if (List.takeWhile (fun x => decide (x ≠ 10)) (t.take off).reverse).length =
            (t.take off).reverse.length then (t.take off).reverse ++ [10].takeWhile (fun x => decide (x ≠ 10))
            else (t.take off).reverse.takeWhile (fun x => decide (x ≠ 10))) =
            (t.take off).reverse.takeWhile (fun x => decide (x ≠ 10)) := by
          split
          · next h =>
            have := List.takeWhile_prefix (fun x => decide (x ≠ 10)) (l := (t.take off).reverse)
            rw [List.IsPrefix.eq_of_length this h]; simp
          · rfl
        rw [e]; exact ⟨h2, h3⟩
      · have hcnt : (c :: t.take off).count 10 = (t.take off).count 10 := by
          rw [List.count_cons]; simp [hc]
        cases hl : lines t with
        | nil => exact absurd hl (lines_ne_nil t)
        | cons l0 ls =>
          have hlc : lines (c :: t) = (c :: l0) :: ls := by simp [lines, hc, hl]
          rw [hcnt, hlc]
          rw [hl] at h1
          split
          · next h =>
            have hp := List.takeWhile_prefix (fun x => decide (x ≠ 10)) (l := (t.take off).reverse)
            have heq := List.IsPrefix.eq_of_length hp h
            have hno : 10 ∉ t.take off := by
              intro hm
              have hm' : 10 ∈ (t.take off).reverse := by simpa using hm
              rw [← heq] at hm'
              have := List.all_takeWhile (p := fun x => decide (x ≠ 10)) (l := (t.take off).reverse)
              rw [List.all_eq_true] at this
              simpa using this 10 hm'
            have h0 : (t.take off).count 10 = 0 := List.count_eq_zero.2 hno
            rw [h0] at h1 ⊢
            simp at h1
            subst h1
            have hlen : (List.takeWhile (fun x => decide (x ≠ 10)) (t.take off).reverse).length =
              (t.take off).length := by rw [heq]; simp
            rw [hlen] at h2 h3
            refine ⟨c :: l0, by simp, ?_, ?_⟩
            · have : [c].takeWhile (fun x => decide (x ≠ 10)) = [c] := by simp [hc]
              rw [this]; simp at h2 ⊢; exact h2
            · have : [c].takeWhile (fun x => decide (x ≠ 10)) = [c] := by simp [hc]
              rw [this]
              intro d hd hd'
              have := h3 d hd hd'
              simpa using this
          · next h =>
            have hpos : 1 ≤ (t.take off).count 10 := by
              apply Nat.one_le_iff_ne_zero.2
              intro h0
              apply h
              have hno := List.count_eq_zero.1 h0
              have : ∀ x ∈ (t.take off).reverse, decide (x ≠ 10) = true := by
                intro x hx
                simp only [decide_eq_true_eq]
                rintro rfl
                exact hno (by simpa using hx)
              rw [takeWhile_all _ _ this]
            refine ⟨l, ?_, h2, h3⟩
            generalize (t.take off).count 10 = n at hpos h1
            obtain ⟨m, rfl⟩ : ∃ m, n = m + 1 := ⟨n - 1, by omega⟩
            simpa using h1

/-- C13. For an error at offset `pos`, the rendering is the line of the error, then a line that
has carets behind `column - 1` blanks; the excerpt has at least `column - 1` bytes before the caret,
contains no newline, and the byte above the first caret is the byte at `pos` (unless that byte is a
line end).  Columns are counted in bytes: the statement says nothing about display width. -/
theorem C13_caret (e : ParseError) (h : e.pos ≤ e.input.length)
    (hs : e.starts = some (newLineStarts e.input))
    (hp : (e.line, e.column) = position (newLineStarts e.input) e.pos) :
    ∃ excerpt w, e.renderCaret = excerpt ++ [10] ++ List.replicate (e.column - 1) 32 ++
        List.replicate w 94 ++ [10] ∧
      1 ≤ w ∧ 10 ∉ excerpt ∧
      (∀ t, e.got = some t → t.str ≠ [] → w = t.str.length) ∧
      ∀ c, e.input[e.pos]? = some c → c ≠ 10 → c ≠ 13 → excerpt[e.column - 1]? = some c := by
  rw [position_eq _ _ h] at hp
  simp only [Prod.mk.injEq] at hp
  obtain ⟨hl, hc⟩ := hp
  refine ⟨lineText (newLineStarts e.input) e.input e.line, e.caretWidth, ?_, ?_, ?_, ?_, ?_⟩
  · simp [ParseError.renderCaret, hs, repeatByte]
  · simp only [ParseError.caretWidth]
    split
    · split <;> omega
    · omega
  · rw [C12_line_text]
    split
    · simp
    · split
      · next l hl =>
        have := lines_noNewline e.input l (List.mem_of_getElem? hl)
        intro hm; apply this
        unfold dropCR at hm
        split at hm
        · exact List.dropLast_subset _ hm
        · exact hm
      · simp
  · intro t ht hne
    simp only [ParseError.caretWidth, ht]
    have : 1 ≤ t.str.length := List.length_pos_iff.2 hne
    split <;> omega
  · intro c hcc hn hn'
    obtain ⟨l, h1, h2, h3⟩ := column_line e.input e.pos
    rw [C12_line_text, hl, h1]
    have hl0 : lineOf e.input e.pos ≠ 0 := by simp [lineOf]
    rw [if_neg hl0]
    have hx := h3 c hcc hn
    rw [hc]
    simp only [dropCR]
    split
    · next hlast =>
      rw [List.getLast?_eq_getElem?] at hlast
      have hlt : columnOf e.input e.pos - 1 < l.length := by
        rw [List.getElem?_eq_some_iff] at hx; exact hx.1
      have hne : columnOf e.input e.pos - 1 ≠ l.length - 1 := by
        intro he; rw [he, hlast] at hx; simp at hx; exact hn' hx.symm
      rw [List.dropLast_eq_take, List.getElem?_take_of_lt (by omega)]
      exact hx
    · exact hx

example : ∃ e : ParseError, e.pos ≤ e.input.length ∧ e.starts = some (newLineStarts e.input) ∧
    (e.line, e.column) = position (newLineStarts e.input) e.pos ∧
    e.renderCaret = b!"FROM )\n     ^\n" :=
  ⟨{ pos := 14, line := 2, column := 6, input := b!"SELECT 1\nFROM )",
     starts := some (newLineStarts b!"SELECT 1\nFROM )") }, by decide +kernel⟩

/-! ### C15 Set behaves as a mathematical set -/

/-- The set after a sequence of operations (last operation first). -/
def applyOps {α : Type} [DecidableEq α] (init : List α) : List (SetOp α) → GoSet α
  | [] => GoSet.new init
  | .add a :: ops => (applyOps init ops).add a
  | .remove a :: ops => (applyOps init ops).remove a

theorem mem_mapInsert {α : Type} [DecidableEq α] (m : List α) (a b : α) :
    b ∈ GoSet.mapInsert m a ↔ b = a ∨ b ∈ m := by
  unfold GoSet.mapInsert
  split
  · constructor
    · exact Or.inr
    · rintro (rfl | h) <;> assumption
  · simp [or_comm]

theorem mem_new {α : Type} [DecidableEq α] (init m : List α) (b : α) :
    b ∈ init.foldl GoSet.mapInsert m ↔ b ∈ init ∨ b ∈ m := by
  induction init generalizing m with
  | nil => simp
  | cons a t ih =>
    rw [List.foldl_cons, ih, mem_mapInsert, List.mem_cons, or_left_comm, or_assoc]

theorem mem_applyOps {α : Type} [DecidableEq α] (init : List α) (ops : List (SetOp α)) (a : α) :
    a ∈ (applyOps init ops).m ↔ Member init ops a := by
  induction ops with
  | nil => simp [applyOps, GoSet.new, mem_new, Member]
  | cons op ops ih =>
    cases op with
    | add b => simp only [applyOps, GoSet.add, mem_mapInsert, ih, Member]
    | remove b =>
      simp only [applyOps, GoSet.remove, List.mem_filter, ih, Member, decide_eq_true_eq]
      exact and_comm

theorem nodup_mapInsert {α : Type} [DecidableEq α] (m : List α) (a : α) (h : m.Nodup) :
    (GoSet.mapInsert m a).Nodup := by
  unfold GoSet.mapInsert
  split
  · exact h
  · next hn =>
    rw [List.nodup_append]
    refine ⟨h, by simp, ?_⟩
    intro x hx y hy
    simp at hy; subst hy
    rintro rfl; exact hn hx

/-- C15. After any sequence of `Add` and `Remove`, `Contains` answers true exactly for the members
of the mathematical set, and `Members` lists each of them once. -/
theorem C15_set {α : Type} [DecidableEq α] (init : List α) (ops : List (SetOp α)) (a : α) :
    ((applyOps init ops).contains a = true ↔ Member init ops a) ∧
    (a ∈ (applyOps init ops).members ↔ Member init ops a) ∧
    (applyOps init ops).members.Nodup := by
  refine ⟨by simp [GoSet.contains, mem_applyOps], mem_applyOps init ops a, ?_⟩
  show (applyOps init ops).m.Nodup
  induction ops with
  | nil =>
    have : ∀ m : List α, m.Nodup → (init.foldl GoSet.mapInsert m).Nodup := by
      induction init with
      | nil => simp
      | cons b t ih => intro m hm; exact ih _ (nodup_mapInsert m b hm)
    exact this [] (by simp)
  | cons op ops ih =>
    cases op with
    | add b => exact nodup_mapInsert _ b ih
    | remove b => exact ih.sublist List.filter_sublist

example : Member [1, 2] [.add 3, .remove 1] 3 ∧ ¬ Member [1, 2] [.add 3, .remove 1] 1 := by
  simp [Member]

/-- C15. The keyword test of the lexer is membership in the keyword set built by `NewSet`. -/
theorem C15_keyword_sets (s : Str) :
    isKeyword s = keywordSet.contains s ∧ isReserved s = reservedSet.contains s ∧
    isIntervalUnit s = intervalUnitSet.contains s := by
  have key : ∀ l : List Str, l.contains s = (GoSet.new l).contains s := by
    intro l
    rw [Bool.eq_iff_iff]
    simp [GoSet.contains, GoSet.new, mem_new]
  exact ⟨key _, key _, key _⟩

example : isKeyword b!"SELECT" = true ∧ isReserved b!"DATE" = false := by decide +kernel

end Verif

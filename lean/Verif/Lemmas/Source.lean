/- Helper lemmas: line starts and binary search. -/
import Verif.Source
import Verif.Spec.Source

namespace Verif
open Spec

theorem searchLoop_spec (f : Nat → Bool) (n : Nat)
    (hm : ∀ i j, i ≤ j → j < n → f i = true → f j = true) :
    ∀ fuel i j, j ≤ n → i ≤ j → j - i ≤ fuel →
      (∀ k, k < i → f k = false) → (∀ k, j ≤ k → k < n → f k = true) →
      let r := searchLoop f fuel i j
      r ≤ n ∧ (∀ k, k < r → f k = false) ∧ (∀ k, r ≤ k → k < n → f k = true) := by
  intro fuel
  induction fuel with
  | zero =>
    intro i j hj hij hf h1 h2
    have : i = j := by omega
    subst this
    exact ⟨hj, h1, h2⟩
  | succ fuel ih =>
    intro i j hj hij hf h1 h2
    simp only [searchLoop]
    split
    · next hlt =>
      have hh : i ≤ (i + j) / 2 ∧ (i + j) / 2 < j := by omega
      split
      · next hfh =>
        simp at hfh
        refine ih _ _ hj (by omega) (by omega) ?_ h2
        intro k hk
        cases hfk : f k with
        | false => rfl
        | true =>
          have := hm k ((i + j) / 2) (by omega) (by omega) hfk
          rw [hfh] at this; simp at this
      · next hfh =>
        simp at hfh
        refine ih _ _ (by omega) (by omega) (by omega) h1 ?_
        intro k hk hkn
        exact hm _ _ hk hkn hfh
    · have : i = j := by omega
      subst this
      exact ⟨hj, h1, h2⟩

/-- On a monotone predicate `sort.Search` returns the first index at which it holds. -/
theorem sortSearch_spec (f : Nat → Bool) (n r : Nat) (hr : r ≤ n)
    (h1 : ∀ k, k < r → f k = false) (h2 : ∀ k, r ≤ k → k < n → f k = true) : sortSearch n f = r := by
  have hm : ∀ i j, i ≤ j → j < n → f i = true → f j = true := by
    intro i j hij hj hi
    by_cases h : i < r
    · rw [h1 i h] at hi; simp at hi
    · exact h2 j (by omega) hj
  obtain ⟨a, b, c⟩ := searchLoop_spec f n hm n 0 n (Nat.le_refl n) (Nat.zero_le n) (by omega)
    (by intro k hk; omega) (by intro k hk hkn; omega)
  show searchLoop f n 0 n = r
  generalize searchLoop f n 0 n = q at a b c
  apply Nat.le_antisymm
  · apply Nat.le_of_not_lt
    intro h
    have := b r h
    have := h2 r (Nat.le_refl _) (by omega)
    simp_all
  · apply Nat.le_of_not_lt
    intro h
    have := h1 q h
    have := c q (Nat.le_refl _) (by omega)
    simp_all

theorem lineStartsFrom_append (i : Nat) (a b : Str) :
    lineStartsFrom i (a ++ b) = lineStartsFrom i a ++ lineStartsFrom (i + a.length) b := by
  induction a generalizing i with
  | nil => simp [lineStartsFrom]
  | cons c t ih =>
    have e : i + (t.length + 1) = i + 1 + t.length := by omega
    simp only [List.cons_append, lineStartsFrom, List.length_cons, e]
    split <;> simp [ih]

theorem lineStartsFrom_bounds (i : Nat) (s : Str) : ∀ x ∈ lineStartsFrom i s, i < x ∧ x ≤ i + s.length := by
  induction s generalizing i with
  | nil => simp [lineStartsFrom]
  | cons c t ih =>
    intro x hx
    simp only [lineStartsFrom] at hx
    simp only [List.length_cons]
    split at hx
    · rcases List.mem_cons.1 hx with rfl | hx
      · omega
      · have := ih (i + 1) x hx; omega
    · have := ih (i + 1) x hx; omega

theorem lineStartsFrom_length (i : Nat) (s : Str) : (lineStartsFrom i s).length = s.count 10 := by
  induction s generalizing i with
  | nil => rfl
  | cons c t ih =>
    simp only [lineStartsFrom]
    split
    · next h => simp at h; simp [h, ih]
    · next h => simp at h; simp [ih, h]

theorem lineStarts_last' (i : Nat) (r : Str) :
    (i :: lineStartsFrom i r.reverse).getLast (by simp) + (r.takeWhile (· ≠ 10)).length =
      i + r.length := by
  induction r with
  | nil => simp [lineStartsFrom]
  | cons c r ih =>
    by_cases hc : c = 10
    · subst hc
      have e : lineStartsFrom i (10 :: r).reverse = lineStartsFrom i r.reverse ++ [i + r.length + 1] := by
        rw [List.reverse_cons, lineStartsFrom_append]; simp [lineStartsFrom]
      have e2 : ∀ (xs : List Nat) y h, (i :: (xs ++ [y])).getLast h = y := by
        intro xs y h; rw [List.getLast_cons (by simp)]; simp
      simp only [e, e2]
      simp; omega
    · have e : lineStartsFrom i (c :: r).reverse = lineStartsFrom i r.reverse := by
        rw [List.reverse_cons, lineStartsFrom_append]; simp [lineStartsFrom, hc]
      simp only [e, List.takeWhile_cons, hc, ne_eq, not_false_eq_true, decide_true, if_true,
        List.length_cons]
      simp only [ne_eq, decide_not] at ih ⊢
      omega

/-- The last line start is where the bytes since the last newline begin. -/
theorem lineStarts_last (i : Nat) (a : Str) :
    (i :: lineStartsFrom i a).getLast (by simp) + (a.reverse.takeWhile (· ≠ 10)).length =
      i + a.length := by
  have := lineStarts_last' i a.reverse
  simpa using this

theorem position_eq (s : Str) (off : Nat) (h : off ≤ s.length) :
    position (newLineStarts s) off = (lineOf s off, columnOf s off) := by
  have hs : s = s.take off ++ s.drop off := (List.take_append_drop _ _).symm
  have hlen : (s.take off).length = off := by simp; omega
  generalize ha : s.take off = a at hs hlen
  generalize s.drop off = b at hs
  have hst : newLineStarts s = (0 :: lineStartsFrom 0 a) ++ lineStartsFrom off b := by
    rw [hs, newLineStarts, lineStartsFrom_append, hlen]; simp
  have hr : sortSearch (newLineStarts s).length (fun j => decide ((newLineStarts s).getD j 0 > off)) =
      (0 :: lineStartsFrom 0 a).length := by
    apply sortSearch_spec
    · rw [hst]; simp
    · intro k hk
      rw [hst, List.getD_eq_getElem?_getD, List.getElem?_append_left hk]
      have : ∀ x ∈ (0 :: lineStartsFrom 0 a), x ≤ off := by
        intro x hx
        rcases List.mem_cons.1 hx with rfl | hx
        · omega
        · have := lineStartsFrom_bounds 0 a x hx; omega
      rw [List.getElem?_eq_getElem hk]
      have := this _ (List.getElem_mem hk)
      simp only [Option.getD_some, decide_eq_false_iff_not]; omega
    · intro k hk hkn
      rw [hst] at hkn ⊢
      rw [List.getD_eq_getElem?_getD, List.getElem?_append_right hk]
      have hk' : k - (0 :: lineStartsFrom 0 a).length < (lineStartsFrom off b).length := by
        simp only [List.length_append] at hkn; omega
      rw [List.getElem?_eq_getElem hk']
      have := lineStartsFrom_bounds off b _ (List.getElem_mem hk')
      simp only [Option.getD_some, decide_eq_true_eq]; omega
  unfold position
  simp only [hr]
  have hl := lineStartsFrom_length 0 a
  have hlast := lineStarts_last 0 a
  have hget : (newLineStarts s).getD ((0 :: lineStartsFrom 0 a).length - 1) 0 =
      (0 :: lineStartsFrom 0 a).getLast (by simp) := by
    rw [hst, List.getD_eq_getElem?_getD, List.getElem?_append_left (by simp),
      ← List.getLast?_eq_getElem?, List.getLast?_eq_some_getLast (by simp)]
    rfl
  rw [hget]
  simp only [lineOf, columnOf, ha, Prod.mk.injEq]
  refine ⟨by simp [hl], ?_⟩
  have hbound : (0 :: lineStartsFrom 0 a).getLast (by simp) ≤ off := by omega
  omega

theorem lines_ne_nil (s : Str) : lines s ≠ [] := by
  cases s with
  | nil => simp [lines]
  | cons c t =>
    simp only [lines]; split
    · simp
    · split <;> simp

theorem unlines_lines (s : Str) : unlines (lines s) = s := by
  induction s with
  | nil => rfl
  | cons c t ih =>
    simp only [lines]
    split
    · next h =>
      cases hl : lines t with
      | nil => exact absurd hl (lines_ne_nil t)
      | cons l ls => rw [hl] at ih; simp [unlines, ih, h]
    · cases hl : lines t with
      | nil => exact absurd hl (lines_ne_nil t)
      | cons l ls =>
        rw [hl] at ih
        cases ls with
        | nil => simp [unlines] at ih ⊢; exact ih
        | cons l' ls => simp [unlines] at ih ⊢; exact ih

theorem lines_noNewline (s : Str) : ∀ l ∈ lines s, 10 ∉ l := by
  induction s with
  | nil => simp [lines]
  | cons c t ih =>
    intro l hl
    simp only [lines] at hl
    split at hl
    · rcases List.mem_cons.1 hl with rfl | hl
      · simp
      · exact ih l hl
    · next hc =>
      cases hlt : lines t with
      | nil => exact absurd hlt (lines_ne_nil t)
      | cons l' ls =>
        rw [hlt] at hl ih
        rcases List.mem_cons.1 hl with rfl | hl
        · have := ih l' (by simp); simp [this, Ne.symm hc]
        · exact ih l (by simp [hl])

/-- The `k`-th line lies between the `k`-th line start and the next one. -/
theorem lines_get (s : Str) (i : Nat) : ∀ k, (lines s)[k]? =
    if k < (i :: lineStartsFrom i s).length then
      some (slice s ((i :: lineStartsFrom i s).getD k 0 - i)
        (if k + 1 < (i :: lineStartsFrom i s).length
          then (i :: lineStartsFrom i s).getD (k + 1) 0 - i - 1 else s.length))
    else none := by
  induction s generalizing i with
  | nil =>
    intro k
    cases k <;> simp [lines, lineStartsFrom, slice]
  | cons c t ih =>
    intro k
    have hb := lineStartsFrom_bounds (i + 1) t
    have ihk := ih (i + 1)
    simp only [lines, lineStartsFrom]
    by_cases hc : c = 10
    · subst hc
      simp only [if_true, beq_self_eq_true]
      cases k with
      | zero => simp [slice]
      | succ k =>
        simp only [List.getElem?_cons_succ, ihk k, List.length_cons, List.getD_cons_succ,
          Nat.add_lt_add_iff_right]
        split
        · next hk =>
          have hx : i + 1 ≤ ((i + 1) :: lineStartsFrom (i + 1) t).getD k 0 := by
            rw [List.getD_eq_getElem?_getD, List.getElem?_eq_getElem (by simpa using hk)]
            have := List.getElem_mem (l := (i + 1) :: lineStartsFrom (i + 1) t) (n := k) (by simpa using hk)
            rcases List.mem_cons.1 this with h | h
            · simp [h]
            · have := hb _ h; simp only [Option.getD_some]; omega
          congr 1
          generalize ((i + 1) :: lineStartsFrom (i + 1) t).getD k 0 = x at hx
          have hy : k < (lineStartsFrom (i + 1) t).length →
              i + 2 ≤ (lineStartsFrom (i + 1) t).getD k 0 := by
            intro hk'
            rw [List.getD_eq_getElem?_getD, List.getElem?_eq_getElem hk']
            have := hb _ (List.getElem_mem hk'); simp only [Option.getD_some]; omega
          split
          · next hk2 =>
            have hy := hy (by omega)
            generalize (lineStartsFrom (i + 1) t).getD k 0 = y at hy
            obtain ⟨y', rfl⟩ : ∃ y', y = i + 2 + y' := ⟨y - (i + 2), by omega⟩
            obtain ⟨x', rfl⟩ : ∃ x', x = i + 1 + x' := ⟨x - (i + 1), by omega⟩
            have e1 : i + 2 + y' - (i + 1) - 1 = y' := by omega
            have e2 : i + 2 + y' - i - 1 = y' + 1 := by omega
            have e3 : i + 1 + x' - (i + 1) = x' := by omega
            have e4 : i + 1 + x' - i = x' + 1 := by omega
            simp [slice, e1, e2, e3, e4]
          · obtain ⟨x', rfl⟩ : ∃ x', x = i + 1 + x' := ⟨x - (i + 1), by omega⟩
            have e3 : i + 1 + x' - (i + 1) = x' := by omega
            have e4 : i + 1 + x' - i = x' + 1 := by omega
            simp [slice, e3, e4]
        · rfl
    · have hc' : (c == 10) = false := by simpa using hc
      simp only [hc, hc', if_false, Bool.false_eq_true]
      have hget : ∀ k < (lineStartsFrom (i + 1) t).length,
          i + 2 ≤ (lineStartsFrom (i + 1) t).getD k 0 := by
        intro k hk
        rw [List.getD_eq_getElem?_getD, List.getElem?_eq_getElem hk]
        have := hb _ (List.getElem_mem hk); simp only [Option.getD_some]; omega
      cases hlt : lines t with
      | nil => exact absurd hlt (lines_ne_nil t)
      | cons l ls =>
        rw [hlt] at ihk
        cases k with
        | zero =>
          have h0 := ihk 0
          simp only [List.getElem?_cons_zero, List.length_cons, Nat.zero_lt_succ, if_true,
            List.getD_cons_zero, Nat.sub_self, List.getD_cons_succ, Nat.zero_add,
            Nat.lt_add_left_iff_pos, Option.some.injEq] at h0 ⊢
          rw [h0]
          split
          · next hk =>
            have := hget 0 hk
            generalize (lineStartsFrom (i + 1) t).getD 0 0 = y at this
            obtain ⟨y', rfl⟩ : ∃ y', y = i + 2 + y' := ⟨y - (i + 2), by omega⟩
            have e1 : i + 2 + y' - (i + 1) - 1 = y' := by omega
            have e2 : i + 2 + y' - i - 1 = y' + 1 := by omega
            simp [slice, e1, e2]
          · simp [slice]
        | succ k =>
          have h1 := ihk (k + 1)
          simp only [List.getElem?_cons_succ, List.length_cons, List.getD_cons_succ,
            Nat.add_lt_add_iff_right] at h1 ⊢
          rw [h1]
          split
          · next hk =>
            have hx := hget k hk
            generalize (lineStartsFrom (i + 1) t).getD k 0 = x at hx
            congr 1
            obtain ⟨x', rfl⟩ : ∃ x', x = i + 2 + x' := ⟨x - (i + 2), by omega⟩
            have e3 : i + 2 + x' - (i + 1) = x' + 1 := by omega
            have e4 : i + 2 + x' - i = x' + 2 := by omega
            split
            · next hk2 =>
              have hy := hget (k + 1) hk2
              generalize (lineStartsFrom (i + 1) t).getD (k + 1) 0 = y at hy
              obtain ⟨y', rfl⟩ : ∃ y', y = i + 2 + y' := ⟨y - (i + 2), by omega⟩
              have e1 : i + 2 + y' - (i + 1) - 1 = y' := by omega
              have e2 : i + 2 + y' - i - 1 = y' + 1 := by omega
              simp [slice, e1, e2, e3, e4]
            · simp [slice, e3, e4]
          · rfl

end Verif

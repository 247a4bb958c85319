/-
Lexical errors and the statement loop.
-/
import Verif.Semi.Parts

namespace Verif.Semi
open Verif Spec

theorem quoted_mem {q : Nat} : ∀ {t : Str}, q ∈ t → ∃ i, quotedLen q t = some i
  | [], h => by simp at h
  | c :: t, h => by
    rw [quotedLen]
    split
    · exact ⟨_, rfl⟩
    · rename_i hc
      simp only [List.mem_cons] at h
      rcases h with rfl | h
      · simp at hc
      · obtain ⟨i, hi⟩ := quoted_mem h
        exact ⟨i + 1, by rw [hi]; rfl⟩

theorem consumeNumber_err {l l' : Lx} (h : consumeNumber l = .err l') : l' = l := by
  unfold consumeNumber at h
  simp only [] at h
  split at h
  · simp at h; exact h.symm
  · split at h
    · simp at h; exact h.symm
    · simp at h

theorem consumeString_err {l l' : Lx} (h : consumeString l = .err l') : l' = l := by
  unfold consumeString at h
  split at h
  · simp at h; exact h.symm
  · simp at h

theorem scan_again {prev : Option Token} {l l' : Lx} {c : Nat} {t : Str} (hr : l.rest = c :: t) (hq : c ≠ 96 ∧ c ≠ 34)
    (h : scanToken prev l c t = .err l') : l' = l ∧ scanToken none l c t = .err l := by
  have idt : consumeIdent l ≠ .err l' := by
    unfold consumeIdent
    rw [hr]
    simp [hq.1, hq.2]
  have go : scanToken prev l c t = .err l' → l' = l := by
    intro h
    unfold scanToken at h
    repeat' split at h
    all_goals first
      | (simp [opToken] at h; done)
      | exact consumeNumber_err h
      | exact absurd h idt
      | exact consumeString_err h
      | (simp at h; exact h.symm)
  have e := go h
  refine ⟨e, ?_⟩
  subst e
  unfold scanToken at h ⊢
  split at h
  · simp [opToken] at h
  rename_i h1
  rw [if_neg h1]
  split at h
  · rename_i h2
    rw [if_pos]
    · exact h
    · simp only [Bool.and_eq_true] at h2 ⊢
      exact ⟨⟨h2.1.1, rfl⟩, h2.2⟩
  rename_i h2
  by_cases h3 : ((c == 43 || c == 45) && !hasPrecedenceToken none && (t.head?.map isDigit).getD false) = true
  · exfalso
    simp only [Bool.and_eq_true, Bool.or_eq_true, beq_iff_eq] at h3
    rcases h3.1.1 with rfl | rfl
    all_goals by_cases ht : t.head? = some 62 <;> simp [ht, isDigit, isIdentStart, opToken] at h
  · rw [if_neg h3]; exact h

/-- The state after an error at a number, a string or a non-ASCII character gives the same error again. -/
theorem err_again {l l' : Lx} (h : l.consume = .err l') : OpenEnd l.rest ∨ l'.consume = .err l' := by
  unfold Lx.consume at h
  cases hs : skipCommentsLen l.rest with
  | mk n e =>
    rw [hs] at h
    simp only [] at h
    split at h
    · rename_i he
      subst he
      obtain ⟨_, g, b, h1, h2, h3⟩ := skipCommentsF_err _ l.rest n (Nat.lt_succ_self _) hs
      left
      rw [h2]
      exact .comment h1 h3
    · rename_i he
      have he : e = false := by simpa using he
      subst he
      obtain ⟨hn, ⟨hng1, hng2, hng3⟩, hg⟩ := skipCommentsF_sound _ l.rest n (Nat.lt_succ_self _) hs
      simp only [Lx.skipN, hng1, List.drop_zero, Nat.add_zero] at h
      split at h
      · simp at h
      · rename_i c t hct
        have hgap : Gap (l.rest.take n) := by
          rcases hg with hg | ⟨hg, _⟩
          · exact hg
          · rw [hct] at hg; simp at hg
        have hrest : l.rest = l.rest.take n ++ c :: t := by rw [← hct, List.take_append_drop]
        by_cases hq : c = 96 ∨ c = 34
        · left
          rw [hrest]
          refine .quoted hgap hq fun hm => ?_
          obtain ⟨i, hi⟩ := quoted_mem hm
          rcases hq with rfl | rfl <;> simp [scanToken, consumeIdent, hct, hi, isDigit] at h
        · right
          simp only [not_or] at hq
          obtain ⟨rfl, h2⟩ := scan_again (l := ⟨l.off + n, l.rest.drop n, none⟩) hct hq h
          unfold Lx.consume
          simp only
          rw [skipCommentsLen_noGap ⟨hng1, hng2, hng3⟩]
          simp only [Lx.skipN, List.drop_zero, Nat.add_zero, hng1, Bool.false_eq_true, if_false]
          rw [hct] at h2 ⊢
          exact h2

/-! ### No statements -/

/-- On the way to a place where the lexer fails again and again. -/
def Doomed (bad dead : Lx) (l : Lx) : Prop := (∃ us, Run l us bad) ∨ l = dead

variable {bad dead : Lx} (hb : bad.consume = .err dead) (hd : dead.consume = .err dead)
include hb hd

theorem doomed_ok {l l' : Lx} (h : Doomed bad dead l) (hc : l.consume = .ok l') : ∃ us, Run l' us bad := by
  rcases h with ⟨us, h⟩ | rfl
  · cases h with
    | nil => rw [hb] at hc; cases hc
    | tok a _ c => rw [a] at hc; cases hc; exact ⟨_, c⟩
  · rw [hd] at hc; cases hc

theorem doomed_err {l l' : Lx} (h : Doomed bad dead l) (hc : l.consume = .err l') : l' = dead := by
  rcases h with ⟨us, h⟩ | rfl
  · cases h with
    | nil => rw [hb] at hc; cases hc; rfl
    | tok a _ _ => rw [a] at hc; cases hc
  · rw [hd] at hc; cases hc; rfl

theorem doomed_lock : Lock (fun l m => l = m ∧ Doomed bad dead l) where
  cur h := h.1 ▸ rfl
  off h := h.1 ▸ rfl
  eof h := h.1 ▸ rfl
  step := by
    rintro l _ ⟨rfl, h⟩ _
    cases hc : l.consume with
    | ok l' => exact ⟨rfl, Or.inl (doomed_ok hb hd h hc)⟩
    | err l' => exact ⟨rfl, Or.inr (doomed_err hb hd h hc)⟩

theorem doomed_stmts {l : Lx} {vs : List V} (h : Doomed bad dead l) : ¬ StmtsAll l vs := by
  rintro ⟨l1, l2, hs, h1, h2⟩
  induction hs with
  | @done l =>
    obtain ⟨us, hr⟩ := doomed_ok hb hd h h1
    obtain ⟨x, hx, _⟩ := run_shape hr
    have hne : bad.rest ≠ [] := by
      intro he
      have := end_scan he
      cases this with
      | eof a _ => rw [hb] at a; cases a
    have : l2.rest = [] := by simpa [Lx.isEOF] using h2
    rw [this] at hx
    exact hne (List.append_eq_nil_iff.1 hx.symm).2
  | semi a _ _ _ ih => exact ih (Or.inl (doomed_ok hb hd h a)) h1
  | @stmt l la lb l' v vs a _ _ d _ ih =>
    refine ih ?_ h1
    obtain ⟨n, s, hr, rfl⟩ := d
    have := runFn_twin (doomed_lock hb hd) all_checked n .parseStmt [.nat la.curPos] ⟨la, [], []⟩ ⟨la, [], []⟩ (by decide)
      ⟨⟨rfl, Or.inl (doomed_ok hb hd h a)⟩, rfl, rfl⟩ (by simp [sig_stmt])
    rw [hr] at this
    obtain ⟨_, ⟨⟨_, hat⟩, _, _⟩, _⟩ := this
    exact hat

omit hb hd

/-- At the start of a statement every lexical error is fatal. -/
theorem err_stmts {l l' : Lx} {vs : List V} (h : l.consume = .err l') : ¬ StmtsAll l vs := by
  rintro ⟨l1, l2, hs, h1, _⟩
  cases hs with
  | done => rw [h] at h1; cases h1
  | semi a => rw [h] at a; cases a
  | stmt a => rw [h] at a; cases a

end Verif.Semi

/-
The text before a `;` and the text behind it are parsed independently.
-/
import Verif.Semi.Segments

namespace Verif.Semi
open Verif Spec

theorem ahead_run {p q l m : Lx} (hc : p.cur = q.cur) (h : Ahead p q l m) : ∃ ts, Run m ts q := by
  induction h with
  | stop => exact ⟨[], .nil⟩
  | @step l m l' m' t a b c d e f ih =>
    obtain ⟨ts, h⟩ := ih
    have : l'.cur = m'.cur := by
      cases f with
      | stop => exact hc
      | step h => exact h
    exact ⟨_, .tok d (this ▸ e) h⟩

theorem semi_kind {t : Token} (h : t.semi = true) : t.kind = .op b!";" := by simpa [Token.semi] using h

/-- Behind `a` there is a `;`, whatever follows. -/
theorem closed_run {a : Str} (ha : Closed a) (b : Str) :
    ∃ ts t, Run (Lx.new (a ++ (b!";" ++ b))) ts ⟨a.length + 1, b, some t⟩ ∧ t.semi = true := by
  obtain ⟨ts, t, h, ht⟩ := ha
  have := ahead_swap (c := b) rfl (semi_kind ht) h (a ++ b!";") (by simp [Lx.new])
  obtain ⟨us, hu⟩ := ahead_run (by rfl) this
  refine ⟨us, t, ?_, ht⟩
  simpa [Lx.new] using hu

theorem semi_prec {t : Token} (h : t.semi = true) : hasPrecedenceToken (some t) = hasPrecedenceToken none := by
  have hk := semi_kind h
  simp only [hasPrecedenceToken, hk]
  decide

theorem blanks_gap : ∀ n, Gap (blanks n)
  | 0 => .nil
  | n + 1 => Gap.white (w := [32]) ⟨32, by decide, rfl⟩ (blanks_gap n)

theorem blanks_length (n : Nat) : (blanks n).length = n := by simp [blanks]

/-- Behind a `;` the statement loop works as on a text of its own. -/
theorem behind_semi {k : Nat} {b : Str} {t : Token} (ht : t.semi = true) {vs : List V} :
    StmtsAll ⟨k, b, some t⟩ vs ↔ Parses (blanks k ++ b) vs := by
  rw [parses_iff]
  apply stmtsAll_consume
  rw [consume_prev (semi_prec ht), Lx.new, consume_gap (blanks_gap k), blanks_length, Nat.zero_add]

theorem blank_end (k : Nat) (c : Option Token) : (⟨k, b!" ", c⟩ : Lx).consume = .ok ⟨k + 1, [], none⟩ := by
  rw [consume_ok_iff]
  exact .eof (off := k) (.gap (blanks_gap 1))

theorem blank_stmts {k : Nat} {c : Option Token} {l : Lx} {vs : List V} (h : Stmts ⟨k, b!" ", c⟩ vs l) : vs = [] := by
  have e := blank_end k c
  cases h with
  | done => rfl
  | semi a b => rw [e] at a; cases a; simp [Lx.isEOF] at b
  | stmt a b => rw [e] at a; cases a; simp [Lx.isEOF] at b

/-- A text is parsed as the part up to a `;` and the part behind it. -/
theorem parses_split {a b : Str} (ha : Closed a) (hb : b ≠ []) {us : List V} :
    Parses (a ++ (b!";" ++ b)) us ↔ ∃ vs ws, us = vs ++ ws ∧ Parses (a ++ b!"; ") vs ∧ Parses (blanks (a.length + 1) ++ b) ws := by
  have swap : ∀ (b c : Str), b ≠ [] → c ≠ [] → ∃ t, t.semi = true ∧
      Ends ⟨a.length + 1, b, some t⟩ ⟨a.length + 1, c, some t⟩ ∧
      Ahead ⟨a.length + 1, b, some t⟩ ⟨a.length + 1, c, some t⟩ (Lx.new (a ++ (b!";" ++ b))) (Lx.new (a ++ (b!";" ++ c))) := by
    intro b c hb hc
    obtain ⟨ts, t, h, ht⟩ := closed_run ha b
    refine ⟨t, ht, ⟨rfl, rfl, ?_, semi_not rfl (semi_kind ht)⟩, ?_⟩
    · cases b <;> cases c <;> simp_all [Lx.isEOF]
    · have := ahead_swap (c := c) rfl (semi_kind ht) h (a ++ b!";") (by simp [Lx.new])
      simpa [Lx.new] using this
  constructor
  · intro h
    obtain ⟨t, ht, hE, hA⟩ := swap b b!" " hb (by decide)
    rw [parses_iff] at h
    obtain ⟨vs, ws, rfl, _, h2, h3⟩ := stmts_ahead hE (by cases b <;> simp_all [Lx.isEOF]) hA h
    refine ⟨vs, ws, rfl, ?_, (behind_semi ht).1 h3⟩
    rw [parses_iff]
    exact ⟨_, _, h2, blank_end _ _, rfl⟩
  · rintro ⟨vs, ws, rfl, h1, h2⟩
    obtain ⟨t, ht, hE, hA⟩ := swap b!" " b (by decide) hb
    rw [parses_iff] at h1
    obtain ⟨vs', ws', rfl, _, h4, h5⟩ := stmts_ahead hE rfl hA h1
    obtain ⟨l1, l2, h5, _⟩ := h5
    cases blank_stmts h5
    rw [List.append_nil, parses_iff]
    obtain ⟨l3, l4, h6, h7⟩ := (behind_semi (k := a.length + 1) ht).2 h2
    exact ⟨l3, l4, h4.trans h6, h7⟩

end Verif.Semi

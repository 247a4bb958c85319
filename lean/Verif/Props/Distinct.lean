/-
Formatted texts tell the trees apart (property C51).
-/
import Verif.Props.Joined
import Verif.Props.DdlAgain

namespace Verif
open Spec

/-! ### C51 -/

/-- The hypotheses of C51 for two concrete texts. -/
theorem two_case : ∃ vs vs' ws ws' w w', Scan (Lx.new createText) (scanText createText).1 true ∧ Scan (Lx.new listText) (scanText listText).1 true ∧
    Statements (scanText createText).1 vs ∧ Statements (scanText listText).1 vs' ∧ Parses createText ws ∧ Parses listText ws' ∧ w ∈ ws ∧ w' ∈ ws' ∧
    (w.norm id).kept = true ∧ (w'.norm id).kept = true ∧ (w.norm id).orderly = true ∧ (w'.norm id).orderly = true ∧ PlainUsing (scanText createText).1 ∧ PlainUsing (scanText listText).1 ∧
    PlainEngine (scanText createText).1 ∧ PlainEngine (scanText listText).1 ∧ (∀ t ∈ (scanText createText).1, 10 ∉ t.str) ∧ ∀ t ∈ (scanText listText).1, 10 ∉ t.str := by
  obtain ⟨vs, ws, w, _, _, h1, h2, h3, h4, h5, h6, h7, h8, h9, _⟩ := c48_case
  obtain ⟨vs', ws', _, _, g1, g2, g3, g4, g5, g6, g7, g8, _⟩ := list_case
  obtain ⟨w', x, rfl⟩ := List.length_eq_two.1 g4
  have ht := C47_statements_tree _ _ _ _ g1 g2 g3
  have := g5 (w'.norm id) (by simp [← ht])
  exact ⟨vs, vs', ws, _, w, w', h1, g1, h2, g2, h3, g3, h4, by simp, h5, this.1, h6, this.2, h7, g6, h8, g7, h9, g8⟩

/-- **C51**, one line: two statements of the grammar, of the same text or of two texts, have the same formatted text exactly if they have the same tree up to positions.
The restrictions are those of C48.  Missing: statements that do not meet them, for which it is false (`C51_distinct_lost`). -/
theorem C51_compact_tells_partial (a a' : Str) (ts ts' : List Token) (vs vs' ws ws' : List V) (w w' : V) (hs : Scan (Lx.new a) ts true) (hs' : Scan (Lx.new a') ts' true)
    (hq : Statements ts vs) (hq' : Statements ts' vs') (hp : Parses a ws) (hp' : Parses a' ws') (hw : w ∈ ws) (hw' : w' ∈ ws') (hk : (w.norm id).kept = true) (hk' : (w'.norm id).kept = true)
    (ho : (w.norm id).orderly = true) (ho' : (w'.norm id).orderly = true) (hu : PlainUsing ts) (hu' : PlainUsing ts') (he : PlainEngine ts) (he' : PlainEngine ts') :
    formatCompact w = formatCompact w' ↔ w.norm id = w'.norm id := by
  constructor
  · intro h
    obtain ⟨⟨b, hb⟩, _⟩ := C48_statements_format a ts vs ws hs hq hp w hw
    obtain ⟨x, h1, h2, _⟩ := C48_statements_compact_partial a b ts vs ws hs hq hp w hw hk ho hu he hb
    obtain ⟨x', h3, h4, _⟩ := C48_statements_compact_partial a' b ts' vs' ws' hs' hq' hp' w' hw' hk' ho' hu' he' (h ▸ hb)
    cases parses_unique h1 h3
    exact h2.symm.trans h4
  · intro h
    rw [formatCompact, formatCompact, Again.writes_same hs' hq' hp' hu' he' hw' hk' ho' hp hw h]

example : ∃ vs vs' ws ws' w w', Scan (Lx.new createText) (scanText createText).1 true ∧ Scan (Lx.new listText) (scanText listText).1 true ∧
    Statements (scanText createText).1 vs ∧ Statements (scanText listText).1 vs' ∧ Parses createText ws ∧ Parses listText ws' ∧ w ∈ ws ∧ w' ∈ ws' ∧
    (w.norm id).kept = true ∧ (w'.norm id).kept = true ∧ (w.norm id).orderly = true ∧ (w'.norm id).orderly = true ∧ PlainUsing (scanText createText).1 ∧ PlainUsing (scanText listText).1 ∧
    PlainEngine (scanText createText).1 ∧ PlainEngine (scanText listText).1 ∧ (∀ t ∈ (scanText createText).1, 10 ∉ t.str) ∧ ∀ t ∈ (scanText listText).1, 10 ∉ t.str := two_case

/-- **C51**, several lines, for an indentation of blanks and texts without a line end inside a token.  Missing: as before. -/
theorem C51_beautified_tells_partial (a a' ind : Str) (ts ts' : List Token) (vs vs' ws ws' : List V) (w w' : V) (hs : Scan (Lx.new a) ts true) (hs' : Scan (Lx.new a') ts' true)
    (hq : Statements ts vs) (hq' : Statements ts' vs') (hp : Parses a ws) (hp' : Parses a' ws') (hw : w ∈ ws) (hw' : w' ∈ ws') (hk : (w.norm id).kept = true) (hk' : (w'.norm id).kept = true)
    (ho : (w.norm id).orderly = true) (ho' : (w'.norm id).orderly = true) (hu : PlainUsing ts) (hu' : PlainUsing ts') (he : PlainEngine ts) (he' : PlainEngine ts')
    (hi : ∀ c ∈ ind, isBlank c = true) (hn : ∀ t ∈ ts, 10 ∉ t.str) (hn' : ∀ t ∈ ts', 10 ∉ t.str) : formatBeautify ind w = formatBeautify ind w' ↔ w.norm id = w'.norm id := by
  constructor
  · intro h
    obtain ⟨b, hb⟩ := (C48_statements_format a ts vs ws hs hq hp w hw).2 ind
    obtain ⟨x, h1, h2, _⟩ := C48_statements_beautified_partial a b ind ts vs ws hs hq hp w hw hk ho hu he hi hn hb
    obtain ⟨x', h3, h4, _⟩ := C48_statements_beautified_partial a' b ind ts' vs' ws' hs' hq' hp' w' hw' hk' ho' hu' he' hi hn' (h ▸ hb)
    cases parses_unique h1 h3
    exact h2.symm.trans h4
  · intro h
    rw [formatBeautify, formatBeautify, Again.writes_same hs' hq' hp' hu' he' hw' hk' ho' hp hw h]

example : ∃ vs vs' ws ws' w w', Scan (Lx.new createText) (scanText createText).1 true ∧ Scan (Lx.new listText) (scanText listText).1 true ∧
    Statements (scanText createText).1 vs ∧ Statements (scanText listText).1 vs' ∧ Parses createText ws ∧ Parses listText ws' ∧ w ∈ ws ∧ w' ∈ ws' ∧
    (w.norm id).kept = true ∧ (w'.norm id).kept = true ∧ (w.norm id).orderly = true ∧ (w'.norm id).orderly = true ∧ PlainUsing (scanText createText).1 ∧ PlainUsing (scanText listText).1 ∧
    PlainEngine (scanText createText).1 ∧ PlainEngine (scanText listText).1 ∧ (∀ t ∈ (scanText createText).1, 10 ∉ t.str) ∧ ∀ t ∈ (scanText listText).1, 10 ∉ t.str := two_case

/-- `DISTINCT` in an array is not printed: different trees have the same text. -/
theorem C51_distinct_lost : ∃ v w, Parses b!"SELECT [DISTINCT a]" [v] ∧ Parses b!"SELECT [a]" [w] ∧ formatCompact v = formatCompact w ∧ w.norm id ≠ v.norm id := by
  obtain ⟨v, w, h1, h2, h3, h4⟩ := C46_array_distinct
  obtain ⟨w', h5, h6⟩ := formatsTo_iff (a := b!"SELECT [a]") (b := b!"SELECT [a]") (by decide +kernel)
  cases parses_unique h3 h5
  exact ⟨v, w, h1, h3, h2.trans h6.symm, h4⟩

end Verif

/-
Queries of the core language are formatted without loss (property C46).
-/
import Verif.Again.Whole

namespace Verif
open Spec

/-! ### C46 -/

/-- **C46**, first part: every query of the core language can be formatted, in one line and in several. -/
theorem C46_core_formats (a : Str) (ts : List Token) (vs ws : List V) (hs : Scan (Lx.new a) ts true) (hq : Queries ts vs) (hp : Parses a ws) (w : V) (hw : w ∈ ws) :
    (∃ b, formatCompact w = some b) ∧ ∀ ind, ∃ b, formatBeautify ind w = some b := by
  obtain ⟨os, _, h⟩ := Again.core_of hs hq hp hw
  have := Again.params_normed (An.parses_isTree_noReq hp hw) (Again.core_params h)
  exact (C41_format_parsed_partial a ws hp w hw this).2

example : ∃ vs ws w, Scan (Lx.new coreText) (scanText coreText).1 true ∧ Queries (scanText coreText).1 vs ∧ Parses coreText ws ∧ w ∈ ws := by
  obtain ⟨vs, h1, h2, h3⟩ := core_case
  obtain ⟨ws, h4, h5⟩ := C45_core_accepted _ _ _ h1 h2
  cases ws with
  | nil => rw [← h5] at h3; cases h3
  | cons w ws => exact ⟨vs, _, w, h1, h2, h4, List.mem_cons_self⟩

/-- To check `PlainUsing`. -/
def signedB (t : Token) : Bool := (t.kind == .int || t.kind == .float) && (t.str.head? == some 43 || t.str.head? == some 45)
/-- The same. -/
def plainUsingB : List Token → Bool
  | a :: b :: c :: ts => (!(decide (isWord a b!"USING") && decide (isSign b b!"(")) || (!decide (isSign c b!"(") && !signedB c)) && plainUsingB (b :: c :: ts)
  | _ => true

theorem plainUsing_of : ∀ {ts : List Token}, plainUsingB ts = true → PlainUsing ts
  | [], _ => fun a b c h => by simp at h
  | [x], _ => fun a b c h => by have := h.length_le; simp at this
  | [x, y], _ => fun a b c h => by have := h.length_le; simp at this
  | x :: y :: z :: ts, hb => by
    simp only [plainUsingB, Bool.and_eq_true] at hb
    intro a b c h h1 h2
    rcases List.infix_cons_iff.1 h with ⟨xs, h⟩ | h
    · simp only [List.cons_append, List.nil_append, List.cons.injEq] at h
      obtain ⟨rfl, rfl, rfl, -⟩ := h
      have := hb.1
      simp only [h1, h2, decide_true, Bool.and_self, Bool.not_true, Bool.false_or, Bool.and_eq_true, Bool.not_eq_true', decide_eq_false_iff_not] at this
      refine ⟨this.1, fun ⟨hk, s, n, e, hs⟩ => ?_⟩
      have h3 := this.2
      simp only [signedB, e, List.head?_cons] at h3
      rcases hk with hk | hk <;> rcases hs with rfl | rfl <;> simp [hk] at h3
    · exact plainUsing_of hb.2 a b c h h1 h2

/-- The hypotheses of C46 for a concrete text. -/
theorem c46_case : ∃ vs ws w b b', Scan (Lx.new coreText) (scanText coreText).1 true ∧ Queries (scanText coreText).1 vs ∧ Parses coreText ws ∧ w ∈ ws ∧
    (w.norm id).kept = true ∧ PlainUsing (scanText coreText).1 ∧ (∀ t ∈ (scanText coreText).1, 10 ∉ t.str) ∧ formatCompact w = some b ∧ formatBeautify b!"  " w = some b' := by
  obtain ⟨vs, h1, h2, h3⟩ := core_case
  obtain ⟨ws, h4, h5⟩ := acceptsWith_iff (input := coreText) (p := fun ws => !ws.isEmpty && ws.all fun w => (w.norm id).kept) (by decide +kernel)
  simp only [Bool.and_eq_true, List.all_eq_true] at h5
  cases ws with
  | nil => cases h5.1
  | cons w ws =>
    obtain ⟨⟨b, h6⟩, h7⟩ := C46_core_formats _ _ _ _ h1 h2 h4 w List.mem_cons_self
    obtain ⟨b', h7⟩ := h7 b!"  "
    have hn : (scanText coreText).1.all (fun t => !t.str.contains 10) = true := by decide +kernel
    exact ⟨vs, _, w, b, b', h1, h2, h4, List.mem_cons_self, h5.2 w List.mem_cons_self, plainUsing_of (by decide +kernel), by simpa using hn, h6, h7⟩

/-- **C46**, one line: the text that the formatter gives for a query of the core language is parsed as one statement with the same tree up to positions, and
formatting this gives the same texts again.  The query may not have `DISTINCT` in an array, nor a comma after `USING`, and the list of `USING` may not
begin with a parenthesis or a signed number. -/
theorem C46_core_compact (a b : Str) (ts : List Token) (vs ws : List V) (hs : Scan (Lx.new a) ts true) (hq : Queries ts vs) (hp : Parses a ws) (w : V) (hw : w ∈ ws)
    (hk : (w.norm id).kept = true) (hu : PlainUsing ts) (hf : formatCompact w = some b) :
    ∃ w', Parses b [w'] ∧ w'.norm id = w.norm id ∧ formatCompact w' = some b ∧ ∀ ind, formatBeautify ind w' = formatBeautify ind w := by
  have hf' := hf
  obtain ⟨f, h1, rfl⟩ := Option.map_eq_some_iff.1 hf
  obtain ⟨w', h2, h3, h4⟩ := Again.again (m := false) (ind := []) hs hq hp hw hk hu (by simp) rfl h1
  exact ⟨w', h2, h3, by rw [← hf', formatCompact, formatCompact, h4], fun ind => by rw [formatBeautify, formatBeautify, h4]⟩

example : ∃ vs ws w b, Scan (Lx.new coreText) (scanText coreText).1 true ∧ Queries (scanText coreText).1 vs ∧ Parses coreText ws ∧ w ∈ ws ∧
    (w.norm id).kept = true ∧ PlainUsing (scanText coreText).1 ∧ formatCompact w = some b := by
  obtain ⟨vs, ws, w, b, b', h1, h2, h3, h4, h5, h6, h7, h8, h9⟩ := c46_case
  exact ⟨vs, ws, w, b, h1, h2, h3, h4, h5, h6, h8⟩

/-- **C46**, several lines, for an indentation of blanks and a text without a line end inside a token. -/
theorem C46_core_beautified (a b ind : Str) (ts : List Token) (vs ws : List V) (hs : Scan (Lx.new a) ts true) (hq : Queries ts vs) (hp : Parses a ws) (w : V) (hw : w ∈ ws)
    (hk : (w.norm id).kept = true) (hu : PlainUsing ts) (hi : ∀ c ∈ ind, isBlank c = true) (hn : ∀ t ∈ ts, 10 ∉ t.str) (hf : formatBeautify ind w = some b) :
    ∃ w', Parses b [w'] ∧ w'.norm id = w.norm id ∧ formatBeautify ind w' = some b ∧ formatCompact w' = formatCompact w := by
  have hf' := hf
  obtain ⟨f, h1, rfl⟩ := Option.map_eq_some_iff.1 hf
  obtain ⟨w', h2, h3, h4⟩ := Again.again (m := true) (ind := ind) hs hq hp hw hk hu (fun _ => hn) (by simpa using hi) h1
  exact ⟨w', h2, h3, by rw [← hf', formatBeautify, formatBeautify, h4], by rw [formatCompact, formatCompact, h4]⟩

example : ∃ vs ws w b, Scan (Lx.new coreText) (scanText coreText).1 true ∧ Queries (scanText coreText).1 vs ∧ Parses coreText ws ∧ w ∈ ws ∧
    (w.norm id).kept = true ∧ PlainUsing (scanText coreText).1 ∧ (∀ c ∈ b!"  ", isBlank c = true) ∧ (∀ t ∈ (scanText coreText).1, 10 ∉ t.str) ∧
    formatBeautify b!"  " w = some b := by
  obtain ⟨vs, ws, w, b, b', h1, h2, h3, h4, h5, h6, h7, h8, h9⟩ := c46_case
  exact ⟨vs, ws, w, b', h1, h2, h3, h4, h5, h6, by decide, h7, h9⟩

/-! ### What is left out -/

theorem other_tree {a b : Str} (g : V → Bool) (h : (acceptsWith a fun vs => match vs with
      | [v] => formatCompact v == some b && g (v.norm id)
      | _ => false) = true) (h' : (acceptsWith b fun vs => match vs with
      | [w] => !g (w.norm id)
      | _ => false) = true) : ∃ v w, Parses a [v] ∧ formatCompact v = some b ∧ Parses b [w] ∧ w.norm id ≠ v.norm id := by
  obtain ⟨vs, h1, h2⟩ := acceptsWith_iff h
  obtain ⟨ws, h3, h4⟩ := acceptsWith_iff h'
  split at h2
  · split at h4
    · simp only [Bool.and_eq_true, beq_iff_eq] at h2
      refine ⟨_, _, h1, h2.1, h3, fun e => ?_⟩
      rw [e, h2.2] at h4
      cases h4
    · cases h4
  · cases h2

/-- A comma after the list of `USING`: the table comes back as a column of the list. -/
theorem C46_using_comma : ∃ v w, Parses b!"SELECT 1 FROM a JOIN b USING (k), c" [v] ∧ formatCompact v = some b!"SELECT 1 FROM a JOIN b USING k,c" ∧
    Parses b!"SELECT 1 FROM a JOIN b USING k,c" [w] ∧ w.norm id ≠ v.norm id :=
  other_tree (fun v => (v.structs.filter fun x => x.ty? == some .JoinTableExpr).length == 3) (by decide +kernel) (by decide +kernel)

/-- A parenthesis at the beginning of the list of `USING`: a column comes back as a table. -/
theorem C46_using_paren : ∃ v w, Parses b!"SELECT 1 FROM a JOIN b USING ((k), c)" [v] ∧ formatCompact v = some b!"SELECT 1 FROM a JOIN b USING (k), c" ∧
    Parses b!"SELECT 1 FROM a JOIN b USING (k), c" [w] ∧ w.norm id ≠ v.norm id :=
  other_tree (fun v => (v.structs.filter fun x => x.ty? == some .JoinTableExpr).length == 2) (by decide +kernel) (by decide +kernel)

/-- A signed number at the beginning of the list of `USING`: it comes back as an operator and a number. -/
theorem C46_using_sign : ∃ v w, Parses b!"SELECT 1 FROM a JOIN b USING (-1)" [v] ∧ formatCompact v = some b!"SELECT 1 FROM a JOIN b USING -1" ∧
    Parses b!"SELECT 1 FROM a JOIN b USING -1" [w] ∧ w.norm id ≠ v.norm id :=
  other_tree (fun v => !v.structs.any fun x => x.ty? == some .UnaryExpr) (by decide +kernel) (by decide +kernel)

/-- `DISTINCT` in an array is lost. -/
theorem C46_array_distinct : ∃ v w, Parses b!"SELECT [DISTINCT a]" [v] ∧ formatCompact v = some b!"SELECT [a]" ∧
    Parses b!"SELECT [a]" [w] ∧ w.norm id ≠ v.norm id :=
  other_tree (fun v => v.structs.any fun x => match x with
    | .mk .ColumnExprList [_, _, .bool true, _] => true
    | _ => false) (by decide +kernel) (by decide +kernel)

end Verif

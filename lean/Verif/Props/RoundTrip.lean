/-
Formatting and parsing again (properties C27, C28), and formatting of texts with the same tokens (C43).
-/
import Verif.Props.Parser
import Verif.Props.Same
import Verif.Relation.Format

namespace Verif
open Spec

/-- C27 as stated: the formatted text of a statement parses to the same tree up to positions. -/
def C27_literal : Prop := ∀ a v b, Parses a [v] → formatCompact v = some b → ∃ w, Parses b [w] ∧ SameTrees [v] [w]

/-- C28 as stated: formatting, parsing and formatting again gives the same text. -/
def C28_literal : Prop := ∀ a v b, Parses a [v] → formatCompact v = some b → ∃ w, Parses b [w] ∧ formatCompact w = some b

/-- To exhibit a statement, its tree and its formatted text. -/
def formatsTo (a b : Str) : Bool := acceptsWith a fun vs => match vs with
  | [v] => formatCompact v == some b
  | _ => false

theorem formatsTo_iff {a b : Str} (h : formatsTo a b = true) : ∃ v, Parses a [v] ∧ formatCompact v = some b := by
  obtain ⟨vs, h1, h2⟩ := acceptsWith_iff h
  split at h2
  · exact ⟨_, h1, by simpa using h2⟩
  · simp at h2

theorem rejected_not_parses {b : Str} (h : rejectsWith b (fun _ => true) = true) {ws : List V} : ¬ Parses b ws := by
  rintro ⟨v, s, h1, -⟩
  obtain ⟨e, ⟨v', s', h2, hn⟩, -⟩ := rejectsWith_iff h
  rw [h1] at h2
  simp only [COut.ret.injEq, List.cons.injEq] at h2
  obtain ⟨⟨-, rfl, -⟩, -⟩ := h2
  simp [V.nonNil] at hn

/-- C27 is false: the expression `1 .a`, the member `a` of the number 1, is formatted as `1.a`, which is no
longer accepted. -/
theorem C27_fails : ¬ C27_literal := by
  intro h
  obtain ⟨v, h1, h2⟩ := formatsTo_iff (a := b!"SELECT 1 .a") (b := b!"SELECT 1.a") (by decide +kernel)
  obtain ⟨w, h3, -⟩ := h _ _ _ h1 h2
  exact rejected_not_parses (by decide +kernel) h3

/-- C28 is false for the same expression. -/
theorem C28_fails : ¬ C28_literal := by
  intro h
  obtain ⟨v, h1, h2⟩ := formatsTo_iff (a := b!"SELECT 1 .a") (b := b!"SELECT 1.a") (by decide +kernel)
  obtain ⟨w, h3, -⟩ := h _ _ _ h1 h2
  exact rejected_not_parses (by decide +kernel) h3

/-- The expression `1 . 5` comes back as the number `1.5`. -/
theorem C27_other_tree : ∃ a v b w, Parses a [v] ∧ formatCompact v = some b ∧ Parses b [w] ∧
    (∃ x ∈ v.structs, x.ty? = some .IndexOperation) ∧ ¬ ∃ x ∈ w.structs, x.ty? = some .IndexOperation := by
  obtain ⟨vs, h1, h2⟩ := acceptsWith_iff (input := b!"SELECT 1 . 5") (p := fun vs => match vs with
    | [v] => formatCompact v == some b!"SELECT 1.5" && v.structs.any fun x => decide (x.ty? = some .IndexOperation)
    | _ => false) (by decide +kernel)
  obtain ⟨ws, h3, h4⟩ := acceptsWith_iff (input := b!"SELECT 1.5") (p := fun vs => match vs with
    | [v] => !(v.structs.any fun x => decide (x.ty? = some .IndexOperation))
    | _ => false) (by decide +kernel)
  split at h2
  · split at h4
    · rename_i v _ w
      simp only [Bool.and_eq_true, beq_iff_eq, List.any_eq_true, decide_eq_true_eq] at h2
      refine ⟨_, v, _, w, h1, h2.1, h3, h2.2, ?_⟩
      simpa using h4
    · simp at h4
  · simp at h2

/-! ### What holds -/

theorem same_formats {a b : Str} {ts us : List Token} (ha : Scan (Lx.new a) ts true) (hb : Scan (Lx.new b) us true)
    (hc : ts.map Token.content = us.map Token.content) (ht : Tight a ↔ Tight b) {vs : List V} (hp : Parses a vs) :
    ∃ ws, Parses b ws ∧ SameTrees vs ws ∧ List.Forall₂ (fun v w => ∀ f : Fmt, f.writeExpr v = f.writeExpr w) vs ws := by
  obtain ⟨ws, hw, hs⟩ := same_parses spelling_eq (sameText_scans ha hb (sim_of_content hc) ht) hp
  have hT : ∀ v ∈ vs, v.isTree noReq := fun v hv => An.parses_isTree_noReq hp hv
  refine ⟨ws, hw, trees_norm (c := id) (by simp) hs hT, ?_⟩
  clear hp hw
  induction vs generalizing ws with
  | nil => cases hs; exact .nil
  | cons v vs ih =>
    cases hs with
    | cons h1 h2 =>
      exact .cons (fun f => writeExpr_same h1 (hT v List.mem_cons_self) f) (ih _ h2 fun x hx => hT x (List.mem_cons_of_mem _ hx))

/-- **C27**, for statements whose formatted text consists of the same tokens: it is accepted again, with the same
tree up to positions.  Missing: that the formatter writes the same tokens. -/
theorem C27_same_tokens_partial (a : Str) (v : V) (b : Str) (ts us : List Token) (hp : Parses a [v]) (_hf : formatCompact v = some b)
    (ha : Scan (Lx.new a) ts true) (hb : Scan (Lx.new b) us true) (hc : ts.map Token.content = us.map Token.content) (ht : Tight a ↔ Tight b) :
    ∃ w, Parses b [w] ∧ SameTrees [v] [w] := by
  obtain ⟨ws, h1, h2, h3⟩ := same_formats ha hb hc ht hp
  cases h3 with
  | cons _ h3 => cases h3; exact ⟨_, h1, h2⟩

/-- **C28**, for statements whose formatted text consists of the same tokens: the text parsed again is formatted as
before. -/
theorem C28_same_tokens_partial (a : Str) (v : V) (b : Str) (ts us : List Token) (hp : Parses a [v]) (hf : formatCompact v = some b)
    (ha : Scan (Lx.new a) ts true) (hb : Scan (Lx.new b) us true) (hc : ts.map Token.content = us.map Token.content) (ht : Tight a ↔ Tight b) :
    ∃ w, Parses b [w] ∧ formatCompact w = some b := by
  obtain ⟨ws, h1, h2, h3⟩ := same_formats ha hb hc ht hp
  cases h3 with
  | cons hw h3 =>
    cases h3
    exact ⟨_, h1, by rw [← hf, formatCompact, formatCompact, hw]⟩

/-- Blanks and comments disappear, the rest stays. -/
example : ∃ a v b ts us, a ≠ b ∧ Parses a [v] ∧ formatCompact v = some b ∧ Scan (Lx.new a) ts true ∧ Scan (Lx.new b) us true ∧
    ts.map Token.content = us.map Token.content ∧ (Tight a ↔ Tight b) := by
  obtain ⟨vs, h1, h2⟩ := acceptsWith_iff (input := b!"SELECT f( a ),b+INTERVAL 1 DAY /* x */ FROM t  WHERE a>=1 AND b") (p := fun vs => match vs with
    | [v] => formatCompact v == some b!"SELECT f(a), b + INTERVAL 1 DAY FROM t WHERE a >= 1 AND b"
    | _ => false) (by decide +kernel)
  split at h2
  · rename_i v
    simp only [beq_iff_eq] at h2
    exact ⟨_, v, _, _, _, by decide, h1, h2, scan_clean (by decide +kernel), scan_clean (by decide +kernel), by decide +kernel,
      ⟨fun _ => tightBy_tight (n := 30) (by decide +kernel), fun _ => tightBy_tight (n := 30) (by decide +kernel)⟩⟩
  · simp at h2

/-! ### C43 -/

/-- **C43**: texts with the same tokens, at whatever positions, and both or neither with something behind the last one,
are formatted alike in both modes, statement by statement. -/
theorem C43_layout_free (a b : Str) (ts us : List Token) (vs : List V) (hp : Parses a vs)
    (ha : Scan (Lx.new a) ts true) (hb : Scan (Lx.new b) us true) (hc : ts.map Token.content = us.map Token.content) (ht : Tight a ↔ Tight b) :
    ∃ ws, Parses b ws ∧ vs.map formatCompact = ws.map formatCompact ∧ ∀ ind, vs.map (formatBeautify ind) = ws.map (formatBeautify ind) := by
  obtain ⟨ws, h1, h2, h3⟩ := same_formats ha hb hc ht hp
  refine ⟨ws, h1, ?_⟩
  clear hp h1 h2
  induction h3 with
  | nil => exact ⟨rfl, fun _ => rfl⟩
  | cons h _ ih =>
    refine ⟨?_, fun ind => ?_⟩
    · simp only [List.map_cons, formatCompact, h, ih.1]
    · simp only [List.map_cons, formatBeautify, h, ih.2 ind]

example : ∃ a b ts us vs, a ≠ b ∧ Parses a vs ∧ Scan (Lx.new a) ts true ∧ Scan (Lx.new b) us true ∧
    ts.map Token.content = us.map Token.content ∧ (Tight a ↔ Tight b) := by
  obtain ⟨vs, h1, -⟩ := acceptsWith_iff (input := b!"USE a;SELECT `x y`FROM t") (p := fun _ => true) (by decide +kernel)
  exact ⟨b!"USE a;SELECT `x y`FROM t", b!"USE a ; SELECT `x y`\n FROM t", _, _, vs, by decide, h1, scan_clean (by decide +kernel), scan_clean (by decide +kernel),
    by decide +kernel, ⟨fun _ => tightBy_tight (n := 30) (by decide +kernel), fun _ => tightBy_tight (n := 30) (by decide +kernel)⟩⟩

/-- The condition on the end of the text is needed: `SELECT` alone is no statement, `SELECT` and a blank is one. -/
theorem C43_needs_tight : ∃ a b ts us vs ws, Scan (Lx.new a) ts true ∧ Scan (Lx.new b) us true ∧ ts.map Token.content = us.map Token.content ∧
    Parses a vs ∧ Parses b ws ∧ vs.map formatCompact ≠ ws.map formatCompact := by
  obtain ⟨vs, h1, h2⟩ := acceptsWith_iff (input := b!"SELECT") (p := fun vs => vs.isEmpty) (by decide +kernel)
  obtain ⟨ws, h3, h4⟩ := acceptsWith_iff (input := b!"SELECT ") (p := fun ws => !ws.isEmpty) (by decide +kernel)
  refine ⟨b!"SELECT", b!"SELECT ", _, _, vs, ws, scan_clean (by decide +kernel), scan_clean (by decide +kernel), by decide +kernel, h1, h3, ?_⟩
  cases vs <;> cases ws <;> simp_all

end Verif

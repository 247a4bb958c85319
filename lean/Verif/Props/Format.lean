/-
The formatter (properties C29, C30, C41).
-/
import Verif.Lemmas.Format
import Verif.Lemmas.Safe

namespace Verif

/-- `WHERE x = 'a⏎b' AND y` as a tree: the example for this file. -/
def exampleWhere : V :=
  N.WhereClause (expr := N.BinaryOperation
    (leftExpr := N.BinaryOperation (leftExpr := N.Ident (name := b!"x")) (operation := b!"=")
      (rightExpr := N.StringLiteral (literal := [97, 10, 98])))
    (operation := b!"AND") (rightExpr := N.Ident (name := b!"y")))

example : exampleWhere.isTree required := ⟨rfl, by decide +kernel⟩

/-! ### C29 -/

/-- **C29**, without "outside tokens": for every value on which both succeed, the beautified text
and the compact text are equal up to white space, for every indentation string that is white space.
Missing: that the white space that differs is never inside a token, which is false
(`C29_line_feed_in_string`). -/
theorem C29_beautify_compact_partial (v : V) (ind : Str) (hi : ind.all isBlank = true) {a b : Str}
    (ha : formatBeautify ind v = some a) (hb : formatCompact v = some b) : dropBlanks a = dropBlanks b := by
  simp only [formatBeautify, formatCompact, Option.map_eq_some_iff] at ha hb
  obtain ⟨f, hf, rfl⟩ := ha
  obtain ⟨g, hg, rfl⟩ := hb
  cases v with
  | mk t fs =>
    simp only [Fmt.writeExpr, V.ty?, Option.bind_some] at hf hg
    obtain ⟨T, h1, h2, -⟩ := (formatF_text true _).1 _ _ _ _ hf rfl hi
    obtain ⟨T', h1', h2', -⟩ := (formatF_text false _).1 _ _ _ _ hg rfl (by decide)
    have := textF_agree _ _ _ _ _ h1 h1'
    rw [h2, h2', this]
  | nil => simp [Fmt.writeExpr] at hf hg; subst hf hg; rfl
  | _ => simp [Fmt.writeExpr, V.ty?] at hf

example : formatCompact exampleWhere = some b!"WHERE x = 'a\nb' AND y" := by decide +kernel
example : formatBeautify b!"  " exampleWhere = some b!"WHERE\n  x = 'a\n  b'\nAND\n  y" := by decide +kernel

/-- **C29** is false as stated: a line feed inside a string literal (or a quoted identifier) is
followed by the indentation in the beautified text, so the literal that is printed is another one. -/
theorem C29_line_feed_in_string : ∃ v : V, v.isTree required ∧ ∃ a b : Str,
    formatBeautify b!"  " v = some a ∧ formatCompact v = some b ∧
    a = b!"WHERE\n  x = 'a\n  b'\nAND\n  y" ∧ b = b!"WHERE x = 'a\nb' AND y" :=
  ⟨exampleWhere, ⟨rfl, by decide +kernel⟩, _, _, by decide +kernel, by decide +kernel, rfl, rfl⟩

/-! ### C30 -/

/-- **C30**: after writing any value the formatter has the mode, the indentation string and the
indentation level it had before, whatever state it started in. -/
theorem C30_level_restored (v : V) (f f' : Fmt) (h : f.writeExpr v = some f') :
    f'.level = f.level ∧ f'.beautify = f.beautify ∧ f'.indent = f.indent := by
  cases v with
  | mk t fs =>
    have := formatF_level _ _ _ _ _ h
    exact ⟨this.2, this.1.beautify, this.1.indent⟩
  | nil => simp [Fmt.writeExpr] at h; subst h; exact ⟨rfl, rfl, rfl⟩
  | _ => simp [Fmt.writeExpr, V.ty?] at h

example : ∃ f' : Fmt, ({ beautify := true, level := 3 } : Fmt).writeExpr exampleWhere = some f' ∧ f'.level = 3 ∧
    f'.out = b!"      WHERE\n        x = 'a\n        b'\n      AND\n        y" :=
  ⟨_, rfl, by decide +kernel, by decide +kernel⟩

/-! ### C41 -/

/-- **C41** for trees instead of parser output: writing a tree whose required fields are there never
dereferences nil, whatever state the formatter is in; so `Format`, `Beautify` and `String` return.
Missing: that every tree the parser returns is of this kind. -/
theorem C41_format_total_partial (v : V) (h : v.isTree required) :
    (∀ f : Fmt, ∃ f', f.writeExpr v = some f') ∧
    (∃ s, formatCompact v = some s) ∧ ∀ ind, ∃ s, formatBeautify ind v = some s := by
  have hw : ∀ f : Fmt, ∃ f', f.writeExpr v = some f' := fun f => Option.isSome_iff_exists.1 (writeExpr_safe h f)
  refine ⟨hw, ?_, ?_⟩
  · obtain ⟨f', hf⟩ := hw {}
    exact ⟨f'.out, by simp [formatCompact, hf]⟩
  · intro ind
    obtain ⟨f', hf⟩ := hw { beautify := true, indent := ind }
    exact ⟨f'.out, by simp [formatBeautify, hf]⟩

example : (N.JoinExpr (left := N.Ident (name := b!"a")) (right := N.Ident (name := b!"b"))).isTree required ∧
    formatCompact (N.JoinExpr (left := N.Ident (name := b!"a")) (right := N.Ident (name := b!"b"))) = some b!"a,b" :=
  ⟨⟨rfl, by decide +kernel⟩, by decide +kernel⟩

end Verif

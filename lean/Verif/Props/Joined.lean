/-
Lists of statements are formatted without loss (property C50).
-/
import Verif.Again.Joined
import Verif.Props.DdlAgain

namespace Verif
open Spec

/-! ### C50 -/

/-- A text with two statements. -/
def listText : Str := b!"DROP TABLE a; DROP TABLE b"
/-- Its tokens. -/
def listTok (i : Nat) : Token := (scanText listText).1[i]?.getD ⟨0, 0, .eof, [], 0, 0⟩

local notation "T" => listTok
local macro "✓" : term => `(by decide +kernel)

/-- The hypotheses of C50 for a concrete text. -/
theorem list_case : ∃ vs ws bs bs', Scan (Lx.new listText) (scanText listText).1 true ∧ Statements (scanText listText).1 vs ∧ Parses listText ws ∧ ws.length = 2 ∧
    (∀ v ∈ vs, v.kept = true ∧ v.orderly = true) ∧ PlainUsing (scanText listText).1 ∧ PlainEngine (scanText listText).1 ∧ (∀ t ∈ (scanText listText).1, 10 ∉ t.str) ∧
    List.Forall₂ (fun w b => formatCompact w = some b) ws bs ∧ List.Forall₂ (fun w b => formatBeautify b!"  " w = some b) ws bs' := by
  have s1 : Statement [T 0, T 1, T 2] _ := .dropTable (ps := []) (bs := []) (is := [T 2]) (cs := []) (ms := []) ✓ .temporaryNo ✓ .existsNo (.idName ✓) .clusterNo .modifierNo
  have s2 : Statement [T 4, T 5, T 6] _ := .dropTable (ps := []) (bs := []) (is := [T 6]) (cs := []) (ms := []) ✓ .temporaryNo ✓ .existsNo (.idName ✓) .clusterNo .modifierNo
  have s := Statements.more s1 (s := T 3) ✓ (.last s2)
  have hx : [T 0, T 1, T 2] ++ T 3 :: [T 4, T 5, T 6] = (scanText listText).1 := by decide +kernel
  rw [hx] at s
  have h1 : Scan (Lx.new listText) (scanText listText).1 true := scan_clean ✓
  obtain ⟨ws, h2, h3⟩ := acceptsWith_iff (input := listText) (p := fun ws => ws.length == 2 && ws.all fun w => (w.norm id).kept && (w.norm id).orderly) (by decide +kernel)
  simp only [List.all_eq_true, Bool.and_eq_true, beq_iff_eq] at h3
  have h4 := C47_statements_tree _ _ _ _ h1 s h2
  have hf := C48_statements_format _ _ _ _ h1 s h2
  have hn : (scanText listText).1.all (fun t => !t.str.contains 10) = true := by decide +kernel
  obtain ⟨w, w', rfl⟩ := List.length_eq_two.1 h3.1
  obtain ⟨⟨b, f1⟩, f2⟩ := hf w (by simp)
  obtain ⟨⟨b', f3⟩, f4⟩ := hf w' (by simp)
  obtain ⟨c, f2⟩ := f2 b!"  "
  obtain ⟨c', f4⟩ := f4 b!"  "
  refine ⟨_, [w, w'], [b, b'], [c, c'], h1, s, h2, rfl, fun v hv => ?_, plainUsing_of (by decide +kernel), plainEngine_of (by decide +kernel), by simpa using hn,
    .cons f1 (.cons f3 .nil), .cons f2 (.cons f4 .nil)⟩
  rw [← h4] at hv
  obtain ⟨u, hu, rfl⟩ := List.mem_map.1 hv
  exact h3.2 u hu

/-- **C50**, one line: the texts that the formatter gives for the statements of a text of the grammar, each followed by a semicolon and at least one blank, make up
a text that is parsed as the same list of statements up to positions, and formatting these gives the same texts again.  This is what
`parser_test.go` checks for the files of the test data.  The restrictions are those of C48.  Missing: statements that do not meet them, for which it is false by the witnesses of C48. -/
theorem C50_list_compact_partial (a g g' : Str) (ts : List Token) (vs ws : List V) (bs : List Str) (hs : Scan (Lx.new a) ts true) (hq : Statements ts vs) (hp : Parses a ws)
    (hk : ∀ v ∈ vs, v.kept = true ∧ v.orderly = true) (hu : PlainUsing ts) (he : PlainEngine ts) (hx : ∀ c ∈ g, isBlank c = true) (hy : ∀ c ∈ g', isBlank c = true) (hz : g' ≠ [])
    (hf : List.Forall₂ (fun w b => formatCompact w = some b) ws bs) :
    ∃ ws', Parses (bs.map fun b => b ++ g ++ b!";" ++ g').flatten ws' ∧ ws'.map (V.norm id) = ws.map (V.norm id) ∧ List.Forall₂ (fun w b => formatCompact w = some b) ws' bs := by
  obtain ⟨ws', h1, h2, h3⟩ := Again.again_all (m := false) (ind := []) (List.all_eq_true.2 hx) (List.all_eq_true.2 hy) hz hs hq hp hk hu he (by simp) rfl hf
  exact ⟨ws', by simpa [Again.ended] using h1, h2.trans (C47_statements_tree a ts vs ws hs hq hp).symm, h3⟩

example : ∃ vs ws bs, Scan (Lx.new listText) (scanText listText).1 true ∧ Statements (scanText listText).1 vs ∧ Parses listText ws ∧ ws.length = 2 ∧
    (∀ v ∈ vs, v.kept = true ∧ v.orderly = true) ∧ PlainUsing (scanText listText).1 ∧ PlainEngine (scanText listText).1 ∧ (∀ c ∈ b!"", isBlank c = true) ∧ (∀ c ∈ b!"\n", isBlank c = true) ∧ b!"\n" ≠ [] ∧
    List.Forall₂ (fun w b => formatCompact w = some b) ws bs := by
  obtain ⟨vs, ws, bs, bs', h1, h2, h3, h4, h5, h6, h7, h8, h9, h10⟩ := list_case
  exact ⟨vs, ws, bs, h1, h2, h3, h4, h5, h6, h7, by decide, by decide, by decide, h9⟩

/-- **C50**, several lines, for an indentation of blanks and a text without a line end inside a token.  Missing: as before. -/
theorem C50_list_beautified_partial (a ind g g' : Str) (ts : List Token) (vs ws : List V) (bs : List Str) (hs : Scan (Lx.new a) ts true) (hq : Statements ts vs) (hp : Parses a ws)
    (hk : ∀ v ∈ vs, v.kept = true ∧ v.orderly = true) (hu : PlainUsing ts) (he : PlainEngine ts) (hx : ∀ c ∈ g, isBlank c = true) (hy : ∀ c ∈ g', isBlank c = true) (hz : g' ≠ [])
    (hi : ∀ c ∈ ind, isBlank c = true) (hn : ∀ t ∈ ts, 10 ∉ t.str) (hf : List.Forall₂ (fun w b => formatBeautify ind w = some b) ws bs) :
    ∃ ws', Parses (bs.map fun b => b ++ g ++ b!";" ++ g').flatten ws' ∧ ws'.map (V.norm id) = ws.map (V.norm id) ∧ List.Forall₂ (fun w b => formatBeautify ind w = some b) ws' bs := by
  obtain ⟨ws', h1, h2, h3⟩ := Again.again_all (m := true) (ind := ind) (List.all_eq_true.2 hx) (List.all_eq_true.2 hy) hz hs hq hp hk hu he (fun _ => hn) (List.all_eq_true.2 hi) hf
  exact ⟨ws', by simpa [Again.ended] using h1, h2.trans (C47_statements_tree a ts vs ws hs hq hp).symm, h3⟩

example : ∃ vs ws bs, Scan (Lx.new listText) (scanText listText).1 true ∧ Statements (scanText listText).1 vs ∧ Parses listText ws ∧ ws.length = 2 ∧
    (∀ v ∈ vs, v.kept = true ∧ v.orderly = true) ∧ PlainUsing (scanText listText).1 ∧ PlainEngine (scanText listText).1 ∧ (∀ c ∈ b!"", isBlank c = true) ∧ (∀ c ∈ b!"\n", isBlank c = true) ∧ b!"\n" ≠ [] ∧ (∀ c ∈ b!"  ", isBlank c = true) ∧ (∀ t ∈ (scanText listText).1, 10 ∉ t.str) ∧
    List.Forall₂ (fun w b => formatBeautify b!"  " w = some b) ws bs := by
  obtain ⟨vs, ws, bs, bs', h1, h2, h3, h4, h5, h6, h7, h8, h9, h10⟩ := list_case
  exact ⟨vs, ws, bs', h1, h2, h3, h4, h5, h6, h7, by decide, by decide, by decide, by decide, h8, h10⟩

/-- The text that the tests make of the statements of a file: every statement is formatted, with a semicolon and a line end after it (parser/parser_test.go:99-104 and
165-169). -/
def formatAll : List V → Option Str
  | [] => some []
  | w :: ws => (formatCompact w).bind fun a => (formatAll ws).map fun b => a ++ b!";\n" ++ b

theorem formatAll_iff : ∀ {ws : List V} {b : Str}, formatAll ws = some b ↔ ∃ bs, List.Forall₂ (fun w b => formatCompact w = some b) ws bs ∧ b = (bs.map fun b => b ++ b!"" ++ b!";" ++ b!"\n").flatten
  | [], b => by
    constructor
    · intro h; cases h; exact ⟨[], .nil, rfl⟩
    · rintro ⟨_, h, rfl⟩; cases h; rfl
  | w :: ws, b => by
    simp only [formatAll, Option.bind_eq_some_iff, Option.map_eq_some_iff, formatAll_iff (ws := ws)]
    constructor
    · rintro ⟨a, h, _, ⟨bs, h', rfl⟩, rfl⟩
      exact ⟨a :: bs, .cons h h', by simp⟩
    · rintro ⟨_, h, rfl⟩
      cases h with
      | @cons _ a _ bs h h' => exact ⟨a, h, _, ⟨bs, h', rfl⟩, by simp⟩

/-- **C50**, what the tests check (`validFormatSQL`, parser/parser_test.go:159-171): the text made of the formatted statements is parsed without an error, and the text made of
the statements in it is the same.  Missing: as before. -/
theorem C50_valid_format_partial (a b : Str) (ts : List Token) (vs ws : List V) (hs : Scan (Lx.new a) ts true) (hq : Statements ts vs) (hp : Parses a ws)
    (hk : ∀ v ∈ vs, v.kept = true ∧ v.orderly = true) (hu : PlainUsing ts) (he : PlainEngine ts) (hf : formatAll ws = some b) : ∃ ws', Parses b ws' ∧ formatAll ws' = some b := by
  obtain ⟨bs, h, rfl⟩ := formatAll_iff.1 hf
  obtain ⟨ws', h1, _, h2⟩ := C50_list_compact_partial a b!"" b!"\n" ts vs ws bs hs hq hp hk hu he (by decide) (by decide) (by decide) h
  exact ⟨ws', h1, formatAll_iff.2 ⟨bs, h2, rfl⟩⟩

example : ∃ vs ws b, Scan (Lx.new listText) (scanText listText).1 true ∧ Statements (scanText listText).1 vs ∧ Parses listText ws ∧ ws.length = 2 ∧
    (∀ v ∈ vs, v.kept = true ∧ v.orderly = true) ∧ PlainUsing (scanText listText).1 ∧ PlainEngine (scanText listText).1 ∧ formatAll ws = some b := by
  obtain ⟨vs, ws, bs, bs', h1, h2, h3, h4, h5, h6, h7, h8, h9, h10⟩ := list_case
  exact ⟨vs, ws, _, h1, h2, h3, h4, h5, h6, h7, formatAll_iff.2 ⟨bs, h9, rfl⟩⟩

/-- Without the restrictions what the tests check is false of the code: the text made of these statements is rejected. -/
theorem C50_valid_format_fails : ∃ ws b e, Parses b!"DROP TABLE a; CREATE TABLE t (a Int8 COMMENT 'x' CODEC(LZ4)) ENGINE = M" ws ∧ formatAll ws = some b ∧ Fails b e := by
  obtain ⟨ws, h1, h2⟩ := acceptsWith_iff (input := b!"DROP TABLE a; CREATE TABLE t (a Int8 COMMENT 'x' CODEC(LZ4)) ENGINE = M")
    (p := fun ws => formatAll ws == some b!"DROP TABLE a;\nCREATE TABLE t (a Int8 CODEC(LZ4) COMMENT 'x') ENGINE = M;\n") (by decide +kernel)
  obtain ⟨e, h3, _⟩ := rejectsWith_iff (input := b!"DROP TABLE a;\nCREATE TABLE t (a Int8 CODEC(LZ4) COMMENT 'x') ENGINE = M;\n") (p := fun _ => true) (by decide +kernel)
  exact ⟨ws, _, e, h1, beq_iff_eq.1 h2, h3⟩

end Verif

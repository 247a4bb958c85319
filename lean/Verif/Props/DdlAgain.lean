/-
Statements of the grammar are formatted without loss (property C48).
-/
import Verif.Again.DdlWhole
import Verif.Props.Again
import Verif.Props.RoundTrip

namespace Verif
open Spec

/-! ### C48 -/

/-- **C48**, first part: every statement of the grammar can be formatted, in one line and in several. -/
theorem C48_statements_format (a : Str) (ts : List Token) (vs ws : List V) (hs : Scan (Lx.new a) ts true) (hq : Statements ts vs) (hp : Parses a ws) (w : V) (hw : w ∈ ws) :
    (∃ b, formatCompact w = some b) ∧ ∀ ind, ∃ b, formatBeautify ind w = some b := by
  obtain ⟨os, _, h⟩ := Again.statement_of hs hq hp hw
  have := Again.params_normed (An.parses_isTree_noReq hp hw) (hasParams_of (Again.statement_calls h))
  exact (C41_format_parsed_partial a ws hp w hw this).2

example : ∃ vs ws w, Scan (Lx.new ddlText) (scanText ddlText).1 true ∧ Statements (scanText ddlText).1 vs ∧ Parses ddlText ws ∧ w ∈ ws := by
  obtain ⟨vs, h1, h2, h3⟩ := ddl_case
  obtain ⟨ws, h4, h5⟩ := C47_statements_accepted _ _ _ h1 h2
  cases ws with
  | nil => rw [← h5] at h3; cases h3
  | cons w ws => exact ⟨vs, _, w, h1, h2, h4, List.mem_cons_self⟩

/-- To check `PlainEngine`. -/
def plainEngineB : List Token → Bool
  | a :: b :: ts => (!decide (isWord a b!"ENGINE") || ((!decide (isPlainName b) || b.quote == 1) &&
      (!decide (isSign b b!"=") || ts.head?.all fun c => !decide (isPlainName c) || c.quote == 1))) && plainEngineB (b :: ts)
  | _ => true

theorem plainEngine_of : ∀ {ts : List Token}, plainEngineB ts = true → PlainEngine ts
  | [], _ => fun a es n h => by simp at h
  | [x], _ => fun a es n h => by have := h.length_le; simp at this
  | x :: y :: ts, hb => by
    simp only [plainEngineB, Bool.and_eq_true] at hb
    intro a es n h h1 h2 h3
    rcases List.infix_cons_iff.1 h with ⟨xs, h⟩ | h
    · rcases h2 with rfl | ⟨e, rfl, he⟩
      · simp only [List.cons_append, List.nil_append, List.cons.injEq] at h
        obtain ⟨rfl, rfl, -⟩ := h
        have := hb.1
        simp [h1, h3] at this
        exact this.1
      · simp only [List.cons_append, List.nil_append, List.cons.injEq] at h
        obtain ⟨rfl, rfl, rfl⟩ := h
        have := hb.1
        simp [h1, he, h3] at this
        exact this.2
    · exact plainEngine_of hb.2 a es n h h1 h2 h3

/-- A text with the clauses of an engine in another order than they are printed. -/
def createText : Str := b!"CREATE TABLE t (a Int8 COMMENT 'x') ENGINE = M PARTITION BY a ORDER BY b"
/-- Its tokens. -/
def createTok (i : Nat) : Token := (scanText createText).1[i]?.getD ⟨0, 0, .eof, [], 0, 0⟩

local notation "T" => createTok
local macro "✓" : term => `(by decide +kernel)

theorem create_case : ∃ vs, Scan (Lx.new createText) (scanText createText).1 true ∧ Statements (scanText createText).1 vs := by
  have a : Piece .columnDef [T 4, T 5, T 6, T 7] _ :=
    .columnDef (as := [T 4]) (bs := [T 5]) (cs := []) (ds := []) (es := [T 6, T 7]) (fs := []) (gs := []) (.column ✓) (.scalar ✓) .nullNo .valueNo (.comment ✓ ✓) .codecNo .ttlNo
  have e : Piece (.engine false) [T 9, T 10, T 11, T 12, T 13, T 14, T 15, T 16, T 17] _ :=
    .engine (es := [T 10]) (ts := []) (us := [T 12, T 13, T 14, T 15, T 16, T 17]) ✓ (.inr ⟨_, rfl, ✓⟩) ✓ .paramsNo
      (.partitionBy (ts := [T 14]) (us := [T 15, T 16, T 17]) ✓ ✓ (.argOne (.arg (.atom (.name ✓)))) (.orderBy (ts := [T 17]) (us := []) ✓ ✓ (.atom (.name ✓)) .clausesNo) (by simp))
  have s : Statement [T 0, T 1, T 2, T 3, T 4, T 5, T 6, T 7, T 8, T 9, T 10, T 11, T 12, T 13, T 14, T 15, T 16, T 17] _ :=
    .createTable (rs := []) (ps := []) (bs := []) (is := [T 2]) (cs := []) (ss := [T 3, T 4, T 5, T 6, T 7, T 8]) (es := [T 9, T 10, T 11, T 12, T 13, T 14, T 15, T 16, T 17]) (ms := [])
      ✓ .replaceNo .temporaryNo ✓ .notExistsNo (.idName ✓) .clusterNo (.schema (ts := [T 4, T 5, T 6, T 7]) ✓ (.columnDefOne a) ✓) e .commentNo
  have hx : [T 0, T 1, T 2, T 3, T 4, T 5, T 6, T 7, T 8, T 9, T 10, T 11, T 12, T 13, T 14, T 15, T 16, T 17] = (scanText createText).1 := by decide +kernel
  rw [hx] at s
  exact ⟨_, scan_clean ✓, .last s⟩

/-- The hypotheses of C48 for a concrete text. -/
theorem c48_case : ∃ vs ws w b b', Scan (Lx.new createText) (scanText createText).1 true ∧ Statements (scanText createText).1 vs ∧ Parses createText ws ∧ w ∈ ws ∧
    (w.norm id).kept = true ∧ (w.norm id).orderly = true ∧ PlainUsing (scanText createText).1 ∧ PlainEngine (scanText createText).1 ∧ (∀ t ∈ (scanText createText).1, 10 ∉ t.str) ∧
    w.ty? = some .CreateTable ∧ formatCompact w = some b ∧ formatBeautify b!"  " w = some b' := by
  obtain ⟨vs, h1, h2⟩ := create_case
  obtain ⟨ws, h4, h5⟩ := acceptsWith_iff (input := createText) (p := fun ws => ws.any fun w => (w.norm id).kept && (w.norm id).orderly && w.ty? == some .CreateTable) (by decide +kernel)
  simp only [List.any_eq_true, Bool.and_eq_true, beq_iff_eq] at h5
  obtain ⟨w, hw, ⟨hk, ho⟩, ht⟩ := h5
  obtain ⟨⟨b, h6⟩, h7⟩ := C48_statements_format _ _ _ _ h1 h2 h4 w hw
  obtain ⟨b', h7⟩ := h7 b!"  "
  have hn : (scanText createText).1.all (fun t => !t.str.contains 10) = true := by decide +kernel
  exact ⟨vs, _, w, b, b', h1, h2, h4, hw, hk, ho, plainUsing_of (by decide +kernel), plainEngine_of (by decide +kernel), by simpa using hn, ht, h6, h7⟩

/-- **C48**, one line: the text that the formatter gives for a statement of the grammar is parsed as one statement with the same tree up to positions, and
formatting this gives the same texts again.  As in C46 the queries in it may not have `DISTINCT` in an array, nor a comma after `USING`, and the list of `USING` may
not begin with a parenthesis or a signed number.  Moreover a column with a comment has neither a codec nor a TTL, an engine with a partition in front of `AS` and a query
has also a primary key, a sample, a TTL or settings (`orderly`), and the name of an engine is not quoted (`PlainEngine`): see the witnesses below.  Missing: the
statements without these restrictions, for which it is false. -/
theorem C48_statements_compact_partial (a b : Str) (ts : List Token) (vs ws : List V) (hs : Scan (Lx.new a) ts true) (hq : Statements ts vs) (hp : Parses a ws) (w : V) (hw : w ∈ ws)
    (hk : (w.norm id).kept = true) (ho : (w.norm id).orderly = true) (hu : PlainUsing ts) (he : PlainEngine ts) (hf : formatCompact w = some b) :
    ∃ w', Parses b [w'] ∧ w'.norm id = w.norm id ∧ formatCompact w' = some b ∧ ∀ ind, formatBeautify ind w' = formatBeautify ind w := by
  have hf' := hf
  obtain ⟨f, h1, rfl⟩ := Option.map_eq_some_iff.1 hf
  obtain ⟨w', h2, h3, h4⟩ := Again.again_ddl (m := false) (ind := []) hs hq hp hw hk ho hu he (by simp) rfl h1
  exact ⟨w', h2, h3, by rw [← hf', formatCompact, formatCompact, h4], fun ind => by rw [formatBeautify, formatBeautify, h4]⟩

example : ∃ vs ws w b, Scan (Lx.new createText) (scanText createText).1 true ∧ Statements (scanText createText).1 vs ∧ Parses createText ws ∧ w ∈ ws ∧
    (w.norm id).kept = true ∧ (w.norm id).orderly = true ∧ PlainUsing (scanText createText).1 ∧ PlainEngine (scanText createText).1 ∧ formatCompact w = some b := by
  obtain ⟨vs, ws, w, b, b', h1, h2, h3, h4, h5, h6, h7, h8, h9, h10, h11, h12⟩ := c48_case
  exact ⟨vs, ws, w, b, h1, h2, h3, h4, h5, h6, h7, h8, h11⟩

/-- **C48**, several lines, for an indentation of blanks and a text without a line end inside a token.  Missing: as before. -/
theorem C48_statements_beautified_partial (a b ind : Str) (ts : List Token) (vs ws : List V) (hs : Scan (Lx.new a) ts true) (hq : Statements ts vs) (hp : Parses a ws) (w : V)
    (hw : w ∈ ws) (hk : (w.norm id).kept = true) (ho : (w.norm id).orderly = true) (hu : PlainUsing ts) (he : PlainEngine ts) (hi : ∀ c ∈ ind, isBlank c = true) (hn : ∀ t ∈ ts, 10 ∉ t.str)
    (hf : formatBeautify ind w = some b) :
    ∃ w', Parses b [w'] ∧ w'.norm id = w.norm id ∧ formatBeautify ind w' = some b ∧ formatCompact w' = formatCompact w := by
  have hf' := hf
  obtain ⟨f, h1, rfl⟩ := Option.map_eq_some_iff.1 hf
  obtain ⟨w', h2, h3, h4⟩ := Again.again_ddl (m := true) (ind := ind) hs hq hp hw hk ho hu he (fun _ => hn) (by simpa using hi) h1
  exact ⟨w', h2, h3, by rw [← hf', formatBeautify, formatBeautify, h4], by rw [formatCompact, formatCompact, h4]⟩

example : ∃ vs ws w b, Scan (Lx.new createText) (scanText createText).1 true ∧ Statements (scanText createText).1 vs ∧ Parses createText ws ∧ w ∈ ws ∧
    (w.norm id).kept = true ∧ (w.norm id).orderly = true ∧ PlainUsing (scanText createText).1 ∧ PlainEngine (scanText createText).1 ∧ (∀ c ∈ b!"  ", isBlank c = true) ∧
    (∀ t ∈ (scanText createText).1, 10 ∉ t.str) ∧ formatBeautify b!"  " w = some b := by
  obtain ⟨vs, ws, w, b, b', h1, h2, h3, h4, h5, h6, h7, h8, h9, h10, h11, h12⟩ := c48_case
  exact ⟨vs, ws, w, b', h1, h2, h3, h4, h5, h6, h7, h8, by decide, h9, h12⟩

/-! ### What is left out -/

/-- `DETACH`, which keeps the data of a table, is formatted as `DROP`, which deletes them. -/
theorem C48_detach : ∃ v, Parses b!"DETACH TABLE t" [v] ∧ formatCompact v = some b!"DROP TABLE t" := formatsTo_iff (by decide +kernel)

theorem lost {a b : Str} (h : formatsTo a b = true) (h' : rejectsWith b (fun _ => true) = true) : ∃ v e, Parses a [v] ∧ formatCompact v = some b ∧ Fails b e := by
  obtain ⟨v, h1, h2⟩ := formatsTo_iff h
  obtain ⟨e, h3, _⟩ := rejectsWith_iff h'
  exact ⟨v, e, h1, h2, h3⟩

/-- The comment of a column is parsed before its codec and formatted after it: the text is rejected. -/
theorem C48_comment_codec : ∃ v e, Parses b!"CREATE TABLE t (a Int8 COMMENT 'x' CODEC(LZ4)) ENGINE = M" [v] ∧
    formatCompact v = some b!"CREATE TABLE t (a Int8 CODEC(LZ4) COMMENT 'x') ENGINE = M" ∧
    Fails b!"CREATE TABLE t (a Int8 CODEC(LZ4) COMMENT 'x') ENGINE = M" e := lost (by decide +kernel) (by decide +kernel)

/-- The same for the `TTL` of a column. -/
theorem C48_comment_ttl : ∃ v e, Parses b!"CREATE TABLE t (a Int8 COMMENT 'x' TTL b) ENGINE = M" [v] ∧
    formatCompact v = some b!"CREATE TABLE t (a Int8 TTL b COMMENT 'x') ENGINE = M" ∧
    Fails b!"CREATE TABLE t (a Int8 TTL b COMMENT 'x') ENGINE = M" e := lost (by decide +kernel) (by decide +kernel)

/-- `PARTITION BY` is moved behind `ORDER BY`, where the parser takes `AS` for the beginning of an alias: the text is rejected. -/
theorem C48_partition_as : ∃ v e, Parses b!"CREATE TABLE t ENGINE = M PARTITION BY a ORDER BY b AS SELECT 1" [v] ∧
    formatCompact v = some b!"CREATE TABLE t ENGINE = M ORDER BY b PARTITION BY a AS SELECT 1" ∧
    Fails b!"CREATE TABLE t ENGINE = M ORDER BY b PARTITION BY a AS SELECT 1" e := lost (by decide +kernel) (by decide +kernel)

/-- The quotes of the name of an engine are lost: the text is rejected. -/
theorem C48_engine_quotes : ∃ v e, Parses b!"CREATE TABLE t ENGINE = `a b` ORDER BY b" [v] ∧
    formatCompact v = some b!"CREATE TABLE t ENGINE = a b ORDER BY b" ∧
    Fails b!"CREATE TABLE t ENGINE = a b ORDER BY b" e := lost (by decide +kernel) (by decide +kernel)

end Verif

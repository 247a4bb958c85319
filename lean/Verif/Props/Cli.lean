/-
The command line tool (property C49).
-/
import Verif.Again.Line
import Verif.Props.DdlAgain

namespace Verif
open Spec

/-! ### C49 -/

/-- **C49**, first part: for every text of statements of the grammar the tool prints something, with `-format` and with `-beautify`; it reports no error and does not
crash. -/
theorem C49_cli_prints (m : Bool) (a : Str) (ts : List Token) (vs : List V) (hs : Scan (Lx.new a) ts true) (hq : Statements ts vs) : ∃ b, cli m a = some (.stdout b) := by
  obtain ⟨ws, hp, _⟩ := C47_statements_accepted a ts vs hs hq
  obtain ⟨b, hb⟩ := Again.loop_some (m := m) (ws := ws) fun w hw => by
    obtain ⟨⟨b, h1⟩, h2⟩ := C48_statements_format a ts vs ws hs hq hp w hw
    cases m with
    | false =>
      obtain ⟨f, h, _⟩ := Option.map_eq_some_iff.1 h1
      exact ⟨f, h⟩
    | true =>
      obtain ⟨b', h3⟩ := h2 b!"  "
      obtain ⟨f, h, _⟩ := Option.map_eq_some_iff.1 h3
      exact ⟨f, h⟩
  exact ⟨b, Again.cli_of hp hb⟩

example : ∃ vs, Scan (Lx.new ddlText) (scanText ddlText).1 true ∧ Statements (scanText ddlText).1 vs ∧ vs.length = 5 := ddl_case

/-- The hypotheses of C49 for a concrete text. -/
theorem cli_case : ∃ v b, Scan (Lx.new createText) (scanText createText).1 true ∧ Statements (scanText createText).1 [v] ∧ v.kept = true ∧ v.orderly = true ∧
    PlainUsing (scanText createText).1 ∧ PlainEngine (scanText createText).1 ∧ (∀ t ∈ (scanText createText).1, 10 ∉ t.str) ∧ cli true createText = some (.stdout b) := by
  obtain ⟨vs, ws, w, b, b', h1, h2, h3, h4, h5, h6, h7, h8, h9, h10, h11, h12⟩ := c48_case
  obtain ⟨b, hb⟩ := C49_cli_prints true createText _ _ h1 h2
  obtain ⟨ws', h13, h14⟩ := acceptsWith_iff (input := createText) (p := fun ws => ws.length == 1) (by decide +kernel)
  cases parses_unique h3 h13
  obtain ⟨x, rfl⟩ := List.length_eq_one_iff.1 (by simpa using h14)
  cases List.mem_singleton.1 h4
  cases C47_statements_tree _ _ _ _ h1 h2 h3
  exact ⟨_, b, h1, h2, h5, h6, h7, h8, h9, hb⟩

/-- **C49**, second part: what the tool prints consists of one piece for each statement, in their order, and each piece by itself is parsed as one statement with the
same tree up to positions.  The restrictions are those of C48; with `-beautify` no token may have a line end in it.  Missing: statements that do not meet the
restrictions, for which it is false by the witnesses of C48. -/
theorem C49_cli_pieces_partial (m : Bool) (a b : Str) (ts : List Token) (vs : List V) (hs : Scan (Lx.new a) ts true) (hq : Statements ts vs) (hk : ∀ v ∈ vs, v.kept = true ∧ v.orderly = true)
    (hu : PlainUsing ts) (he : PlainEngine ts) (hn : m = true → ∀ t ∈ ts, 10 ∉ t.str) (hb : cli m a = some (.stdout b)) :
    ∃ ls : List Str, b = ls.flatten ∧ List.Forall₂ (fun v l => ∃ w, Parses l [w] ∧ w.norm id = v) vs ls := by
  obtain ⟨ws, hp, hl⟩ := Again.of_cli hb
  obtain rfl := C47_statements_tree a ts vs ws hs hq hp
  obtain ⟨ls, rfl, h⟩ := Again.loop_lines hl
  refine ⟨ls, rfl, List.forall₂_map_left_iff.2 (Again.forall₂_mem h ?_)⟩
  rintro w hw _ ⟨f, hf, rfl⟩
  have hk := hk _ (List.mem_map.2 ⟨w, hw, rfl⟩)
  obtain ⟨w', h1, h2, _⟩ := Again.again_line hs hq hp hw hk.1 hk.2 hu he hn rfl hf
  exact ⟨w', h1, h2⟩

example : ∃ vs b, Scan (Lx.new createText) (scanText createText).1 true ∧ Statements (scanText createText).1 vs ∧ (∀ v ∈ vs, v.kept = true ∧ v.orderly = true) ∧ vs ≠ [] ∧
    PlainUsing (scanText createText).1 ∧ PlainEngine (scanText createText).1 ∧ (∀ t ∈ (scanText createText).1, 10 ∉ t.str) ∧ cli true createText = some (.stdout b) := by
  obtain ⟨v, b, h1, h2, h3, h4, h5, h6, h7, h8⟩ := cli_case
  exact ⟨[v], b, h1, h2, by simpa using ⟨h3, h4⟩, by simp, h5, h6, h7, h8⟩

/-- **C49**: for a text of one statement of the grammar, what the tool prints is a text of one statement with the same tree up to positions, and the tool prints it
again without a change.  The restrictions are those of C48; with `-beautify` no token may have a line end in it.  Missing: texts of several statements, for which it is
false (`C49_statements_merged`, `C49_statements_rejected`), and statements that do not meet the restrictions, for which it is false by the witnesses of C48. -/
theorem C49_cli_again_partial (m : Bool) (a b : Str) (ts : List Token) (v : V) (hs : Scan (Lx.new a) ts true) (hq : Statements ts [v]) (hk : v.kept = true) (ho : v.orderly = true)
    (hu : PlainUsing ts) (he : PlainEngine ts) (hn : m = true → ∀ t ∈ ts, 10 ∉ t.str) (hb : cli m a = some (.stdout b)) :
    cli m b = some (.stdout b) ∧ ∃ w w', Parses a [w] ∧ Parses b [w'] ∧ w.norm id = v ∧ w'.norm id = v := by
  obtain ⟨ws, hp, hl⟩ := Again.of_cli hb
  have ht := C47_statements_tree a ts [v] ws hs hq hp
  obtain ⟨w, rfl, rfl⟩ := List.map_eq_singleton_iff.1 ht
  obtain ⟨f, hf, rfl⟩ := Again.loop_one.1 hl
  obtain ⟨w', h1, h2, h3⟩ := Again.again_line hs hq hp (List.mem_singleton.2 rfl) hk ho hu he hn rfl hf
  exact ⟨Again.cli_of h1 (Again.loop_one.2 ⟨f, by rw [h3]; exact hf, rfl⟩), w, w', hp, h1, rfl, h2⟩

example : ∃ v b, Scan (Lx.new createText) (scanText createText).1 true ∧ Statements (scanText createText).1 [v] ∧ v.kept = true ∧ v.orderly = true ∧
    PlainUsing (scanText createText).1 ∧ PlainEngine (scanText createText).1 ∧ (∀ t ∈ (scanText createText).1, 10 ∉ t.str) ∧ cli true createText = some (.stdout b) := cli_case

/-! ### Several statements -/

/-- To check the witnesses. -/
def cliPrints (m : Bool) (a b : Str) : Bool := match cli m a with
  | some (.stdout c) => c == b
  | _ => false
theorem cliPrints_iff {m : Bool} {a b : Str} (h : cliPrints m a b = true) : cli m a = some (.stdout b) := by
  unfold cliPrints at h
  split at h
  · rename_i c hc; rw [hc, beq_iff_eq.1 h]
  · cases h

/-- The semicolons between the statements are not printed: the two statements here become one. -/
theorem C49_statements_merged : ∃ v w u, Parses b!"INSERT INTO t; SELECT 2" [v, w] ∧
    cli false b!"INSERT INTO t; SELECT 2" = some (.stdout b!"INSERT INTO t\nSELECT 2\n") ∧ Parses b!"INSERT INTO t\nSELECT 2\n" [u] := by
  obtain ⟨vs, h1, h2⟩ := acceptsWith_iff (input := b!"INSERT INTO t; SELECT 2") (p := fun ws => ws.length == 2) (by decide +kernel)
  obtain ⟨ws, h3, h4⟩ := acceptsWith_iff (input := b!"INSERT INTO t\nSELECT 2\n") (p := fun ws => ws.length == 1) (by decide +kernel)
  obtain ⟨v, w, rfl⟩ := List.length_eq_two.1 (by simpa using h2)
  obtain ⟨u, rfl⟩ := List.length_eq_one_iff.1 (by simpa using h4)
  exact ⟨v, w, u, h1, cliPrints_iff (by decide +kernel), h3⟩

/-- And here the text that is printed is rejected. -/
theorem C49_statements_rejected : cli false b!"SELECT 1; SELECT 2" = some (.stdout b!"SELECT 1\nSELECT 2\n") ∧ ∃ e, cli false b!"SELECT 1\nSELECT 2\n" = some (.failed e) := by
  refine ⟨cliPrints_iff (by decide +kernel), ?_⟩
  obtain ⟨e, ⟨v, s, h, hn⟩, _⟩ := rejectsWith_iff (input := b!"SELECT 1\nSELECT 2\n") (p := fun _ => true) (by decide +kernel)
  refine ⟨e, ?_⟩
  unfold cli
  rw [h]
  cases e <;> first | rfl | cases hn

end Verif

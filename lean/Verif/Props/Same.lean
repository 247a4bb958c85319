/-
The parser sees only the tokens of a text: white space, comments and the letter case of keywords do not
matter to it, with the exceptions stated here (properties C38, C42).
-/
import Verif.Relation.Result
import Verif.Relation.Norm
import Verif.Relation.Texts

namespace Verif
open Spec An

variable {a b : Str} {ts us : List Token}

/-! ### The exception

A text in which the last token is followed by white space or a comment is not parsed like the same text without it:
the statement loop takes the end of the input as the end of the statements as soon as the last token has been read
(parser/parser_table.go:1554). -/

theorem same_trees (h : SameText Eq a b) {vs : List V} (hp : Parses a vs) : ∃ ws, Parses b ws ∧ SameTrees vs ws := by
  obtain ⟨ws, hw, hs⟩ := same_parses spelling_eq h hp
  exact ⟨ws, hw, trees_norm (c := id) (by simp) hs (fun v hv => parses_isTree_noReq hp hv)⟩

/-! ### C42 -/

/-- **C42**: two texts with the same tokens, that is the same kinds and spellings in the same order at whatever
positions, and both or neither with something behind the last one, are both accepted with the same trees up to
positions, both rejected, or both crash in the same line. -/
theorem C42_tokens_decide (ha : Scan (Lx.new a) ts true) (hb : Scan (Lx.new b) us true)
    (hc : ts.map Token.content = us.map Token.content) (ht : Tight a ↔ Tight b) :
    (∀ vs, Parses a vs → ∃ ws, Parses b ws ∧ SameTrees vs ws) ∧
    (∀ e, Fails a e → ∃ e', Fails b e') ∧
    (∀ ln, Panics a ln → Panics b ln) := by
  have h := sameText_scans ha hb (sim_of_content hc) ht
  refine ⟨fun vs hv => same_trees h hv, fun e he => ?_, fun ln hl => same_panics spelling_eq h hl⟩
  exact (same_fails spelling_eq h he).imp fun e' h => h.1

/-- To show of a concrete text that its last token stands at its end. -/
def tightBy : Nat → Lx → Bool
  | 0, _ => false
  | n + 1, l => l.rest.isEmpty || match l.consume with
    | .ok l' => l'.cur.isSome && tightBy n l'
    | .err _ => false

theorem tightBy_tight : ∀ {n : Nat} {l : Lx}, tightBy n l = true → TightL l
  | 0, _, h => by simp [tightBy] at h
  | n + 1, l, h => by
    rw [tightBy, Bool.or_eq_true] at h
    rcases h with h | h
    · exact ⟨[], l, .nil, by simpa using h⟩
    · split at h
      · rename_i l' hl
        rw [Bool.and_eq_true] at h
        obtain ⟨t, ht⟩ := Option.isSome_iff_exists.1 h.1
        obtain ⟨us, m, hr, he⟩ := tightBy_tight h.2
        exact ⟨_, _, .tok hl ht hr, he⟩
      · simp at h

/-- To exhibit a scan of a concrete text without lexical errors. -/
theorem scan_clean {s : Str} (h : (scanText s).2 = true) : Scan (Lx.new s) (scanText s).1 true := h ▸ scanText_scan s

example : ∃ a b ts us, a ≠ b ∧ Scan (Lx.new a) ts true ∧ Scan (Lx.new b) us true ∧ ts.map Token.content = us.map Token.content ∧
    (Tight a ↔ Tight b) ∧ (∃ vs, Parses a vs) :=
  ⟨b!"SELECT a+1 FROM t", b!" SELECT a/**/+ 1 -- x\nFROM t", _, _, by decide, scan_clean (by decide +kernel), scan_clean (by decide +kernel),
    by decide +kernel, ⟨fun _ => tightBy_tight (n := 30) (by decide +kernel), fun _ => tightBy_tight (n := 30) (by decide +kernel)⟩,
    (acceptsWith_iff (p := fun _ => true) (by decide +kernel)).imp fun _ h => h.1⟩

/-- The condition on the end of the text is needed: behind the last token the statement loop stops before
looking at that token, unless something follows it. -/
theorem C42_needs_tight : ∃ a b ts us, Scan (Lx.new a) ts true ∧ Scan (Lx.new b) us true ∧ ts.map Token.content = us.map Token.content ∧
    (∃ vs, Parses a vs) ∧ (∃ e, Fails b e) :=
  ⟨b!"foo", b!"foo ", _, _, scan_clean (by decide +kernel), scan_clean (by decide +kernel), by decide +kernel,
    (acceptsWith_iff (p := fun _ => true) (by decide +kernel)).imp fun _ h => h.1,
    (rejectsWith_iff (p := fun _ => true) (by decide +kernel)).imp fun _ h => h.1⟩

/-- **C42**, insertion of white space and comments: a gap that begins with white space may be inserted in front
of a text or between any two of its tokens, also in front of a lexical error. -/
theorem C42_gap (a b : Str) (ts : List Token) (cur : Option Token) (h : Run (Lx.new (a ++ b)) ts ⟨a.length, b, cur⟩)
    (hb : b ≠ []) (w g : Str) (hw : White w) (hg : Gap g) :
    (∀ vs, Parses (a ++ b) vs → ∃ ws, Parses (a ++ ((w ++ g) ++ b)) ws ∧ SameTrees vs ws) ∧
    (∀ e, Fails (a ++ b) e → ∃ e', Fails (a ++ ((w ++ g) ++ b)) e') ∧
    (∀ ln, Panics (a ++ b) ln → Panics (a ++ ((w ++ g) ++ b)) ln) := by
  have h := sameText_gap h hb hw hg
  refine ⟨fun vs hv => same_trees h hv, fun e he => ?_, fun ln hl => same_panics spelling_eq h hl⟩
  exact (same_fails spelling_eq h he).imp fun e' h => h.1

/-- `USE` | ` t`. -/
example : ∃ ts cur vs, Run (Lx.new (b!"USE" ++ b!" t ")) ts ⟨3, b!" t ", cur⟩ ∧ Parses (b!"USE" ++ b!" t ") vs :=
  ⟨[{ pos := 0, endp := 3, kind := .keyword, str := b!"USE", quote := 1 }], _, _,
   .tok (l1 := ⟨3, b!" t ", some { pos := 0, endp := 3, kind := .keyword, str := b!"USE", quote := 1 }⟩) (by decide +kernel) rfl .nil,
   (acceptsWith_iff (p := fun _ => true) (by decide +kernel)).choose_spec.1⟩

/-! ### C38 -/

/-- **C38**, for all keywords but those in `exactWords` (`MIN`, `MAX`, `NONE`, `ROLE`, `DATABASE`, `ARRAY`): changing the
case of letters in keywords changes neither whether a text is accepted nor the trees, up to the case of the strings
in them.  Missing: texts with lexical errors. -/
theorem C38_keyword_case_partial (h : Recased a b ts) :
    (∀ vs, Parses a vs → ∃ ws, Parses b ws ∧ SameTreesFold vs ws) ∧
    (∀ e, Fails a e → ∃ e', Fails b e') ∧
    (∀ ln, Panics a ln → Panics b ln) := by
  have h := sameText_recased h
  refine ⟨fun vs hv => ?_, fun e he => ?_, fun ln hl => same_panics spelling_case h hl⟩
  · obtain ⟨ws, hw, hs⟩ := same_parses spelling_case h hv
    exact ⟨ws, hw, trees_norm (c := upper) (fun _ _ h => h.1) hs (fun v hm => parses_isTree_noReq hv hm)⟩
  · exact (same_fails spelling_case h he).imp fun e' h => h.1

/-- To exhibit a change of letter case in keywords of a concrete text. -/
def recasedBy (p : Token → Bool) (a b : Str) : Bool := (scanText a).2 && (upper a == upper b) &&
  (List.range a.length).all fun i => a[i]? == b[i]? ||
    (scanText a).1.any fun t => t.kind == .keyword && p t && decide (t.pos ≤ i) && decide (i < t.endp)

theorem recasedBy_spec {p : Token → Bool} (h : recasedBy p a b = true) : Scan (Lx.new a) (scanText a).1 true ∧ SameLetters a b ∧
    ∀ i : Nat, a[i]? ≠ b[i]? → ∃ t ∈ (scanText a).1, t.kind = .keyword ∧ p t = true ∧ t.pos ≤ i ∧ i < t.endp := by
  simp only [recasedBy, Bool.and_eq_true, beq_iff_eq, List.all_eq_true, List.mem_range, Bool.or_eq_true, List.any_eq_true,
    decide_eq_true_eq] at h
  obtain ⟨⟨h1, h2⟩, h3⟩ := h
  have hs := (upper_eq_iff a b).1 h2
  refine ⟨scan_clean h1, hs, fun i hi => ?_⟩
  by_cases hl : i < a.length
  · rcases h3 i hl with e | ⟨t, ht, ⟨⟨k1, k2⟩, k3⟩, k4⟩
    · exact absurd e hi
    · exact ⟨t, ht, k1, k2, k3, k4⟩
  · rw [List.getElem?_eq_none (by omega), List.getElem?_eq_none (by rw [← same_length hs]; omega)] at hi
    exact absurd rfl hi

theorem recasedBy_recased (h : recasedBy (fun t => !(exactWords.map upper).contains (upper t.str)) a b = true) :
    Recased a b (scanText a).1 := by
  obtain ⟨h1, h2, h3⟩ := recasedBy_spec h
  refine ⟨h1, h2, fun i hi => ?_⟩
  obtain ⟨t, ht, k1, k2, k3, k4⟩ := h3 i hi
  exact ⟨t, ht, k1, by simpa using k2, k3, k4⟩

example : ∃ a b ts, a ≠ b ∧ Recased a b ts ∧ ∃ vs, Parses a vs :=
  ⟨b!"SELECT a FROM t WHERE NOT a IN (1)", b!"Select a froM t where not a in (1)", _, by decide, recasedBy_recased (by decide +kernel),
    (acceptsWith_iff (p := fun _ => true) (by decide +kernel)).imp fun _ h => h.1⟩

/-- C38 is false in general: `ARRAY JOIN` and `DEFAULT ROLE` are recognised in upper case only. -/
theorem C38_keyword_case_fails : ¬ ∀ a b ts, Scan (Lx.new a) ts true → SameLetters a b →
    (∀ i : Nat, a[i]? ≠ b[i]? → ∃ t ∈ ts, t.kind = .keyword ∧ t.pos ≤ i ∧ i < t.endp) →
    (∃ vs, Parses a vs) → ∃ ws, Parses b ws := by
  intro h
  have hr := recasedBy_spec (p := fun _ => true) (a := b!"SELECT a FROM t ARRAY JOIN [1]") (b := b!"SELECT a FROM t array JOIN [1]")
    (by decide +kernel)
  obtain ⟨ws, v, s, h1, -⟩ := h _ _ _ hr.1 hr.2.1 (fun i hi => by
      obtain ⟨t, h1, h2, -, h3⟩ := hr.2.2 i hi
      exact ⟨t, h1, h2, h3⟩)
    ((acceptsWith_iff (p := fun _ => true) (by decide +kernel)).imp fun _ h => h.1)
  obtain ⟨e, ⟨v', s', h2, hn⟩, -⟩ := rejectsWith_iff (input := b!"SELECT a FROM t array JOIN [1]") (p := fun _ => true) (by decide +kernel)
  rw [h1] at h2
  simp only [COut.ret.injEq, List.cons.injEq] at h2
  obtain ⟨⟨-, rfl, -⟩, -⟩ := h2
  simp [V.nonNil] at hn

end Verif

/-
The tokens of a formatted query (property C44), and formatting and parsing queries again (C27, C28).
-/
import Verif.Echo.Whole
import Verif.Echo.Count
import Verif.Echo.Stmt
import Verif.Relation.Result
import Verif.Props.RoundTrip

namespace Verif
open Spec

/-! ### C44 -/

/-- **C44**, one line: the formatted text of a query contains no lexical error, and its tokens are those of the source, rewritten in the
ways listed in `Rewritten`; nothing is lost but what follows the statement. -/
theorem C44_tokens_compact (a b : Str) (v : V) (ts pre src : List Token) (hp : Parses a [v]) (hs : Scan (Lx.new a) ts true) (hq : Query ts pre src)
    (hc : ∀ t ∈ ts, Canonical t) (hv : v.plain = true) (hf : formatCompact v = some b) :
    ∃ us rest, Scan (Lx.new b) us true ∧ Rewritten src us rest ∧ Left rest := by
  obtain ⟨f, h1, rfl⟩ := Option.map_eq_some_iff.1 hf
  obtain ⟨us, rest, h2, h3, h4⟩ := Echo.whole (m := false) (ind := []) hp hs hq hc hv rfl (by simp) h1
  exact ⟨us, rest, h2.scan, h3, h4⟩

/-- **C44**, several lines, for an indentation of blanks and a source without a line end inside a token. -/
theorem C44_tokens_beautified (a b ind : Str) (v : V) (ts pre src : List Token) (hp : Parses a [v]) (hs : Scan (Lx.new a) ts true) (hq : Query ts pre src)
    (hc : ∀ t ∈ ts, Canonical t) (hv : v.plain = true) (hi : ∀ c ∈ ind, isBlank c = true) (hn : ∀ t ∈ src, 10 ∉ t.str) (hf : formatBeautify ind v = some b) :
    ∃ us rest, Scan (Lx.new b) us true ∧ Rewritten src us rest ∧ Left rest := by
  obtain ⟨f, h1, rfl⟩ := Option.map_eq_some_iff.1 hf
  obtain ⟨us, rest, h2, h3, h4⟩ := Echo.whole (m := true) (ind := ind) hp hs hq hc hv (by simpa using hi) (fun _ => hn) h1
  exact ⟨us, rest, h2.scan, h3, h4⟩

/-- To check a concrete text. -/
def canonicalB (t : Token) : Bool := (match t.kind with
  | .op k => t.str == k
  | .keyword => upper t.str != b!"ASCENDING" && upper t.str != b!"DESCENDING"
  | _ => true)

theorem canonicalB_iff {ts : List Token} (h : ts.all canonicalB = true) : ∀ t ∈ ts, Canonical t := by
  intro t ht
  have := List.all_eq_true.1 h t ht
  unfold canonicalB at this
  refine ⟨fun k hk => ?_, fun hk => ?_⟩
  · rw [hk] at this; simpa using this
  · rw [hk] at this; simpa using this

/-- The hypotheses of C44 for a concrete text. -/
theorem c44_case {a b b' : Str} {d : Nat} (h : (acceptsWith a fun vs => match vs with
      | [v] => v.plain && formatCompact v == some b && formatBeautify b!"  " v == some b'
      | _ => false) = true) (hs : (scanText a).2 = true) (hc : (scanText a).1.all canonicalB = true)
    (hq : ((scanText a).1.take d).all (fun t => t.kind == .op b!";") = true)
    (hh : (match ((scanText a).1.drop d).head? with
      | some q => q.kind == .keyword && (upper q.str == b!"SELECT" || upper q.str == b!"WITH")
      | none => false) = true) (hn : ((scanText a).1.drop d).all (fun t => !t.str.contains 10) = true) :
    ∃ v ts pre src, Parses a [v] ∧ Scan (Lx.new a) ts true ∧ Query ts pre src ∧ (∀ t ∈ ts, Canonical t) ∧ v.plain = true ∧ formatCompact v = some b ∧
      formatBeautify b!"  " v = some b' ∧ ∀ t ∈ src, 10 ∉ t.str := by
  obtain ⟨vs, h1, h2⟩ := acceptsWith_iff h
  split at h2
  · rename_i v
    simp only [Bool.and_eq_true, beq_iff_eq] at h2
    refine ⟨v, _, _, _, h1, scan_clean hs, ⟨(List.take_append_drop d _).symm, by simpa using hq, ?_⟩, canonicalB_iff hc, h2.1.1, h2.1.2, h2.2, by simpa using hn⟩
    revert hh
    cases ((scanText a).1.drop d).head? with
    | none => simp
    | some q =>
      simp only [Bool.and_eq_true, Bool.or_eq_true, beq_iff_eq]
      rintro ⟨h1, h2 | h2⟩
      · exact ⟨q, rfl, .inl ⟨h1, h2⟩⟩
      · exact ⟨q, rfl, .inr ⟨h1, h2⟩⟩
  · simp at h2

/-- All rewritings at once. -/
example : ∃ a b b' v ts pre src, Parses a [v] ∧ Scan (Lx.new a) ts true ∧ Query ts pre src ∧ (∀ t ∈ ts, Canonical t) ∧ v.plain = true ∧
    formatCompact v = some b ∧ formatBeautify b!"  " v = some b' ∧ ∀ t ∈ src, 10 ∉ t.str :=
  ⟨b!";select a+ -1 x, f(y,) from (select `b c` from t) join u using (k) where x limit 1, 2 format JSON;",
   b!"SELECT a + -1 AS x, f(y) FROM (SELECT `b c` FROM t) JOIN u USING k WHERE x LIMIT 2 OFFSET 1 FORMAT JSON",
   b!"SELECT\n  a + -1 AS x,\n  f(y)\nFROM\n  (SELECT\n    `b c`\n  FROM\n    t)\n  JOIN\n    u USING k\nWHERE\n  x\nLIMIT 2 OFFSET 1\nFORMAT JSON",
   c44_case (d := 1) (by decide +kernel) (by decide +kernel) (by decide +kernel) (by decide +kernel) (by decide +kernel) (by decide +kernel)⟩

/-! ### C27 and C28 -/

theorem parses_unique {a : Str} {vs ws : List V} (h : Parses a vs) (h' : Parses a ws) : vs = ws := by
  obtain ⟨v, s, h1, rfl⟩ := h
  obtain ⟨w, s', h2, rfl⟩ := h'
  rw [h1] at h2
  simp only [COut.ret.injEq, List.cons.injEq] at h2
  rw [h2.1.1]

theorem plain_structs : ∀ (n : Nat) {v x : V}, sizeOf v < n → v.plain = true → x ∈ v.structs → ∀ t, x.ty? = some t → t ∉ posReaders
  | 0, _, _, h, _, _, _, _ => absurd h (Nat.not_lt_zero _)
  | n + 1, v, x, hn, hv, hx, t, ht => by
    have list : ∀ vs : List V, sizeOf vs < n → V.plainL vs = true → x ∈ V.nodesL (fun _ => true) vs → t ∉ posReaders := by
      intro vs
      induction vs with
      | nil => intro _ _ hx; simp [V.nodesL] at hx
      | cons w vs ih =>
        intro hs hp hx
        simp only [List.cons.sizeOf_spec] at hs
        simp only [V.plainL, Bool.and_eq_true] at hp
        simp only [V.nodesL, List.mem_append] at hx
        rcases hx with hx | hx
        · exact plain_structs n (by omega) hp.1 hx t ht
        · exact ih (by omega) hp.2 hx
    cases v with
    | mk u fs =>
      simp only [V.mk.sizeOf_spec] at hn
      simp only [V.plain, Bool.and_eq_true] at hv
      simp only [V.structs, V.nodes, if_true, List.mem_cons] at hx
      rcases hx with rfl | hx
      · simp only [V.ty?, Option.some.injEq] at ht
        subst ht
        intro hm
        simp only [posReaders, List.mem_cons, List.not_mem_nil, or_false] at hm
        rcases hm with rfl | rfl
        · simp [plainNode] at hv
        · simp [plainNode] at hv
      · exact list fs (by omega) hv.2 hx
    | list vs =>
      simp only [V.list.sizeOf_spec] at hn
      simp only [V.plain] at hv
      simp only [V.structs, V.nodes] at hx
      exact list vs (by omega) hv hx
    | _ => simp [V.structs, V.nodes] at hx

/-- The tree contains no node whose `FormatSQL` asks whether a position is zero. -/
def NoPosReader (v : V) : Prop := ∀ x ∈ v.structs, ∀ t, x.ty? = some t → t ∉ posReaders

theorem plain_noPosReader {v : V} (h : v.plain = true) : NoPosReader v := fun _ hx t ht => plain_structs _ (Nat.lt_succ_self _) h hx t ht

/-- The keywords that are compared letter by letter are written in capitals. -/
def ExactCapitals (ts : List Token) : Prop := ∀ t ∈ ts, t.kind = .keyword → upper t.str ∈ exactWords.map upper → t.str = upper t.str

/-- All keywords are written in capitals. -/
def Capitals (ts : List Token) : Prop := ∀ t ∈ ts, t.kind = .keyword → t.str = upper t.str

theorem printed_case {t u : Token} (h : Printed t u) (hx : t.kind = .keyword → upper t.str ∈ exactWords.map upper → t.str = upper t.str) : Token.Sim CaseOnly t u := by
  rcases h with h | ⟨hk, h⟩ <;> simp only [Token.content, Prod.mk.injEq] at h <;> obtain ⟨h1, h2, h3, h4⟩ := h
  · exact ⟨h1.symm, by rw [h2]; exact spelling_case.refl _, fun _ => h2.symm, h3.symm, h4.symm⟩
  · refine ⟨h1.symm, ?_, fun n => absurd hk n, h3.symm, h4.symm⟩
    rw [h2]
    by_cases hm : upper t.str ∈ exactWords.map upper
    · rw [← hx hk hm]; exact spelling_case.refl _
    · refine ⟨(Echo.upper2 _).symm, fun w hw => ⟨?_, ?_⟩⟩
      · rintro rfl; exact absurd (List.mem_map.2 ⟨_, hw, rfl⟩) hm
      · intro e; exact absurd (List.mem_map.2 ⟨w, hw, by rw [← e, Echo.upper2]⟩) hm

theorem printed_eq {t u : Token} (h : Printed t u) (hx : t.kind = .keyword → t.str = upper t.str) : Token.Sim Eq t u := by
  rcases h with h | ⟨hk, h⟩ <;> simp only [Token.content, Prod.mk.injEq] at h <;> obtain ⟨h1, h2, h3, h4⟩ := h
  · exact ⟨h1.symm, h2.symm, fun _ => h2.symm, h3.symm, h4.symm⟩
  · exact ⟨h1.symm, by rw [h2, ← hx hk], fun n => absurd hk n, h3.symm, h4.symm⟩

theorem again {R : Str → Str → Prop} {a : Str} {v : V} {ts us pre src : List Token} {m : Bool} {ind : Str} {f : Fmt} (hR : Spelling R) (hp : Parses a [v])
    (ha : Scan (Lx.new a) ts true) (hq : Query ts pre src) (hc : ∀ t ∈ ts, Canonical t) (hv : v.plain = true) (hi : ind.all isBlank = true)
    (hn : m = true → ∀ t ∈ src, 10 ∉ t.str) (hf : (Echo.initial m ind).writeExpr v = some f) (hb : Scan (Lx.new f.out) us true) (hm : SameMarks ts us)
    (ht : Tight a) (hl : ∀ c, f.out.getLast? = some c → isBlank c = false) (hs : ∀ t ∈ ts, ∀ u, Printed t u → Token.Sim R t u) :
    ∃ w, Parses f.out [w] ∧ V.Sim R v w := by
  obtain ⟨us', rest, h1, h2, h3⟩ := Echo.whole hp ha hq hc hv hi hn hf
  obtain ⟨rfl, -⟩ := scan_unique h1.scan hb
  obtain ⟨rfl, rfl, h4⟩ := Echo.printed_all hq h2 h3 hm
  have h5 : List.Forall₂ (Token.Sim R) ts us' := by
    clear hb h1 h2 hm hc hq ha
    induction h4 with
    | nil => exact .nil
    | cons h _ ih => exact .cons (hs _ List.mem_cons_self _ h) (ih fun t ht => hs t (List.mem_cons_of_mem _ ht))
  have hsame := sameText_scans ha hb h5 ⟨fun _ => h1.tight hl, fun _ => ht⟩
  obtain ⟨ws, h6, h7⟩ := same_parses hR hsame hp
  cases h7 with
  | cons h7 h8 => cases h8; exact ⟨_, h6, h7⟩

/-- **C27** for queries: the text of a query of the class `V.plain`, in one line or in several, is accepted again and gives the same tree up to
positions and letter case, if the formatter has not added or dropped a token.  Missing: the trees after the rewritings of C44, what follows the
statement, and the other statements. -/
theorem C27_query_partial (a b : Str) (v : V) (ts us pre src : List Token) (hp : Parses a [v]) (ha : Scan (Lx.new a) ts true) (hq : Query ts pre src)
    (hc : ∀ t ∈ ts, Canonical t) (hv : v.plain = true) (hb : Scan (Lx.new b) us true) (hm : SameMarks ts us) (ht : Tight a)
    (hl : ∀ c, b.getLast? = some c → isBlank c = false) (hx : ExactCapitals ts)
    (hf : formatCompact v = some b ∨ ∃ ind, formatBeautify ind v = some b ∧ (∀ c ∈ ind, isBlank c = true) ∧ ∀ t ∈ src, 10 ∉ t.str) :
    ∃ w, Parses b [w] ∧ SameTreesFold [v] [w] ∧ (Capitals ts → SameTrees [v] [w]) := by
  have main : ∃ m ind f, (Echo.initial m ind).writeExpr v = some f ∧ f.out = b ∧ ind.all isBlank = true ∧ (m = true → ∀ t ∈ src, 10 ∉ t.str) := by
    rcases hf with hf | ⟨ind, hf, hi, hn⟩ <;> obtain ⟨f, h1, h2⟩ := Option.map_eq_some_iff.1 hf
    · exact ⟨false, [], f, h1, h2, rfl, by simp⟩
    · exact ⟨true, ind, f, h1, h2, by simpa using hi, fun _ => hn⟩
  obtain ⟨m, ind, f, h1, rfl, hi, hn⟩ := main
  have hT : ∀ x ∈ [v], x.isTree noReq := fun x hx => An.parses_isTree_noReq hp hx
  obtain ⟨w, hw, hs⟩ := again spelling_case hp ha hq hc hv hi hn h1 hb hm ht hl fun t ht u h => printed_case h (hx t ht)
  refine ⟨w, hw, trees_norm (c := upper) (fun _ _ h => h.1) (.cons hs .nil) hT, fun hcap => ?_⟩
  obtain ⟨w', hw', hs'⟩ := again spelling_eq hp ha hq hc hv hi hn h1 hb hm ht hl fun t ht u h => printed_eq h (hcap t ht)
  have : [w'] = [w] := parses_unique hw' hw
  cases this
  exact trees_norm (c := id) (by simp) (.cons hs' .nil) hT

/-- **C28** for queries: parsing the text of such a query and formatting it again gives the same text, in both modes, if the keywords of the source
are in capitals.  Missing as for C27. -/
theorem C28_query_partial (a b : Str) (v : V) (ts us pre src : List Token) (hp : Parses a [v]) (ha : Scan (Lx.new a) ts true) (hq : Query ts pre src)
    (hc : ∀ t ∈ ts, Canonical t) (hv : v.plain = true) (hb : Scan (Lx.new b) us true) (hm : SameMarks ts us) (ht : Tight a)
    (hl : ∀ c, b.getLast? = some c → isBlank c = false) (hx : Capitals ts)
    (hf : formatCompact v = some b ∨ ∃ ind, formatBeautify ind v = some b ∧ (∀ c ∈ ind, isBlank c = true) ∧ ∀ t ∈ src, 10 ∉ t.str) :
    ∃ w, Parses b [w] ∧ formatCompact w = formatCompact v ∧ ∀ ind, formatBeautify ind w = formatBeautify ind v := by
  have main : ∃ m ind f, (Echo.initial m ind).writeExpr v = some f ∧ f.out = b ∧ ind.all isBlank = true ∧ (m = true → ∀ t ∈ src, 10 ∉ t.str) := by
    rcases hf with hf | ⟨ind, hf, hi, hn⟩ <;> obtain ⟨f, h1, h2⟩ := Option.map_eq_some_iff.1 hf
    · exact ⟨false, [], f, h1, h2, rfl, by simp⟩
    · exact ⟨true, ind, f, h1, h2, by simpa using hi, fun _ => hn⟩
  obtain ⟨m, ind, f, h1, rfl, hi, hn⟩ := main
  obtain ⟨w, hw, hs⟩ := again spelling_eq hp ha hq hc hv hi hn h1 hb hm ht hl fun t ht u h => printed_eq h (hx t ht)
  have := fun f => writeExpr_same hs (An.parses_isTree_noReq hp (by simp)) f
  exact ⟨w, hw, by rw [formatCompact, formatCompact, this], fun ind => by rw [formatBeautify, formatBeautify, this]⟩

/-- To check a concrete text. -/
def sameMarksB (ts us : List Token) : Bool := marks.all fun k => decide (tally k ts = tally k us)

theorem sameMarksB_iff {ts us : List Token} (h : sameMarksB ts us = true) : SameMarks ts us := by
  intro k hk
  simpa using List.all_eq_true.1 h k hk

theorem capitals_of {ts : List Token} (h : ts.all (fun t => t.kind != .keyword || t.str == upper t.str) = true) : Capitals ts := by
  intro t ht hk
  have := List.all_eq_true.1 h t ht
  rw [hk] at this
  simpa using this

theorem exactCapitals_of {ts : List Token} (h : ts.all (fun t => t.kind != .keyword || !(exactWords.map upper).contains (upper t.str) || t.str == upper t.str) = true) :
    ExactCapitals ts := by
  intro t ht hk hm
  have := List.all_eq_true.1 h t ht
  rw [hk] at this
  simp only [bne_self_eq_false, Bool.false_or, Bool.or_eq_true, Bool.not_eq_true', beq_iff_eq] at this
  rcases this with this | this
  · rw [List.contains_iff_mem.2 hm] at this
    cases this
  · exact this

/-- The hypotheses of C27 are met by a query in small letters, those of C28 by one in capitals. -/
example : ∃ a b v ts us pre src, Parses a [v] ∧ Scan (Lx.new a) ts true ∧ Query ts pre src ∧ (∀ t ∈ ts, Canonical t) ∧ v.plain = true ∧
    Scan (Lx.new b) us true ∧ SameMarks ts us ∧ Tight a ∧ (∀ c, b.getLast? = some c → isBlank c = false) ∧ ExactCapitals ts ∧ formatCompact v = some b := by
  obtain ⟨v, ts, pre, src, h1, h2, h3, h4, h5, h6, -, -⟩ := c44_case (a := b!"select a+b as x, f(y)[1] from t where x in(select 1)order by z")
    (b := b!"SELECT a + b AS x, f(y)[1] FROM t WHERE x IN (SELECT 1) ORDER BY z")
    (b' := b!"SELECT\n  a + b AS x,\n  f(y)[1]\nFROM\n  t\nWHERE\n  x IN (SELECT\n    1)\nORDER BY\n  z")
    (d := 0) (by decide +kernel) (by decide +kernel) (by decide +kernel) (by decide +kernel) (by decide +kernel) (by decide +kernel)
  obtain ⟨rfl, -⟩ := scan_unique h2 (scan_clean (by decide +kernel))
  exact ⟨_, _, v, _, _, pre, src, h1, h2, h3, h4, h5, scan_clean (by decide +kernel), sameMarksB_iff (by decide +kernel),
    tightBy_tight (n := 40) (by decide +kernel), by decide +kernel, exactCapitals_of (by decide +kernel), h6⟩

example : ∃ a b v ts us pre src, Parses a [v] ∧ Scan (Lx.new a) ts true ∧ Query ts pre src ∧ (∀ t ∈ ts, Canonical t) ∧ v.plain = true ∧
    Scan (Lx.new b) us true ∧ SameMarks ts us ∧ Tight a ∧ (∀ c, b.getLast? = some c → isBlank c = false) ∧ Capitals ts ∧
    formatBeautify b!"  " v = some b ∧ ∀ t ∈ src, 10 ∉ t.str := by
  obtain ⟨v, ts, pre, src, h1, h2, h3, h4, h5, -, h6, h7⟩ := c44_case (a := b!"SELECT a+b AS x, f(y)[1] FROM t WHERE x IN(SELECT 1)ORDER BY z")
    (b := b!"SELECT a + b AS x, f(y)[1] FROM t WHERE x IN (SELECT 1) ORDER BY z")
    (b' := b!"SELECT\n  a + b AS x,\n  f(y)[1]\nFROM\n  t\nWHERE\n  x IN (SELECT\n    1)\nORDER BY\n  z")
    (d := 0) (by decide +kernel) (by decide +kernel) (by decide +kernel) (by decide +kernel) (by decide +kernel) (by decide +kernel)
  obtain ⟨rfl, -⟩ := scan_unique h2 (scan_clean (by decide +kernel))
  exact ⟨_, _, v, _, _, pre, src, h1, h2, h3, h4, h5, scan_clean (by decide +kernel), sameMarksB_iff (by decide +kernel),
    tightBy_tight (n := 40) (by decide +kernel), by decide +kernel, capitals_of (by decide +kernel), h6, h7⟩

end Verif

/-
The parser as a whole: it terminates, where it can panic, its errors, and what its trees are like
(properties C14, C18, C19, C25, C26, C41).
-/
import Verif.Analysis.Result
import Verif.Props.Source
import Verif.Props.Format
import Verif.Props.Tree

namespace Verif
open Spec An

/-! ### C18 -/

/-- **C18**: for every input `ParseStmts` comes to an end, by returning or by a panic: calls are never
nested deeper, and no loop runs longer, than 28 times the length of the input plus 28, so a larger
bound does not change the outcome. -/
theorem C18_terminates (input : Str) :
    parseStmts input ≠ .fuel ∧
    ∀ n, 28 * (input.length + 1) ≤ n → runFn fnTable n .ParseStmts [] (PS.new input) = parseStmts input := by
  have h : parseStmts input ≠ .fuel := by
    intro e
    have := result input
    rw [e] at this
    exact this
  exact ⟨h, fun n hn => runFn_mono fnTable _ n hn _ _ _ h⟩

example : ∃ s, runFn fnTable 1000 .ParseStmts [] (PS.new b!";;") = .ret [.nil, .nil] s ∧ 28 * (b!";;".length + 1) ≤ 1000 :=
  ⟨_, rfl, by decide⟩

/-! ### C14 -/

/-- **C14**: whenever `ParseStmts` fails it returns a `ParseError` whose position is in the input or
at its end, and whose line and column are those of this position. -/
theorem C14_error_position (input : Str) (e : V) (h : Fails input e) :
    ∃ pos line column rest, e = .mk .ParseError (.nat pos :: .nat line :: .nat column :: rest) ∧
      pos ≤ input.length ∧ line = lineOf input pos ∧ column = columnOf input pos := by
  obtain ⟨v, s, h, hn⟩ := h
  have hr := result input
  rw [h] at hr
  rcases hr with ⟨v', e', h1, h2⟩ | ⟨v', h1, -⟩
  · simp only [List.cons.injEq] at h1
    obtain ⟨-, rfl, -⟩ := h1
    rcases h2 with ⟨p, l, c, rest, rfl, hp, -, hw⟩ | ⟨h2, -⟩
    · rcases hw with ⟨h2, -⟩ | hw
      · simp at h2
      · rw [C11_line_column input p hp] at hw
        simp only [Prod.mk.injEq] at hw
        exact ⟨p, l, c, rest, rfl, hp, hw.1, hw.2⟩
    · simp at h2
  · simp only [List.cons.injEq] at h1
    obtain ⟨-, rfl, -⟩ := h1
    simp [V.nonNil] at hn

/-! ### Evaluating the parser on concrete texts -/

/-- The parser accepts the input and the statements have the property `p`. -/
def acceptsWith (input : Str) (p : List V → Bool) : Bool := match parseStmts input with
  | .ret [v, .nil] _ => p v.items
  | _ => false

theorem acceptsWith_iff {input : Str} {p : List V → Bool} (h : acceptsWith input p = true) :
    ∃ vs, Parses input vs ∧ p vs = true := by
  unfold acceptsWith at h
  split at h
  · rename_i v s hs; exact ⟨_, ⟨v, s, hs, rfl⟩, h⟩
  · simp at h

/-- The parser rejects the input with an error with the property `p`. -/
def rejectsWith (input : Str) (p : V → Bool) : Bool := match parseStmts input with
  | .ret [_, e] _ => e.nonNil && p e
  | _ => false

theorem rejectsWith_iff {input : Str} {p : V → Bool} (h : rejectsWith input p = true) :
    ∃ e, Fails input e ∧ p e = true := by
  unfold rejectsWith at h
  split at h
  · rename_i v e s hs
    rw [Bool.and_eq_true] at h
    exact ⟨_, ⟨v, s, hs, h.1⟩, h.2⟩
  · simp at h

/-- The line in which the parser panics. -/
def panicLine? (input : Str) : Option Nat := match parseStmts input with
  | .panic ln => some ln
  | _ => none

theorem panicLine?_iff {input : Str} {ln : Nat} (h : panicLine? input = some ln) : Panics input ln := by
  unfold panicLine? at h
  split at h
  · rename_i s hs; simp at h; subst h; exact hs
  · simp at h

example : ∃ e, Fails b!"SELECT 1\nFROM a b c" e ∧ (e.field 1).bind V.toNat? = some 2 := by
  obtain ⟨e, h1, h2⟩ := rejectsWith_iff (input := b!"SELECT 1\nFROM a b c")
    (p := fun e => (e.field 1).bind V.toNat? == some 2) (by decide +kernel)
  exact ⟨e, h1, by simpa using h2⟩

/-! ### C19 -/

/-- **C19**, with the exceptions: `ParseStmts` panics, if at all, in one of 22 source lines.
Missing: that it does not panic there, which is false for each of them (`C19_each_line_panics`). -/
theorem C19_panic_lines_partial (input : Str) (ln : Nat) (h : Panics input ln) : ln ∈ panicLines := by
  have hr := result input
  rw [show parseStmts input = .panic ln from h] at hr
  exact hr

/-- For every line in `panicLines` a text on which the parser panics there. -/
def panicInput : Nat → Str
  | 30949 => b!"SELECT TRIM(BOTH 'abc"
  | 31314 => b!"SELECT CAST(1 AS Enum8('a'"
  | 41036 => b!"SELECT 1 ORDER BY a AS"
  | 50086 => b!"SYSTEM RELOAD EMBEDDED"
  | 50303 => b!"OPTIMIZE TABLE t PARTITION ALL"
  | 50551 => b!"CREATE ROLE r SETTINGS"
  | 50573 => b!"CREATE USER u NOT IDENTIFIED"
  | 50580 => b!"CREATE USER u IDENTIFIED"
  | 50597 => b!"CREATE USER u IDENTIFIED WITH KERBEROS"
  | 50611 => b!"CREATE USER u IDENTIFIED WITH no_password"
  | 50639 => b!"CREATE USER u HOST ANY"
  | 50669 => b!"CREATE USER u DEFAULT ROLE NONE"
  | 50702 => b!"CREATE USER u GRANTEES ANY"
  | 50705 => b!"CREATE USER u GRANTEES NONE"
  | 50814 => b!"CREATE USER u DEFAULT"
  | 50827 => b!"CREATE USER u DEFAULT DATABASE NONE"
  | 50898 => b!"CREATE USER u SETTINGS"
  | 51435 => b!"ALTER ROLE r SETTINGS"
  | 60077 => b!"ALTER TABLE t ATTACH PARTITION ALL"
  | 60513 => b!"ALTER TABLE t FREEZE PARTITION ALL"
  | 60574 => b!"ALTER TABLE t CLEAR INDEX i IN PARTITION ALL"
  | 60826 => b!"ALTER TABLE t MATERIALIZE INDEX i IN x"
  | _ => []

/-- **C19** is false: for each of the 22 lines there is a text on which the parser panics there. -/
theorem C19_each_line_panics : ∀ ln ∈ panicLines, ∃ input, Panics input ln := by
  have h : panicLines.all (fun ln => panicLine? (panicInput ln) == some ln) = true := by decide +kernel
  intro ln hl
  exact ⟨_, panicLine?_iff (by simpa using List.all_eq_true.1 h ln hl)⟩

/-! ### C25 -/

theorem posSlack_ok : ∀ (t : Ty) (i : Nat), (schema t)[i]? = some .pos →
    ∃ k : Int, PNeed.bound i k ∈ Cert.need t ∧ k ≤ (posSlack t i : Int) := by
  have h : ∀ t : Ty, (List.range (schema t).length).all (fun i => !decide ((schema t)[i]? = some .pos) ||
      (match needBound (Cert.need t) i with | some k => decide (k ≤ (posSlack t i : Int)) | none => false)) = true := by
    intro t; cases t <;> decide +kernel
  intro t i hi
  have hl : i < (schema t).length := by
    rw [List.getElem?_eq_some_iff] at hi; exact hi.1
  have := List.all_eq_true.1 (h t) i (List.mem_range.2 hl)
  simp only [hi, decide_true, Bool.not_true, Bool.false_or] at this
  split at this
  · rename_i k hk; exact ⟨k, needBound_mem hk, by simpa using this⟩
  · simp at this

/-- **C25**, with the exceptions: every position stored in a struct of a tree the parser returns is at
most the length of the input, plus `posSlack` of the field, which is 0 for all fields but 40.
Missing: the same with 0 for all fields, which is false (`C25_end_beyond_input`). -/
theorem C25_positions_partial (input : Str) (vs : List V) (h : Parses input vs) (v : V) (hv : v ∈ vs) (t : Ty)
    (fs : List V) (hw : V.mk t fs ∈ v.structs) (i n : Nat) (hi : (schema t)[i]? = some .pos)
    (hn : fs[i]? = some (.nat n)) : n ≤ input.length + posSlack t i := by
  have hg := parses_structs h hv hw
  obtain ⟨k, hk, hle⟩ := posSlack_ok t i hi
  obtain ⟨m, hm, hu⟩ := hg.2 _ hk
  rw [hn] at hm
  simp at hm
  subst hm
  have := hu k rfl
  omega

example : ∃ vs, Parses b!"SELECT f(a) FROM t WHERE b = 1; DROP TABLE x" vs ∧ vs.length = 2 := by
  obtain ⟨vs, h1, h2⟩ := acceptsWith_iff (input := b!"SELECT f(a) FROM t WHERE b = 1; DROP TABLE x")
    (p := fun vs => vs.length == 2) (by decide +kernel)
  exact ⟨vs, h1, by simpa using h2⟩

/-- A text is parsed to a tree with the position `n` in field `i` of a struct of type `t`. -/
def storesPos (input : Str) (t : Ty) (i n : Nat) : Bool := acceptsWith input fun vs => vs.any fun v => v.structs.any fun w =>
  match w with
  | .mk u fs => decide (u = t) && (fs[i]?.bind V.toNat? == some n)
  | _ => false

/-- **C25** is false: the end of `SELECT 1 ORDER BY a WITH FILL` (29 bytes) is given as 33. -/
theorem C25_end_beyond_input : ∃ (input : Str) (vs : List V) (v : V) (t : Ty) (fs : List V) (i n : Nat), Parses input vs ∧ v ∈ vs ∧ V.mk t fs ∈ v.structs ∧
    (schema t)[i]? = some .pos ∧ fs[i]? = some (.nat n) ∧ n = input.length + 4 := by
  obtain ⟨vs, h1, h2⟩ := acceptsWith_iff (input := b!"SELECT 1 ORDER BY a WITH FILL") (p := _)
    (show storesPos b!"SELECT 1 ORDER BY a WITH FILL" .SelectQuery 1 33 = true by decide +kernel)
  rw [List.any_eq_true] at h2
  obtain ⟨v, hv, h2⟩ := h2
  rw [List.any_eq_true] at h2
  obtain ⟨w, hw, h2⟩ := h2
  split at h2
  · rename_i u fs
    rw [Bool.and_eq_true, decide_eq_true_eq] at h2
    obtain ⟨rfl, h2⟩ := h2
    refine ⟨_, vs, v, .SelectQuery, fs, 1, 33, h1, hv, hw, rfl, ?_, rfl⟩
    cases hf : fs[1]? with
    | none => simp [hf] at h2
    | some x => cases x <;> simp [hf, V.toNat?] at h2; subst h2; rfl
  · simp at h2

/-! ### C26 -/

theorem own_ok : ∀ t : Ty, t.isNode = true →
    (∃ k : Int, k ≤ 0 ∧ PNeed.own false ⟨decide (t ≠ .RoleSetting), some k⟩ ∈ Cert.need t) ∧
    (∃ k : Int, k ≤ 5 ∧ PNeed.own true ⟨!endMayPanic.contains t, some k⟩ ∈ Cert.need t) := by
  have h : ∀ t : Ty, t.isNode = true →
      (Cert.need t).any (fun nd => match nd with
        | .own false ⟨s, some k⟩ => s == decide (t ≠ .RoleSetting) && decide (k ≤ 0)
        | _ => false) = true ∧
      (Cert.need t).any (fun nd => match nd with
        | .own true ⟨s, some k⟩ => s == !endMayPanic.contains t && decide (k ≤ 5)
        | _ => false) = true := by
    intro t; cases t <;> decide +kernel
  intro t ht
  obtain ⟨h1, h2⟩ := h t ht
  rw [List.any_eq_true] at h1 h2
  obtain ⟨n1, hn1, h1⟩ := h1
  obtain ⟨n2, hn2, h2⟩ := h2
  constructor
  · split at h1
    · rename_i s k
      simp only [Bool.and_eq_true, beq_iff_eq, decide_eq_true_eq] at h1
      exact ⟨k, h1.2, h1.1 ▸ hn1⟩
    · simp at h1
  · split at h2
    · rename_i s k
      simp only [Bool.and_eq_true, beq_iff_eq, decide_eq_true_eq] at h2
      exact ⟨k, h2.2, h2.1 ▸ hn2⟩
    · simp at h2

/-- **C26**, with the exceptions: `Pos()` and `End()` of every node of every tree the parser returns
return, except `Pos()` of `RoleSetting` and `End()` of the seven types in `endMayPanic`.
Missing: the exceptions, for which it is false (`C26_pos_panics`, `C26_end_panics`). -/
theorem C26_pos_end_return_partial (input : Str) (vs : List V) (h : Parses input vs) (v : V) (hv : v ∈ vs) (t : Ty)
    (fs : List V) (hw : V.mk t fs ∈ v.structs) (ht : t.isNode = true) :
    (t ≠ .RoleSetting → ((V.mk t fs).pos?).isSome = true) ∧
    (t ∉ endMayPanic → ((V.mk t fs).end?).isSome = true) := by
  have hg := parses_structs h hv hw
  obtain ⟨⟨k, -, h1⟩, ⟨k', -, h2⟩⟩ := own_ok t ht
  refine ⟨fun hr => (hg.2 _ h1).1 (by simpa using hr), fun hr => (hg.2 _ h2).1 ?_⟩
  simpa using hr

/-- **C25** for the methods: what `Pos()` returns is in the input or its end; what `End()` returns is
at most 5 behind the end. -/
theorem C25_pos_end_values_partial (input : Str) (vs : List V) (h : Parses input vs) (v : V) (hv : v ∈ vs) (t : Ty)
    (fs : List V) (hw : V.mk t fs ∈ v.structs) (ht : t.isNode = true) (n : Nat) :
    ((V.mk t fs).pos? = some n → n ≤ input.length) ∧ ((V.mk t fs).end? = some n → n ≤ input.length + 5) := by
  have hg := parses_structs h hv hw
  obtain ⟨⟨k, hk, h1⟩, ⟨k', hk', h2⟩⟩ := own_ok t ht
  refine ⟨fun hr => ?_, fun hr => ?_⟩
  · have := (hg.2 _ h1).2 n hr k rfl; omega
  · have := (hg.2 _ h2).2 n hr k' rfl; omega

/-- A text is parsed to a tree with a struct of type `t` with property `p`. -/
def parsesTo (input : Str) (t : Ty) (p : V → Bool) : Bool := acceptsWith input fun vs => vs.any fun v => v.structs.any fun w =>
  decide (w.ty? = some t) && p w

theorem parsesTo_iff {input : Str} {t : Ty} {p : V → Bool} (h : parsesTo input t p = true) :
    ∃ vs v fs, Parses input vs ∧ v ∈ vs ∧ V.mk t fs ∈ v.structs ∧ p (.mk t fs) = true := by
  obtain ⟨vs, h1, h2⟩ := acceptsWith_iff h
  rw [List.any_eq_true] at h2
  obtain ⟨v, hv, h2⟩ := h2
  rw [List.any_eq_true] at h2
  obtain ⟨w, hw, h2⟩ := h2
  rw [Bool.and_eq_true, decide_eq_true_eq] at h2
  cases w <;> simp [V.ty?] at h2
  obtain ⟨rfl, h2⟩ := h2
  exact ⟨vs, v, _, h1, hv, hw, h2⟩

example : ∃ vs v fs, Parses b!"SELECT f(a) FROM t" vs ∧ v ∈ vs ∧ V.mk .FromClause fs ∈ v.structs ∧
    ((V.mk .FromClause fs).pos? == some 12 && (V.mk .FromClause fs).end? == some 18) = true :=
  parsesTo_iff (p := fun w => w.pos? == some 12 && w.end? == some 18) (by decide +kernel)

/-- For every type in `endMayPanic` a text with such a node whose `End()` panics. -/
def endPanicInput : Ty → Str
  | .AlterTableAttachPartition => b!"ALTER TABLE t ATTACH PARTITION ALL, DROP COLUMN a"
  | .SettingPair => b!"CREATE ROLE r SETTINGS a, b = 1"
  | .RoleSetting => b!"CREATE ROLE r SETTINGS ,a=1"
  | .PartitionClause => b!"ALTER TABLE t ATTACH PARTITION ALL FROM t2"
  | .FunctionExpr => b!"CREATE DICTIONARY d (a UInt8) PRIMARY KEY a SOURCE(HTTP(url f()))"
  | .DictionaryArgExpr => b!"CREATE DICTIONARY d (a UInt8) PRIMARY KEY a SOURCE(HTTP(url f()))"
  | .CheckStmt => b!"CHECK TABLE t"
  | _ => []

/-- **C26** is false for `End()` of each of the types in `endMayPanic`. -/
theorem C26_end_panics : ∀ t ∈ endMayPanic, ∃ input vs v fs, Parses input vs ∧ v ∈ vs ∧ V.mk t fs ∈ v.structs ∧
    (V.mk t fs).end? = none := by
  have h : endMayPanic.all (fun t => parsesTo (endPanicInput t) t (fun w => w.end?.isNone)) = true := by decide +kernel
  intro t ht
  obtain ⟨vs, v, fs, h1, h2, h3, h4⟩ := parsesTo_iff (List.all_eq_true.1 h t ht)
  exact ⟨_, vs, v, fs, h1, h2, h3, by simpa using h4⟩

/-- **C26** is false for `Pos()` of `RoleSetting`. -/
theorem C26_pos_panics : ∃ input vs v fs, Parses input vs ∧ v ∈ vs ∧ V.mk .RoleSetting fs ∈ v.structs ∧
    (V.mk .RoleSetting fs).pos? = none := by
  obtain ⟨vs, v, fs, h1, h2, h3, h4⟩ := parsesTo_iff (input := b!"CREATE ROLE r SETTINGS ,a=1") (t := .RoleSetting)
    (p := fun w => w.pos?.isNone) (by decide +kernel)
  exact ⟨_, vs, v, fs, h1, h2, h3, by simpa using h4⟩

/-! ### C41 -/

/-- **C41**, with the exception: writing a tree that the parser returns never dereferences nil,
whatever state the formatter is in, if every function call in it has its list of parameters; so
`Format`, `Beautify` and `String` return.  Missing: trees with a function call without this list, which
the parser does return (`C41_format_panics`). -/
theorem C41_format_parsed_partial (input : Str) (vs : List V) (h : Parses input vs) (v : V) (hv : v ∈ vs)
    (hp : v.hasParams) :
    (∀ f : Fmt, ∃ f', f.writeExpr v = some f') ∧
    (∃ s, formatCompact v = some s) ∧ ∀ ind, ∃ s, formatBeautify ind v = some s :=
  C41_format_total_partial v (parses_isTree h hv hp)

/-- `V.hasParams` as a test. -/
def V.hasParamsB (v : V) : Bool := v.structs.all fun w => match w with
  | .mk .FunctionExpr fs => (fs[1]?.map V.nonNil).getD false
  | _ => true

theorem hasParams_of {v : V} (h : v.hasParamsB = true) : v.hasParams := by
  intro fs hm
  have := List.all_eq_true.1 h _ hm
  simp only at this
  cases hf : fs[1]? with
  | none => simp [hf] at this
  | some w => exact ⟨w, rfl, by simpa [hf] using this⟩

example : ∃ vs v, Parses b!"SELECT f(a) FROM t" vs ∧ v ∈ vs ∧ v.hasParams := by
  obtain ⟨vs, h1, h2⟩ := acceptsWith_iff (input := b!"SELECT f(a) FROM t")
    (p := fun vs => vs.any V.hasParamsB) (by decide +kernel)
  rw [List.any_eq_true] at h2
  obtain ⟨v, hv, h2⟩ := h2
  exact ⟨vs, v, h1, hv, hasParams_of h2⟩

/-- **C41** is false: formatting panics for a dictionary source with a function call as argument. -/
theorem C41_format_panics : ∃ input vs v, Parses input vs ∧ v ∈ vs ∧ formatCompact v = none ∧
    formatBeautify b!"  " v = none := by
  obtain ⟨vs, h1, h2⟩ := acceptsWith_iff (input := endPanicInput .FunctionExpr)
    (p := fun vs => vs.any fun v => (formatCompact v).isNone && (formatBeautify b!"  " v).isNone) (by decide +kernel)
  rw [List.any_eq_true] at h2
  obtain ⟨v, hv, h2⟩ := h2
  exact ⟨_, vs, v, h1, hv, by simpa using h2⟩

/-! ### Traversals of parsed trees (C31, C33, C34, C36, C37) -/

/-- The theorems on traversals apply to every tree that the parser returns: to those on `Walk` for all,
those on `Accept` for trees in which every function call has its list of parameters. -/
theorem parsed_trees (input : Str) (vs : List V) (h : Parses input vs) (v : V) (hv : v ∈ vs) :
    v.isTree noReq ∧ (v.hasParams → v.isTree required) :=
  ⟨parses_isTree_noReq h hv, parses_isTree h hv⟩

end Verif

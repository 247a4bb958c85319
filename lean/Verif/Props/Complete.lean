/-
The parser accepts the core language with the expected trees (property C45).
-/
import Verif.Complete.Stmt
import Verif.Props.Rewrite

namespace Verif
open Spec

/-- A text of the core language. -/
def coreText : Str := b!"SELECT DISTINCT a+b * -d AS x, f(t.c, *) y FROM db.t AS u LEFT JOIN (SELECT 1) USING (k) WHERE NOT a BETWEEN 1 AND 2 OR c IS NOT NULL GROUP BY x HAVING n > 1 ORDER BY x DESC LIMIT 3 OFFSET 4;\nWITH c AS (SELECT 1), 2 AS n select a::Int8, f(x) OVER (PARTITION BY y ORDER BY z), CASE WHEN a THEN 'b' ELSE [1] END FROM t FINAL WHERE a GLOBAL NOT IN b LIMIT 1 BY a LIMIT 2 SETTINGS s=1, u=true FORMAT j UNION ALL SELECT 2 -- end"

/-- Its tokens. -/
def coreTok (i : Nat) : Token := (scanText coreText).1[i]?.getD ⟨0, 0, .eof, [], 0, 0⟩

instance (t : Token) (k : Str) : Decidable (isWord t k) := by unfold isWord; infer_instance
instance (t : Token) (k : Str) : Decidable (isSign t k) := by unfold isSign; infer_instance
instance (t : Token) : Decidable (isPlainName t) := by unfold isPlainName; infer_instance
instance (t : Token) : Decidable (isAnyName t) := by unfold isAnyName; infer_instance

local notation "T" => coreTok
local macro "✓" : term => `(by decide +kernel)

/-- The hypotheses of C45 hold for it. -/
theorem core_case : ∃ vs, Scan (Lx.new coreText) (scanText coreText).1 true ∧ Queries (scanText coreText).1 vs ∧ vs.length = 2 := by
  have ab : Core (.expr 0) [T 2, T 3, T 4, T 5, T 6, T 7] _ :=
    .infix_ (q := 12) (ts := [T 2]) (o := T 3) ✓ ⟨[], [b!"+", b!"-"], ✓, .inr ⟨b!"+", ✓, ✓⟩⟩ (.atom (.name ✓))
      (.infix_ (q := 13) (ts := [T 4]) (o := T 5) ✓ ⟨[], [b!"*", b!"/", b!"%"], ✓, .inr ⟨b!"*", ✓, ✓⟩⟩ (.atom (.name ✓)) (.sign (.inr ✓) (.name ✓)))
  have f : Core (.expr 0) [T 11, T 12, T 13, T 14, T 15, T 16, T 17, T 18] _ :=
    .atom (.called (.call (ts := []) (us := [T 13, T 14, T 15, T 16, T 17]) ✓ ✓ ✓ .distinctNo
      (.args (.argMore (ts := [T 13, T 14, T 15]) (.arg (.atom (.path ✓ ✓ (.dotOne ✓)))) ✓ (.argOne (.arg (.atom (.star ✓)))))) ✓))
  have one {a b : Token} (h : isWord a b!"SELECT") (h' : b.kind = .int) : Core .query [a, b] _ :=
    .query (es := []) (ds := []) (is := [b]) (fs := []) (ps := []) (ws := []) (gs := []) (hs := []) (os := []) (ls := []) (ss := []) (ms := []) (us := []) .withNo h .distinctNo
      (.itemOne (.item (.atom (.number (.inl h'))))) .fromNo .prewhereNo .whereNo .groupByNo .havingNo .orderByNo .limitsNo .settingsNo .formatNo .alone (.inl ⟨rfl, rfl⟩)
  have fr : Core .from_ [T 20, T 21, T 22, T 23, T 24, T 25, T 26, T 27, T 28, T 29, T 30, T 31, T 32, T 33, T 34, T 35] _ :=
    .from_ ✓ (.tablesMore (ts := [T 21, T 22, T 23, T 24, T 25]) (.ref (us := []) (.aliasAs (ts := [T 21, T 22, T 23]) (.tableOf ✓ ✓ ✓) ✓ ✓) .finalNo)
      (.tailJoin (.joinEnd (ks := [T 26, T 27]) (ts := [T 28, T 29, T 30, T 31]) (.joinKind (ms := [T 26]) ✓ ✓ ✓)
        (.ref (us := []) (.bare (.tableQuery (ts := [T 29, T 30]) ✓ (one ✓ ✓) ✓)) .finalNo) (.using_ (ts := [T 34]) ✓ ✓ (.argOne (.arg (.atom (.name ✓)))) ✓))))
  have wh : Core .where_ [T 36, T 37, T 38, T 39, T 40, T 41, T 42, T 43, T 44, T 45, T 46, T 47] _ :=
    .where_ ✓ (.infix_ (q := 3) (ts := [T 37, T 38, T 39, T 40, T 41, T 42]) (o := T 43) ✓ ⟨[b!"OR"], [], ✓, .inl ✓⟩
      (.not_ ✓ ✓ (.between (ts := [T 38]) (us := [T 40]) ✓ ✓ ✓ (.atom (.name ✓)) (.atom (.number ✓)) (.atom (.number ✓))))
      (.isNotNull (ts := [T 44]) ✓ ✓ ✓ ✓ (.atom (.name ✓))))
  have q1 : Core .query ((List.range 63).map T) _ :=
    .query (es := []) (ds := [T 1]) (is := [T 2, T 3, T 4, T 5, T 6, T 7, T 8, T 9, T 10, T 11, T 12, T 13, T 14, T 15, T 16, T 17, T 18, T 19])
      (fs := [T 20, T 21, T 22, T 23, T 24, T 25, T 26, T 27, T 28, T 29, T 30, T 31, T 32, T 33, T 34, T 35]) (ps := [])
      (ws := [T 36, T 37, T 38, T 39, T 40, T 41, T 42, T 43, T 44, T 45, T 46, T 47]) (gs := [T 48, T 49, T 50]) (hs := [T 51, T 52, T 53, T 54])
      (os := [T 55, T 56, T 57, T 58]) (ls := [T 59, T 60, T 61, T 62]) (ss := []) (ms := []) (us := []) .withNo ✓ (.distinctYes ✓)
      (.itemMore (ts := [T 2, T 3, T 4, T 5, T 6, T 7, T 8, T 9]) (.itemAs (ts := [T 2, T 3, T 4, T 5, T 6, T 7]) ab ✓ ✓) ✓
        (.itemOne (.itemName (ts := [T 11, T 12, T 13, T 14, T 15, T 16, T 17, T 18]) f ✓)))
      fr .prewhereNo wh (.groupBy ✓ ✓ (.argOne (.arg (.atom (.name ✓)))))
      (.having ✓ (.arg (.infix_ (q := 8) (ts := [T 52]) (o := T 53) ✓ ⟨[], [b!"=", b!"==", b!"!=", b!"<>", b!"<", b!"<=", b!">", b!">="], ✓, .inr ⟨b!">", ✓, ✓⟩⟩ (.atom (.name ✓)) (.atom (.number ✓)))))
      (.orderBy ✓ ✓ (.orderOne (.orderDesc (ts := [T 57]) (.atom (.name ✓)) (.inl ✓))))
      (.limitsOne (.limitOffset (ts := [T 60]) ✓ (.atom (.number ✓)) ✓ (.atom (.number ✓)))) .settingsNo .formatNo .alone (.inl ⟨rfl, rfl⟩)
  have wi : Core .with_ [T 64, T 65, T 66, T 67, T 68, T 69, T 70, T 71, T 72, T 73, T 74] _ :=
    .with_ ✓ (.cteMore (ts := [T 65, T 66, T 67, T 68, T 69, T 70]) (.cteQuery (ts := [T 65]) (us := [T 68, T 69]) (.atom (.name ✓)) ✓ ✓ (one ✓ ✓) ✓) ✓
      (.cteOne (.cteName (ts := [T 72]) (.atom (.number ✓)) ✓ ✓)))
  have it : Core .items [T 76, T 77, T 78, T 79, T 80, T 81, T 82, T 83, T 84, T 85, T 86, T 87, T 88, T 89, T 90, T 91, T 92, T 93, T 94, T 95, T 96, T 97, T 98, T 99, T 100, T 101, T 102, T 103] _ :=
    .itemMore (ts := [T 76, T 77, T 78]) (.item (.cast (ts := [T 76]) ✓ ✓ ✓ ✓ (.atom (.name ✓)))) ✓
      (.itemMore (ts := [T 80, T 81, T 82, T 83, T 84, T 85, T 86, T 87, T 88, T 89, T 90, T 91, T 92])
        (.item (.atom (.overWindow (ts := [T 80, T 81, T 82, T 83]) (ps := [T 86, T 87, T 88]) (os := [T 89, T 90, T 91])
          (.call (ts := []) (us := [T 82]) ✓ ✓ ✓ .distinctNo (.args (.argOne (.arg (.atom (.name ✓))))) ✓) ✓ ✓ (.partition ✓ ✓ (.argOne (.arg (.atom (.name ✓)))))
          (.orderBy ✓ ✓ (.orderOne (.orderItem (.atom (.name ✓))))) ✓))) ✓
        (.itemOne (.item (.atom (.case_ (ts := [T 95, T 96, T 97, T 98]) (us := [T 99, T 100, T 101, T 102]) ✓ (.whenOne (ts := [T 96]) ✓ (.atom (.name ✓)) ✓ (.atom (.string ✓)))
          (.elseYes ✓ (.atom (.array (ts := []) (us := [T 101]) ✓ .distinctNo (.args (.argOne (.arg (.atom (.number ✓))))) ✓))) ✓)))))
  have q2 : Core .query [T 64, T 65, T 66, T 67, T 68, T 69, T 70, T 71, T 72, T 73, T 74, T 75, T 76, T 77, T 78, T 79, T 80, T 81, T 82, T 83, T 84, T 85, T 86, T 87, T 88, T 89, T 90, T 91, T 92, T 93, T 94, T 95, T 96, T 97, T 98, T 99, T 100, T 101, T 102, T 103, T 104, T 105, T 106, T 107, T 108, T 109, T 110, T 111, T 112, T 113, T 114, T 115, T 116, T 117, T 118, T 119, T 120, T 121, T 122, T 123, T 124, T 125, T 126, T 127, T 128, T 129, T 130, T 131, T 132] _ :=
    .query (es := [T 64, T 65, T 66, T 67, T 68, T 69, T 70, T 71, T 72, T 73, T 74]) (ds := []) (is := [T 76, T 77, T 78, T 79, T 80, T 81, T 82, T 83, T 84, T 85, T 86, T 87, T 88, T 89, T 90, T 91, T 92, T 93, T 94, T 95, T 96, T 97, T 98, T 99, T 100, T 101, T 102, T 103])
      (fs := [T 104, T 105, T 106]) (ps := []) (ws := [T 107, T 108, T 109, T 110, T 111, T 112]) (gs := []) (hs := []) (os := []) (ls := [T 113, T 114, T 115, T 116, T 117, T 118]) (ss := [T 119, T 120, T 121, T 122, T 123, T 124, T 125, T 126]) (ms := [T 127, T 128]) (us := [T 129, T 130, T 131, T 132])
      wi ✓ .distinctNo it (.from_ ✓ (.tablesOne (.ref (ts := [T 105]) (.bare (.tableName ✓)) (.finalYes ✓)))) .prewhereNo
      (.where_ ✓ (.globalNot (ts := [T 108]) ✓ ✓ ✓ ✓ (.atom (.name ✓)) (.atom (.name ✓)))) .groupByNo .havingNo .orderByNo
      (.limitsBoth (ts := [T 113, T 114]) (us := [T 116]) (.limit ✓ (.atom (.number ✓))) ✓ (.argOne (.arg (.atom (.name ✓)))) (.limit ✓ (.atom (.number ✓))))
      (.settings ✓ (.settingMore (ts := [T 120, T 121, T 122]) (.settingNumber ✓ ✓ ✓) ✓ (.settingOne (.settingBool ✓ ✓ (.inl ✓))))) (.format ✓ ✓)
      (.unionAll ✓ ✓ (one ✓ ✓)) (.inl ⟨rfl, rfl⟩)
  have h := Queries.more (s := T 63) q1 ✓ (.last q2)
  rw [show (List.range 63).map T ++ T 63 :: [T 64, T 65, T 66, T 67, T 68, T 69, T 70, T 71, T 72, T 73, T 74, T 75, T 76, T 77, T 78, T 79, T 80, T 81, T 82, T 83, T 84, T 85, T 86, T 87, T 88, T 89, T 90, T 91, T 92, T 93, T 94, T 95, T 96, T 97, T 98, T 99, T 100, T 101, T 102, T 103, T 104, T 105, T 106, T 107, T 108, T 109, T 110, T 111, T 112, T 113, T 114, T 115, T 116, T 117, T 118, T 119, T 120, T 121, T 122, T 123, T 124, T 125, T 126, T 127, T 128, T 129, T 130, T 131, T 132] = (scanText coreText).1 by decide +kernel] at h
  exact ⟨_, scan_clean ✓, h, rfl⟩

/-! ### C45 -/

/-- **C45**: a text whose tokens are queries of the core language is accepted, and the result is, up to positions, the list of the trees that the
grammar gives. -/
theorem C45_core_accepted (a : Str) (ts : List Token) (vs : List V) (hs : Scan (Lx.new a) ts true) (hq : Queries ts vs) :
    ∃ ws, Parses a ws ∧ ws.map (V.norm id) = vs := by
  obtain ⟨l', h1, h2, h3⟩ := Complete.ahead_scan hs
  have h := Complete.c_text hq h1 (Complete.noErr_scan hs) h2 h3 (parseFuel a) [] a
  have hr := retry_run a (Nat.le_refl _)
  change runFn retryTable (parseFuel a) .ParseStmts [] ⟨Lx.new a, [], a⟩ = _ at hr
  rw [hr] at h
  cases hp : parseStmts a with
  | ret rs s =>
    rw [hp] at h
    obtain ⟨w, rfl, hw⟩ := h.1 _ _ _ _ rfl
    refine ⟨_, ⟨w, s, hp, rfl⟩, ?_⟩
    rw [← hw]
    induction w.items with
    | nil => rfl
    | cons x xs ih => simp only [List.map_cons, V.normL, ih]
  | panic ln =>
    rw [hp] at h
    have h1 := h.2 ln rfl
    have h2 := C19_panic_lines_partial a ln hp
    rw [← List.contains_iff_mem, show panicLines.contains ln = false from h1] at h2
    cases h2
  | fuel => exact absurd hp (C18_terminates a).1

example : ∃ vs, Scan (Lx.new coreText) (scanText coreText).1 true ∧ Queries (scanText coreText).1 vs ∧ vs.length = 2 := core_case

/-- **C45**, seen from the parser: what it returns for such a text is what the grammar says. -/
theorem C45_core_tree (a : Str) (ts : List Token) (vs ws : List V) (hs : Scan (Lx.new a) ts true) (hq : Queries ts vs) (hp : Parses a ws) :
    ws.map (V.norm id) = vs := by
  obtain ⟨ws', h1, h2⟩ := C45_core_accepted a ts vs hs hq
  rw [parses_unique hp h1]
  exact h2

example : ∃ vs ws, Scan (Lx.new coreText) (scanText coreText).1 true ∧ Queries (scanText coreText).1 vs ∧ Parses coreText ws ∧ ws.length = 2 := by
  obtain ⟨vs, h1, h2, h3⟩ := core_case
  obtain ⟨ws, h4, h5⟩ := C45_core_accepted _ _ _ h1 h2
  exact ⟨vs, ws, h1, h2, h4, by rw [← h3, ← h5, List.length_map]⟩

/-- **C45**, seen from the grammar: it is not ambiguous. -/
theorem C45_core_unambiguous (a : Str) (ts : List Token) (vs ws : List V) (hs : Scan (Lx.new a) ts true) (hv : Queries ts vs) (hw : Queries ts ws) : vs = ws := by
  obtain ⟨us, h1, h2⟩ := C45_core_accepted a ts vs hs hv
  rw [← h2]
  exact C45_core_tree a ts ws us hs hw h1

example : ∃ vs, Scan (Lx.new coreText) (scanText coreText).1 true ∧ Queries (scanText coreText).1 vs ∧ vs.length = 2 := core_case

/-- **C45**, for errors and crashes: there are none. -/
theorem C45_core_safe (a : Str) (ts : List Token) (vs : List V) (hs : Scan (Lx.new a) ts true) (hq : Queries ts vs) :
    (∀ e, ¬ Fails a e) ∧ ∀ ln, ¬ Panics a ln := by
  obtain ⟨_, ⟨v, s, h, _⟩, _⟩ := C45_core_accepted a ts vs hs hq
  refine ⟨fun e h' => ?_, fun ln h' => ?_⟩
  · obtain ⟨v', s', h', he⟩ := h'
    rw [h] at h'
    simp only [COut.ret.injEq, List.cons.injEq] at h'
    rw [← h'.1.2.1] at he
    cases he
  · rw [Panics, h] at h'
    cases h'

example : ∃ vs, Scan (Lx.new coreText) (scanText coreText).1 true ∧ Queries (scanText coreText).1 vs ∧ vs.length = 2 := core_case

end Verif

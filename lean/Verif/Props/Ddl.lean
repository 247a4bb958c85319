/-
The parser accepts statements of all kinds with the expected trees (property C47).
-/
import Verif.Complete.Text
import Verif.Props.Complete

namespace Verif
open Spec

/-- A text with statements of several kinds. -/
def ddlText : Str := b!"CREATE TABLE IF NOT EXISTS db.t ON CLUSTER c (a Array(Int8) NOT NULL DEFAULT n COMMENT 'x' CODEC(Delta(2), ZSTD), b Enum('u'=1)) ENGINE = M(a) ORDER BY a SETTINGS s=1 COMMENT 'y'; INSERT INTO t (a, b) VALUES (1, (2)), (3); ALTER TABLE t ADD COLUMN a.b UInt8 AFTER c, UPDATE x = 1 WHERE y; drop temporary table t SYNC;; SELECT 1"

/-- Its tokens. -/
def ddlTok (i : Nat) : Token := (scanText ddlText).1[i]?.getD ⟨0, 0, .eof, [], 0, 0⟩

local notation "T" => ddlTok
local macro "✓" : term => `(by decide +kernel)

instance (t : Token) : Decidable (isTypeName t) := by unfold isTypeName; infer_instance

/-- The hypotheses of C47 hold for it. -/
theorem ddl_case : ∃ vs, Scan (Lx.new ddlText) (scanText ddlText).1 true ∧ Statements (scanText ddlText).1 vs ∧ vs.length = 5 := by
  have a : Piece .columnDef [T 12, T 13, T 14, T 15, T 16, T 17, T 18, T 19, T 20, T 21, T 22, T 23, T 24, T 25, T 26, T 27, T 28, T 29, T 30, T 31] _ :=
    .columnDef (as := [T 12]) (bs := [T 13, T 14, T 15, T 16]) (cs := [T 17, T 18]) (ds := [T 19, T 20]) (es := [T 21, T 22]) (fs := [T 23, T 24, T 25, T 26, T 27, T 28, T 29, T 30, T 31]) (gs := []) (.column ✓) (.complex (ts := [T 15]) ✓ ✓ ✓ (.typeOne (.scalar ✓)) ✓)
      (.notNull ✓ ✓) (.default ✓ (.atom (.name ✓))) (.comment ✓ ✓) (.codecs (ts := [T 26, T 27, T 28]) (us := []) ✓ ✓ ✓ ✓ (.level ✓ ✓ ✓) ✓ ✓ .levelNo (fun h => absurd rfl h) ✓) .ttlNo
  have b : Piece .columnDef [T 33, T 34, T 35, T 36, T 37, T 38, T 39] _ :=
    .columnDef (as := [T 33]) (bs := [T 34, T 35, T 36, T 37, T 38, T 39]) (cs := []) (ds := []) (es := []) (fs := []) (gs := []) (.column ✓) (.enum (ts := [T 36, T 37, T 38]) ✓ ✓ (.enumOne ✓ ✓ ✓) ✓)
      .nullNo .valueNo .commentNo .codecNo .ttlNo
  have e : Piece (.engine false) [T 41, T 42, T 43, T 44, T 45, T 46, T 47, T 48, T 49, T 50, T 51, T 52, T 53] _ :=
    .engine (es := [T 42]) (ts := [T 44, T 45, T 46]) (us := [T 47, T 48, T 49, T 50, T 51, T 52, T 53]) ✓ (.inr ⟨_, rfl, ✓⟩) ✓ (.params (ts := [T 45]) ✓ (.args (.argOne (.arg (.atom (.name ✓))))) ✓)
      (.orderBy (ts := [T 49]) (us := [T 50, T 51, T 52, T 53]) ✓ ✓ (.atom (.name ✓)) (.settingsBy (ts := [T 51, T 52, T 53]) (us := []) ✓ (.settingOne (.settingNumber ✓ ✓ ✓)) .clausesNo))
  have s1 : Statement [T 0, T 1, T 2, T 3, T 4, T 5, T 6, T 7, T 8, T 9, T 10, T 11, T 12, T 13, T 14, T 15, T 16, T 17, T 18, T 19, T 20, T 21, T 22, T 23, T 24, T 25, T 26, T 27, T 28, T 29, T 30, T 31, T 32, T 33, T 34, T 35, T 36, T 37, T 38, T 39, T 40, T 41, T 42, T 43, T 44, T 45, T 46, T 47, T 48, T 49, T 50, T 51, T 52, T 53, T 54, T 55] _ :=
    .createTable (rs := []) (ps := []) (bs := [T 2, T 3, T 4]) (is := [T 5, T 6, T 7]) (cs := [T 8, T 9, T 10]) (ss := [T 11, T 12, T 13, T 14, T 15, T 16, T 17, T 18, T 19, T 20, T 21, T 22, T 23, T 24, T 25, T 26, T 27, T 28, T 29, T 30, T 31, T 32, T 33, T 34, T 35, T 36, T 37, T 38, T 39, T 40]) (es := [T 41, T 42, T 43, T 44, T 45, T 46, T 47, T 48, T 49, T 50, T 51, T 52, T 53]) (ms := [T 54, T 55]) ✓ .replaceNo .temporaryNo ✓ (.notExistsYes ✓ ✓ ✓) (.idOf ✓ ✓ ✓)
      (.clusterName ✓ ✓ ✓) (.schema (ts := [T 12, T 13, T 14, T 15, T 16, T 17, T 18, T 19, T 20, T 21, T 22, T 23, T 24, T 25, T 26, T 27, T 28, T 29, T 30, T 31, T 32, T 33, T 34, T 35, T 36, T 37, T 38, T 39]) ✓ (.columnDefMore (ts := [T 12, T 13, T 14, T 15, T 16, T 17, T 18, T 19, T 20, T 21, T 22, T 23, T 24, T 25, T 26, T 27, T 28, T 29, T 30, T 31]) a ✓ (.columnDefOne b)) ✓) e (.comment ✓ ✓)
  have s2 : Statement [T 57, T 58, T 59, T 60, T 61, T 62, T 63, T 64, T 65, T 66, T 67, T 68, T 69, T 70, T 71, T 72, T 73, T 74, T 75, T 76] _ :=
    .insertValues (ws := []) (is := [T 59]) (ns := [T 60, T 61, T 62, T 63, T 64]) (rs := [T 66, T 67, T 68, T 69, T 70, T 71, T 72, T 73, T 74, T 75, T 76]) ✓ ✓ (.inl ⟨rfl, rfl⟩) (.idName ✓) (.columnNames (ts := [T 61, T 62, T 63]) ✓ (.nameMore (ts := [T 61]) (.column ✓) ✓ (.nameOne (.column ✓))) ✓) ✓
      (.rowMore (ts := [T 67, T 68, T 69, T 70, T 71]) ✓ (.cellMore (ts := [T 67]) (.cell (.atom (.number ✓)) ✓) ✓ (.cellOne (.cellRow (ts := [T 70]) ✓ (.cellOne (.cell (.atom (.number ✓)) ✓)) ✓))) ✓ ✓
        (.rowOne (ts := [T 75]) ✓ (.cellOne (.cell (.atom (.number ✓)) ✓)) ✓))
  have s3 : Statement [T 78, T 79, T 80, T 81, T 82, T 83, T 84, T 85, T 86, T 87, T 88, T 89, T 90, T 91, T 92, T 93, T 94, T 95] _ :=
    .alterTable (is := [T 80]) (cs := []) (ts := [T 81, T 82, T 83, T 84, T 85, T 86, T 87, T 88, T 89, T 90, T 91, T 92, T 93, T 94, T 95]) ✓ ✓ (.idName ✓) .clusterNo
      (.alterationMore (ts := [T 81, T 82, T 83, T 84, T 85, T 86, T 87, T 88]) (.addColumn (ts := []) (us := [T 83, T 84, T 85, T 86]) (xs := [T 87, T 88]) ✓ ✓ .notExistsNo
        (.columnDef (as := [T 83, T 84, T 85]) (bs := [T 86]) (cs := []) (ds := []) (es := []) (fs := []) (gs := []) (.columnOf ✓ ✓ ✓) (.scalar ✓) .nullNo .valueNo .commentNo .codecNo .ttlNo) (.after ✓ (.column ✓))) ✓
        (.alterationOne (.updateWhere (ts := [T 91, T 92, T 93]) ✓ (.assignmentOne (.assignment (ts := [T 91]) (.column ✓) ✓ (.atom (.number ✓)))) ✓ (.atom (.name ✓)))))
  have s4 : Statement [T 97, T 98, T 99, T 100, T 101] _ :=
    .dropTable (ps := [T 98]) (bs := []) (is := [T 100]) (cs := []) (ms := [T 101]) ✓ (.temporaryYes ✓) ✓ .existsNo (.idName ✓) .clusterNo (.sync ✓)
  have q : Core .query [T 104, T 105] _ :=
    .query (es := []) (ds := []) (is := [T 105]) (fs := []) (ps := []) (ws := []) (gs := []) (hs := []) (os := []) (ls := []) (ss := []) (ms := []) (us := []) .withNo ✓ .distinctNo
      (.itemOne (.item (.atom (.number ✓)))) .fromNo .prewhereNo .whereNo .groupByNo .havingNo .orderByNo .limitsNo .settingsNo .formatNo .alone (.inl ⟨rfl, rfl⟩)
  have h : Statements [T 0, T 1, T 2, T 3, T 4, T 5, T 6, T 7, T 8, T 9, T 10, T 11, T 12, T 13, T 14, T 15, T 16, T 17, T 18, T 19, T 20, T 21, T 22, T 23, T 24, T 25, T 26, T 27, T 28, T 29, T 30, T 31, T 32, T 33, T 34, T 35, T 36, T 37, T 38, T 39, T 40, T 41, T 42, T 43, T 44, T 45, T 46, T 47, T 48, T 49, T 50, T 51, T 52, T 53, T 54, T 55, T 56, T 57, T 58, T 59, T 60, T 61, T 62, T 63, T 64, T 65, T 66, T 67, T 68, T 69, T 70, T 71, T 72, T 73, T 74, T 75, T 76, T 77, T 78, T 79, T 80, T 81, T 82, T 83, T 84, T 85, T 86, T 87, T 88, T 89, T 90, T 91, T 92, T 93, T 94, T 95, T 96, T 97, T 98, T 99, T 100, T 101, T 102, T 103, T 104, T 105] _ := Statements.more (s := T 56) s1 ✓ (.more (s := T 77) s2 ✓ (.more (s := T 96) s3 ✓ (.more (s := T 102) s4 ✓ (.semi (s := T 103) ✓ (.last (.query q))))))
  have hx : [T 0, T 1, T 2, T 3, T 4, T 5, T 6, T 7, T 8, T 9, T 10, T 11, T 12, T 13, T 14, T 15, T 16, T 17, T 18, T 19, T 20, T 21, T 22, T 23, T 24, T 25, T 26, T 27, T 28, T 29, T 30, T 31, T 32, T 33, T 34, T 35, T 36, T 37, T 38, T 39, T 40, T 41, T 42, T 43, T 44, T 45, T 46, T 47, T 48, T 49, T 50, T 51, T 52, T 53, T 54, T 55, T 56, T 57, T 58, T 59, T 60, T 61, T 62, T 63, T 64, T 65, T 66, T 67, T 68, T 69, T 70, T 71, T 72, T 73, T 74, T 75, T 76, T 77, T 78, T 79, T 80, T 81, T 82, T 83, T 84, T 85, T 86, T 87, T 88, T 89, T 90, T 91, T 92, T 93, T 94, T 95, T 96, T 97, T 98, T 99, T 100, T 101, T 102, T 103, T 104, T 105] = (scanText ddlText).1 := by decide +kernel
  rw [hx] at h
  exact ⟨_, scan_clean ✓, h, rfl⟩

/-! ### C47 -/

/-- **C47**: a text whose tokens are statements of the grammar is accepted, and the result is, up to positions, the list of the trees that the
grammar gives. -/
theorem C47_statements_accepted (a : Str) (ts : List Token) (vs : List V) (hs : Scan (Lx.new a) ts true) (hq : Statements ts vs) :
    ∃ ws, Parses a ws ∧ ws.map (V.norm id) = vs := by
  obtain ⟨l', h1, h2, h3⟩ := Complete.ahead_scan hs
  have h := Complete.s_text hq h1 (Complete.noErr_scan hs) h2 h3 (parseFuel a) [] a
  have hr := retry_run a (Nat.le_refl _)
  change runFn retryTable (parseFuel a) .ParseStmts [] ⟨Lx.new a, [], a⟩ = _ at hr
  rw [hr] at h
  cases hp : parseStmts a with
  | ret rs s =>
    rw [hp] at h
    obtain ⟨w, rfl, hw⟩ := h.1 _ _ _ _ rfl
    refine ⟨_, ⟨w, s, hp, rfl⟩, ?_⟩
    rw [← hw]
    induction w.items with
    | nil => rfl
    | cons x xs ih => simp only [List.map_cons, V.normL, ih]
  | panic ln =>
    rw [hp] at h
    have h1 := h.2 ln rfl
    have h2 := C19_panic_lines_partial a ln hp
    rw [← List.contains_iff_mem, show panicLines.contains ln = false from h1] at h2
    cases h2
  | fuel => exact absurd hp (C18_terminates a).1

example : ∃ vs, Scan (Lx.new ddlText) (scanText ddlText).1 true ∧ Statements (scanText ddlText).1 vs ∧ vs.length = 5 := ddl_case

/-- **C47**, seen from the parser: what it returns for such a text is what the grammar says. -/
theorem C47_statements_tree (a : Str) (ts : List Token) (vs ws : List V) (hs : Scan (Lx.new a) ts true) (hq : Statements ts vs) (hp : Parses a ws) :
    ws.map (V.norm id) = vs := by
  obtain ⟨ws', h1, h2⟩ := C47_statements_accepted a ts vs hs hq
  rw [parses_unique hp h1]
  exact h2

example : ∃ vs ws, Scan (Lx.new ddlText) (scanText ddlText).1 true ∧ Statements (scanText ddlText).1 vs ∧ Parses ddlText ws ∧ ws.length = 5 := by
  obtain ⟨vs, h1, h2, h3⟩ := ddl_case
  obtain ⟨ws, h4, h5⟩ := C47_statements_accepted _ _ _ h1 h2
  exact ⟨vs, ws, h1, h2, h4, by rw [← h3, ← h5, List.length_map]⟩

/-- **C47**, seen from the grammar: it is not ambiguous. -/
theorem C47_statements_unambiguous (a : Str) (ts : List Token) (vs ws : List V) (hs : Scan (Lx.new a) ts true) (hv : Statements ts vs) (hw : Statements ts ws) : vs = ws := by
  obtain ⟨us, h1, h2⟩ := C47_statements_accepted a ts vs hs hv
  rw [← h2]
  exact C47_statements_tree a ts ws us hs hw h1

example : ∃ vs, Scan (Lx.new ddlText) (scanText ddlText).1 true ∧ Statements (scanText ddlText).1 vs ∧ vs.length = 5 := ddl_case

/-- **C47**, for errors and crashes: there are none. -/
theorem C47_statements_safe (a : Str) (ts : List Token) (vs : List V) (hs : Scan (Lx.new a) ts true) (hq : Statements ts vs) :
    (∀ e, ¬ Fails a e) ∧ ∀ ln, ¬ Panics a ln := by
  obtain ⟨_, ⟨v, s, h, _⟩, _⟩ := C47_statements_accepted a ts vs hs hq
  refine ⟨fun e h' => ?_, fun ln h' => ?_⟩
  · obtain ⟨v', s', h', he⟩ := h'
    rw [h] at h'
    simp only [COut.ret.injEq, List.cons.injEq] at h'
    rw [← h'.1.2.1] at he
    cases he
  · rw [Panics, h] at h'
    cases h'

example : ∃ vs, Scan (Lx.new ddlText) (scanText ddlText).1 true ∧ Statements (scanText ddlText).1 vs ∧ vs.length = 5 := ddl_case

end Verif

/-
The formatter writes the elements of the tree: the remaining cases.
-/
import Verif.Echo.Print

namespace Verif.Echo
open Verif.Spec

variable {m : Bool} {env : List V} {i n k : Nat} {b b' b'' : Bool} {us ws : List E}

theorem wr_litAs {call : Proc → V → Fmt → Option Fmt} : Wr m call (.lit b!" AS ") env i n b [.sp, .as_, .sp] b := by
  intro f s' hf _ h
  simp only [FCmd.run, Option.some.injEq] at h
  subst h
  exact ⟨rfl, adds_string hf (.sp rfl (.tok (u := .as_) (by simp) (.sp rfl .nil))) (fun _ => by decide)⟩
theorem wrO1As {r : Ref} {v : V} {st : Static} (hv : r.get env = some v) (ho : PO m [.sp, .as_, .sp] v us) (hs : StOk st v) :
    Wr m (formatF k) (.ite (.nonNil r) (.seq (.lit b!" AS ") (.expr r st)) .skip) env i n b us b :=
  wrO hv ho fun _ hn => wr_seq wr_litAs (wrE hv hn hs)
theorem textOf_op {s : Str} : TextOf m [.op s] s := textOf_one (u := .op s) (by simp)
theorem textOf_kw {s : Str} : TextOf m [.kw s] s := textOf_one (u := .kw s) (by simp)
theorem textOf_raw {s : Str} : TextOf m [.raw s] s := textOf_one (u := .raw s) (by simp)
theorem textOf_num {s : Str} : TextOf m [.num s] s := textOf_one (u := .num s) (by simp)

theorem p_nested {m} {a b us ws} : PK m .n a us → PK m (.o [.op b!"."]) b ws → PK m .n (.mk .NestedIdentifier [a, b]) (us ++ ws) := by
  intro h1 h2
  obtain ⟨rfl, rfl⟩ | ⟨us', rfl, h3, _⟩ := h2
  all_goals wauto
theorem p_tableName2 {m} {a b us ws} : PK m .n a us → PK m (.o [.op b!"."]) b ws → b ≠ .nil → PK m .n (.mk .TableIdentifier [a, b]) (us ++ ws) := by
  intro h1 h2 h3
  obtain ⟨rfl, rfl⟩ | ⟨us', rfl, h3, _⟩ := h2
  · exact absurd rfl h3
  wauto
theorem p_item {m} {a b c us vs ws} : PK m .n a us → PK m (.p [.sp]) b vs → PK m (.o [.sp, .as_, .sp]) c ws → PK m .n (.mk .SelectItem [a, b, c]) (us ++ vs ++ ws) := by
  intros
  wnode
  apply Exists.intro
  apply Wr.cast
  · apply wr_seq
    · wrs
    · apply wr_seq
      · wrs
      · exact wrO1As rfl (by assumption) (by st)
  · wfin
theorem p_alias {m} {p a b us ws} : PK m .n a us → PK m .n b ws → a.ty? ≠ some .SelectQuery → PK m .n (.mk .AliasExpr [a, p, b]) (us ++ [.sp, .as_, .sp] ++ ws) := by
  intros
  wnode
  apply Exists.intro
  apply Wr.cast
  · apply wr_seq
    · wrs
    · apply wr_seq
      · exact wr_litAs
      · wrs
  · wfin

/-- The texts of identifiers. -/
theorem ident_text {m : Bool} {n : Str} {q : Nat} {u : E} {fs : List V} (hu : u ≠ .sp) (ht : u.text = (E.word n q).text) : PN m (.mk .Ident (.str n :: .nat q :: fs)) [u] := by
  apply pn_mk
  rintro - k
  unfold formatBody
  dsimp only
  refine ⟨false, ?_⟩
  by_cases h3 : q = 3
  · refine wr_iteT (by simp [Cond.eval, Ref.get, getSels, Sel.get, V.field, V.toNat?, h3]) (wr_quoted (x := n) hu rfl ?_)
    rw [ht]; simp [E.text, h3]
  refine wr_iteF (by simp [Cond.eval, Ref.get, getSels, Sel.get, V.field, V.toNat?, h3]) ?_
  by_cases h2 : q = 2
  · refine wr_iteT (by simp [Cond.eval, Ref.get, getSels, Sel.get, V.field, V.toNat?, h2]) (wr_quoted (x := n) hu rfl ?_)
    rw [ht]; simp [E.text, h2]
  refine wr_iteF (by simp [Cond.eval, Ref.get, getSels, Sel.get, V.field, V.toNat?, h2]) ?_
  by_cases h4 : q = 4
  · refine wr_iteT (by simp [Cond.eval, Ref.get, getSels, Sel.get, V.field, V.toNat?, h4]) (wr_quoted (x := n) hu rfl ?_)
    rw [ht]; simp [E.text, h4]
  refine wr_iteF (by simp [Cond.eval, Ref.get, getSels, Sel.get, V.field, V.toNat?, h4]) ?_
  refine wr_str1 hu ?_
  rw [ht]; simp [E.text, h2, h3, h4, Ref.get, getSels, Sel.get, V.field, V.toStr?]
theorem p_word {m} {n q p e} : PK m .n (.mk .Ident [.str n, .nat q, p, e]) [.word n q] := by
  exact ⟨ident_text (by simp) rfl, pw_ne (by decide)⟩
theorem p_wordStr {m} {n p e} : PK m .n (.mk .Ident [.str n, .nat 4, p, e]) [.str n] := by
  exact ⟨ident_text (by simp) (by simp [E.text]), pw_ne (by decide)⟩
theorem p_star {m} {p e} : PK m .n (.mk .Ident [.str b!"*", .nat 0, p, e]) [.op b!"*"] := by
  exact ⟨ident_text (by simp) (by simp [E.text]), pw_ne (by decide)⟩
theorem p_num {m} {p e s b} : PK m .n (.mk .NumberLiteral [p, e, .str s, b]) [.num s] := by
  have h := textOf_num (m := m) (s := s)
  wauto
theorem p_bool {m} {p q s} : PK m .n (.mk .BoolLiteral [p, q, .str s]) [.raw s] := by
  have h := textOf_raw (m := m) (s := s)
  wauto
theorem p_placeholder {m} {p e} : PK m .n (.mk .PlaceHolder [p, e, .str b!"?"]) [.op b!"?"] := by
  have h := textOf_op (m := m) (s := b!"?")
  wauto
theorem p_dotNum {m} {p e s b} : PK m .n (.mk .NumberLiteral [p, e, .str (b!"." ++ s), b]) [.op b!".", .num s] := by
  have h : TextOf m [.op b!".", .num s] (b!"." ++ s) := ⟨.tok (u := .op b!".") (by simp) (.one (u := .num s) (by simp)), fun h => by have := h (.num s) (by simp); simpa [E.text] using this⟩
  wauto
theorem p_str {m} {p e s} : PK m .n (.mk .StringLiteral [p, e, .str s]) [.str s] := by
  refine ⟨pn_mk ?_, pw_ne (by decide)⟩
  rintro - k
  unfold formatBody
  dsimp only
  exact ⟨false, wr_quoted (x := s) (by simp) rfl rfl⟩
theorem p_index {m} {a b us ws} : PK m .n a us → PK m .n b ws → PK m .n (.mk .IndexOperation [a, .str b!".", b]) (us ++ [.op b!"."] ++ ws) := by
  intros
  have h := textOf_op (m := m) (s := b!".")
  wauto
theorem p_cast {m} {a b us ws} : PK m .n a us → PK m .n b ws →
      PK m .n (.mk .BinaryOperation [a, .str b!"::", b, .bool false, .bool false]) (us ++ [.op b!"::"] ++ ws) := by
  intros
  have h := textOf_op (m := m) (s := b!"::")
  wauto
theorem p_global {m} {a b us ws} : PK m .n a us → PK m .n b ws →
      PK m .n (.mk .BinaryOperation [a, .str b!"IN", b, .bool true, .bool false]) (us ++ [.sp, .kw b!"GLOBAL", .sp, .kw b!"IN", .sp] ++ ws) := by
  intros
  have h := textOf_kw (m := m) (s := b!"IN")
  wauto
theorem p_globalNot {m} {a b us ws} : PK m .n a us → PK m .n b ws →
      PK m .n (.mk .BinaryOperation [a, .str b!"IN", b, .bool true, .bool true])
        (us ++ [.sp, .kw b!"GLOBAL", .sp, .kw b!"NOT", .sp, .kw b!"IN", .sp] ++ ws) := by
  intros
  have h := textOf_kw (m := m) (s := b!"IN")
  wauto
theorem p_unaryOp {m} {p s v us} : s ∈ [b!"+", b!"-"] → PK m .n v us → PK m .n (.mk .UnaryExpr [p, .str s, v]) ([.op s, .sp] ++ us) := by
  intro hs _
  have h := textOf_op (m := m) (s := s)
  wauto
theorem p_unaryKw {m} {p s v us} : s ∈ [b!"NOT", b!"BOTH", b!"LEADING", b!"TRAILING"] → PK m .n v us → PK m .n (.mk .UnaryExpr [p, .str s, v]) ([.kw s, .sp] ++ us) := by
  intro hs _
  have h := textOf_kw (m := m) (s := s)
  wauto

/-- Operators that are printed on the line. -/
theorem bin_inline {m : Bool} {a b : V} {s : Str} {us vs ws : List E} (h1 : s ≠ b!"::") (h2 : s ≠ b!"AND") (h3 : s ≠ b!"OR") (ha : PN m a us) (hb : PN m b ws) (h : TextOf m vs s) :
    PN m (.mk .BinaryOperation [a, .str s, b, .bool false, .bool false]) (us ++ [.sp] ++ vs ++ [.sp] ++ ws) := by
  apply pn_mk
  rintro ⟨τ, hτ⟩ k
  simp only [V.hasTy, V.fieldsTy, schema, Bool.and_eq_true, Bool.and_true] at hτ
  casesm* _ ∧ _
  unfold formatBody
  dsimp only
  apply Exists.intro
  apply Wr.cast
  · wrs
  · wfin
/-- Operators that are printed on a line of their own. -/
theorem bin_line {m : Bool} {a b : V} {s : Str} {us ws : List E} (h2 : s = b!"AND" ∨ s = b!"OR") (ha : PN m a us) (hb : PN m b ws) :
    PN m (.mk .BinaryOperation [a, .str s, b, .bool false, .bool false]) (us ++ [.sp, .kw s, .sp] ++ ws) := by
  apply pn_mk
  rintro ⟨τ, hτ⟩ k
  simp only [V.hasTy, V.fieldsTy, schema, Bool.and_eq_true, Bool.and_true] at hτ
  casesm* _ ∧ _
  unfold formatBody
  dsimp only
  have h : TextOf m [.kw s] s := textOf_kw
  apply Exists.intro
  cases m with
  | false =>
    rcases h2 with rfl | rfl
    · apply Wr.cast
      · wrs
      · wfin
    · apply Wr.cast
      · wrs
      · wfin
  | true =>
    apply Wr.cast
    · apply wr_iteT (by rcases h2 with rfl | rfl <;> evalc)
      apply wr_seq
      · apply wr_iteU
        · wrs
        · apply Wr.cast
          · wrs
          · wfin
      apply wr_seq wr_newline
      apply wr_seq
      · wrs
      apply wr_seq
      · wrs
      apply wr_seq wr_newline
      apply wr_iteU
      · wrs
      · apply Wr.cast
        · wrs
        · wfin
    · wfin
theorem p_binOp {m} {a b s us ws} : s ∈ opOps → PK m .n a us → PK m .n b ws →
      PK m .n (.mk .BinaryOperation [a, .str s, b, .bool false, .bool false]) (us ++ [.sp, .op s, .sp] ++ ws) := by
  intro hs ha hb
  refine ⟨?_, pw_ne (by decide)⟩
  have := bin_inline (s := s) (by rintro rfl; revert hs; decide) (by rintro rfl; revert hs; decide) (by rintro rfl; revert hs; decide) ha.1 hb.1 textOf_op
  simpa using this
theorem p_binKw {m} {a b s us ws} : s ∈ kwOps → PK m .n a us → PK m .n b ws →
      PK m .n (.mk .BinaryOperation [a, .str s, b, .bool false, .bool false]) (us ++ [.sp, .kw s, .sp] ++ ws) := by
  intro hs ha hb
  refine ⟨?_, pw_ne (by decide)⟩
  by_cases h : s = b!"AND" ∨ s = b!"OR"
  · exact bin_line h ha.1 hb.1
  have := bin_inline (s := s) (by rintro rfl; revert hs; decide) (fun e => h (.inl e)) (fun e => h (.inr e)) ha.1 hb.1 textOf_kw
  simpa using this
theorem p_binNot {m} {a b s us ws} : s ∈ kwOps → PK m .n a us → PK m .n b ws →
      PK m .n (.mk .BinaryOperation [a, .str (b!"NOT " ++ s), b, .bool false, .bool false]) (us ++ [.sp, .kw b!"NOT", .sp, .kw s, .sp] ++ ws) := by
  intro hs ha hb
  refine ⟨?_, pw_ne (by decide)⟩
  have h : TextOf m [.kw b!"NOT", .sp, .kw s] (b!"NOT " ++ s) := by
    refine ⟨.tok (u := .kw b!"NOT") (by simp) (.sp rfl (.one (u := .kw s) (by simp))), fun h => ?_⟩
    have := h (.kw s) (by simp)
    simpa [E.text] using this
  have := bin_inline (s := b!"NOT " ++ s) (by simp) (by simp) (by simp) ha.1 hb.1 h
  simpa using this
theorem p_where_ {m} {p v us} : PK m .n v us → PK m .n (.mk .WhereClause [p, v]) ([.kw b!"WHERE", .sp] ++ us) := by
  intros
  wnode
  apply Exists.intro
  apply Wr.cast
  · apply wr_seq
    · wrs
    apply wr_iteU
    · wrs
    · apply Wr.cast
      · wrs
      · wfin
  · wfin
theorem p_groupAs {m} {p q s v us} : PK m .n v us → upper s = b!"CUBE" ∨ upper s = b!"ROLLUP" → v ≠ .nil →
      PK m .n (.mk .GroupByClause [p, q, .str s, v, .bool false, .bool false, .bool false]) ([.kw b!"GROUP", .sp, .kw b!"BY", .sp, .raw s] ++ us) := by
  intro hv hs hn
  have h := textOf_raw (m := m) (s := s)
  have hne : s ≠ [] := by rintro rfl; simp [upper] at hs
  wauto
theorem p_groupSets {m} {p q v us} : PK m .n v us → v ≠ .nil →
      PK m .n (.mk .GroupByClause [p, q, .str b!"GROUPING SETS", v, .bool false, .bool false, .bool false])
        ([.kw b!"GROUP", .sp, .kw b!"BY", .sp, .kw b!"GROUPING", .sp, .kw b!"SETS"] ++ us) := by
  intro hv hn
  have h : TextOf m [.kw b!"GROUPING", .sp, .kw b!"SETS"] b!"GROUPING SETS" := textOf_toks (x := b!"GROUPING SETS") (by decide)
  wauto
theorem p_groupAll {m} {p q} :       PK m .n (.mk .GroupByClause [p, q, .str b!"ALL", .nil, .bool false, .bool false, .bool false]) [.kw b!"GROUP", .sp, .kw b!"BY", .sp, .kw b!"ALL"] := by
  have h : TextOf m [.kw b!"ALL"] b!"ALL" := textOf_kw
  wauto
theorem p_orderDir {m} {p v a d f us vs ws} : d ∈ [b!"ASC", b!"DESC"] → PK m .n v us → PK m (.o [.sp, .kw b!"AS", .sp]) a vs → PK m (.o [.sp]) f ws →
      PK m .n (.mk .OrderExpr [p, v, a, .str d, f]) (us ++ vs ++ [.sp, .kw d] ++ ws) := by
  intro hd _ _ _
  have h := textOf_kw (m := m) (s := d)
  have hne : d ≠ [] := by rintro rfl; simp at hd
  wauto

end Verif.Echo

/-
How types, columns and alterations are printed.  No definition here is part of the model.
-/
import Verif.Again.Say

namespace Verif.Again
open Verif.Spec Verif.Echo

variable {m : Bool} {us ws xs ys zs : List E} {p q a c d w : V} {b f : Bool} {s : Str}

/-! ### Types -/

theorem d_scalar : PK m .n a us → PK m .n (.mk .ScalarType [a]) us := by dauto
theorem d_complex : PK m .n a us → PK m (.l comma) c ws → PK m .n (.mk .ComplexType [p, q, a, c]) (us ++ [.op b!"("] ++ ws ++ [.op b!")"]) := by dauto
theorem d_nestedType : PK m .n a us → PK m (.l comma) c ws → PK m .n (.mk .NestedType [p, q, a, c]) (us ++ [.op b!"("] ++ ws ++ [.op b!")"]) := by dauto
theorem d_typeParams : PK m .n a us → PK m (.l comma) c ws → PK m .n (.mk .TypeWithParams [p, q, a, c]) (us ++ [.op b!"("] ++ ws ++ [.op b!")"]) := by dauto
theorem d_enum : PK m .n a us → PK m (.l comma) c ws → PK m .n (.mk .EnumType [a, p, q, c]) (us ++ [.op b!"("] ++ ws ++ [.op b!")"]) := by
  intros
  wnode
  have := val_ptr (T := .EnumValue) (by assumption)
  apply Exists.intro
  apply Wr.cast
  · wrd
  · wfin
theorem d_enumValue : PK m .n a us → PK m .n c ws → PK m .n (.mk .EnumValue [a, c]) (us ++ [.op b!"="] ++ ws) := by dauto

/-! ### Columns -/

/-- The elements for `NOT NULL` and `NULL`. -/
def nullE (c d : V) : List E := if c.nonNil then [.sp, .kw b!"NOT", .sp, .kw b!"NULL"] else if d.nonNil then [.sp, .kw b!"NULL"] else []
/-- A level in parentheses. -/
def Lev (m : Bool) (v : V) (us : List E) : Prop := (v = .nil ∧ us = []) ∨ ∃ ws, PN m v ws ∧ us = [.op b!"("] ++ ws ++ [.op b!")"]

section
variable {env : List V} {i n k : Nat} {b : Bool}
theorem wr_null {r r' : Ref} {c d : V} (hc : r.get env = some c) (hd : r'.get env = some d) :
    Wr m (formatF k) (.ite (.nonNil r) (.lit b!" NOT NULL") (.ite (.nonNil r') (.lit b!" NULL") .skip)) env i n b (nullE c d) b := by
  unfold nullE
  by_cases h : c.nonNil = true
  · rw [if_pos h]; exact wr_iteT (by simp [Cond.eval, hc, h]) wr_lit
  · rw [if_neg h]
    refine wr_iteF (by simp [Cond.eval, hc, h]) ?_
    by_cases h' : d.nonNil = true
    · rw [if_pos h']; exact wr_iteT (by simp [Cond.eval, hd, h']) wr_lit
    · rw [if_neg h']; exact wr_iteF (by simp [Cond.eval, hd, h']) wr_skip
theorem wr_lev {r : Ref} {st : Static} {v : V} (hv : r.get env = some v) (h : Lev m v us) (hs : StOk st v) :
    Wr m (formatF k) (.ite (.nonNil r) (.seq (.lit b!"(") (.seq (.expr r st) (.lit b!")"))) .skip) env i n b us b := by
  obtain ⟨rfl, rfl⟩ | ⟨ws, h, rfl⟩ := h
  · exact wr_iteF (by simp [Cond.eval, hv, V.nonNil]) wr_skip
  · exact wr_iteT (by simp [Cond.eval, hv, h.nonNil]) ((wr_seq wr_lit (wr_seq (wrE hv h hs) wr_lit)).cast (by wfin))
end

theorem d_codec : PK m .n a us → Lev m c ws → PK m .n (.mk .CompressionCodec [p, q, .nil, .nil, a, c]) ([.kw b!"CODEC", .op b!"("] ++ us ++ ws ++ [.op b!")"]) := by
  rintro ⟨h1, -⟩ h2
  wnode
  exact ⟨_, Wr.cast (wr_seq wr_lit (wr_seq (wr_iteF (by evalc) wr_skip) (wr_seq (wrN rfl h1 (wr_seq (wrE rfl h1 (by st)) (wr_lev rfl h2 (by st)))) wr_lit))) (by wfin)⟩
theorem d_codecs : PK m .n a us → Lev m c ws → PK m .n d xs → Lev m w ys → PK m .n (.mk .CompressionCodec [p, q, a, c, d, w])
    ([.kw b!"CODEC", .op b!"("] ++ us ++ ws ++ comma ++ xs ++ ys ++ [.op b!")"]) := by
  rintro ⟨h1, -⟩ h2 ⟨h3, -⟩ h4
  wnode
  exact ⟨_, Wr.cast (wr_seq wr_lit (wr_seq (wrN rfl h1 (wr_seq (wrE rfl h1 (by st)) (wr_seq (wr_lev rfl h2 (by st)) (wr_seq wr_lit wr_lit))))
    (wr_seq (wrN rfl h3 (wr_seq (wrE rfl h3 (by st)) (wr_lev rfl h4 (by st)))) wr_lit))) (by wfin)⟩
theorem d_ttlExpr : PK m .n a us → PK m .n (.mk .TTLExpr [p, a, .nil]) us := by dauto
theorem d_ttl : PK m (.l comma) a us → PK m .n (.mk .TTLClause [p, q, a]) ([.kw b!"TTL", .sp] ++ us) := by dauto
theorem d_columnDef {a t c1 c2 d1 d2 d3 f g e w : V} {u1 u2 u3 u4 u5 u6 u7 u8 : List E} : PK m .n a u1 → PK m .n t u2 → PK m (.o [.sp, .kw b!"DEFAULT", .sp]) d1 u3 →
    PK m (.o [.sp, .kw b!"MATERIALIZED", .sp]) d2 u4 → PK m (.o [.sp, .kw b!"ALIAS", .sp]) d3 u5 → PK m (.o [.sp]) f u6 → PK m (.o [.sp]) g u7 →
    PK m (.o [.sp, .kw b!"COMMENT", .sp]) e u8 →
    PK m .n (.mk .ColumnDef [p, q, a, t, c1, c2, d1, d2, d3, f, g, e, w]) (u1 ++ [.sp] ++ u2 ++ nullE c1 c2 ++ u3 ++ u4 ++ u5 ++ u6 ++ u7 ++ u8) := by
  rintro ⟨h1, -⟩ ⟨h2, -⟩ h3 h4 h5 h6 h7 h8
  wnode
  exact ⟨_, Wr.cast (wr_seq (wrE rfl h1 (by st)) (wr_seq (wrN rfl h2 (wr_seq wr_lit (wrE rfl h2 (by st)))) (wr_seq (wr_null rfl rfl) (wr_seq (wrO1 rfl h3 (by st))
    (wr_seq (wrO1 rfl h4 (by st)) (wr_seq (wrO1 rfl h5 (by st)) (wr_seq (wrO1 rfl h6 (by st)) (wr_seq (wrO1 rfl h7 (by st)) (wrO1 rfl h8 (by st)))))))))) (by wfin)⟩

/-! ### Alterations -/

theorem d_addColumn : PK m .n a us → PK m (.o [.sp, .kw b!"AFTER", .sp]) c ws → PK m .n (.mk .AlterTableAddColumn [p, q, a, .bool b, c, .nil])
    ([.kw b!"ADD", .sp, .kw b!"COLUMN", .sp] ++ opt b [.kw b!"IF", .sp, .kw b!"NOT", .sp, .kw b!"EXISTS", .sp] ++ us ++ ws) := by
  rintro ⟨h1, -⟩ h2
  wnode
  exact ⟨_, Wr.cast (wr_seq wr_lit (wr_seq (wr_opt rfl) (wr_seq (wrE rfl h1 (by st)) (wr_seq (wrO1 rfl h2 (by st)) (wr_iteF (by evalc) wr_skip))))) (by wfin)⟩
theorem d_modifyColumn : PK m .n a us → PK m .n (.mk .AlterTableModifyColumn [p, q, .bool b, a, .nil])
    ([.kw b!"MODIFY", .sp, .kw b!"COLUMN", .sp] ++ opt b [.kw b!"IF", .sp, .kw b!"EXISTS", .sp] ++ us) := by dauto
theorem d_dropColumn : PK m .n a us → PK m .n (.mk .AlterTableDropColumn [p, a, .bool b])
    ([.kw b!"DROP", .sp, .kw b!"COLUMN", .sp] ++ opt b [.kw b!"IF", .sp, .kw b!"EXISTS", .sp] ++ us) := by dauto
theorem d_dropIndex : PK m .n a us → PK m .n (.mk .AlterTableDropIndex [p, a, .bool b])
    ([.kw b!"DROP", .sp, .kw b!"INDEX", .sp] ++ opt b [.kw b!"IF", .sp, .kw b!"EXISTS", .sp] ++ us) := by dauto
theorem d_dropProjection : PK m .n a us → PK m .n (.mk .AlterTableDropProjection [p, a, .bool b])
    ([.kw b!"DROP", .sp, .kw b!"PROJECTION", .sp] ++ opt b [.kw b!"IF", .sp, .kw b!"EXISTS", .sp] ++ us) := by dauto
theorem d_renameColumn : PK m .n a us → PK m .n c ws → PK m .n (.mk .AlterTableRenameColumn [p, .bool b, a, c])
    ([.kw b!"RENAME", .sp, .kw b!"COLUMN", .sp] ++ opt b [.kw b!"IF", .sp, .kw b!"EXISTS", .sp] ++ us ++ [.sp, .kw b!"TO", .sp] ++ ws) := by dauto
theorem d_deleteWhere : PK m .n a us → PK m .n (.mk .AlterTableDelete [p, q, a]) ([.kw b!"DELETE", .sp, .kw b!"WHERE", .sp] ++ us) := by dauto
theorem d_assignment : PK m .n a us → PK m .n c ws → PK m .n (.mk .UpdateAssignment [p, a, c]) (us ++ [.sp, .op b!"=", .sp] ++ ws) := by dauto
theorem d_updateWhere {l : List V} : PK m (.l comma) (.list l) us → l ≠ [] → PK m .n c ws → PK m .n (.mk .AlterTableUpdate [p, q, .list l, .nil, c])
    ([.kw b!"UPDATE", .sp] ++ us ++ [.sp, .kw b!"WHERE", .sp] ++ ws) := by
  rintro h1 h2 ⟨h3, -⟩
  wnode
  exact ⟨_, Wr.cast (wr_seq wr_lit (wr_seq wr_indent (wr_seq (wrLC rfl h1 h2 (by st)) (wr_seq wr_dedent (wr_seq (wr_iteF (by evalc) wr_skip) (wr_seq wr_brk
    (wr_seq wr_lit (wrE rfl h3 (by st))))))))) (by wfin)⟩
theorem d_alterTable {l : List V} : PK m .n a us → PK m (.o [.sp]) c ws → PK m (.l comma) (.list l) xs → l ≠ [] → PK m .n (.mk .AlterTable [p, q, a, c, .list l])
    ([.kw b!"ALTER", .sp, .kw b!"TABLE", .sp] ++ us ++ ws ++ [.sp] ++ xs) := by
  rintro ⟨h1, -⟩ h2 h3 h4
  wnode
  exact ⟨_, Wr.cast (wr_seq wr_lit (wr_seq (wrE rfl h1 (by st)) (wr_seq (wrO2 rfl h2 (by st)) (wr_rows rfl h3 h4 (by st))))) (by wfin)⟩

end Verif.Again

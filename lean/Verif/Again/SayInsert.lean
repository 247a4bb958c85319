/-
How `INSERT` is printed.  No definition here is part of the model.
-/
import Verif.Again.Say

namespace Verif.Again
open Verif.Spec Verif.Echo

variable {m : Bool} {us ws xs : List E} {p q a c d w : V} {b f : Bool} {s : Str}

theorem d_insertQuery : PK m .n a us → PK m (.o [.sp]) c ws → PK m .n d xs → PK m .n (.mk .InsertStmt [p, .nil, .bool b, a, c, .nil, d])
    ([.kw b!"INSERT", .sp, .kw b!"INTO", .sp] ++ opt b [.kw b!"TABLE", .sp] ++ us ++ ws ++ [.sp] ++ xs) := by
  rintro ⟨h1, -⟩ h2 ⟨h3, -⟩
  wnode
  refine ⟨_, Wr.cast (wr_seq wr_lit (wr_seq (wr_opt rfl) (wr_seq (wrE rfl h1 (by st)) (wr_seq (wrO4 rfl h2 (by st)) (wr_seq (wr_iteF (by evalc) wr_skip)
    (wrN rfl h3 (wr_seq wr_brk (wrE rfl h3 (by st))))))))) (by wfin)⟩
theorem d_insertFormat : PK m .n a us → PK m (.o [.sp]) c ws → PK m .n d xs → PK m .n (.mk .InsertStmt [p, d, .bool b, a, c, .nil, .nil])
    ([.kw b!"INSERT", .sp, .kw b!"INTO", .sp] ++ opt b [.kw b!"TABLE", .sp] ++ us ++ ws ++ [.sp] ++ xs) := by
  rintro ⟨h1, -⟩ h2 ⟨h3, -⟩
  wnode
  refine ⟨_, Wr.cast (wr_seq wr_lit (wr_seq (wr_opt rfl) (wr_seq (wrE rfl h1 (by st)) (wr_seq (wrO4 rfl h2 (by st)) (wr_seq
    (wrN rfl h3 (wr_seq wr_lit (wrE rfl h3 (by st)))) (wr_iteF (by evalc) (wr_iteF (by evalc) wr_skip))))))) (by wfin)⟩
theorem d_insertValues {l : List V} : PK m .n a us → PK m (.o [.sp]) c ws → PK m (.l comma) (.list l) xs → l ≠ [] → PK m .n (.mk .InsertStmt [p, .nil, .bool b, a, c, .list l, .nil])
    ([.kw b!"INSERT", .sp, .kw b!"INTO", .sp] ++ opt b [.kw b!"TABLE", .sp] ++ us ++ ws ++ [.sp, .kw b!"VALUES", .sp] ++ xs) := by
  rintro ⟨h1, -⟩ h2 h3 h4
  cases l with
  | nil => exact absurd rfl h4
  | cons y l =>
  wnode
  refine ⟨_, Wr.cast (wr_seq wr_lit (wr_seq (wr_opt rfl) (wr_seq (wrE rfl h1 (by st)) (wr_seq (wrO4 rfl h2 (by st)) (wr_seq
    (wr_iteF (by evalc) wr_skip) (wr_iteF (by evalc) (wr_iteT (by simp [Cond.eval, Ref.get, getSels, Sel.get, V.field, V.items]) (wr_seq wr_brk (wr_seq wr_lit (wr_seq wr_indent (wr_seq
      (wr_rows rfl h3 (List.cons_ne_nil y l) (st := .ptr .AssignmentValues) (.p (by simpa only [V.hasTy]))) wr_dedent))))))))))) (by wfin)⟩

end Verif.Again

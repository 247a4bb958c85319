/-
How statements that are no queries are printed, and how their parts are read again.  No definition here is part of the model.
-/
import Verif.Again.Whole
import Verif.Spec.Ddl

namespace Verif.Again
open Verif.Spec Verif.Echo

/-! ### What is written -/

/-- Elements that are there or not. -/
def opt (b : Bool) (us : List E) : List E := if b then us else []
/-- The elements for `SYNC` and `NO DELAY`. -/
def modE (s : Str) : List E := if s = [] then [] else .sp :: toks [] s

section
variable {m : Bool} {env : List V} {i n k : Nat} {b : Bool} {us ws : List E}

theorem wr_opt {call : Proc → V → Fmt → Option Fmt} {r : Ref} {c : Bool} {x : Str} (hr : r.get env = some (.bool c)) (hx : x.contains 10 = false := by decide) :
    Wr m call (.ite (.isTrue r) (.lit x) .skip) env i n b (opt c (toks [] x)) b := by
  cases c
  · exact wr_iteF (by simp [Cond.eval, hr, V.toBool?]) wr_skip
  · exact wr_iteT (by simp [Cond.eval, hr, V.toBool?]) (wr_lit hx)
theorem wr_mod {call : Proc → V → Fmt → Option Fmt} {r : Ref} {s : Str} (hr : r.get env = some (.str s)) (hs : s.contains 10 = false) :
    Wr m call (.ite (.lenPos r) (.seq (.lit b!" ") (.strF r)) .skip) env i n b (modE s) b := by
  cases s with
  | nil => exact wr_iteF (by simp [Cond.eval, hr]) wr_skip
  | cons c s =>
    refine wr_iteT (by simp [Cond.eval, hr]) ?_
    exact (wr_seq (us := [.sp]) wr_lit (wr_strH (by rw [hr]; rfl) (textOf_toks hs))).cast rfl
theorem wrO4 {r : Ref} {v : V} {st : Static} (hv : r.get env = some v) (ho : PO m [.sp] v us) (hs : StOk st v) :
    Wr m (formatF k) (.ite (.nonNil r) (.seq .brk (.seq .indent (.seq (.expr r st) .dedent))) .skip) env i n b us b :=
  wrO hv ho fun _ hn => (wr_seq wr_brk (wr_seq wr_indent (wr_seq (wrE hv hn hs) wr_dedent))).cast (by simp)
/-- Rows. -/
theorem wr_rows {r : Ref} {st : Static} {v : V} (hv : r.get env = some v) (hl : PL m comma v us) (hne : v.items ≠ []) (hs : StOks st v) (he : env.length = 1 := by rfl) :
    Wr m (formatF k) (.loop r (.seq .brk (.seq (.expr ⟨1, []⟩ st) (.ite (.not .idxLast) (.lit b!",") .skip)))) env i n b ([.sp] ++ us) b := by
  obtain ⟨uss, rfl, hf⟩ := hl
  have key : ∀ uss : List (List E), uss ≠ [] →
      [E.sp] ++ (sepd comma uss).flatten = (uss.mapIdx (fun j u => [.sp] ++ (u ++ (if j + 1 = uss.length then [] else [.op b!","])))).flatten := by
    intro uss
    induction uss with
    | nil => intro h; exact absurd rfl h
    | cons u us ih =>
      intro _
      cases us with
      | nil => simp [sepd]
      | cons w us =>
        have ih := ih (by simp)
        rw [List.mapIdx_cons, List.flatten_cons]
        simp only [sepd, List.map_cons, List.flatten_cons, List.length_cons, Nat.add_right_cancel_iff] at ih ⊢
        rw [← ih]
        simp
  rw [key uss (by rintro rfl; generalize v.items = l at hf hne; cases hf; exact hne rfl), ← hf.length_eq]
  refine wr_loop' (g := fun j u => [.sp] ++ (u ++ (if j + 1 = v.items.length then [] else [.op b!","]))) hv hf fun j y us hm hp => ?_
  refine wr_seq wr_brk (wr_seq (wrE (item_get he) hp (hs.mem hm)) ?_)
  by_cases hj : j + 1 = v.items.length
  · rw [if_pos hj]; exact wr_iteF (by simp [Cond.eval, hj]) wr_skip
  · rw [if_neg hj]; exact wr_iteT (by simp [Cond.eval, hj]) wr_lit
end

/-- What statements write. -/
macro "wrd" : tactic => `(tactic| repeat' first
  | exact wr_skip | exact wr_indent | exact wr_dedent | exact wr_brk | exact wr_lit
  | exact wr_opt rfl | exact wr_mod rfl (by assumption)
  | exact wrE rfl (by assumption) (by st)
  | exact wrO0 rfl (by assumption) (by st) | exact wrO1 rfl (by assumption) (by st)
  | exact wrO2 rfl (by assumption) (by st) | exact wrO3 rfl (by assumption) (by st)
  | exact wrLA rfl (by assumption) (by st) | exact wrLB rfl (by assumption) (by st)
  | exact wr_rows rfl (by assumption) (by first | assumption | simpa [V.items]) (by st)
  | exact wr_strH rfl (by assumption)
  | exact wrO4 rfl (by assumption) (by st)
  | apply wr_seq
  | (apply wrN rfl; focus assumption)
  | (apply wr_iteT; focus evalc) | (apply wr_iteF; focus evalc))
macro "dauto" : tactic => `(tactic| (
  intros
  wnode
  apply Exists.intro
  apply Wr.cast
  · wrd
  · wfin))

variable {m : Bool} {us ws xs : List E} {p q a c d w : V} {b f : Bool} {s : Str}

theorem d_cluster : PK m .n a us → PK m .n (.mk .ClusterClause [p, a]) ([.kw b!"ON", .sp, .kw b!"CLUSTER", .sp] ++ us) := by dauto
theorem d_use : PK m .n a us → PK m .n (.mk .UseStmt [p, q, a]) ([.kw b!"USE", .sp] ++ us) := by dauto
theorem d_check : PK m .n a us → PK m .n (.mk .CheckStmt [p, a, .nil]) ([.kw b!"CHECK", .sp, .kw b!"TABLE", .sp] ++ us) := by dauto
theorem d_optimize : PK m .n a us → PK m (.o [.sp]) c ws → PK m .n (.mk .OptimizeStmt [p, q, a, c, .nil, .bool b, .nil])
    ([.kw b!"OPTIMIZE", .sp, .kw b!"TABLE", .sp] ++ us ++ ws ++ opt b [.sp, .kw b!"FINAL"]) := by dauto
theorem d_dropDatabase : PK m .n a us → PK m (.o [.sp]) c ws → s.contains 10 = false → PK m .n (.mk .DropDatabase [p, q, a, .bool b, c, .str s])
    ([.kw b!"DROP", .sp, .kw b!"DATABASE", .sp] ++ opt b [.kw b!"IF", .sp, .kw b!"EXISTS", .sp] ++ us ++ ws ++ modE s) := by dauto
theorem d_drop {x : Str} : TextOf m xs x → PK m .n a us → PK m (.o [.sp]) c ws → s.contains 10 = false →
    PK m .n (.mk .DropStmt [p, q, .str x, a, .bool b, c, .bool f, .str s])
    ([.kw b!"DROP", .sp] ++ opt f [.kw b!"TEMPORARY", .sp] ++ xs ++ [.sp] ++ opt b [.kw b!"IF", .sp, .kw b!"EXISTS", .sp] ++ us ++ ws ++ modE s) := by dauto
theorem d_truncate : PK m .n a us → PK m (.o [.sp]) c ws → PK m .n (.mk .TruncateTable [p, q, .bool f, .bool b, a, c])
    ([.kw b!"TRUNCATE", .sp] ++ opt f [.kw b!"TEMPORARY", .sp] ++ [.kw b!"TABLE", .sp] ++ opt b [.kw b!"IF", .sp, .kw b!"EXISTS", .sp] ++ us ++ ws) := by dauto
theorem d_delete : PK m .n a us → PK m (.o [.sp]) c ws → PK m .n d xs → PK m .n (.mk .DeleteClause [p, a, c, d])
    ([.kw b!"DELETE", .sp, .kw b!"FROM", .sp] ++ us ++ ws ++ [.sp, .kw b!"WHERE", .sp] ++ xs) := by dauto
theorem d_explain {x : Str} : TextOf m xs x → PK m .n a us → PK m .n (.mk .ExplainStmt [p, .str x, a]) ([.kw b!"EXPLAIN", .sp] ++ xs ++ [.sp] ++ us) := by dauto
theorem d_set : PK m (.l comma) a us → PK m .n (.mk .SetStmt [p, .mk .SettingsClause [q, w, a]]) ([.kw b!"SET", .sp] ++ us) := by dauto
theorem d_show {x : Str} : TextOf m xs x → PK m .n (.mk .ShowStmt [p, q, .str x, .nil, .bool false, .str [], .nil, .nil, .nil, .nil]) ([.kw b!"SHOW", .sp] ++ xs) := by dauto
theorem d_showOf {x : Str} : TextOf m xs x → PK m .n a us →
    PK m .n (.mk .ShowStmt [p, q, .str x, a, .bool false, .str [], .nil, .nil, .nil, .nil]) ([.kw b!"SHOW", .sp] ++ xs ++ [.sp] ++ us) := by dauto
theorem d_describe : PK m .n a us → PK m .n (.mk .DescribeStmt [p, q, .str [], a]) ([.kw b!"DESCRIBE", .sp] ++ us) := by dauto
theorem d_describeOf {x : Str} : TextOf m xs x → x ≠ [] → PK m .n a us → PK m .n (.mk .DescribeStmt [p, q, .str x, a]) ([.kw b!"DESCRIBE", .sp] ++ xs ++ [.sp] ++ us) := by dauto
theorem val_ptrs {T : Ty} : ∀ {l : List V}, V.allTy noReq l (.val T) = true → V.allTy noReq l (.ptr T) = true
  | [], _ => rfl
  | v :: l, h => by
    simp only [V.allTy, Bool.and_eq_true] at h ⊢
    refine ⟨⟨h.1.1, ?_⟩, val_ptrs h.2⟩
    have h := h.1.2
    cases v with
    | mk t fs => simpa only [V.hasTy, FTy.admits] using h
    | _ => simp [V.hasTy] at h ⊢
theorem val_ptr {T : Ty} (h : a.hasTy noReq (.slice (.val T)) = true) : a.hasTy noReq (.slice (.ptr T)) = true := by
  cases a with
  | list l => simp only [V.hasTy] at h ⊢; exact val_ptrs h
  | mk t fs => simp [V.hasTy, FTy.admits] at h
  | _ => simp [V.hasTy] at h ⊢
theorem d_columnNames : PK m (.l comma) a us → PK m .n (.mk .ColumnNamesExpr [p, q, a]) ([.op b!"("] ++ us ++ [.op b!")"]) := by
  intros
  wnode
  have := val_ptr (T := .NestedIdentifier) (by assumption)
  apply Exists.intro
  apply Wr.cast
  · wrd
  · wfin
theorem d_row : PK m (.l comma) a us → PK m .n (.mk .AssignmentValues [p, q, a]) ([.op b!"("] ++ us ++ [.op b!")"]) := by dauto
end Verif.Again

/-
How `CREATE` statements are printed.  No definition here is part of the model.
-/
import Verif.Again.SayTypes

namespace Verif.Again
open Verif.Spec Verif.Echo

/-- A line end, which is written only if the text has several lines. -/
def gap (m : Bool) : List E := if m then [.sp] else []

section
variable {m : Bool} {env : List V} {i n k : Nat} {b : Bool} {us : List E}

theorem wr_nl {call : Proc → V → Fmt → Option Fmt} : Wr m call .newline env i n b (gap m) b := by
  cases m with
  | true => exact wr_newline
  | false =>
    intro f s' hf _ h
    simp only [FCmd.run, Option.some.injEq] at h
    subst h
    refine ⟨rfl, ?_⟩
    have : f.newLine = f := by simp [Fmt.newLine, hf.1]
    simp only [this]
    exact .refl
theorem wrLN {r : Ref} {st : Static} {v : V} (hv : r.get env = some v) (hl : PL m comma v us) (hne : v.items ≠ []) (hs : StOks st v) (he : env.length = 1 := by rfl) :
    Wr m (formatF k) (.loop r (.seq (.ite (.not .idxPos) .newline (.seq (.lit b!",") .brk)) (.expr ⟨1, []⟩ st))) env i n b (gap m ++ us) b := by
  obtain ⟨uss, rfl, hf⟩ := hl
  have : gap m ++ (sepd comma uss).flatten = (uss.mapIdx (fun j u => (if 0 < j then comma else gap m) ++ u)).flatten := by
    generalize v.items = l at hf hne
    cases hf with
    | nil => exact absurd rfl hne
    | @cons _ u _ us =>
      rw [sepd_eq, List.mapIdx_cons, List.mapIdx_cons]
      simp
  rw [this]
  refine wr_loop' (g := fun j u => (if 0 < j then comma else gap m) ++ u) hv hf fun j y us hm hp => ?_
  refine wr_seq ?_ (wrE (item_get he) hp (hs.mem hm))
  by_cases hj : 0 < j
  · rw [if_pos hj]
    refine wr_iteF (by simp [Cond.eval, hj]) (wr_seq (us := [.op b!","]) ?_ wr_brk)
    exact wr_lit (x := b!",") rfl
  · rw [if_neg hj]; exact wr_iteT (by simp [Cond.eval, hj]) wr_nl
/-- A part on a line of its own after a word. -/
theorem wrO5 {r : Ref} {v : V} {st : Static} {x : Str} {pre : List E} (hv : r.get env = some v) (ho : PO m pre v us) (hs : StOk st v)
    (hx : .sp :: toks [] x = pre := by rfl) (hc : x.contains 10 = false := by decide) :
    Wr m (formatF k) (.ite (.nonNil r) (.seq .brk (.seq (.lit x) (.expr r st))) .skip) env i n b us b :=
  wrO hv ho fun _ hn => (wr_seq wr_brk (wr_seq (wr_lit hc) (wrE hv hn hs))).cast (by subst hx; simp)
end

variable {m : Bool} {us ws xs : List E} {p q a c d w : V} {b f : Bool} {s : Str}

theorem d_schema {l : List V} : PK m (.l comma) (.list l) us → l ≠ [] → PK m .n (.mk .TableSchemaClause [p, q, .list l, .nil, .nil]) ([.op b!"("] ++ gap m ++ us ++ gap m ++ [.op b!")"]) := by
  intro h1 h2
  wnode
  exact ⟨_, Wr.cast (wr_seq (wr_iteT (by evalc) (wr_seq wr_lit (wr_seq wr_indent (wr_seq (wrLN rfl h1 h2 (by st)) (wr_seq wr_dedent (wr_seq wr_nl wr_lit))))))
    (wr_seq (wr_iteF (by evalc) wr_skip) (wr_iteF (by evalc) wr_skip))) (by wfin)⟩
theorem d_primaryKey : PK m .n a us → PK m .n (.mk .PrimaryKeyClause [p, a]) ([.kw b!"PRIMARY", .sp, .kw b!"KEY", .sp] ++ us) := by dauto
theorem d_partition : PK m .n a us → PK m .n (.mk .PartitionByClause [p, a]) ([.kw b!"PARTITION", .sp, .kw b!"BY", .sp] ++ us) := by dauto
theorem d_sampleBy : PK m .n a us → PK m .n (.mk .SampleByClause [p, a]) ([.kw b!"SAMPLE", .sp, .kw b!"BY", .sp] ++ us) := by dauto
theorem d_engine {a1 a2 a3 a4 a5 a6 a7 : V} {u1 u2 u3 u4 u5 u6 u7 : List E} : TextOf m xs s → PK m (.o []) a1 u1 → PK m (.o [.sp]) a2 u2 → PK m (.o [.sp]) a3 u3 →
    PK m (.o [.sp]) a4 u4 → PK m (.o [.sp]) a5 u5 → PK m (.o [.sp]) a6 u6 → PK m (.o [.sp]) a7 u7 →
    PK m .n (.mk .EngineExpr [p, q, .str s, a1, a4, a3, a5, a6, a7, a2]) ([.kw b!"ENGINE", .sp, .op b!"=", .sp] ++ xs ++ u1 ++ u2 ++ u3 ++ u4 ++ u5 ++ u6 ++ u7) := by
  intro h0 h1 h2 h3 h4 h5 h6 h7
  wnode
  exact ⟨_, Wr.cast (wr_seq wr_lit (wr_seq (wr_strH rfl h0) (wr_seq (wrO0 rfl h1 (by st)) (wr_seq (wrO2 rfl h2 (by st)) (wr_seq (wrO2 rfl h3 (by st)) (wr_seq (wrO2 rfl h4 (by st))
    (wr_seq (wrO2 rfl h5 (by st)) (wr_seq (wrO2 rfl h6 (by st)) (wrO2 rfl h7 (by st)))))))))) (by wfin)⟩
theorem d_createDatabase {e : V} {ys : List E} : PK m .n a us → PK m (.o [.sp]) c ws → PK m (.o [.sp]) d xs → PK m (.o [.sp, .kw b!"COMMENT", .sp]) e ys →
    PK m .n (.mk .CreateDatabase [p, q, a, .bool b, c, d, e])
      ([.kw b!"CREATE", .sp, .kw b!"DATABASE", .sp] ++ opt b [.kw b!"IF", .sp, .kw b!"NOT", .sp, .kw b!"EXISTS", .sp] ++ us ++ ws ++ xs ++ ys) := by
  rintro ⟨h1, -⟩ h2 h3 h4
  wnode
  exact ⟨_, Wr.cast (wr_seq wr_lit (wr_seq (wr_opt rfl) (wr_seq (wrE rfl h1 (by st)) (wr_seq (wrO1 rfl h2 (by st)) (wr_seq (wrO2 rfl h3 (by st)) (wrO1 rfl h4 (by st))))))) (by wfin)⟩
theorem d_createTable {a1 a2 a3 a4 a5 : V} {r t : Bool} {u1 u2 u3 u4 u5 : List E} : PK m .n a us → PK m (.o [.sp]) a1 u1 → PK m (.o [.sp]) a2 u2 → PK m (.o [.sp]) a3 u3 →
    PK m (.o [.sp, .kw b!"AS", .sp]) a4 u4 → PK m (.o [.sp, .kw b!"COMMENT", .sp]) a5 u5 →
    PK m .n (.mk .CreateTable [p, q, .bool r, a, .bool b, .nil, a1, a2, a3, a4, .nil, .bool t, a5])
      ([.kw b!"CREATE"] ++ opt r [.sp, .kw b!"OR", .sp, .kw b!"REPLACE"] ++ opt t [.sp, .kw b!"TEMPORARY"] ++ [.sp, .kw b!"TABLE", .sp] ++
        opt b [.kw b!"IF", .sp, .kw b!"NOT", .sp, .kw b!"EXISTS", .sp] ++ us ++ u1 ++ u2 ++ u3 ++ u4 ++ u5) := by
  rintro ⟨h1, -⟩ h2 h3 h4 h5 h6
  wnode
  exact ⟨_, Wr.cast (wr_seq wr_lit (wr_seq (wr_opt rfl) (wr_seq (wr_opt rfl) (wr_seq wr_lit (wr_seq (wr_opt rfl) (wr_seq (wrE rfl h1 (by st)) (wr_seq (wr_iteF (by evalc) wr_skip)
    (wr_seq (wrO1 rfl h2 (by st)) (wr_seq (wrO2 rfl h3 (by st)) (wr_seq (wrO2 rfl h4 (by st)) (wr_seq (wrO5 rfl h5 (by st)) (wr_seq (wr_iteF (by evalc) wr_skip)
    (wrO5 rfl h6 (by st)))))))))))))) (by wfin)⟩
theorem d_createView {a1 a2 a3 a4 : V} {r : Bool} {u1 u2 u3 u4 : List E} : PK m .n a us → PK m (.o [.sp]) a1 u1 → PK m (.o [.sp]) a2 u2 →
    PK m (.o [.sp, .kw b!"COMMENT", .sp]) a3 u3 → PK m (.o [.sp, .kw b!"AS", .sp]) a4 u4 →
    PK m .n (.mk .CreateView [p, q, .bool r, a, .bool b, .nil, a1, a2, a3, a4])
      ([.kw b!"CREATE"] ++ opt r [.sp, .kw b!"OR", .sp, .kw b!"REPLACE"] ++ [.sp, .kw b!"VIEW", .sp] ++
        opt b [.kw b!"IF", .sp, .kw b!"NOT", .sp, .kw b!"EXISTS", .sp] ++ us ++ u1 ++ u2 ++ u3 ++ u4) := by
  rintro ⟨h1, -⟩ h2 h3 h4 h5
  wnode
  exact ⟨_, Wr.cast (wr_seq wr_lit (wr_seq (wr_opt rfl) (wr_seq wr_lit (wr_seq (wr_opt rfl) (wr_seq (wrE rfl h1 (by st)) (wr_seq (wr_iteF (by evalc) wr_skip)
    (wr_seq (wrO1 rfl h2 (by st)) (wr_seq (wrO1 rfl h3 (by st)) (wr_seq (wrO1 rfl h4 (by st)) (wrO1 rfl h5 (by st))))))))))) (by wfin)⟩

end Verif.Again

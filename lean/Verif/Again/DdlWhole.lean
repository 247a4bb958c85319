/-
Round trips of statements.  No definition here is part of the model.
-/
import Verif.Again.Statements
import Verif.Props.Ddl

namespace Verif.Again
open Verif.Spec Verif.Echo

/-! ### Calls -/

/-- All calls have parameters. -/
def Cs (v : V) : Prop := v.structs.all callB = true
theorem cs_nil : Cs .nil := rfl
theorem cs_nat {n : Nat} : Cs (.nat n) := rfl
theorem cs_str {s : Str} : Cs (.str s) := rfl
theorem cs_bool {b : Bool} : Cs (.bool b) := rfl
theorem cs_one {v : V} (h : Cs v) : Cs (.list [v]) := by simpa [Cs, V.structs, V.nodes, V.nodesL] using h
theorem cs_none : Cs (.list []) := rfl
theorem cs_cons {v : V} {l : List V} (h : Cs v) (h' : Cs (.list l)) : Cs (.list (v :: l)) := by
  simp only [Cs, V.structs, V.nodes, V.nodesL, List.all_append, Bool.and_eq_true] at h h' ⊢
  exact ⟨h, h'⟩
theorem cs_two {a b : V} (h : Cs (.list [a, b])) : Cs a ∧ Cs b := by
  simpa [Cs, V.structs, V.nodes, V.nodesL, List.all_append, Bool.and_eq_true] using h
theorem cs_three {a b c : V} (h : Cs (.list [a, b, c])) : Cs a ∧ Cs b ∧ Cs c := by
  simpa [Cs, V.structs, V.nodes, V.nodesL, List.all_append, Bool.and_eq_true] using h
theorem cs_clauses {a b c d e f : V} (h : Cs (clauses a b c d e f)) : Cs a ∧ Cs b ∧ Cs c ∧ Cs d ∧ Cs e ∧ Cs f := by
  simpa [Cs, clauses, V.structs, V.nodes, V.nodesL, List.all_append, Bool.and_eq_true] using h
theorem cs_fields {l : List V} (h : ∀ y ∈ l, Cs y) : (V.nodesL (fun _ => true) l).all callB = true := by
  induction l with
  | nil => rfl
  | cons y l ih =>
    simp only [V.nodesL, List.all_append, Bool.and_eq_true]
    exact ⟨h y List.mem_cons_self, ih fun z hz => h z (List.mem_cons_of_mem _ hz)⟩
theorem cs_mk {T : Ty} {fs : List V} (ht : T ≠ .FunctionExpr) (h : ∀ y ∈ fs, Cs y) : Cs (.mk T fs) := by
  simp only [Cs, V.structs, V.nodes, if_true, List.all_cons, Bool.and_eq_true]
  refine ⟨?_, cs_fields h⟩
  cases T <;> first | rfl | exact absurd rfl ht
theorem cs_core {c : Cat} {ts : List Token} {v : V} (h : Core c ts v) : Cs v := core_calls h

macro "cs" : tactic => `(tactic| repeat' first
  | exact cs_nil | exact cs_nat | exact cs_str | exact cs_bool | exact cs_none | assumption | exact cs_core (by assumption)
  | apply cs_cons | (refine cs_mk (by decide) (List.forall_mem_cons.2 ⟨?_, ?_⟩)) | (refine List.forall_mem_cons.2 ⟨?_, ?_⟩) | exact List.forall_mem_nil _)

theorem piece_calls {c : Part} {ts : List Token} {v : V} (h : Piece c ts v) : Cs v := by
  induction h with
  | columnDef _ _ _ _ _ _ _ _ _ i1 i2 =>
    obtain ⟨_, _⟩ := cs_two i1
    obtain ⟨_, _, _⟩ := cs_three i2
    cs
  | _ =>
    first
    | (have hc := cs_clauses ‹Cs (clauses _ _ _ _ _ _)›; casesm* _ ∧ _; cs)
    | cs
theorem statement_calls {ts : List Token} {v : V} (h : Statement ts v) : Cs v := by
  cases h with
  | query h => exact cs_core h
  | _ =>
    repeat' first
    | apply cs_cons
    | (refine cs_mk (by decide) (List.forall_mem_cons.2 ⟨?_, ?_⟩))
    | (refine List.forall_mem_cons.2 ⟨?_, ?_⟩)
    | exact List.forall_mem_nil _
    all_goals first
    | exact cs_nil
    | exact cs_nat
    | exact cs_str
    | exact cs_bool
    | exact cs_none
    | exact piece_calls ‹_›
    | exact cs_core ‹_›

/-! ### The round trip -/

theorem statement_in {ts : List Token} {vs : List V} (h : Statements ts vs) {v : V} (hv : v ∈ vs) : ∃ os, os <:+: ts ∧ Statement os v := by
  induction h with
  | none => cases hv
  | semi _ _ ih =>
    obtain ⟨os, h1, h2⟩ := ih hv
    exact ⟨os, h1.trans (List.suffix_cons _ _).isInfix, h2⟩
  | last h =>
    cases List.mem_singleton.1 hv
    exact ⟨_, List.infix_refl _, h⟩
  | @more s ts us _ _ h _ _ ih =>
    rcases List.mem_cons.1 hv with rfl | hv
    · exact ⟨_, (List.prefix_append _ _).isInfix, h⟩
    · obtain ⟨os, h1, h2⟩ := ih hv
      exact ⟨os, h1.trans ((List.suffix_cons _ _).trans (List.suffix_append _ _)).isInfix, h2⟩
theorem statement_of {a : Str} {ts : List Token} {vs ws : List V} (hs : Scan (Lx.new a) ts true) (hq : Statements ts vs) (hp : Parses a ws) {w : V} (hw : w ∈ ws) :
    ∃ os, os <:+: ts ∧ Statement os (w.norm id) := by
  have := C47_statements_tree a ts vs ws hs hq hp
  exact statement_in hq (this ▸ List.mem_map.2 ⟨w, hw, rfl⟩)

theorem again_ddl {a : Str} {ts : List Token} {vs ws : List V} {m : Bool} {ind : Str} {f : Fmt} (hs : Scan (Lx.new a) ts true) (hq : Statements ts vs) (hp : Parses a ws) {w : V}
    (hw : w ∈ ws) (hk : (w.norm id).kept = true) (ho : (w.norm id).orderly = true) (hu : PlainUsing ts) (he : PlainEngine ts)
    (hn : m = true → ∀ t ∈ ts, 10 ∉ t.str) (hi : ind.all isBlank = true) (hf : (initial m ind).writeExpr w = some f) :
    ∃ w', Parses f.out [w'] ∧ w'.norm id = w.norm id ∧ ∀ g : Fmt, g.writeExpr w' = g.writeExpr w := by
  obtain ⟨os, h1, h2⟩ := statement_of hs hq hp hw
  obtain ⟨us, hpk, hpl, hnp, hg, hr⟩ := say_statement h2 ((fit_of hs hn hu).infix h1) hk ho (engine_infix he h1)
  have ht := An.parses_isTree_noReq hp hw
  rw [write_normed ht (readers_normed ht hnp)] at hf
  have hrend := writes hi hpk (tree_normed ht).2 (fun h u hu' => (hg u hu').line h) hf
  have hinv : Inv hd us := hpl _ (tree_normed ht).2
  obtain ⟨ts', h3, h4⟩ := lexP hrend hinv.chain (fun u hu' => (hg u hu').fits) 0 none
  have h5 := hr _ _ (fun _ _ _ h => by obtain ⟨_, h, _⟩ := h; cases h) h4
  obtain ⟨ws', h6, h7⟩ := C47_statements_accepted f.out ts' [w.norm id] h3.scan (.last h5)
  obtain ⟨w', rfl, h8⟩ : ∃ w', ws' = [w'] ∧ w'.norm id = w.norm id := by
    obtain ⟨w', h, h8⟩ := List.map_eq_singleton_iff.1 h7
    exact ⟨w', h, h8⟩
  refine ⟨w', h6, h8, fun g => ?_⟩
  have ht' := An.parses_isTree_noReq h6 (v := w') (by simp)
  rw [write_normed ht (readers_normed ht hnp), write_normed ht' (readers_normed ht' (h8 ▸ hnp)), h8]

end Verif.Again

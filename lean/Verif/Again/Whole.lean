/-
Formatting a query of the core language and parsing it again.  No definition here is part of the model.
-/
import Verif.Again.Main
import Verif.Again.Norm
import Verif.Props.Complete

namespace Verif.Again
open Verif.Spec Verif.Echo

/-! ### Tokens of a text -/

theorem lexeme_signed {p : Option Token} {lex follow : Str} {lead : Nat} {t : Token} (h : Lexeme p lex follow lead t) (hs : isSigned t) : ¬ AfterOperand p := by
  obtain ⟨hk, s, n, e, hs⟩ := hs
  cases h with
  | number hn =>
    simp only at e
    subst e
    obtain ⟨c, t, h1, h2⟩ := number_starts hn
    cases h1
    simp only [Digit] at h2
    omega
  | signed _ h => exact h
  | word => simp only at hk; split at hk <;> simp at hk
  | backquoted => simp at hk
  | doublequoted => simp at hk
  | string => simp at hk
  | op2 =>
    simp only [twoByteKind] at hk
    split at hk <;> simp at hk
  | op1 => simp at hk

theorem scan_two {l : Lx} {ts : List Token} {fin : Bool} (h : Scan l ts fin) : ∀ a b, [a, b] <:+: ts → isSigned b → ¬ EndsOperand a.kind := by
  induction h with
  | eof => intro a b h; simp at h
  | err => intro a b h; simp at h
  | tok h1 h2 h3 ih =>
    intro a b h hs
    rcases List.infix_cons_iff.1 h with h | h
    · obtain ⟨xs, h⟩ := h
      simp only [List.cons_append, List.nil_append, List.cons.injEq] at h
      obtain ⟨rfl, rfl⟩ := h
      cases h3 with
      | tok h3 h4 _ =>
        have := (consume_ok_iff _ _).1 h3
        cases this with
        | eof => simp at h4
        | token _ hl =>
          simp at h4
          subst h4
          have := lexeme_signed hl hs
          intro he
          exact this ⟨_, h2, he⟩
    · exact ih a b h hs

theorem fit_of {a : Str} {ts : List Token} {m : Bool} (hs : Scan (Lx.new a) ts true) (hn : m = true → ∀ t ∈ ts, 10 ∉ t.str) (hu : PlainUsing ts) : Fit m ts :=
  ⟨fun t ht => ⟨scan_src hs .start t ht, fun h => hn h t ht⟩, scan_two hs, hu⟩

theorem query_in {ts : List Token} {vs : List V} (h : Queries ts vs) {v : V} (hv : v ∈ vs) : ∃ os, os <:+: ts ∧ Core .query os v := by
  induction h with
  | none => cases hv
  | semi _ _ ih =>
    obtain ⟨os, h1, h2⟩ := ih hv
    exact ⟨os, h1.trans (List.suffix_cons _ _).isInfix, h2⟩
  | last h =>
    cases List.mem_singleton.1 hv
    exact ⟨_, List.infix_refl _, h⟩
  | @more s ts us _ _ h _ _ ih =>
    rcases List.mem_cons.1 hv with rfl | hv
    · exact ⟨_, (List.prefix_append _ _).isInfix, h⟩
    · obtain ⟨os, h1, h2⟩ := ih hv
      exact ⟨os, h1.trans ((List.suffix_cons _ _).trans (List.suffix_append _ _)).isInfix, h2⟩

/-! ### Nodes and positions -/

mutual
theorem structs_normed : ∀ (v : V) (τ : FTy), v.hasTy noReq τ = true → ∀ x ∈ v.structs, x.norm id ∈ (v.norm id).structs
  | .nil, _, _, _, hx => by simp [V.structs, V.nodes] at hx
  | .nat _, _, _, _, hx => by simp [V.structs, V.nodes] at hx
  | .bool _, _, _, _, hx => by simp [V.structs, V.nodes] at hx
  | .str _, _, _, _, hx => by simp [V.structs, V.nodes] at hx
  | .list l, τ, h, x, hx => by
    cases τ <;> simp only [V.hasTy, Bool.false_eq_true] at h
    simp only [V.structs, V.nodes] at hx
    simp only [V.norm, V.structs, V.nodes]
    exact structsL_normed l _ h x hx
  | .mk t fs, τ, h, x, hx => by
    simp only [V.hasTy, Bool.and_eq_true] at h
    simp only [V.structs, V.nodes, if_true, List.mem_cons] at hx
    rcases hx with rfl | hx
    · simp [V.norm, V.structs, V.nodes]
    · simp only [V.norm, V.structs, V.nodes, if_true, List.mem_cons]
      exact .inr (structsF_normed fs _ h.2.1 x hx)
theorem structsL_normed : ∀ (l : List V) (τ : FTy), V.allTy noReq l τ = true → ∀ x ∈ V.nodesL (fun _ => true) l, x.norm id ∈ V.nodesL (fun _ => true) (V.normL id l)
  | [], _, _, _, hx => by simp [V.nodesL] at hx
  | v :: l, τ, h, x, hx => by
    simp only [V.allTy, Bool.and_eq_true] at h
    simp only [V.nodesL, List.mem_append] at hx
    simp only [V.normL, V.nodesL, List.mem_append]
    exact hx.imp (structs_normed v τ h.1.2 x) (structsL_normed l τ h.2 x)
theorem structsF_normed : ∀ (fs : List V) (τs : List FTy), V.fieldsTy noReq fs τs = true →
    ∀ x ∈ V.nodesL (fun _ => true) fs, x.norm id ∈ V.nodesL (fun _ => true) (V.normF id τs fs)
  | [], _, _, _, hx => by simp [V.nodesL] at hx
  | _ :: _, [], h, _, _ => by simp [V.fieldsTy] at h
  | v :: fs, τ :: τs, h, x, hx => by
    simp only [V.fieldsTy, Bool.and_eq_true] at h
    simp only [V.nodesL, List.mem_append] at hx
    by_cases hp : τ = .pos
    · subst hp
      simp only [V.normF, V.nodesL, List.mem_append]
      refine hx.imp (fun hx => ?_) (structsF_normed fs τs h.2 x)
      have h1 := h.1
      cases v <;> simp [V.hasTy, FTy.admits] at h1
      simp [V.nodes] at hx
    · rw [normF_cons hp]
      simp only [V.nodesL, List.mem_append]
      exact hx.imp (structs_normed v τ h.1 x) (structsF_normed fs τs h.2 x)
end

theorem ty_normed (v : V) : (v.norm id).ty? = v.ty? := by cases v <;> rfl

theorem readers_normed {v : V} (h : v.isTree noReq) (hp : NoPosReader (v.norm id)) : NoPosReader v := fun x hx t ht =>
  hp _ (structs_normed v _ h.2 x hx) t (by rw [ty_normed, ht])

theorem nonNil_normed (v : V) : (v.norm id).nonNil = v.nonNil := by cases v <;> rfl

theorem params_normed {v : V} (h : v.isTree noReq) (hp : (v.norm id).hasParams) : v.hasParams := by
  intro fs hm
  have h1 := structs_normed v _ h.2 _ hm
  simp only [V.norm] at h1
  obtain ⟨w, h2, h3⟩ := hp _ h1
  simp only [schema] at h2
  match fs with
  | [] => simp [V.normF] at h2
  | [a] => simp [V.normF] at h2
  | a :: b :: fs =>
    simp only [V.normF, List.getElem?_cons_succ, List.getElem?_cons_zero, Option.some.injEq] at h2
    refine ⟨b, rfl, ?_⟩
    rw [← nonNil_normed, h2]
    exact h3

/-- A function call has parameters. -/
def callB : V → Bool
  | .mk .FunctionExpr fs => (fs[1]?.map V.nonNil).getD false
  | _ => true
theorem nodes_join (ms : List Token) : V.nodesL (fun _ => true) (ms.map joinText ++ [.str b!"JOIN"]) = [] := by
  induction ms with
  | nil => rfl
  | cons t ms ih => simpa [V.nodesL, joinText, V.nodes] using ih
theorem core_calls {c : Cat} {ts : List Token} {v : V} (h : Core c ts v) : v.structs.all callB = true := by
  induction h with
  | query _ _ _ _ _ _ _ _ _ _ _ _ _ _ _ i0 _ i1 i2 i3 i4 i5 i6 i7 i8 i9 i10 i11 =>
    simp only [V.structs, V.nodes, V.nodesL, List.all_append, List.all_nil, Bool.and_eq_true, Bool.and_true] at i0 i1 i2 i3 i4 i5 i6 i7 i8 i9 i10 i11
    simp only [N.SelectQuery, V.structs, V.nodes, V.nodesL, if_true, List.all_cons, List.all_append, List.all_nil, List.nil_append, List.append_nil, Bool.and_eq_true, Bool.and_true, callB,
      i0, i1, i2, i3, i4, i5, i6, i7, i8, i9, i10, i11, and_self]
  | _ =>
    simp_all [nodes_join, V.structs, V.nodes, V.nodesL, callB, V.nonNil, Spec.name, columns, N.Ident, N.NumberLiteral, N.StringLiteral, N.UnaryExpr, N.BinaryOperation, N.BetweenClause,
      N.IsNullExpr, N.IsNotNullExpr, N.TernaryOperation, N.Path, N.NestedIdentifier, N.ParamExprList, N.ArrayParamList, N.FunctionExpr, N.SubQuery, N.CaseExpr,
      N.WhenClause, N.ColumnExpr, N.SelectItem, N.TableIdentifier, N.JoinTableExpr, N.TableExpr, N.AliasExpr, N.JoinExpr, N.UsingClause, N.OnClause, N.FromClause,
      N.PrewhereClause, N.WhereClause, N.GroupByClause, N.HavingClause, N.OrderExpr, N.OrderByClause, N.LimitClause, N.LimitByClause, N.WithClause, N.CTEStmt,
      N.SettingExpr, N.SettingsClause, N.BoolLiteral, N.FormatClause, N.PartitionByClause, N.WindowExpr, N.WindowFunctionExpr, N.ColumnExprList]
theorem core_params {c : Cat} {ts : List Token} {v : V} (h : Core c ts v) : v.hasParams := hasParams_of (core_calls h)

/-! ### The round trip -/

theorem core_of {a : Str} {ts : List Token} {vs ws : List V} (hs : Scan (Lx.new a) ts true) (hq : Queries ts vs) (hp : Parses a ws) {w : V} (hw : w ∈ ws) :
    ∃ os, os <:+: ts ∧ Core .query os (w.norm id) := by
  have := C45_core_tree a ts vs ws hs hq hp
  exact query_in hq (this ▸ List.mem_map.2 ⟨w, hw, rfl⟩)

theorem again {a : Str} {ts : List Token} {vs ws : List V} {m : Bool} {ind : Str} {f : Fmt} (hs : Scan (Lx.new a) ts true) (hq : Queries ts vs) (hp : Parses a ws) {w : V}
    (hw : w ∈ ws) (hk : (w.norm id).kept = true) (hu : PlainUsing ts) (hn : m = true → ∀ t ∈ ts, 10 ∉ t.str) (hi : ind.all isBlank = true)
    (hf : (initial m ind).writeExpr w = some f) : ∃ w', Parses f.out [w'] ∧ w'.norm id = w.norm id ∧ ∀ g : Fmt, g.writeExpr w' = g.writeExpr w := by
  obtain ⟨os, h1, h2⟩ := core_of hs hq hp hw
  obtain ⟨us, he, hpl, hg, hr⟩ := claim h2 ((fit_of hs hn hu).infix h1) hk
  have ht := An.parses_isTree_noReq hp hw
  have hnp := plain_noPosReader hpl
  rw [write_normed ht (readers_normed ht hnp)] at hf
  have hrend := writes hi (print m he) (tree_normed ht).2 (fun h u hu' => (hg u hu').line h) hf
  obtain ⟨ts', h3, h4⟩ := lexP hrend (glue he (glued_of _ _ (tree_normed ht).2 hpl)).chain (fun u hu' => (hg u hu').fits) 0 none
  have h5 := hr _ _ (fun _ _ _ h => by obtain ⟨_, h, _⟩ := h; cases h) h4
  obtain ⟨ws', h6, h7⟩ := C45_core_accepted f.out ts' [w.norm id] h3.scan (.last h5)
  obtain ⟨w', rfl, h8⟩ : ∃ w', ws' = [w'] ∧ w'.norm id = w.norm id := by
    obtain ⟨w', h, h8⟩ := List.map_eq_singleton_iff.1 h7
    exact ⟨w', h, h8⟩
  refine ⟨w', h6, h8, fun g => ?_⟩
  have ht' := An.parses_isTree_noReq h6 (v := w') (by simp)
  rw [write_normed ht (readers_normed ht hnp), write_normed ht' (readers_normed ht' (h8 ▸ hnp)), h8]

end Verif.Again

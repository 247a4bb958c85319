/-
Which elements are printed next to each other without a blank between them.  No definition here is part of the model.
-/
import Verif.Echo.Parts
import Mathlib.Data.List.Chain

namespace Verif.Echo
open Verif.Spec

/-! ### Types of the parts that are printed without a blank -/

/-- A node of this type, or no node. -/
def isT (t : Ty) : V → Bool
  | .mk u _ => decide (u = t)
  | _ => true

/-- The parts of a node that are printed without a blank have the expected types. -/
def gNode : Ty → List V → Bool
  | .FunctionExpr, [_, p] => isT .ParamExprList p
  | .ObjectParams, [_, p] => isT .ArrayParamList p
  | .ParamExprList, [_, _, _, p] => isT .ColumnArgList p
  | .TableFunctionExpr, [_, p] => isT .TableArgListExpr p
  | .NestedIdentifier, [a, b] | .TableIdentifier, [a, b] => isT .Ident a && isT .Ident b
  | .Path, [.list vs] => vs.all (isT .Ident)
  | .RatioExpr, [a, b] => isT .NumberLiteral a && isT .NumberLiteral b
  | .SettingExpr, [_, a, _] => isT .Ident a
  | .IndexOperation, [o, _, _] => dotObject o
  | .GroupByClause, [_, _, s, e, _, _, _] => groupExpr s e
  | _, _ => true

mutual
/-- This holds for all nodes of the tree. -/
def glued : V → Bool
  | .mk t fs => gNode t fs && gluedL fs
  | .list vs => gluedL vs
  | _ => true
def gluedL : List V → Bool
  | [] => true
  | v :: vs => glued v && gluedL vs
end

theorem isT_ptr {t : Ty} {v : V} (h : v.hasTy noReq (.ptr t) = true) : isT t v = true := by
  cases v with
  | mk u fs => have := hasTy_ptr h; subst this; simp [isT]
  | _ => rfl

theorem gNode_of {t : Ty} {fs : List V} (hf : V.fieldsTy noReq fs (schema t) = true) (hp : plainNode t fs = true) : gNode t fs = true := by
  unfold gNode
  split
  all_goals try rfl
  all_goals try simp only [schema, V.fieldsTy, Bool.and_eq_true, Bool.and_true, and_true] at hf
  · exact isT_ptr hf.2
  · exact isT_ptr hf.2
  · exact isT_ptr hf.2.2.2
  · exact isT_ptr hf.2
  · simp [isT_ptr hf.1, isT_ptr hf.2]
  · simp [isT_ptr hf.1, isT_ptr hf.2]
  · simp only [V.hasTy] at hf
    rw [List.all_eq_true]
    exact fun x hx => isT_ptr (allTy_mem hf x hx)
  · simp [isT_ptr hf.1, isT_ptr hf.2]
  · exact isT_ptr hf.2.1
  · simpa [plainNode] using hp
  · rename_i c r t
    obtain ⟨_, _, _, _, h1, h2, h3⟩ := hf
    cases c <;> simp [V.hasTy, FTy.admits] at h1
    cases r <;> simp [V.hasTy, FTy.admits] at h2
    cases t <;> simp [V.hasTy, FTy.admits] at h3
    simp only [plainNode, Bool.and_eq_true] at hp
    exact hp.2

mutual
theorem glued_of : ∀ (v : V) (τ : FTy), v.hasTy noReq τ = true → v.plain = true → glued v = true
  | .nil, _, _, _ => rfl
  | .nat _, _, _, _ => rfl
  | .bool _, _, _, _ => rfl
  | .str _, _, _, _ => rfl
  | .list l, τ, h, hp => by
    cases τ <;> simp only [V.hasTy, Bool.false_eq_true] at h
    simp only [glued, V.plain] at hp ⊢
    exact gluedL_all l _ h hp
  | .mk t fs, τ, h, hp => by
    simp only [V.hasTy, Bool.and_eq_true] at h
    simp only [glued, V.plain, Bool.and_eq_true] at hp ⊢
    exact ⟨gNode_of h.2.1 hp.1, gluedL_of fs _ h.2.1 hp.2⟩
theorem gluedL_of : ∀ (vs : List V) (τs : List FTy), V.fieldsTy noReq vs τs = true → V.plainL vs = true → gluedL vs = true
  | [], _, _, _ => rfl
  | v :: vs, [], h, _ => by simp [V.fieldsTy] at h
  | v :: vs, τ :: τs, h, hp => by
    simp only [V.fieldsTy, Bool.and_eq_true] at h
    simp only [gluedL, V.plainL, Bool.and_eq_true] at hp ⊢
    exact ⟨glued_of v τ h.1 hp.1, gluedL_of vs τs h.2 hp.2⟩
theorem gluedL_all : ∀ (vs : List V) (e : FTy), V.allTy noReq vs e = true → V.plainL vs = true → gluedL vs = true
  | [], _, _, _ => rfl
  | v :: vs, e, h, hp => by
    simp only [V.allTy, Bool.and_eq_true] at h
    simp only [gluedL, V.plainL, Bool.and_eq_true] at hp ⊢
    exact ⟨glued_of v e h.1.2 hp.1, gluedL_all vs e h.2 hp.2⟩
end

/-! ### Neighbours -/

/-- Operators that may be followed at once by an element. -/
def leftOps : List Str := [b!"(", b!")", b!"[", b!"]", b!",", b!".", b!"::", b!"=", b!"/", b!"*", b!"?"]
/-- Operators that may follow at once. -/
def rightOps : List Str := [b!"(", b!")", b!"[", b!"]", b!",", b!".", b!"::", b!"=", b!"/", b!"*", b!"?", b!"+", b!"-", b!";"]

/-- The two elements may be printed without a blank between them. -/
def adj : E → E → Bool
  | .sp, _ => true
  | _, .sp => true
  | .op k, .op k' => leftOps.contains k && rightOps.contains k' && !(k == b!"=" && k' == b!"=") && !(k == b!"/" && k' == b!"*")
  | .op k, _ => leftOps.contains k
  | .num _, .op k => rightOps.contains k && k != b!"."
  | _, .op k => rightOps.contains k
  | _, _ => false

/-- First elements of expressions. -/
def hd : E → Bool
  | .op k => [b!"(", b!")", b!"[", b!"]", b!",", b!".", b!"::", b!"*", b!"?", b!"+", b!"-"].contains k
  | _ => true
/-- First elements of what may follow an expression. -/
def cl : E → Bool
  | .sp => true
  | .op k => [b!"(", b!")", b!"[", b!"]", b!",", b!"::"].contains k
  | _ => false
/-- Last elements of expressions. -/
def lt : E → Bool
  | .op k => leftOps.contains k
  | _ => true

/-- Elements that can be printed in this order. -/
structure Inv (h : E → Bool) (us : List E) : Prop where
  chain : us.IsChain (fun a b => adj a b = true)
  head : ∀ u, us.head? = some u → h u = true
  last : ∀ u, us.getLast? = some u → lt u = true

theorem lt_cl {u w : E} (hu : lt u = true) (hw : cl w = true) : adj u w = true := by
  cases w <;> simp [cl] at hw
  · cases u <;> rfl
  · rename_i k
    cases u <;> simp [lt, leftOps] at hu
    all_goals rcases hw with rfl | rfl | rfl | rfl | rfl | rfl
    all_goals first | rfl | (rcases hu with rfl | rfl | rfl | rfl | rfl | rfl | rfl | rfl | rfl | rfl | rfl <;> rfl)

theorem hd_of_cl {w : E} (hw : cl w = true) : hd w = true := by
  cases w <;> simp [cl] at hw
  · rfl
  · rcases hw with rfl | rfl | rfl | rfl | rfl | rfl <;> rfl

theorem adj_hd {k : Str} {w : E} (hk : leftOps.contains k = true) (hk' : k ≠ b!"/") (hw : hd w = true) : adj (.op k) w = true := by
  cases w
  case op k' =>
    simp only [adj, hk, Bool.true_and]
    simp [hd] at hw
    rcases hw with rfl | rfl | rfl | rfl | rfl | rfl | rfl | rfl | rfl | rfl | rfl <;> simp [rightOps, hk']
  all_goals first | rfl | exact hk

theorem Inv.nil {h : E → Bool} : Inv h [] := ⟨.nil, by simp, by simp⟩
theorem Inv.mono {h h' : E → Bool} {us : List E} (hi : Inv h us) (hh : ∀ w, h w = true → h' w = true) : Inv h' us :=
  ⟨hi.chain, fun u hu => hh u (hi.head u hu), hi.last⟩
theorem Inv.cons {h : E → Bool} {u : E} {us : List E} (hu : h u = true) (hl : us = [] → lt u = true) (hi : Inv (adj u) us) : Inv h (u :: us) := by
  refine ⟨?_, by simpa using hu, ?_⟩
  · rw [List.isChain_cons]
    exact ⟨fun w hw => hi.head w hw, hi.chain⟩
  · intro w hw
    cases us with
    | nil => simp at hw; subst hw; exact hl rfl
    | cons x us => rw [List.getLast?_cons_cons] at hw; exact hi.last w hw
theorem Inv.app {h h' : E → Bool} {us ws : List E} (hi : Inv h us) (hw : Inv h' ws) (hj : ∀ u w, us.getLast? = some u → ws.head? = some w → adj u w = true)
    (hh : us = [] → ∀ w, h' w = true → h w = true) : Inv h (us ++ ws) := by
  refine ⟨?_, ?_, ?_⟩
  · rw [List.isChain_append]
    exact ⟨hi.chain, hw.chain, fun u hu w hw => hj u w hu hw⟩
  · intro u hu
    cases us with
    | nil => exact hh rfl u (hw.head u hu)
    | cons x us => exact hi.head u hu
  · intro u hu
    rw [List.getLast?_append] at hu
    cases hl : ws.getLast? with
    | none => rw [hl] at hu; exact hi.last u (by simpa using hu)
    | some x => rw [hl] at hu; simp at hu; subst hu; exact hw.last _ hl
/-- An expression and what follows it. -/
theorem Inv.then {h h' : E → Bool} {us ws : List E} (hi : Inv h us) (hh : ∀ w, h w = true → h' w = true) (hc : ∀ w, cl w = true → h' w = true)
    (hw : Inv cl ws) : Inv h' (us ++ ws) :=
  (hi.mono hh).app hw (fun _ _ hu hw' => lt_cl (hi.last _ hu) (hw.head _ hw')) (fun _ => hc)

theorem adj_sp {w : E} : adj .sp w = true := by cases w <;> rfl
theorem adj_sp' {w : E} : adj w .sp = true := by cases w <;> rfl

/-- From one condition on the first element to another. -/
macro "mono" : tactic => `(tactic| first
  | exact fun _ h => h
  | exact fun _ h => hd_of_cl h
  | exact fun _ _ => adj_sp
  | exact fun _ h => lt_cl rfl h
  | (intro _ h; apply adj_hd; (focus rfl); (focus decide); exact h))
/-- A condition on an element. -/
macro "elem" : tactic => `(tactic| first | assumption | rfl | exact adj_sp | exact adj_sp' | (intro _; first | assumption | rfl) | (intro h; cases h; done))
/-- The elements can be printed in this order. -/
macro "inv" : tactic => `(tactic| (
  (try simp only [List.append_assoc, List.cons_append, List.nil_append]);
  repeat' first
    | assumption
    | exact Inv.nil
    | (apply Inv.cons; (focus elem); (focus elem))
    | (apply Inv.then; assumption; (focus mono); (focus mono))
    | (apply Inv.mono; assumption; focus mono)))

/-- What may stand before a part. -/
def preOk (pre : List E) : Prop := Inv cl pre ∧ pre.getLast? = some .sp

theorem echo_ne {v : V} {us : List E} (h : Echo .n v us) : v.nonNil = true := by
  generalize hk : K.n = k at h
  cases h <;> first | rfl | cases hk

theorem Inv.pre {pre us : List E} (hp : preOk pre) (hi : Inv hd us) : Inv cl (pre ++ us) := by
  refine hp.1.app hi (fun u w hu _ => ?_) fun h0 => ?_
  · rw [hp.2] at hu
    cases hu
    exact adj_sp
  · have := hp.2
    rw [h0] at this
    cases this

/-- What is to be shown. -/
def GK : K → V → List E → Prop
  | .n, _, us => Inv hd us
  | .l sep, _, us => sep = comma → Inv hd us
  | .o pre, v, us => (preOk pre → Inv cl us) ∧ (pre = [] → Inv hd us) ∧
      (v = .nil ∧ us = [] ∨ v.nonNil = true ∧ ∃ ws, us = pre ++ ws ∧ Inv hd ws ∧ Echo .n v ws)
  | .p pre, _, us => preOk pre → Inv cl us
  | .m, _, us => Inv hd us
  | .j, _, us => Inv cl us

theorem gluedL_append (vs ws : List V) : gluedL (vs ++ ws) = (gluedL vs && gluedL ws) := by
  induction vs with
  | nil => simp [gluedL]
  | cons v vs ih => simp [gluedL, ih, Bool.and_assoc]

/-! ### Parts of fixed types -/

theorem isT_mk {t u : Ty} {fs : List V} (h : isT t (.mk u fs) = true) : u = t := by simpa [isT] using h

/-- The elements of an identifier. -/
theorem ident_elem {v : V} {us : List E} (h : Echo .n v us) (ht : isT .Ident v = true) :
    ∃ u, us = [u] ∧ hd u = true ∧ lt u = true ∧ (∀ k ∈ [b!".", b!"="], adj u (.op k) = true) := by
  generalize hk : K.n = k at h
  cases h <;> first | cases hk; done | skip
  all_goals first | (have := isT_mk ht; cases this; done) | skip
  all_goals exact ⟨_, rfl, rfl, rfl, by intro k hk; simp only [List.mem_cons, List.not_mem_nil, or_false] at hk; rcases hk with rfl | rfl <;> rfl⟩
theorem number_elem {v : V} {us : List E} (h : Echo .n v us) (ht : isT .NumberLiteral v = true) :
    (∃ s, us = [.num s]) ∨ ∃ s, us = [.op b!".", .num s] := by
  generalize hk : K.n = k at h
  cases h <;> first | cases hk; done | skip
  all_goals first | (have := isT_mk ht; cases this; done) | skip
  · exact .inl ⟨_, rfl⟩
  · exact .inr ⟨_, rfl⟩
theorem params_elem {v : V} {us : List E} {t : Ty} (h : Echo .n v us) (ht : isT t v = true)
    (hm : t = .ParamExprList ∨ t = .ArrayParamList ∨ t = .TableArgListExpr) :
    ∃ k ws, us = .op k :: ws ∧ (k = b!"(" ∨ k = b!"[") := by
  generalize hk : K.n = k at h
  cases h <;> first | cases hk; done | skip
  all_goals have := isT_mk ht
  all_goals subst this
  all_goals simp at hm
  all_goals exact ⟨_, _, by simp only [List.append_assoc, List.cons_append, List.nil_append]; rfl, by simp⟩
theorem params_cl {v : V} {us : List E} {t : Ty} (h : Echo .n v us) (hi : Inv hd us) (ht : isT t v = true)
    (hm : t = .ParamExprList ∨ t = .ArrayParamList ∨ t = .TableArgListExpr) : Inv cl us := by
  obtain ⟨k, ws, rfl, hk⟩ := params_elem h ht hm
  refine ⟨hi.chain, ?_, hi.last⟩
  intro u hu
  simp at hu
  subst hu
  rcases hk with rfl | rfl <;> rfl

/-- After these elements a dot may be printed. -/
def Dot (us : List E) : Prop := ∀ u, us.getLast? = some u → adj u (.op b!".") = true

theorem Inv.dot {h h' : E → Bool} {us ws : List E} (hi : Inv h us) (hd' : Dot us) (hh : ∀ w, h w = true → h' w = true) (hd0 : us = [] → h' (.op b!".") = true)
    (hw : Inv (adj (.op b!".")) ws) : Inv h' (us ++ .op b!"." :: ws) := by
  refine Inv.app (h' := fun w => decide (w = .op b!".")) (hi.mono hh) (.cons (by simp) (fun _ => rfl) hw) ?_ ?_
  · intro u w hu hw
    simp at hw
    subst hw
    exact hd' u hu
  · intro h0 w hw
    simp only [decide_eq_true_eq] at hw
    rw [hw]
    exact hd0 h0

theorem path_elems : ∀ {vs : List V} {us : List E}, Echo (.l [.op b!"."]) (.list vs) us → vs.all (isT .Ident) = true → Inv hd us ∧ Dot us
  | _, _, .lnil, _ => ⟨.nil, by simp [Dot]⟩
  | _, _, .lone h, ht => by
    obtain ⟨u, rfl, h1, h2, h3⟩ := ident_elem h (by simpa using ht)
    exact ⟨.cons h1 (fun _ => h2) .nil, by intro u hu; simp at hu; subst hu; exact h3 _ (by simp)⟩
  | _, _, .lcons h h', ht => by
    rw [List.all_cons, Bool.and_eq_true] at ht
    obtain ⟨u, rfl, h1, h2, h3⟩ := ident_elem h ht.1
    obtain ⟨i1, i2⟩ := path_elems h' ht.2
    constructor
    · simp only [List.cons_append, List.nil_append]
      exact .cons h1 (fun h => by simp at h) (.cons (h3 _ (by simp)) (fun _ => rfl) (i1.mono (by mono)))
    · intro w hw
      rw [List.getLast?_append] at hw
      simp only [List.cons_append, List.nil_append, List.getLast?_cons_cons, List.getLast?_singleton] at hw
      cases hl : (List.getLast? _) with
      | none => rw [hl] at hw; simp at hw; subst hw; rfl
      | some x => rw [hl] at hw; simp at hw; subst hw; exact i2 _ hl

theorem Dot.op {us : List E} {k : Str} (hk : leftOps.contains k = true := by rfl) : Dot (us ++ [.op k]) := by
  intro u hu
  simp at hu
  subst hu
  simp only [leftOps, List.contains_iff_mem, List.mem_cons, List.not_mem_nil, or_false] at hk
  rcases hk with rfl | rfl | rfl | rfl | rfl | rfl | rfl | rfl | rfl | rfl | rfl <;> rfl
theorem Dot.app {us ws : List E} (hw : Dot ws) (hn : ws ≠ []) : Dot (us ++ ws) := by
  intro u hu
  rw [List.getLast?_append] at hu
  cases hl : ws.getLast? with
  | none => simp at hl; exact absurd hl hn
  | some x => rw [hl] at hu; simp at hu; subst hu; exact hw _ hl

theorem args_dot {v : V} {us : List E} {t : Ty} (h : Echo .n v us) (ht : isT t v = true)
    (hm : t = .ColumnArgList ∨ t = .ArrayParamList) : Dot us ∧ us ≠ [] := by
  generalize hk : K.n = k at h
  cases h <;> first | cases hk; done | skip
  all_goals have := isT_mk ht
  all_goals subst this
  all_goals simp at hm
  all_goals exact ⟨.op, by simp⟩

theorem params_dot {v : V} {us : List E} (h : Echo .n v us) (ht : isT .ParamExprList v = true) (hg : glued v = true) : Dot us ∧ us ≠ [] := by
  generalize hk : K.n = k at h
  cases h <;> first | cases hk; done | skip
  all_goals first | (have := isT_mk ht; cases this; done) | skip
  rename_i ho
  simp only [glued, gNode, Bool.and_eq_true] at hg
  cases ho with
  | onil => rw [List.append_nil]; exact ⟨.op, by simp⟩
  | osome he =>
    obtain ⟨h1, h2⟩ := args_dot he hg.1 (.inl rfl)
    exact ⟨.app (by simpa using h1) (by simpa using h2), by simp⟩

theorem ident_dot {v : V} {us : List E} (h : Echo .n v us) (ht : isT .Ident v = true) : Dot us ∧ us ≠ [] := by
  obtain ⟨u, rfl, _, _, h3⟩ := ident_elem h ht
  exact ⟨fun w hw => by simp at hw; subst hw; exact h3 _ (by simp), by simp⟩

/-- After such an expression a dot may be printed. -/
theorem object_dot {v : V} {us : List E} (h : Echo .n v us) (ho : dotObject v = true) (hg : glued v = true) : Dot us := by
  generalize hk : K.n = k at h
  cases h <;> first | cases hk; done | skip
  all_goals first | (simp [dotObject] at ho; done) | skip
  all_goals simp only [glued, gluedL, gNode, Bool.and_eq_true] at hg
  case word => exact (ident_dot (.word (p := .nil) (e := .nil)) rfl).1
  case wordStr => exact (ident_dot (.wordStr (p := .nil) (e := .nil)) rfl).1
  case star => exact (ident_dot (.star (p := .nil) (e := .nil)) rfl).1
  case str => intro u hu; simp at hu; subst hu; rfl
  case placeholder => exact .op (us := [])
  case path h => exact (path_elems h hg.1).2
  case nested h1 h2 =>
    cases h2 with
    | onil => rw [List.append_nil]; exact (ident_dot h1 hg.1.1).1
    | osome h2 =>
      obtain ⟨h3, h4⟩ := ident_dot h2 hg.1.2
      rw [← List.append_assoc]
      exact .app h3 h4
  case index b _ _ h1 h2 =>
    obtain ⟨h3, h4⟩ := ident_dot h2 (by
      unfold dotObject at ho
      split at ho
      · rename_i he; cases he; rfl
      · rename_i he; cases he; simp at ho
      · cases ho)
    exact .app h3 h4
  case params h1 h2 => exact (params_dot (.params (p := .nil) (q := .nil) h1 h2) rfl (by simp [glued, gluedL, gNode, hg])).1
  case func h1 h2 =>
    obtain ⟨h3, h4⟩ := params_dot h2 hg.1 hg.2.2.1
    exact .app h3 h4
  case object h1 h2 =>
    obtain ⟨h3, h4⟩ := args_dot h2 hg.1 (.inr rfl)
    exact .app h3 h4
  case array h => exact .op
  case caseEnd => exact .app (fun u hu => by simp at hu; subst hu; rfl) (by simp)
  case extract => exact .op

end Verif.Echo

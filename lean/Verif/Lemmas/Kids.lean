/-
The children a body of `Walk` or `Accept` visits, and a check of the whole table against the
declarations: every body visits each child once.
-/
import Verif.Lemmas.Typing

namespace Verif

/-! ### The list of visits -/

/-- Run `f` on every item and append the results. -/
def kidsLoop (f : V → Option (List (Static × V))) : List V → Option (List (Static × V))
  | [] => some []
  | v :: l => match f v, kidsLoop f l with
    | some a, some b => some (a ++ b)
    | _, _ => none

/-- The visits a body makes, in order, if none of them stops it. -/
def WCmd.kids : WCmd → List V → Option (List (Static × V))
  | .skip, _ => some []
  | .seq a b, env => match a.kids env, b.kids env with
    | some x, some y => some (x ++ y)
    | _, _ => none
  | .visit r st, env => match r.get env with
    | some v => some [(st, v)]
    | none => none
  | .guard r body, env => match r.get env with
    | some v => if v.nonNil then body.kids env else some []
    | none => none
  | .loop r body, env => match r.get env with
    | some v => kidsLoop (fun item => body.kids (env ++ [item])) v.items
    | none => none

/-- The visits one after the other, until one of them stops. -/
def visitAll {σ : Type} (call : Static → V → σ → WRes σ) : List (Static × V) → σ → WRes σ
  | [], s => .go s
  | (st, v) :: l, s => match call st v s with
    | .go s' => visitAll call l s'
    | r => r

theorem visitAll_append {σ : Type} (call : Static → V → σ → WRes σ) : ∀ (a b : List (Static × V)) (s : σ),
    visitAll call (a ++ b) s = match visitAll call a s with
      | .go s' => visitAll call b s'
      | r => r
  | [], b, s => rfl
  | (st, v) :: a, b, s => by
      simp only [List.cons_append, visitAll]
      cases call st v s with
      | go s' => exact visitAll_append call a b s'
      | stop s' => rfl
      | panic => rfl

theorem loopRun_kids {σ : Type} (call : Static → V → σ → WRes σ) (body : V → σ → WRes σ)
    (f : V → Option (List (Static × V)))
    (h : ∀ v ks, f v = some ks → ∀ s, body v s = visitAll call ks s) :
    ∀ (l : List V) {ks}, kidsLoop f l = some ks → ∀ s, loopRun body l s = visitAll call ks s
  | [], ks, hk, s => by simp [kidsLoop] at hk; subst hk; rfl
  | v :: l, ks, hk, s => by
      simp only [kidsLoop] at hk
      split at hk
      · rename_i a b ha hb
        simp at hk; subst hk
        rw [loopRun, h v a ha, visitAll_append]
        cases visitAll call a s with
        | go s' => exact loopRun_kids call body f h l hb s'
        | stop s' => rfl
        | panic => rfl
      · simp at hk

theorem run_kids {σ : Type} (call : Static → V → σ → WRes σ) : ∀ (c : WCmd) (env : List V) {ks},
    c.kids env = some ks → ∀ s, c.run call env s = visitAll call ks s
  | .skip, env, ks, h, s => by simp [WCmd.kids] at h; subst h; rfl
  | .seq a b, env, ks, h, s => by
      simp only [WCmd.kids] at h
      split at h
      · rename_i x y hx hy
        simp at h; subst h
        rw [WCmd.run, run_kids call a env hx, visitAll_append]
        cases visitAll call x s with
        | go s' => exact run_kids call b env hy s'
        | stop s' => rfl
        | panic => rfl
      · simp at h
  | .visit r st, env, ks, h, s => by
      simp only [WCmd.kids] at h
      split at h
      · rename_i v hv
        simp at h; subst h
        simp only [WCmd.run, hv, visitAll]
        cases call st v s <;> rfl
      · simp at h
  | .guard r body, env, ks, h, s => by
      simp only [WCmd.kids] at h
      split at h
      · rename_i v hv
        simp only [WCmd.run, hv]
        split at h
        · rename_i hn; rw [if_pos hn]; exact run_kids call body env h s
        · rename_i hn; rw [if_neg hn]; simp at h; subst h; rfl
      · simp at h
  | .loop r body, env, ks, h, s => by
      simp only [WCmd.kids] at h
      split at h
      · rename_i v hv
        simp only [WCmd.run, hv]
        exact loopRun_kids call _ _ (fun item ks hk s => run_kids call body (env ++ [item]) hk s) _ h s
      · simp at h

/-! ### Paths with stars -/

/-- `V.tops` for the nodes `Walk` visits. -/
abbrev V.topN : V → List V := V.tops Ty.isNodeNoPair
/-- `V.topsL` for the nodes `Walk` visits. -/
abbrev V.topNL : List V → List V := V.topsL Ty.isNodeNoPair


/-- A step of a path: a field, or any element of a slice. -/
inductive Step where
  | f (i : Nat) | star
deriving DecidableEq, Repr

/-- All values a path leads to. -/
def evalP : List Step → V → List V
  | [], v => [v]
  | .f i :: p, v => match v.field i with
    | some w => evalP p w
    | none => []
  | .star :: p, v => v.items.flatMap (evalP p)

/-- The paths to the topmost nodes of a value of type `τ`. -/
def leafPaths : Nat → FTy → Option (List (List Step))
  | 0, _ => none
  | n + 1, τ =>
    match τ with
    | .pos | .int | .bool | .str => some []
    | .iface _ => some [[]]
    | .slice e => (leafPaths n e).map (List.map (Step.star :: ·))
    | .ptr t | .val t => if t.isNodeNoPair then some [[]] else fieldPaths (leafPaths n) 0 (schema t)
where
  /-- The paths through the fields of a struct, numbered from `i`. -/
  fieldPaths (rec : FTy → Option (List (List Step))) : Nat → List FTy → Option (List (List Step))
  | _, [] => some []
  | i, τ :: τs => match rec τ, fieldPaths rec (i + 1) τs with
    | some a, some b => some (a.map (Step.f i :: ·) ++ b)
    | _, _ => none

/-- The topmost nodes below the ends of a list of paths. -/
def pathTops (ps : List (List Step)) (v : V) : List V := ps.flatMap (fun p => (evalP p v).flatMap V.topN)

theorem topsL_eq : ∀ l : List V, V.topsL Ty.isNodeNoPair l = l.flatMap V.topN
  | [] => rfl
  | v :: l => by simp [V.topsL, topsL_eq l]

theorem flatMap_perm_of_forall {α β : Type} {l : List α} {f g : α → List β} (h : ∀ a ∈ l, (f a).Perm (g a)) :
    (l.flatMap f).Perm (l.flatMap g) := by
  induction l with
  | nil => simp
  | cons a l ih =>
    simp only [List.flatMap_cons]
    exact (h a (by simp)).append (ih fun b hb => h b (by simp [hb]))

theorem flatMap_append_perm {α β : Type} (l : List α) (f g : α → List β) :
    (l.flatMap fun a => f a ++ g a).Perm (l.flatMap f ++ l.flatMap g) := by
  induction l with
  | nil => simp
  | cons a l ih =>
    simp only [List.flatMap_cons]
    calc (f a ++ g a ++ l.flatMap fun a => f a ++ g a).Perm (f a ++ g a ++ (l.flatMap f ++ l.flatMap g)) :=
          List.Perm.append_left _ ih
      _ = f a ++ (g a ++ l.flatMap f ++ l.flatMap g) := by simp
      _ |>.Perm (f a ++ (l.flatMap f ++ g a ++ l.flatMap g)) :=
          List.Perm.append_left _ (List.Perm.append_right _ List.perm_append_comm)
      _ = f a ++ l.flatMap f ++ (g a ++ l.flatMap g) := by simp

theorem flatMap_comm_perm {α β γ : Type} (l : List α) (m : List β) (f : α → β → List γ) :
    (l.flatMap fun a => m.flatMap (f a)).Perm (m.flatMap fun b => l.flatMap fun a => f a b) := by
  induction m with
  | nil => simp
  | cons b m ih =>
    simp only [List.flatMap_cons]
    exact (flatMap_append_perm l _ _).trans (List.Perm.append_left _ ih)

theorem pathTops_star (ps : List (List Step)) (v : V) :
    (pathTops (ps.map (Step.star :: ·)) v).Perm (v.items.flatMap (pathTops ps)) := by
  have : pathTops (ps.map (Step.star :: ·)) v
      = ps.flatMap fun p => v.items.flatMap fun w => (evalP p w).flatMap V.topN := by
    simp [pathTops, List.flatMap_map, evalP, List.flatMap_assoc]
  rw [this]
  exact flatMap_comm_perm _ _ _

theorem pathTops_f {v w : V} {i : Nat} (h : v.field i = some w) (ps : List (List Step)) :
    pathTops (ps.map (Step.f i :: ·)) v = pathTops ps w := by
  simp [pathTops, List.flatMap_map, evalP, h]

theorem pathTops_f_none {v : V} {i : Nat} (h : v.field i = none) (ps : List (List Step)) :
    pathTops (ps.map (Step.f i :: ·)) v = [] := by
  simp [pathTops, List.flatMap_map, evalP, h]

theorem pathTops_append (a b : List (List Step)) (v : V) : pathTops (a ++ b) v = pathTops a v ++ pathTops b v := by
  simp [pathTops]

variable {req : Ty → List Need}

theorem fieldPaths_nil (rec : FTy → Option (List (List Step))) : ∀ (τs : List FTy) (i : Nat) {ps},
    leafPaths.fieldPaths rec i τs = some ps → pathTops ps .nil = []
  | [], i, ps, h => by simp [leafPaths.fieldPaths] at h; subst h; rfl
  | τ :: τs, i, ps, h => by
      simp only [leafPaths.fieldPaths] at h
      split at h
      · rename_i a b ha hb
        simp at h; subst h
        rw [pathTops_append, pathTops_f_none rfl, fieldPaths_nil rec τs _ hb]; rfl
      · simp at h

theorem fieldPaths_tops (rec : FTy → Option (List (List Step))) (t : Ty)
    (hrec : ∀ {τ ps} {v : V}, rec τ = some ps → v.hasTy req τ = true → v.topN.Perm (pathTops ps v)) :
    ∀ (τs : List FTy) (i : Nat) (fs gs : List V) {ps}, gs.length = i →
    V.fieldsTy req fs τs = true → leafPaths.fieldPaths rec i τs = some ps →
    (V.topNL fs).Perm (pathTops ps (.mk t (gs ++ fs)))
  | [], i, fs, gs, ps, hg, hf, h => by
      simp [leafPaths.fieldPaths] at h; subst h
      cases fs with
      | nil => simp [V.topsL, pathTops]
      | cons a l => simp [V.fieldsTy] at hf
  | τ :: τs, i, fs, gs, ps, hg, hf, h => by
      cases fs with
      | nil => simp [V.fieldsTy] at hf
      | cons v fs =>
        simp only [V.fieldsTy, Bool.and_eq_true] at hf
        simp only [leafPaths.fieldPaths] at h
        split at h
        · rename_i a b ha hb
          simp at h; subst h
          rw [pathTops_append, pathTops_f (w := v) (by simp [V.field, ← hg]), V.topNL]
          refine (hrec ha hf.1).append ?_
          have := fieldPaths_tops rec t hrec τs (i + 1) fs (gs ++ [v]) (by simp [hg]) hf.2 hb
          simpa using this
        · simp at h

theorem tops_node {t : Ty} {fs : List V} (h : t.isNodeNoPair = true) : V.topN (.mk t fs) = [.mk t fs] := by
  simp [V.tops, h]

theorem leafPaths_tops : ∀ (n : Nat) {τ : FTy} {ps} {v : V}, leafPaths n τ = some ps →
    v.hasTy req τ = true → v.topN.Perm (pathTops ps v)
  | 0, τ, ps, v, h, _ => by simp [leafPaths] at h
  | n + 1, τ, ps, v, h, hv => by
      have struct : ∀ t, (τ = .ptr t ∨ τ = .val t) →
          (if t.isNodeNoPair then some [[]] else leafPaths.fieldPaths (leafPaths n) 0 (schema t)) = some ps →
          v.topN.Perm (pathTops ps v) := by
        intro t hτ h
        split at h
        · simp at h; subst h; simp [pathTops, evalP]
        · by_cases hn : v.nonNil = true
          · obtain ⟨fs, rfl, hf⟩ : ∃ fs, v = .mk t fs ∧ V.structTy req t fs = true := by
              rcases hτ with rfl | rfl
              · exact hasTy_ptr hv hn
              · exact hasTy_val hv
            rename_i hnode
            simp only [V.tops, hnode]
            exact fieldPaths_tops (leafPaths n) t (leafPaths_tops n) (schema t) 0 fs [] rfl (structTy_fields hf) h
          · have : v = .nil := by cases v <;> simp_all [V.nonNil]
            subst this
            rw [fieldPaths_nil _ _ _ h]; simp [V.tops]
      cases τ with
      | ptr t => exact struct t (Or.inl rfl) (by simpa [leafPaths] using h)
      | val t => exact struct t (Or.inr rfl) (by simpa [leafPaths] using h)
      | iface i => simp [leafPaths] at h; subst h; simp [pathTops, evalP]
      | slice e =>
        simp only [leafPaths, Option.map_eq_some_iff] at h
        obtain ⟨ps', hp, rfl⟩ := h
        refine List.Perm.trans ?_ (pathTops_star ps' v).symm
        cases v with
        | list l =>
          rw [show V.topN (.list l) = V.topsL Ty.isNodeNoPair l from rfl, topsL_eq]
          exact flatMap_perm_of_forall fun w hw => leafPaths_tops n hp (hasTy_slice hv w hw).2
        | nil => simp [V.tops, V.items]
        | mk t fs => simp [V.hasTy, FTy.admits] at hv
        | _ => simp [V.hasTy] at hv
      | _ =>
        simp [leafPaths] at h; subst h
        cases v <;> first | (simp [V.hasTy, FTy.admits] at hv; done) | simp [V.tops, pathTops]

/-! ### The static check of a body -/

/-- Field selections as steps. -/
def selSteps : List Sel → Option (List Step)
  | [] => some []
  | .f i :: ss => (selSteps ss).map (Step.f i :: ·)
  | _ => none

/-- A value of type `τ` can be visited as a node of static type `st`. -/
def visitFits (τ : FTy) (st : Static) : Bool :=
  match τ, st with
  | .ptr t, .ptr t' => decide (t = t') && t.isNodeNoPair
  | .val t, .ptr t' => decide (t = t') && t.isNodeNoPair
  | .iface _, .iface => true
  | _, _ => false

/-- Type check of a body; the result is the list of paths (variable, steps) to its visits.
With `strict`, every visit is of a value known to be non-nil. -/
def WCmd.check (req : Ty → List Need) (strict : Bool) : WCmd → List FTy → Facts → Option (List (Nat × List Step))
  | .skip, _, _ => some []
  | .seq a b, te, nn => match a.check req strict te nn, b.check req strict te nn with
    | some x, some y => some (x ++ y)
    | _, _ => none
  | .visit r st, te, nn => match typeOf req te nn r, selSteps r.sels with
    | some (τ, k), some p =>
      if visitFits τ st && (!strict || k) then some [(r.var, p)] else none
    | _, _ => none
  | .guard r body, te, nn => match typeOf req te nn r, selSteps r.sels with
    | some _, some p => match body.check req strict te (nn.addNN r) with
      | some ps => if ps.all (fun q => decide (q.1 = r.var) && p.isPrefixOf q.2) then some ps else none
      | none => none
    | _, _ => none
  | .loop r body, te, nn => match typeOf req te nn r, selSteps r.sels with
    | some (.slice e, _), some p => match body.check req strict (te ++ [e]) nn with
      | some ps => if ps.all (fun q => decide (q.1 = te.length)) && nn.below te.length
          then some (ps.map fun q => (r.var, p ++ Step.star :: q.2)) else none
      | none => none
    | _, _ => none

/-- The topmost nodes below the ends of paths from the variables of an environment. -/
def envTops (env : List V) (ps : List (Nat × List Step)) : List V :=
  ps.flatMap fun q => match env[q.1]? with
    | some v => (evalP q.2 v).flatMap V.topN
    | none => []

theorem envTops_append (env : List V) (a b : List (Nat × List Step)) :
    envTops env (a ++ b) = envTops env a ++ envTops env b := by
  simp [envTops]

theorem evalP_append : ∀ (p q : List Step) (v : V), evalP (p ++ q) v = (evalP p v).flatMap (evalP q)
  | [], q, v => by simp [evalP]
  | .f i :: p, q, v => by
      simp only [List.cons_append, evalP]
      cases v.field i with
      | none => simp
      | some w => exact evalP_append p q w
  | .star :: p, q, v => by
      simp only [List.cons_append, evalP, List.flatMap_assoc]
      congr 1
      funext w
      exact evalP_append p q w

theorem evalP_sels : ∀ {ss : List Sel} {p : List Step} {v w : V}, selSteps ss = some p → getSels ss v = some w →
    evalP p v = [w]
  | [], p, v, w, h, hw => by simp [selSteps] at h; subst h; simp [getSels] at hw; subst hw; rfl
  | .f i :: ss, p, v, w, h, hw => by
      simp only [selSteps, Option.map_eq_some_iff] at h
      obtain ⟨p', hp, rfl⟩ := h
      simp only [getSels, Sel.get, Option.bind_eq_some_iff] at hw
      obtain ⟨u, hu, hw⟩ := hw
      simp only [evalP, hu]
      exact evalP_sels hp hw
  | .last :: ss, p, v, w, h, hw => by simp [selSteps] at h
  | .first :: ss, p, v, w, h, hw => by simp [selSteps] at h

/-- What is known about a visit of a checked body. -/
def VisitOK (req : Ty → List Need) (strict : Bool) (k : Static × V) : Prop :=
  k.2.hasTy req (.iface .Expr) = true ∧ (strict = true → k.2.nonNil = true) ∧
    ∀ t fs, k.2 = .mk t fs → k.1.dispatch k.2 = some t

theorem tops_nil_of_prefix {p q : List Step} {v : V} (h : evalP p v = [V.nil]) (hp : p.isPrefixOf q = true) :
    (evalP q v).flatMap V.topN = [] := by
  obtain ⟨r, rfl⟩ := List.isPrefixOf_iff_prefix.1 hp
  rw [evalP_append, h]
  cases r with
  | nil => simp [evalP, V.tops]
  | cons s r => cases s <;> simp [evalP, V.field, V.items]

theorem hasTy_node {t : Ty} {fs : List V} (h : t.isNodeNoPair = true)
    (hf : V.structTy req t fs = true) : V.hasTy req (.mk t fs) (.iface .Expr) = true := by
  rw [Ty.isNodeNoPair, Bool.and_eq_true, decide_eq_true_eq] at h
  exact hasTy_of_structTy (by simp [FTy.admits, Ty.implements, h.1, h.2]) hf

theorem check_sound {strict : Bool} : ∀ (c : WCmd) {te nn env ps}, EnvOK req te nn env →
    c.check req strict te nn = some ps →
    ∃ ks, c.kids env = some ks ∧ (ks.flatMap (fun k => k.2.topN)).Perm (envTops env ps) ∧
      ∀ k ∈ ks, VisitOK req strict k
  | .skip, te, nn, env, ps, he, h => by
      simp [WCmd.check] at h; subst h
      exact ⟨[], rfl, by simp [envTops], by simp⟩
  | .seq a b, te, nn, env, ps, he, h => by
      simp only [WCmd.check] at h
      split at h
      · rename_i x y hx hy
        simp at h; subst h
        obtain ⟨k1, a1, a2, a3⟩ := check_sound a he hx
        obtain ⟨k2, b1, b2, b3⟩ := check_sound b he hy
        refine ⟨k1 ++ k2, by simp [WCmd.kids, a1, b1], ?_, ?_⟩
        · rw [List.flatMap_append, envTops_append]; exact a2.append b2
        · intro k hk
          rcases List.mem_append.1 hk with hk | hk
          · exact a3 k hk
          · exact b3 k hk
      · simp at h
  | .visit r st, te, nn, env, ps, he, h => by
      simp only [WCmd.check] at h
      split at h
      · rename_i τ k p ht hp
        split at h
        · rename_i hc
          simp at h; subst h
          obtain ⟨w, hw1, hw2, hw3⟩ := typeOf_sound he ht
          rw [Bool.and_eq_true] at hc; unfold visitFits at hc
          refine ⟨[(st, w)], by simp [WCmd.kids, hw1], ?_, ?_⟩
          · simp only [envTops, List.flatMap_cons, List.flatMap_nil, List.append_nil]
            simp only [Ref.get, Option.bind_eq_some_iff] at hw1
            obtain ⟨v, hv, hw1⟩ := hw1
            simp [hv, evalP_sels hp hw1]
          · intro k' hk'
            simp at hk'; subst hk'
            refine ⟨?_, ?_, ?_⟩
            · by_cases hn : w.nonNil = true
              · split at hc
                · obtain ⟨fs, rfl, hf⟩ := hasTy_ptr hw2 hn
                  rw [Bool.and_eq_true] at hc
                  exact hasTy_node hc.1.2 hf
                · obtain ⟨fs, rfl, hf⟩ := hasTy_val hw2
                  rw [Bool.and_eq_true] at hc
                  exact hasTy_node hc.1.2 hf
                · obtain ⟨t, fs, rfl, hi, hf⟩ := hasTy_iface hw2 hn
                  exact hasTy_node (admits_isNodeNoPair hi) hf
                · simp at hc
              · have : w = .nil := by cases w <;> simp_all [V.nonNil]
                subst this; simp [V.hasTy]
            · intro hs
              have := hc.2
              simp [hs] at this
              exact filled_nonNil (hw3 this)
            · intro t fs hfs
              simp only at hfs; subst hfs
              split at hc
              · simp only [Bool.and_eq_true, decide_eq_true_eq] at hc
                have := (hasTy_mk hw2).1
                simp only [FTy.admits, decide_eq_true_eq] at this
                simp [Static.dispatch, ← hc.1.1, this]
              · simp only [Bool.and_eq_true, decide_eq_true_eq] at hc
                have := (hasTy_mk hw2).1
                simp only [FTy.admits, decide_eq_true_eq] at this
                simp [Static.dispatch, ← hc.1.1, this]
              · simp [Static.dispatch, V.ty?]
              · simp at hc
        · simp at h
      · simp at h
  | .guard r body, te, nn, env, ps, he, h => by
      simp only [WCmd.check] at h
      split at h
      · rename_i a p ht hp
        split at h
        · rename_i ps' hb
          split at h
          · rename_i hpre
            simp at h; subst h
            obtain ⟨τ, k⟩ := a
            obtain ⟨w, hw1, hw2, hw3⟩ := typeOf_sound he ht
            by_cases hn : w.nonNil = true
            · obtain ⟨ks, b1, b2, b3⟩ := check_sound body (he.guard hw1 hn) hb
              exact ⟨ks, by simp [WCmd.kids, hw1, hn, b1], b2, b3⟩
            · refine ⟨[], by simp [WCmd.kids, hw1, hn], ?_, by simp⟩
              have : w = .nil := by cases w <;> simp_all [V.nonNil]
              subst this
              have : envTops env ps' = [] := by
                rw [envTops, List.flatMap_eq_nil_iff]
                intro q hq
                have := List.all_eq_true.1 hpre q hq
                simp only [Bool.and_eq_true, decide_eq_true_eq] at this
                simp only [Ref.get, Option.bind_eq_some_iff] at hw1
                obtain ⟨v, hv, hw1⟩ := hw1
                rw [this.1, hv]
                exact tops_nil_of_prefix (evalP_sels hp hw1) this.2
              simp [this]
          · simp at h
        · simp at h
      · simp at h
  | .loop r body, te, nn, env, ps, he, h => by
      simp only [WCmd.check] at h
      split at h
      · rename_i e k p ht hp
        split at h
        · rename_i ps' hb
          split at h
          · rename_i hvar
            rw [Bool.and_eq_true] at hvar
            obtain ⟨hvar, hbelow⟩ := hvar
            simp at h; subst h
            obtain ⟨w, hw1, hw2, -⟩ := typeOf_sound he ht
            have hel := hasTy_slice hw2
            have loop : ∀ l : List V, (∀ x ∈ l, x.nonNil = true ∧ x.hasTy req e = true) →
                ∃ ks, kidsLoop (fun item => body.kids (env ++ [item])) l = some ks ∧
                  (ks.flatMap (fun k => k.2.topN)).Perm (l.flatMap fun x => envTops (env ++ [x]) ps') ∧
                  ∀ k ∈ ks, VisitOK req strict k := by
              intro l
              induction l with
              | nil => intro _; exact ⟨[], rfl, by simp, by simp⟩
              | cons x l ih =>
                intro hl
                obtain ⟨k1, a1, a2, a3⟩ := check_sound body (he.push hbelow (hl x (by simp)).2 (hl x (by simp)).1) hb
                obtain ⟨k2, b1, b2, b3⟩ := ih (fun y hy => hl y (by simp [hy]))
                refine ⟨k1 ++ k2, by simp [kidsLoop, a1, b1], ?_, ?_⟩
                · rw [List.flatMap_append, List.flatMap_cons]; exact a2.append b2
                · intro k hk
                  rcases List.mem_append.1 hk with hk | hk
                  · exact a3 k hk
                  · exact b3 k hk
            obtain ⟨ks, c1, c2, c3⟩ := loop w.items hel
            refine ⟨ks, by simp [WCmd.kids, hw1, c1], c2.trans ?_, c3⟩
            simp only [Ref.get, Option.bind_eq_some_iff] at hw1
            obtain ⟨v, hv, hw1⟩ := hw1
            have e1 : envTops env (ps'.map fun q => (r.var, p ++ Step.star :: q.2))
                = ps'.flatMap fun q => w.items.flatMap fun x => (evalP q.2 x).flatMap V.topN := by
              simp only [envTops, List.flatMap_map]
              congr 1
              funext q
              simp only [hv, evalP_append, evalP_sels hp hw1]
              simp [evalP, List.flatMap_assoc]
            rw [e1]
            refine List.Perm.trans ?_ (flatMap_comm_perm _ _ _)
            refine flatMap_perm_of_forall fun x _ => ?_
            refine flatMap_perm_of_forall fun q hq => ?_
            have := List.all_eq_true.1 hvar q hq
            simp only [decide_eq_true_eq] at this
            rw [this, ← he.len]
            simp
          · simp at h
        · simp at h
      · simp at h

end Verif

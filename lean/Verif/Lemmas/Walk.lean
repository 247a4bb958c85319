/-
`Walk` goes through one list of nodes, the same for every callback, and stops at the first `false`.
-/
import Verif.Lemmas.WalkTable

namespace Verif

/-! ### Depth of nodes -/

mutual
theorem depth_tops {isN : Ty → Bool} : ∀ {v w : V}, w ∈ v.tops isN → w.depth ≤ v.depth
  | .mk t fs, w, h => by
      simp only [V.tops] at h
      split at h
      · simp at h; subst h; exact Nat.le_refl _
      · have := depth_topsL h; simp [V.depth]; omega
  | .list l, w, h => by
      simp only [V.tops] at h
      have := depth_topsL h; simp [V.depth]; omega
  | .nil, w, h => by simp [V.tops] at h
  | .nat _, w, h => by simp [V.tops] at h
  | .bool _, w, h => by simp [V.tops] at h
  | .str _, w, h => by simp [V.tops] at h
theorem depth_topsL {isN : Ty → Bool} : ∀ {l : List V} {w : V}, w ∈ V.topsL isN l → w.depth ≤ V.depthL l
  | [], w, h => by simp [V.topsL] at h
  | v :: l, w, h => by
      simp only [V.topsL, List.mem_append] at h
      simp only [V.depthL]
      rcases h with h | h
      · have := depth_tops h; omega
      · have := depth_topsL h; omega
end

theorem depth_children {isN : Ty → Bool} {v w : V} (h : w ∈ v.children isN) : w.depth < v.depth := by
  cases v with
  | mk t fs => have := depth_topsL (show w ∈ V.topsL isN fs from h); simp [V.depth]; omega
  | _ => simp [V.children] at h

/-! ### All nodes, by children -/

mutual
theorem nodes_tops (isN : Ty → Bool) : ∀ v : V, v.nodes isN = (v.tops isN).flatMap (V.nodes isN)
  | .mk t fs => by
      by_cases h : isN t = true
      · simp [V.tops, h]
      · simp [V.nodes, V.tops, h, nodesL_topsL isN fs]
  | .list l => by simp [V.nodes, V.tops, nodesL_topsL isN l]
  | .nil => rfl
  | .nat _ => rfl
  | .bool _ => rfl
  | .str _ => rfl
theorem nodesL_topsL (isN : Ty → Bool) : ∀ l : List V, V.nodesL isN l = (V.topsL isN l).flatMap (V.nodes isN)
  | [] => rfl
  | v :: l => by simp [V.nodesL, V.topsL, nodes_tops isN v, nodesL_topsL isN l]
end

theorem nodes_children {isN : Ty → Bool} {t : Ty} {fs : List V} (h : isN t = true) :
    V.nodes isN (.mk t fs) = .mk t fs :: (V.children isN (.mk t fs)).flatMap (V.nodes isN) := by
  simp [V.nodes, h, V.children, nodesL_topsL]

mutual
theorem tops_isN {isN : Ty → Bool} : ∀ {v w : V}, w ∈ v.tops isN → ∃ t fs, w = .mk t fs ∧ isN t = true
  | .mk t fs, w, h => by
      simp only [V.tops] at h
      split at h
      · rename_i ht; simp at h; subst h; exact ⟨t, fs, rfl, ht⟩
      · exact topsL_isN h
  | .list l, w, h => topsL_isN (by simpa [V.tops] using h)
  | .nil, w, h => by simp [V.tops] at h
  | .nat _, w, h => by simp [V.tops] at h
  | .bool _, w, h => by simp [V.tops] at h
  | .str _, w, h => by simp [V.tops] at h
theorem topsL_isN {isN : Ty → Bool} : ∀ {l : List V} {w : V}, w ∈ V.topsL isN l → ∃ t fs, w = .mk t fs ∧ isN t = true
  | [], w, h => by simp [V.topsL] at h
  | v :: l, w, h => by
      simp only [V.topsL, List.mem_append] at h
      rcases h with h | h
      · exact tops_isN h
      · exact topsL_isN h
end

theorem children_isN {isN : Ty → Bool} {v w : V} (h : w ∈ v.children isN) : ∃ t fs, w = .mk t fs ∧ isN t = true := by
  cases v with
  | mk t fs => exact topsL_isN (show w ∈ V.topsL isN fs from h)
  | _ => simp [V.children] at h

mutual
/-- A parents-first list of a tree holds every node once. -/
theorem PreOrder.perm {isN : Ty → Bool} : ∀ {v : V} {l : List V}, PreOrder isN v l →
    (∃ t fs, v = .mk t fs ∧ isN t = true) → l.Perm (v.nodes isN)
  | _, _, .node (v := v) (kids := kids) hk hl, ⟨t, fs, hv, ht⟩ => by
      subst hv
      rw [nodes_children ht]
      refine List.Perm.cons _ ((PreOrders.perm hl ?_).trans (List.Perm.flatMap_right _ hk))
      intro k hk'
      exact children_isN (hk.mem_iff.1 hk')
theorem PreOrders.perm {isN : Ty → Bool} : ∀ {ks l : List V}, PreOrders isN ks l →
    (∀ k ∈ ks, ∃ t fs, k = .mk t fs ∧ isN t = true) → l.Perm (ks.flatMap (V.nodes isN))
  | _, _, .nil, _ => by simp
  | _, _, .cons h1 h2, h => by
      rw [List.flatMap_cons]
      exact (PreOrder.perm h1 (h _ (by simp))).append (PreOrders.perm h2 fun k hk => h k (by simp [hk]))
end

mutual
/-- A parents-last list of a tree holds every node once. -/
theorem PostOrder.perm {isN : Ty → Bool} : ∀ {v : V} {l : List V}, PostOrder isN v l →
    (∃ t fs, v = .mk t fs ∧ isN t = true) → l.Perm (v.nodes isN)
  | _, _, .node (v := v) (kids := kids) (l := l) hk hl, ⟨t, fs, hv, ht⟩ => by
      subst hv
      rw [nodes_children ht]
      refine List.Perm.trans List.perm_append_comm ?_
      refine List.Perm.cons _ ((PostOrders.perm hl ?_).trans (List.Perm.flatMap_right _ hk))
      intro k hk'
      exact children_isN (hk.mem_iff.1 hk')
theorem PostOrders.perm {isN : Ty → Bool} : ∀ {ks l : List V}, PostOrders isN ks l →
    (∀ k ∈ ks, ∃ t fs, k = .mk t fs ∧ isN t = true) → l.Perm (ks.flatMap (V.nodes isN))
  | _, _, .nil, _ => by simp
  | _, _, .cons h1 h2, h => by
      rw [List.flatMap_cons]
      exact (PostOrder.perm h1 (h _ (by simp))).append (PostOrders.perm h2 fun k hk => h k (by simp [hk]))
end

/-! ### The visits of a node of a tree -/

variable {req : Ty → List Need}

theorem isTree_cases {v : V} (h : v.isTree req) :
    ∃ t fs, v = .mk t fs ∧ t.isNodeNoPair = true ∧ V.structTy req t fs = true := by
  obtain ⟨hn, ht⟩ := h
  obtain ⟨t, fs, rfl, hi, hf⟩ := hasTy_iface ht hn
  exact ⟨t, fs, rfl, admits_isNodeNoPair hi, hf⟩

theorem hasTy_expr_cases {v : V} (h : v.hasTy req (.iface .Expr) = true) : v = .nil ∨ v.isTree req := by
  by_cases hn : v.nonNil = true
  · exact Or.inr ⟨hn, h⟩
  · left; cases v <;> simp_all [V.nonNil]

/-- The values visited, without the nil ones, are the children. -/
theorem kids_perm {strict : Bool} {ks : List (Static × V)} (h : ∀ k ∈ ks, VisitOK req strict k) :
    ks.flatMap (fun k => k.2.topN) = (ks.map Prod.snd).filter V.nonNil := by
  induction ks with
  | nil => rfl
  | cons k ks ih =>
    rw [List.flatMap_cons, ih fun x hx => h x (by simp [hx])]
    rcases hasTy_expr_cases (h k (by simp)).1 with h1 | h1
    · simp [h1, V.tops, V.nonNil]
    · obtain ⟨t, fs, hv, hN, -⟩ := isTree_cases h1
      rw [List.map_cons, List.filter_cons_of_pos (by rw [hv]; rfl), hv]
      simp [V.tops, hN]

theorem visits_depth {strict : Bool} {ks : List (Static × V)} (h : ∀ k ∈ ks, VisitOK req strict k) {v : V}
    (hp : (ks.flatMap (fun k => k.2.topN)).Perm (v.children Ty.isNodeNoPair)) :
    ∀ k ∈ ks, k.2.nonNil = true → k.2.depth < v.depth := by
  intro k hk hn
  refine depth_children (isN := Ty.isNodeNoPair) (hp.mem_iff.1 ?_)
  rw [kids_perm h]
  exact List.mem_filter.2 ⟨List.mem_map.2 ⟨k, hk, rfl⟩, hn⟩

theorem isNode_of_noPair {t : Ty} (h : t.isNodeNoPair = true) : t.isNode = true := by
  rw [Ty.isNodeNoPair, Bool.and_eq_true] at h; exact h.1

mutual
/-- Fewer requirements admit more values. -/
theorem hasTy_mono {req' : Ty → List Need} (hr : ∀ t, ∀ nd ∈ req' t, nd ∈ req t) :
    ∀ {v : V} {τ : FTy}, v.hasTy req τ = true → v.hasTy req' τ = true
  | .mk t fs, τ, h => by
      have h := hasTy_mk h
      refine hasTy_of_structTy h.1 ?_
      rw [V.structTy, Bool.and_eq_true, List.all_eq_true]
      exact ⟨fieldsTy_mono hr (structTy_fields h.2), fun nd hnd => structTy_need h.2 (hr t nd hnd)⟩
  | .list l, .slice e, h => by
      simp only [V.hasTy] at h ⊢
      exact allTy_mono hr h
  | .list l, .pos, h | .list l, .int, h | .list l, .bool, h | .list l, .str, h | .list l, .val _, h
  | .list l, .ptr _, h | .list l, .iface _, h => by simp [V.hasTy] at h
  | .nil, τ, h | .nat _, τ, h | .bool _, τ, h | .str _, τ, h => by cases τ <;> simp_all [V.hasTy]
theorem allTy_mono {req' : Ty → List Need} (hr : ∀ t, ∀ nd ∈ req' t, nd ∈ req t) :
    ∀ {l : List V} {e : FTy}, V.allTy req l e = true → V.allTy req' l e = true
  | [], _, _ => rfl
  | v :: l, e, h => by
      simp only [V.allTy, Bool.and_eq_true] at h ⊢
      exact ⟨⟨h.1.1, hasTy_mono hr h.1.2⟩, allTy_mono hr h.2⟩
theorem fieldsTy_mono {req' : Ty → List Need} (hr : ∀ t, ∀ nd ∈ req' t, nd ∈ req t) :
    ∀ {l : List V} {τs : List FTy}, V.fieldsTy req l τs = true → V.fieldsTy req' l τs = true
  | [], [], _ => rfl
  | v :: l, τ :: τs, h => by
      simp only [V.fieldsTy, Bool.and_eq_true] at h ⊢
      exact ⟨hasTy_mono hr h.1, fieldsTy_mono hr h.2⟩
  | [], _ :: _, h | _ :: _, [], h => by simp [V.fieldsTy] at h
end

/-- A tree with its required fields is a tree. -/
theorem isTree_noReq {v : V} (h : v.isTree req) : v.isTree noReq :=
  ⟨h.1, hasTy_mono (by simp [noReq]) h.2⟩

/-! ### `Walk` -/

/-- The nodes `Walk` visits if it is never stopped, in order. -/
def walkL : Nat → V → List V
  | 0, _ => []
  | f + 1, v => match v with
    | .mk t fs => .mk t fs :: (((walkBody t).kids [.mk t fs]).getD []).flatMap (fun k => walkL f k.2)
    | _ => []

/-- A completed or stopped traversal. -/
def toRes {σ : Type} : Bool × σ → WRes σ
  | (true, s) => .go s
  | (false, s) => .stop s

theorem foldWhile_append {α σ : Type} (fn : α → σ → Bool × σ) : ∀ (a b : List α) (s : σ),
    foldWhile fn (a ++ b) s = match foldWhile fn a s with
      | (true, s') => foldWhile fn b s'
      | r => r
  | [], b, s => rfl
  | x :: a, b, s => by
      simp only [List.cons_append, foldWhile]
      rcases fn x s with ⟨c, s'⟩
      cases c
      · rfl
      · exact foldWhile_append fn a b s'

theorem walkF_eq {σ : Type} (fn : V → σ → Bool × σ) : ∀ (f : Nat) (v : V), v.hasTy noReq (.iface .Expr) = true →
    v.depth < f → ∀ s, walkF fn f v s = toRes (foldWhile fn (walkL f v) s)
  | 0, v, _, hd, s => by omega
  | f + 1, v, h, hd, s => by
      rcases hasTy_expr_cases h with rfl | ht
      · simp [walkF, walkL, foldWhile, toRes]
      · obtain ⟨t, fs, rfl, hN, hf⟩ := isTree_cases ht
        obtain ⟨ks, hk, hp, hok⟩ := bodyOK_sound (walkTable_ok t (isNode_of_noPair hN)) hf
        have hd' := visits_depth hok hp
        simp only [walkF, walkL, hk, Option.getD_some, foldWhile]
        rcases fn (.mk t fs) s with ⟨c, s'⟩
        cases c
        · simp [toRes]
        · simp only [if_true]
          rw [run_kids _ _ _ hk]
          have : ∀ (l : List (Static × V)), (∀ k ∈ l, k ∈ ks) → ∀ s,
              visitAll (fun _ c s => walkF fn f c s) l s
                = toRes (foldWhile fn (l.flatMap fun k => walkL f k.2) s) := by
            intro l
            induction l with
            | nil => intro _ s; simp [visitAll, foldWhile, toRes]
            | cons k l ih =>
              intro hl s
              have hkd : k.2.depth < f := by
                rcases hasTy_expr_cases (hok k (hl k (by simp))).1 with h0 | h0
                · rw [h0]; simp only [V.depth] at hd ⊢; omega
                · have := hd' k (hl k (by simp)) h0.1; omega
              obtain ⟨st, c⟩ := k
              simp only [visitAll, List.flatMap_cons, foldWhile_append]
              rw [walkF_eq fn f c (hok (st, c) (hl _ (by simp))).1 hkd]
              rcases foldWhile fn (walkL f c) s with ⟨b, s2⟩
              cases b
              · rfl
              · exact ih (fun k hk => hl k (by simp [hk])) s2
          exact this ks (fun _ h => h) s'

theorem walkL_preOrder : ∀ (f : Nat) (v : V), v.isTree noReq → v.depth < f →
    PreOrder Ty.isNodeNoPair v (walkL f v)
  | 0, v, _, hd => by omega
  | f + 1, v, ht, hd => by
      obtain ⟨t, fs, rfl, hN, hf⟩ := isTree_cases ht
      obtain ⟨ks, hk, hp, hok⟩ := bodyOK_sound (walkTable_ok t (isNode_of_noPair hN)) hf
      have hd' := visits_depth hok hp
      simp only [walkL, hk, Option.getD_some]
      rw [kids_perm hok] at hp
      refine .node hp ?_
      have : ∀ (l : List (Static × V)), (∀ k ∈ l, k ∈ ks) →
          PreOrders Ty.isNodeNoPair ((l.map Prod.snd).filter V.nonNil) (l.flatMap fun k => walkL f k.2) := by
        intro l
        induction l with
        | nil => intro _; exact .nil
        | cons k l ih =>
          intro hl
          have ih := ih fun x hx => hl x (by simp [hx])
          rcases hasTy_expr_cases (hok k (hl k (by simp))).1 with h0 | h0
          · simp only [List.map_cons, h0, V.nonNil, List.flatMap_cons, Bool.false_eq_true, not_false_eq_true,
              List.filter_cons_of_neg]
            have : walkL f V.nil = [] := by cases f <;> rfl
            rw [this]; exact ih
          · rw [List.map_cons, List.filter_cons_of_pos h0.1, List.flatMap_cons]
            exact .cons (walkL_preOrder f k.2 h0 (by have := hd' k (hl k (by simp)) h0.1; omega)) ih
      exact this ks fun _ h => h

end Verif

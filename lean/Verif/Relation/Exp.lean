/-
Two runs of the parser: the values of an expression are alike.
-/
import Verif.Relation.Eval
import Verif.Relation.End

namespace Verif

variable {R : Str → Str → Prop} {S : Lx → Lx → Prop} {p : Prop} {Γ : List RTy} {env env' : List V} {s s' : PS}

theorem nat_holds (n : Nat) : RTy.holds R .int (.nat n) (.nat n) := ⟨.nat _ _, n, rfl, rfl⟩
theorem num_holds (m n : Nat) : RTy.holds R .num (.nat m) (.nat n) := ⟨.nat _ _, m, n, rfl, rfl⟩

theorem upper_length (s : Str) : (upper s).length = s.length := by simp [upper]

theorem spell_length (hR : Spelling R) {a b : Str} (h : R a b) : a.length = b.length := by
  have := congrArg List.length (hR.upper h)
  simpa [upper_length] using this

theorem len_sim (hR : Spelling R) {v w : V} (h : V.Sim R v w) :
    (match v with | .str x => V.nat x.length | v => .nat v.items.length) =
    (match w with | .str x => V.nat x.length | v => .nat v.items.length) := by
  cases h with
  | str h => simp [spell_length hR h]
  | list h => simp [V.items, simL_length h]
  | _ => simp [V.items]

/-- Both sides of a number comparison. -/
theorem nats_exact {α β : RTy} {a a' b b' : Option V} (h1 : α.isExact = true) (h2 : β.isExact = true)
    (ha : EvalRel R p α a a') (hb : EvalRel R p β b b') (f : Nat → Nat → V) (τ : RTy) (hf : ∀ x y, τ.holds R (f x y) (f x y)) :
    EvalRel R p τ ((a.bind V.toNat?).bind (fun x => (b.bind V.toNat?).map (fun y => f x y)))
      ((a'.bind V.toNat?).bind (fun x => (b'.bind V.toNat?).map (fun y => f x y))) :=
  (nat_step ha).bind (fun x y hxy => (nat_step hb).map (fun z w hzw => by
    rw [hxy h1, hzw h2]; exact hf _ _))

theorem nats_any {α β : RTy} {a a' b b' : Option V} (ha : EvalRel R p α a a') (hb : EvalRel R p β b b') (f : Nat → Nat → Nat) :
    EvalRel R p .num ((a.bind V.toNat?).bind (fun x => (b.bind V.toNat?).map (fun y => .nat (f x y))))
      ((a'.bind V.toNat?).bind (fun x => (b'.bind V.toNat?).map (fun y => .nat (f x y)))) :=
  (nat_step ha).bind (fun x y _ => (nat_step hb).map (fun z w _ => num_holds _ _))

theorem nats_step {α β : RTy} {a a' b b' : Option V} (ha : EvalRel R p α a a') (hb : EvalRel R p β b b') (f : Nat → Nat → Nat) :
    EvalRel R p (if α.isExact && β.isExact then .int else .num)
      ((a.bind V.toNat?).bind (fun x => (b.bind V.toNat?).map (fun y => .nat (f x y))))
      ((a'.bind V.toNat?).bind (fun x => (b'.bind V.toNat?).map (fun y => .nat (f x y)))) := by
  split
  · rename_i h
    rw [Bool.and_eq_true] at h
    exact nats_exact h.1 h.2 ha hb _ _ (fun _ _ => nat_holds _)
  · exact nats_any ha hb f

theorem append_sim {α β : RTy} {v w x y : V} (h1 : α.holds R v w) (h2 : β.holds R x y) {f : V → List V}
    (hf : V.SimL R (f x) (f y)) :
    RTy.holds R (if α.isExact && β.isExact then .exact else .rel) (.list (v.items ++ f x)) (.list (w.items ++ f y)) := by
  refine pick_holds (.list (simL_append (sim_items h1.1) hf)) ?_
  intro h
  rw [Bool.and_eq_true] at h
  rw [isExact_eq h.1 h1, isExact_eq h.2 h2]

theorem append1_sim {α β : RTy} {v w x y : V} (h1 : α.holds R v w) (h2 : β.holds R x y) :
    RTy.holds R (if α.isExact && β.isExact then .exact else appended α β) (.list (v.items ++ [x])) (.list (w.items ++ [y])) := by
  have hs : V.Sim R (.list (v.items ++ [x])) (.list (w.items ++ [y])) := .list (simL_append (sim_items h1.1) (.cons h2.1 .nil))
  split
  · rename_i h
    rw [Bool.and_eq_true] at h
    have e1 := isExact_eq h.1 h1
    have e2 := isExact_eq h.2 h2
    subst e1 e2
    exact exact_holds hs
  · refine ⟨hs, ?_⟩
    have base : ∀ {t : Ty}, β = .st t → (∀ z ∈ v.items, z = .nil ∨ z.ty? = some t) → (RTy.ls t).side (.list (v.items ++ [x])) (.list (w.items ++ [y])) := by
      rintro t rfl hv z hz
      simp only [V.items, List.mem_append, List.mem_singleton] at hz
      rcases hz with hz | rfl
      · exact hv z hz
      · exact h2.2
    cases α <;> cases β <;> simp only [appended] <;> try trivial
    · refine base rfl ?_
      cases h1.2
      simp [V.items]
    · refine base rfl ?_
      obtain ⟨_, rfl | rfl⟩ := h1.2 <;> simp [V.items]
    · split
      · rename_i e
        subst e
        exact base rfl h1.2
      · trivial

theorem elem_sim {τ : RTy} {v w : V} (h : τ.holds R v w) : ORel p (τ.elem.holds R) v.items.getLast? w.items.getLast? := by
  have hl := simL_last (sim_items h.1)
  have hm : ∀ x, v.items.getLast? = some x → x ∈ v.items := fun x hx => List.mem_of_getLast? hx
  revert hl
  cases hv : v.items.getLast? <;> cases w.items.getLast? <;> intro hl <;> first | trivial | exact hl.elim | skip
  cases τ with
  | ls t => exact ⟨hl, h.2 _ (hm _ hv)⟩
  | _ => exact rel_holds hl

theorem isPos_eq {e : Exp} (h : e.isPos = true) : ∃ n, e = .nat (n + 1) := by
  cases e with
  | nat n => cases n with
    | zero => cases h
    | succ n => exact ⟨n, rfl⟩
  | _ => cases h

theorem mapM_strs {vs ws : List V} (h : vs = ws) : ORel p Eq (vs.mapM V.toStr?) (ws.mapM V.toStr?) := by
  subst h; exact ORel.refl _

theorem pos_sim (hR : Spelling R) {w : Bool} {τ σ : RTy} {a b : Option V} {st : Static} (ht : posTy w σ st = some τ) (h : EvalRel R p σ a b) :
    EvalRel R p τ (a.bind (fun v => (st.dispatch v).bind (fun t => (posEndF (v.depth + 1) w t v).map V.nat)))
      (b.bind (fun v => (st.dispatch v).bind (fun t => (posEndF (v.depth + 1) w t v).map V.nat))) := by
  have hl : ∀ s t, R s t → s.length = t.length := fun _ _ h => spell_length hR h
  refine h.bind (fun x y hxy => ?_)
  rw [← sim_depth hxy.1]
  cases st with
  | iface =>
    simp only [posTy, Option.some.injEq] at ht
    subst ht
    simp only [Static.dispatch, ← sim_ty hxy.1]
    cases hx : x.ty? with
    | none => trivial
    | some t =>
      exact ((posEndF_sim hl _ w t hxy.1 (Or.inr hx)).map (Q' := RTy.holds R .num) (fun _ _ _ => num_holds _ _)).mono False.elim (fun _ _ h => h)
  | ptr t =>
    simp only [posTy] at ht
    split at ht
    · cases ht
    · rename_i hf
      simp only [Bool.and_eq_true, decide_eq_true_eq, not_and, not_not] at hf
      simp only [Option.some.injEq] at ht
      subst ht
      simp only [Static.dispatch, Option.bind_some]
      split
      · rename_i hw
        simp only [Bool.and_eq_true, decide_eq_true_eq] at hw
        obtain ⟨⟨rfl, rfl⟩, rfl⟩ := hw
        refine ((windowEnd_sim hxy.1 hxy.2).map (Q' := RTy.holds R .zero) (fun m n h => ⟨.nat _ _, ?_⟩)).mono False.elim (fun _ _ h => h)
        simp [RTy.side, h]
      · by_cases hu : fussy w t = true
        · have := hf hu
          subst this
          rcases hxy.2 with h0 | h0
          · subst h0
            cases hxy.1
            cases posEndF (V.nil.depth + 1) w t V.nil with
            | none => trivial
            | some m => exact num_holds m m
          · exact ((posEndF_sim hl _ w t hxy.1 (Or.inr h0)).map (Q' := RTy.holds R .num) (fun _ _ _ => num_holds _ _)).mono False.elim (fun _ _ h => h)
        · exact ((posEndF_sim hl _ w t hxy.1 (Or.inl (by simpa using hu))).map (Q' := RTy.holds R .num) (fun _ _ _ => num_holds _ _)).mono False.elim (fun _ _ h => h)

section
variable (hR : Spelling R) (hS : Bisim R S) (hs : SRel S s s') (he : EnvRel R Γ env env')
include hR hS hs he

mutual
theorem eval_sim : ∀ (e : Exp) {τ : RTy}, e.infer Γ = some τ →
    EvalRel R p τ (e.eval s env) (e.eval s' env')
  | .nil, τ, h => by
    simp only [Exp.infer, Option.some.injEq] at h; subst h; exact ⟨.nil, rfl⟩
  | .nat n, τ, h => by
    simp only [Exp.infer, Option.some.injEq] at h; subst h; exact nat_holds n
  | .bool b, τ, h => by
    simp only [Exp.infer, Option.some.injEq] at h; subst h; exact sim_boolV b
  | .str x, τ, h => by
    simp only [Exp.infer, Option.some.injEq] at h; subst h; exact exact_holds (.str (hR.refl x))
  | .empty, τ, h => by
    simp only [Exp.infer, Option.some.injEq] at h; subst h; exact ⟨.list .nil, rfl, Or.inr rfl⟩
  | .curKind, τ, h => by
    simp only [Exp.infer, Option.some.injEq] at h; subst h
    simp only [Exp.eval, hS.curKind hs.lx]; exact exact_holds (.str (hR.refl _))
  | .isEOF, τ, h => by
    simp only [Exp.infer, Option.some.injEq] at h; subst h
    simp only [Exp.eval, hS.eof hs.lx]; exact sim_boolV _
  | .strs ss, τ, h => by
    simp only [Exp.infer, Option.some.injEq] at h; subst h; exact exact_holds (.list (simL_strs hR.refl ss))
  | .cur, τ, h => by
    simp only [Exp.infer, Option.some.injEq] at h; subst h; exact tokV_sim hR (hS.cur hs.lx)
  | .curString, τ, h => by
    simp only [Exp.infer, Option.some.injEq] at h; subst h; exact rel_holds (.str (hS.curString hR hs.lx))
  | .pos, τ, h => by
    simp only [Exp.infer, Option.some.injEq] at h; subst h; exact num_holds _ _
  | .end_, τ, h => by
    simp only [Exp.infer, Option.some.injEq] at h; subst h; exact num_holds _ _
  | .var i, τ, h => by
    obtain ⟨v, w, hv, hw, hvw⟩ := he.get h
    simp only [Exp.eval, hv, hw]; exact hvw
  | .fld e i, τ, h => by
    simp only [Exp.infer, Option.map_eq_some_iff] at h
    obtain ⟨σ, hσ, rfl⟩ := h
    simp only [Exp.eval]
    refine (eval_sim e hσ).bind (fun v w hvw => ?_)
    cases σ with
    | st t => exact (sim_field_ty hvw.1 hvw.2 i).mono False.elim (fun _ _ h => h)
    | tok => exact (sim_field_ty hvw.1 hvw.2.1 i).mono False.elim (fun _ _ h => h)
    | num => exact (sim_field hvw.1 i).mono False.elim (fun _ _ h => rel_holds h)
    | rel => exact (sim_field hvw.1 i).mono False.elim (fun _ _ h => rel_holds h)
    | nul => cases hvw.2; cases hvw.1; trivial
    | emp => obtain ⟨rfl, rfl | rfl⟩ := hvw.2 <;> trivial
    | zero => exact (sim_field hvw.1 i).mono False.elim (fun _ _ h => rel_holds h)
    | ls t => exact (sim_field hvw.1 i).mono False.elim (fun _ _ h => rel_holds h)
    | exact =>
      have := isExact_eq (τ := .exact) rfl hvw
      subst this
      refine ORel.mono (p := False) (Q := fun a b => V.Sim R a b ∧ a = b) ?_ False.elim (fun _ _ h => h)
      have := sim_field hvw.1 i
      revert this
      cases v.field i with
      | none => exact id
      | some x => intro h; exact ⟨h, rfl⟩
    | int => obtain ⟨n, rfl, rfl⟩ := hvw.2; trivial
  | .deref e, τ, h => by
    simp only [Exp.infer] at h
    simp only [Exp.eval]
    refine (eval_sim e h).bind (fun v w hvw => ?_)
    rw [sim_nonNil hvw.1]
    split
    · exact hvw
    · trivial
  | .mk t fs, τ, h => by
    simp only [Exp.infer, Option.bind_eq_some_iff] at h
    obtain ⟨τs, hτs, h⟩ := h
    simp only [Exp.eval]
    split at h
    case isFalse => cases h
    rename_i hf
    refine (evalL_sim fs hτs).map (fun vs ws hvw => ?_)
    have hm : V.Sim R (.mk t vs) (.mk t ws) := .mk (fits_fields hf hvw)
    simp only [Option.some.injEq] at h
    subst h
    split
    · rename_i hk
      refine ⟨hm, ?_⟩
      show V.mk t vs = V.mk t ws
      rw [exact_all hk.2 hvw]
    · exact ⟨hm, Or.inr rfl⟩
  | .last e, τ, h => by
    simp only [Exp.infer, Option.map_eq_some_iff] at h
    obtain ⟨σ, hσ, rfl⟩ := h
    simp only [Exp.eval]
    refine (eval_sim e hσ).bind (fun v w hvw => ?_)
    have := simL_last (sim_items hvw.1)
    by_cases hx : σ.isExact = true
    · have e := isExact_eq hx hvw
      subst e
      revert this
      cases v.items.getLast? with
      | none => intro _; trivial
      | some x => intro h; rw [if_pos hx]; exact exact_holds h
    · rw [if_neg hx]
      exact elem_sim hvw
  | .idx e i, τ, h => by
    simp only [Exp.infer, Option.bind_eq_some_iff] at h
    obtain ⟨σ, hσ, ι, hι, h⟩ := h
    split at h
    case isFalse => cases h
    rename_i hx
    simp only [Option.some.injEq] at h
    subst h
    simp only [Exp.eval]
    refine (eval_sim e hσ).bind (fun v w hvw => ?_)
    refine (nat_step (eval_sim i hι)).bind (fun m n hmn => ?_)
    have hmn := hmn hx
    subst hmn
    have := simL_get (sim_items hvw.1) m
    by_cases hx : σ.isExact = true
    · have e := isExact_eq hx hvw
      subst e
      revert this
      cases v.items[m]? with
      | none => intro _; trivial
      | some x => intro h; exact pick_holds h (fun _ => rfl)
    · exact this.mono False.elim (fun _ _ h => pick_holds h (fun h => absurd h hx))
  | .len e, τ, h => by
    simp only [Exp.infer, Option.map_eq_some_iff] at h
    obtain ⟨σ, hσ, rfl⟩ := h
    simp only [Exp.eval]
    refine (eval_sim e hσ).map (fun v w hvw => ?_)
    have := len_sim hR hvw.1
    cases hvw.1 with
    | str h => simp only [spell_length hR h]; exact nat_holds _
    | list h => simp only [V.items, simL_length h]; exact nat_holds _
    | _ => exact nat_holds _
  | .append e a, τ, h => by
    simp only [Exp.infer, Option.bind_eq_some_iff, Option.map_eq_some_iff] at h
    obtain ⟨σ, hσ, α, hα, rfl⟩ := h
    simp only [Exp.eval]
    exact (eval_sim e hσ).bind (fun v w hvw =>
      (eval_sim a hα).map (fun x y hxy => append1_sim hvw hxy))
  | .appendAll e a, τ, h => by
    simp only [Exp.infer, Option.bind_eq_some_iff, Option.map_eq_some_iff] at h
    obtain ⟨σ, hσ, α, hα, rfl⟩ := h
    simp only [Exp.eval]
    exact (eval_sim e hσ).bind (fun v w hvw =>
      (eval_sim a hα).map (fun x y hxy => append_sim hvw hxy (f := V.items) (sim_items hxy.1)))
  | .isNil e, τ, h => by
    simp only [Exp.infer, Option.map_eq_some_iff] at h
    obtain ⟨σ, hσ, rfl⟩ := h
    simp only [Exp.eval]
    refine (eval_sim e hσ).map (fun v w hvw => ?_)
    rw [sim_nonNil hvw.1]; exact sim_boolV _
  | .not e, τ, h => by
    simp only [Exp.infer, Option.map_eq_some_iff] at h
    obtain ⟨σ, hσ, rfl⟩ := h
    simp only [Exp.eval]
    refine (bool_step (eval_sim e hσ)).map (fun v w hvw => ?_)
    rw [hvw]; exact sim_boolV _
  | .upper e, τ, h => by
    simp only [Exp.infer, Option.map_eq_some_iff] at h
    obtain ⟨σ, hσ, rfl⟩ := h
    simp only [Exp.eval]
    refine (str_step (eval_sim e hσ)).map (fun v w hvw => ?_)
    rw [hR.upper hvw]; exact exact_holds (.str (hR.refl _))
  | .isTy e t, τ, h => by
    simp only [Exp.infer, Option.map_eq_some_iff] at h
    obtain ⟨σ, hσ, rfl⟩ := h
    simp only [Exp.eval]
    refine (eval_sim e hσ).map (fun v w hvw => ?_)
    rw [sim_ty hvw.1]; exact sim_boolV _
  | .memoHas e, τ, h => by
    simp only [Exp.infer, Option.map_eq_some_iff] at h
    obtain ⟨σ, hσ, rfl⟩ := h
    simp only [Exp.eval, hs.memo, hs.memo']
    exact (nat_step (eval_sim e hσ)).map (fun _ _ _ => sim_boolV _)
  | .and a b, τ, h => by
    simp only [Exp.infer, Option.bind_eq_some_iff, Option.map_eq_some_iff] at h
    obtain ⟨α, hα, β, hβ, rfl⟩ := h
    simp only [Exp.eval]
    refine (bool_step (eval_sim a hα)).bind (fun x y hxy => ?_)
    subst hxy
    cases x
    · exact pick_holds (.bool _) (fun _ => rfl)
    · exact (eval_sim b hβ).mono id (fun v w hvw => pick_holds hvw.1 (fun h => isExact_eq h hvw))
  | .or a b, τ, h => by
    simp only [Exp.infer, Option.bind_eq_some_iff, Option.map_eq_some_iff] at h
    obtain ⟨α, hα, β, hβ, rfl⟩ := h
    simp only [Exp.eval]
    refine (bool_step (eval_sim a hα)).bind (fun x y hxy => ?_)
    subst hxy
    cases x
    rotate_left
    · exact pick_holds (.bool _) (fun _ => rfl)
    · exact (eval_sim b hβ).mono id (fun v w hvw => pick_holds hvw.1 (fun h => isExact_eq h hvw))
  | .eqStr a b, τ, h => by
    simp only [Exp.infer, Option.bind_eq_some_iff] at h
    obtain ⟨α, hα, β, hβ, h⟩ := h
    split at h
    case isFalse => cases h
    rename_i hx
    simp only [Option.some.injEq] at h
    subst h
    simp only [Exp.eval]
    exact eqStr_sim hx hR (eval_sim a hα) (eval_sim b hβ)
  | .contains a b, τ, h => by
    simp only [Exp.infer, Option.bind_eq_some_iff] at h
    obtain ⟨α, hα, β, hβ, h⟩ := h
    split at h
    case isFalse => cases h
    rename_i hx
    simp only [Option.some.injEq] at h
    subst h
    simp only [Exp.eval]
    exact contains_sim hx hR (eval_sim a hα) (eval_sim b hβ)
  | .eqNat a b, τ, h => by
    simp only [Exp.infer, Option.bind_eq_some_iff] at h
    obtain ⟨α, hα, β, hβ, h⟩ := h
    split at h
    case isFalse => cases h
    rename_i hx
    simp only [Option.some.injEq] at h
    subst h
    rw [Bool.and_eq_true] at hx
    simp only [Exp.eval]
    exact nats_exact hx.1 hx.2 (eval_sim a hα) (eval_sim b hβ)
      (fun x y => .bool (x == y)) .exact (fun _ _ => sim_boolV _)
  | .lt a b, τ, h => by
    simp only [Exp.infer, Option.bind_eq_some_iff] at h
    obtain ⟨α, hα, β, hβ, h⟩ := h
    split at h
    case isFalse => cases h
    rename_i hx
    simp only [Option.some.injEq] at h
    subst h
    rw [Bool.and_eq_true] at hx
    simp only [Exp.eval]
    exact nats_exact hx.1 hx.2 (eval_sim a hα) (eval_sim b hβ)
      (fun x y => .bool (decide (x < y))) .exact (fun _ _ => sim_boolV _)
  | .add a b, τ, h => by
    simp only [Exp.infer, Option.bind_eq_some_iff, Option.map_eq_some_iff] at h
    obtain ⟨α, hα, β, hβ, rfl⟩ := h
    simp only [Exp.eval]
    by_cases hx : (α.isExact && β.isExact) = true
    · have := nats_step (eval_sim a hα) (eval_sim b hβ) (· + ·)
      rw [if_pos hx] at this ⊢
      exact this
    · rw [if_neg hx]
      split
      · rename_i hb
        obtain ⟨n, rfl⟩ := isPos_eq hb
        exact (nat_step (eval_sim a hα)).bind (fun x y _ => ⟨.nat _ _, by simp [RTy.side]⟩)
      · exact nats_any (eval_sim a hα) (eval_sim b hβ) (· + ·)
  | .sub a b, τ, h => by
    simp only [Exp.infer, Option.bind_eq_some_iff, Option.map_eq_some_iff] at h
    obtain ⟨α, hα, β, hβ, rfl⟩ := h
    simp only [Exp.eval]
    exact nats_step (eval_sim a hα) (eval_sim b hβ) (· - ·)
  | .cat a b, τ, h => by
    simp only [Exp.infer, Option.bind_eq_some_iff] at h
    obtain ⟨α, hα, β, hβ, h⟩ := h
    have ha := eval_sim a hα
    have hb := eval_sim b hβ
    simp only [Exp.eval]
    split at h
    · rename_i hx
      simp only [Option.some.injEq] at h
      subst h
      rw [Bool.and_eq_true] at hx
      exact (str_exact hx.1 ha).bind (fun x y hxy => (str_exact hx.2 hb).map (fun z w hzw => by
        subst hxy hzw; exact exact_holds (.str (hR.refl _))))
    · split at h
      case isFalse => cases h
      rename_i hx
      simp only [Option.some.injEq] at h
      subst h
      rw [Bool.or_eq_true] at hx
      rcases hx with hx | hx
      · obtain ⟨w, rfl, hw⟩ := isLit_eq hx
        simp only [Exp.eval, V.toStr?, Option.bind_some]
        exact (str_step hb).map (fun x y hxy => rel_holds (.str (hR.pre hxy w hw)))
      · obtain ⟨w, rfl, hw⟩ := isLit_eq hx
        simp only [Exp.eval, V.toStr?, Option.bind_some, Option.map_some]
        exact (str_step ha).bind (fun x y hxy => rel_holds (.str (hR.suf hxy w hw)))
  | .equalFold a b, τ, h => by
    simp only [Exp.infer, Option.bind_eq_some_iff, Option.map_eq_some_iff] at h
    obtain ⟨α, hα, β, hβ, rfl⟩ := h
    simp only [Exp.eval]
    exact (str_step (eval_sim a hα)).bind (fun x y hxy =>
      (str_step (eval_sim b hβ)).map (fun z w hzw => by
        simp only [Verif.equalFold, hR.upper hxy, hR.upper hzw]; exact sim_boolV _))
  | .containsFold a b, τ, h => by
    simp only [Exp.infer, Option.bind_eq_some_iff, Option.map_eq_some_iff] at h
    obtain ⟨α, hα, β, hβ, rfl⟩ := h
    simp only [Exp.eval]
    exact (strs_step (eval_sim a hα)).bind (fun x y hxy =>
      (str_step (eval_sim b hβ)).map (fun z w hzw => by
        rw [foldAny hR hxy z w (hR.upper hzw)]; exact sim_boolV _))
  | .posOf e st, τ, h => by
    simp only [Exp.infer, Option.bind_eq_some_iff] at h
    obtain ⟨σ, hσ, h⟩ := h
    exact pos_sim hR h (eval_sim e hσ)
  | .endOf e st, τ, h => by
    simp only [Exp.infer, Option.bind_eq_some_iff] at h
    obtain ⟨σ, hσ, h⟩ := h
    exact pos_sim hR h (eval_sim e hσ)
  | .isUnit e, τ, h => by
    simp only [Exp.infer, Option.bind_eq_some_iff] at h
    obtain ⟨σ, hσ, h⟩ := h
    split at h
    case isFalse => cases h
    rename_i hx
    simp only [Option.some.injEq] at h
    subst h
    simp only [Exp.eval]
    exact (str_exact hx (eval_sim e hσ)).map (fun x y hxy => by subst hxy; exact sim_boolV _)
  | .matchKw e, τ, h => by
    simp only [Exp.infer, Option.bind_eq_some_iff] at h
    obtain ⟨σ, hσ, h⟩ := h
    split at h
    case isFalse => cases h
    rename_i hx
    simp only [Option.some.injEq] at h
    subst h
    simp only [Exp.eval]
    exact (str_exact hx (eval_sim e hσ)).map (fun x y hxy => by
      subst hxy; rw [hS.matchKw hR hs.lx]; exact sim_boolV _)
  | .matchOneOf e, τ, h => by
    simp only [Exp.infer, Option.bind_eq_some_iff] at h
    obtain ⟨σ, hσ, h⟩ := h
    split at h
    case isFalse => cases h
    rename_i hx
    simp only [Option.some.injEq] at h
    subst h
    simp only [Exp.eval]
    exact (strs_exact hx (eval_sim e hσ)).map (fun x y hxy => by
      subst hxy; rw [hS.matchOneOf hR hs.lx]; exact sim_boolV _)
  | .tokText e, τ, h => by
    simp only [Exp.infer, Option.bind_eq_some_iff] at h
    obtain ⟨σ, hσ, h⟩ := h
    split at h
    case isFalse => cases h
    rename_i hx
    simp only [Option.some.injEq] at h
    subst h
    simp only [Exp.eval]
    rw [Bool.or_eq_true, decide_eq_true_eq] at hx
    rcases hx with hx | rfl
    · refine (eval_sim e hσ).bind (fun v w hvw => ?_)
      have := isExact_eq hx hvw
      subst this
      cases v.field 2 with
      | none => trivial
      | some k =>
        cases v.field 3 with
        | none => trivial
        | some x =>
          simp only [Option.bind_some]
          cases k.toStr? with
          | none => trivial
          | some k =>
            cases x.toStr? with
            | none => trivial
            | some x => exact exact_holds (.str (hR.refl _))
    · exact (eval_sim e hσ).bind (fun v w hvw => token_text hR hvw)
  | .error m args, τ, h => by
    simp only [Exp.infer, Option.map_eq_some_iff] at h
    obtain ⟨σ, hσ, rfl⟩ := h
    simp only [Exp.eval]
    exact (evalL_sim args hσ).map (fun _ _ _ => exact_holds (.mk (.cons (.str (hR.refl _)) trivial .nil)))
  | .matchKinds ks, τ, h => by
    simp only [Exp.infer, Option.bind_eq_some_iff] at h
    obtain ⟨σ, hσ, h⟩ := h
    split at h
    case isFalse => cases h
    rename_i hx
    simp only [Option.some.injEq] at h
    subst h
    simp only [Exp.eval]
    exact ((evalL_sim ks hσ).bind (fun vs ws h => mapM_strs (exact_all hx h))).map (fun x y hxy => by
      subst hxy; rw [hS.matchKinds hR hs.lx]; exact sim_boolV _)
theorem evalL_sim : ∀ (es : List Exp) {τs : List RTy}, Exp.inferL Γ es = some τs →
    ORel p (EnvRel R τs) (Exp.evalL s env es) (Exp.evalL s' env' es)
  | [], τs, h => by
    simp only [Exp.inferL, Option.some.injEq] at h; subst h; exact .nil
  | e :: es, τs, h => by
    simp only [Exp.inferL, Option.bind_eq_some_iff, Option.map_eq_some_iff] at h
    obtain ⟨τ, hτ, τs', hτs, rfl⟩ := h
    simp only [Exp.evalL]
    exact (eval_sim e hτ).bind (fun v w hvw =>
      (evalL_sim es hτs).map (fun vs ws h => .cons hvw h))
end
end

end Verif

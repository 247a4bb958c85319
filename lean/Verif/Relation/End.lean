/-
`Pos()` and `End()` of values that are alike: both panic or none.
-/
import Verif.Relation.Values

namespace Verif

variable {R : Str → Str → Prop}

mutual
theorem sim_depth : ∀ {v w : V}, V.Sim R v w → v.depth = w.depth
  | _, _, .nil | _, _, .nat _ _ | _, _, .bool _ | _, _, .str _ => rfl
  | _, _, .list h => by simp only [V.depth, simL_depth h]
  | _, _, .mk h => by simp only [V.depth, simF_depth h]
theorem simL_depth : ∀ {vs ws : List V}, V.SimL R vs ws → V.depthL vs = V.depthL ws
  | _, _, .nil => rfl
  | _, _, .cons h h1 => by simp only [V.depthL, sim_depth h, simL_depth h1]
theorem simF_depth : ∀ {t : Ty} {i : Nat} {vs ws : List V}, V.SimF R t i vs ws → V.depthL vs = V.depthL ws
  | _, _, _, _, .nil => rfl
  | _, _, _, _, .cons h _ h1 => by simp only [V.depthL, sim_depth h, simF_depth h1]
end

theorem sim_sels : ∀ {ss : List Sel} {v w : V}, V.Sim R v w → ORel False (V.Sim R) (getSels ss v) (getSels ss w)
  | [], _, _, h => h
  | .f i :: ss, _, _, h => (sim_field h i).bind fun _ _ h => sim_sels h
  | .last :: ss, v, w, h => (simL_last (sim_items h)).bind fun _ _ h => sim_sels h
  | .first :: ss, v, w, h => by
    have : ORel False (V.Sim R) v.items.head? w.items.head? := by
      have hi := sim_items h
      generalize v.items = l at hi
      generalize w.items = l' at hi
      cases hi with
      | nil => trivial
      | cons h _ => exact h
    exact this.bind fun _ _ h => sim_sels h

/-- A field of the receiver, of type `t`, that is 0 in both or in none of two values that are alike. -/
def Ref.zeroField (t : Ty) (r : Ref) : Bool := decide (r.var = 0) && match r.sels with
  | [.f i] => decide (fieldTy t i = .zero)
  | _ => false

/-- The condition depends on what is there, not on where it stands; a position may be compared with 0 if `t` allows it. -/
def Cond.shapeOnly (t : Ty) : Cond → Bool
  | .nonNil _ | .isTrue _ | .lenPos _ | .isTy _ _ => true
  | .natEq r n => decide (n = 0) && r.zeroField t
  | .not c => c.shapeOnly t
  | .and a b | .or a b => a.shapeOnly t && b.shapeOnly t
  | _ => false

/-- The static type of a callee makes no trouble. -/
def Static.calm (which : Bool) : Static → Bool
  | .iface => true
  | .ptr t => !fussy which t

/-- The same for the expressions of `Pos()` and `End()`. -/
def PExp.shapeOnly (t : Ty) : PExp → Bool
  | .const _ | .field _ => true
  | .pos _ st => st.calm false
  | .end_ _ st => st.calm true
  | .plus e _ | .plusLen e _ => e.shapeOnly t
  | .ite c a b => c.shapeOnly t && a.shapeOnly t && b.shapeOnly t

/-- No condition compares a position. -/
def Cond.noNat : Cond → Bool
  | .natEq _ _ => false
  | .not c => c.noNat
  | .and a b | .or a b => a.noNat && b.noNat
  | _ => true

/-- The same for the expressions of `Pos()` and `End()`. -/
def PExp.noNat : PExp → Bool
  | .plus e _ | .plusLen e _ => e.noNat
  | .ite c a b => c.noNat && a.noNat && b.noNat
  | _ => true

theorem pos_shapeOnly (t : Ty) : (posBody t).shapeOnly t = true := by cases t <;> decide +kernel
theorem end_shapeOnly (t : Ty) : (endBody t).shapeOnly t = true := by cases t <;> decide +kernel
theorem pos_noNat (t : Ty) (h : fussy false t = false) : (posBody t).noNat = true := by
  cases t <;> first | decide +kernel | cases h
theorem end_noNat (t : Ty) (h : fussy true t = false) : (endBody t).noNat = true := by
  cases t <;> first | decide +kernel | cases h

theorem orel_eq {α β : Type} {Q : α → α → Prop} {a b : Option α} {f : α → β} (h : ORel False Q a b) (k : ∀ x y, Q x y → f x = f y) :
    a.map f = b.map f := by
  cases a <;> cases b <;> first | rfl | exact h.elim | exact congrArg some (k _ _ h)

theorem zero_sim {t : Ty} {v w : V} (h : V.Sim R v w) (ht : v.ty? = some t) {r : Ref} (hr : r.zeroField t = true) :
    Cond.eval { env := [v] } (.natEq r 0) = Cond.eval { env := [w] } (.natEq r 0) := by
  obtain ⟨x, ss⟩ := r
  simp only [Ref.zeroField, Bool.and_eq_true, decide_eq_true_eq] at hr
  obtain ⟨rfl, hr⟩ := hr
  split at hr <;> try cases hr
  rename_i i
  rw [decide_eq_true_eq] at hr
  have hf := sim_field_ty h (Or.inr ht) i
  rw [hr] at hf
  have e : ∀ v : V, Cond.eval { env := [v] } (.natEq ⟨0, [.f i]⟩ 0) = (v.field i).bind (fun v => v.toNat?.map (fun x => decide (x = 0))) := by
    intro v
    simp only [Cond.eval, Ref.get, getSels, Sel.get, List.getElem?_cons_zero, Option.bind_some]
    cases v.field i <;> rfl
  rw [e, e]
  revert hf
  cases v.field i <;> cases w.field i <;> intro hf <;> first | rfl | exact hf.elim | skip
  obtain ⟨h1, h2⟩ := hf
  cases h1 with
  | nat m n =>
    simp only [RTy.side, V.nat.injEq] at h2
    simp [V.toNat?, h2]
  | _ => rfl

theorem cond_sim (hl : ∀ s t, R s t → s.length = t.length) {t : Ty} {v w : V} (h : V.Sim R v w) :
    ∀ {c : Cond}, c.shapeOnly t = true → (c.noNat = true ∨ v.ty? = some t) → c.eval { env := [v] } = c.eval { env := [w] } := by
  have hg : ∀ r : Ref, ORel False (V.Sim R) (r.get [v]) (r.get [w]) := by
    intro r
    simp only [Ref.get]
    refine ORel.bind (Q := V.Sim R) ?_ (fun _ _ h => sim_sels h)
    rcases r.var with _ | n
    · exact h
    · trivial
  intro c
  induction c with
  | nonNil r => intro _ _; exact orel_eq (hg r) (fun _ _ h => sim_nonNil h)
  | isTrue r =>
    intro _ _
    simp only [Cond.eval]
    have := hg r
    revert this
    cases r.get [v] <;> cases r.get [w] <;> intro h <;> first | rfl | exact h.elim | exact sim_bool h
  | lenPos r =>
    intro _ _
    refine orel_eq (hg r) (fun _ _ h => ?_)
    cases h with
    | str h =>
      have := hl _ _ h
      rename_i s u
      cases s <;> cases u <;> simp_all
    | list h => simp only [V.items]; cases h <;> rfl
    | _ => rfl
  | isTy r u => intro _ _; exact orel_eq (hg r) (fun _ _ h => by rw [sim_ty h])
  | natEq r n =>
    intro hc hn
    have hn2 : v.ty? = some t := by simpa [Cond.noNat] using hn
    simp only [Cond.shapeOnly, Bool.and_eq_true, decide_eq_true_eq] at hc
    obtain ⟨rfl, hc⟩ := hc
    exact zero_sim h hn2 hc
  | not c ih =>
    intro hc hn
    simp only [Cond.shapeOnly] at hc
    simp only [Cond.eval, ih hc hn]
  | and a b iha ihb =>
    intro hc hn
    simp only [Cond.shapeOnly, Bool.and_eq_true] at hc
    simp only [Cond.noNat, Bool.and_eq_true] at hn
    simp only [Cond.eval, iha hc.1 (hn.imp_left And.left), ihb hc.2 (hn.imp_left And.right)]
  | or a b iha ihb =>
    intro hc hn
    simp only [Cond.shapeOnly, Bool.and_eq_true] at hc
    simp only [Cond.noNat, Bool.and_eq_true] at hn
    simp only [Cond.eval, iha hc.1 (hn.imp_left And.left), ihb hc.2 (hn.imp_left And.right)]
  | _ => intro hc; simp [Cond.shapeOnly] at hc

/-- Both there or none. -/
def Both {α β : Type} : Option α → Option β → Prop := ORel False (fun _ _ => True)

theorem pexp_sim (hl : ∀ s t, R s t → s.length = t.length) {t : Ty} {v w : V} (h : V.Sim R v w)
    {call : Bool → Ty → V → Option Nat} (hcall : ∀ which t {v w}, V.Sim R v w → (fussy which t = false ∨ v.ty? = some t) →
      Both (call which t v) (call which t w)) :
    ∀ {e : PExp}, e.shapeOnly t = true → (e.noNat = true ∨ v.ty? = some t) → Both (e.eval call v) (e.eval call w) := by
  have hg : ∀ r : Ref, ORel False (V.Sim R) (r.get [v]) (r.get [w]) := by
    intro r
    simp only [Ref.get]
    refine ORel.bind (Q := V.Sim R) ?_ (fun _ _ h => sim_sels h)
    rcases r.var with _ | n
    · exact h
    · trivial
  have hd : ∀ (which : Bool) (r : Ref) (st : Static), st.calm which = true → Both ((r.get [v]).bind (fun v => (st.dispatch v).bind (fun t => call which t v)))
      ((r.get [w]).bind (fun v => (st.dispatch v).bind (fun t => call which t v))) := by
    intro which r st hst
    refine (hg r).bind (fun x y hxy => ?_)
    cases st with
    | ptr u =>
      simp only [Static.calm, Bool.not_eq_true'] at hst
      exact hcall which u hxy (Or.inl hst)
    | iface =>
      simp only [Static.dispatch, ← sim_ty hxy]
      cases hx : x.ty? with
      | none => trivial
      | some u => exact hcall which u hxy (Or.inr hx)
  intro e
  induction e with
  | const n => intro _ _; trivial
  | field r => intro _ _; exact (hg r).bind (fun _ _ h => sim_nat h)
  | pos r st => intro he _; exact hd false r st he
  | end_ r st => intro he _; exact hd true r st he
  | plus e n ih => intro he hn; exact (ih he hn).map (fun _ _ _ => trivial)
  | plusLen e r ih =>
    intro he hn
    exact (ih he hn).bind (fun _ _ _ => ((hg r).bind (fun _ _ h => sim_str h)).map (fun _ _ _ => trivial))
  | ite c a b iha ihb =>
    intro he hn
    simp only [PExp.shapeOnly, Bool.and_eq_true] at he
    simp only [PExp.noNat, Bool.and_eq_true] at hn
    simp only [PExp.eval, cond_sim hl h he.1.1 (hn.imp_left fun h => h.1.1)]
    cases c.eval { env := [w] } with
    | none => trivial
    | some x =>
      cases x
      · exact ihb he.2 (hn.imp_left fun h => h.2)
      · exact iha he.1.2 (hn.imp_left fun h => h.1.2)

theorem posEndF_sim (hl : ∀ s t, R s t → s.length = t.length) : ∀ (f : Nat) (which : Bool) (t : Ty) {v w : V}, V.Sim R v w →
    (fussy which t = false ∨ v.ty? = some t) → Both (posEndF f which t v) (posEndF f which t w)
  | 0, _, _, _, _, _, _ => trivial
  | f + 1, which, t, v, w, h, ht => by
    simp only [posEndF]
    cases which
    · exact pexp_sim hl h (posEndF_sim hl f) (pos_shapeOnly t) (ht.imp_left (pos_noNat t))
    · exact pexp_sim hl h (posEndF_sim hl f) (end_shapeOnly t) (ht.imp_left (end_noNat t))

/-- The end of a window is 0 in both or in none. -/
theorem windowEnd_sim {f : Nat} {v w : V} (h : V.Sim R v w) (ht : v = .nil ∨ v.ty? = some .WindowDefinition) :
    ORel False (fun m n => m = 0 ↔ n = 0) (posEndF f true .WindowDefinition v) (posEndF f true .WindowDefinition w) := by
  rcases f with _ | f
  · trivial
  have e : ∀ v : V, posEndF (f + 1) true .WindowDefinition v =
      if v.nonNil then (v.field 2).bind (fun x => if x.nonNil then posEndF f true .WindowExpr x else some 0) else some 0 := by
    intro v
    show (endBody .WindowDefinition).eval (posEndF f) v = _
    rw [show endBody .WindowDefinition = .ite (.or (.not (.nonNil ⟨0, []⟩)) (.not (.nonNil (rf 2)))) (.const 0)
      (.end_ (rf 2) (.ptr .WindowExpr)) from rfl]
    simp only [PExp.eval, Cond.eval, Ref.get, getSels, Sel.get, Static.dispatch]
    cases hv : v.nonNil
    · simp [hv]
    · cases h2 : v.field 2 with
      | none => simp [hv, h2]
      | some x => cases hx : x.nonNil <;> simp [hv, h2, hx]
  have e' : ∀ v : V, posEndF f true .WindowExpr v = if f = 0 then none else (v.field 1).bind V.toNat? := by
    intro v
    rcases f with _ | f
    · rfl
    · show (endBody .WindowExpr).eval (posEndF f) v = _
      rw [show endBody .WindowExpr = .field (rf 1) from rfl]
      simp only [PExp.eval, Ref.get, getSels, Sel.get]
      cases h1 : v.field 1 <;> simp [h1]
  rw [e, e, sim_nonNil h]
  split
  · refine (sim_field_ty h ht 2).bind (fun x y hxy => ?_)
    rw [sim_nonNil hxy.1]
    split
    · rw [e', e']
      split
      · trivial
      · refine (sim_field_ty hxy.1 hxy.2 1).bind (fun a b hab => ?_)
        obtain ⟨h1, h2⟩ := hab
        cases h1 with
        | nat m n =>
          simp only [RTy.side, fieldTy, V.nat.injEq] at h2
          exact h2
        | _ => trivial
    · exact Iff.rfl
  · exact Iff.rfl

end Verif

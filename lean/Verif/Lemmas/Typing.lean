/-
Typing of access paths: a path that type-checks against the declarations never dereferences nil.
-/
import Verif.Ast.Methods
import Verif.Spec.Tree

namespace Verif

variable {req : Ty → List Need}

theorem hasTy_mk {t : Ty} {fs : List V} {τ : FTy} (h : V.hasTy req (.mk t fs) τ = true) :
    τ.admits t = true ∧ V.structTy req t fs = true := by
  cases τ <;> simpa [V.hasTy, V.structTy] using h

theorem hasTy_of_structTy {t : Ty} {fs : List V} {τ : FTy} (h : τ.admits t = true) (hf : V.structTy req t fs = true) :
    V.hasTy req (.mk t fs) τ = true := by
  unfold V.structTy at hf
  cases τ <;> simp_all [V.hasTy]

theorem structTy_fields {t : Ty} {fs : List V} (h : V.structTy req t fs = true) : V.fieldsTy req fs (schema t) = true := by
  rw [V.structTy, Bool.and_eq_true] at h; exact h.1

theorem structTy_need {t : Ty} {fs : List V} (h : V.structTy req t fs = true) {nd : Need} (hn : nd ∈ req t) :
    nd.holds fs = true := by
  rw [V.structTy, Bool.and_eq_true, List.all_eq_true] at h; exact h.2 nd hn

theorem fieldsTy_get : ∀ {fs : List V} {τs : List FTy},
    V.fieldsTy req fs τs = true → ∀ {i : Nat} {τ : FTy}, τs[i]? = some τ →
    ∃ w : V, fs[i]? = some w ∧ w.hasTy req τ = true
  | [], [], _, i, τ, hi => by simp at hi
  | v :: l, τ' :: τs, h, i, τ, hi => by
      simp only [V.fieldsTy, Bool.and_eq_true] at h
      cases i with
      | zero =>
        simp at hi; subst hi
        exact ⟨v, by simp, h.1⟩
      | succ i =>
        obtain ⟨w, a, b⟩ := fieldsTy_get h.2 (i := i) (by simpa using hi)
        exact ⟨w, by simpa using a, b⟩
  | [], _ :: _, h, _, _, _ => by simp [V.fieldsTy] at h
  | _ :: _, [], h, _, _, _ => by simp [V.fieldsTy] at h

theorem fieldsTy_length : ∀ {fs : List V} {τs : List FTy}, V.fieldsTy req fs τs = true → fs.length = τs.length
  | [], [], _ => rfl
  | v :: l, τ' :: τs, h => by
      simp only [V.fieldsTy, Bool.and_eq_true] at h
      simp [fieldsTy_length h.2]
  | [], _ :: _, h => by simp [V.fieldsTy] at h
  | _ :: _, [], h => by simp [V.fieldsTy] at h

theorem allTy_mem {e : FTy} : ∀ {l : List V}, V.allTy req l e = true →
    ∀ v ∈ l, v.nonNil = true ∧ v.hasTy req e = true
  | [], _, v, hv => by simp at hv
  | a :: l, h, v, hv => by
      simp only [V.allTy, Bool.and_eq_true] at h
      rcases List.mem_cons.1 hv with rfl | hv
      · exact h.1
      · exact allTy_mem h.2 v hv

theorem hasTy_slice {v : V} {e : FTy} (h : v.hasTy req (.slice e) = true) :
    ∀ w ∈ v.items, w.nonNil = true ∧ w.hasTy req e = true := by
  cases v with
  | list l => exact allTy_mem (l := l) (by simpa [V.hasTy] using h)
  | _ => simp [V.items]

theorem hasTy_val {v : V} {t : Ty} (h : v.hasTy req (.val t) = true) :
    ∃ fs, v = .mk t fs ∧ V.structTy req t fs = true := by
  cases v with
  | mk t' fs =>
    have := hasTy_mk h
    simp only [FTy.admits, decide_eq_true_eq] at this
    obtain ⟨rfl, h2⟩ := this
    exact ⟨fs, rfl, h2⟩
  | _ => simp [V.hasTy] at h

theorem hasTy_ptr {v : V} {t : Ty} (h : v.hasTy req (.ptr t) = true) (hn : v.nonNil = true) :
    ∃ fs, v = .mk t fs ∧ V.structTy req t fs = true := by
  cases v with
  | mk t' fs =>
    have := hasTy_mk h
    simp only [FTy.admits, decide_eq_true_eq] at this
    obtain ⟨rfl, h2⟩ := this
    exact ⟨fs, rfl, h2⟩
  | nil => simp [V.nonNil] at hn
  | _ => simp [V.hasTy] at h

theorem hasTy_iface {v : V} {i : Iface} (h : v.hasTy req (.iface i) = true) (hn : v.nonNil = true) :
    ∃ t fs, v = .mk t fs ∧ (t.implements i && decide (t ≠ .TargetPair)) = true ∧ V.structTy req t fs = true := by
  cases v with
  | mk t' fs => exact ⟨t', fs, rfl, hasTy_mk h⟩
  | nil => simp [V.nonNil] at hn
  | _ => simp [V.hasTy] at h

theorem implements_isNode {i : Iface} {t : Ty} (h : t.implements i = true) : t.isNode = true := by
  cases i <;> simp only [Ty.implements, Bool.and_eq_true] at h <;> first | exact h | exact h.1

theorem admits_isNodeNoPair {i : Iface} {t : Ty} (h : (t.implements i && decide (t ≠ .TargetPair)) = true) :
    t.isNodeNoPair = true := by
  rw [Bool.and_eq_true] at h
  rw [Ty.isNodeNoPair, Bool.and_eq_true]
  exact ⟨implements_isNode h.1, h.2⟩

theorem filled_nonNil {v : V} (h : v.filled = true) : v.nonNil = true := by
  cases v <;> simp_all [V.filled, V.nonNil]

theorem filled_items {v : V} {e : FTy} (h : v.filled = true) (ht : v.hasTy req (.slice e) = true) : v.items ≠ [] := by
  cases v with
  | list l => simpa [V.filled, V.items] using h
  | nil => simp [V.filled] at h
  | mk t fs => simp [V.hasTy, FTy.admits] at ht
  | _ => simp [V.hasTy] at ht

/-- A pointer, interface or struct type. -/
def FTy.single : FTy → Bool
  | .val _ | .ptr _ | .iface _ => true
  | _ => false

/-- A slice type. -/
def FTy.isSlice : FTy → Bool
  | .slice _ => true
  | _ => false

theorem single_filled {v : V} {τ : FTy} (hs : τ.single = true) (ht : v.hasTy req τ = true) (h : v.nonNil = true) :
    v.filled = true := by
  cases v with
  | list l => cases τ <;> simp_all [V.hasTy, FTy.single]
  | _ => simp_all [V.filled, V.nonNil]

/-- What is known about the values of access paths: not nil, of a given dynamic type, a slice that
is not empty, not set. -/
structure Facts where
  nn : List Ref := []
  no : List Ref := []
  tys : List (Ref × Ty) := []
  len : List Ref := []
deriving DecidableEq

/-- The dynamic type recorded for a path. -/
def Facts.tyOf (fa : Facts) (r : Ref) : Option Ty := (fa.tys.find? (fun p => p.1 == r)).map Prod.snd

/-- A value of type `τ` at path `r` is known to be neither nil nor empty. -/
def Facts.knows (fa : Facts) (r : Ref) (τ : FTy) : Bool :=
  fa.len.contains r || (τ.single && (fa.nn.contains r || (fa.tyOf r).isSome))

/-- Field `i` of a struct of type `t` at path `x.pre` is neither nil nor empty because of the
requirements on its fields. -/
def needed (req : Ty → List Need) (fa : Facts) (x : Nat) (pre : List Sel) (t : Ty) (i : Nat) (τ : FTy) : Bool :=
  (req t).any fun nd => match nd with
    | .filled j => decide (j = i)
    | .either j k => (τ.single || τ.isSlice) && ((decide (k = i) && fa.no.contains ⟨x, pre ++ [.f j]⟩) ||
        (decide (j = i) && fa.no.contains ⟨x, pre ++ [.f k]⟩))

/-- Type of an access path and whether it is known to be filled; `none` if it might dereference
nil. -/
def goT (req : Ty → List Need) (fa : Facts) (x : Nat) : List Sel → Bool → FTy → List Sel → Option (FTy × Bool)
  | _, k, τ, [] => some (τ, k)
  | pre, k, τ, s :: ss =>
    match s with
    | .f i =>
      let step (t : Ty) : Option (FTy × Bool) := match (schema t)[i]? with
        | some τ' => goT req fa x (pre ++ [.f i]) (needed req fa x pre t i τ' || fa.knows ⟨x, pre ++ [.f i]⟩ τ') τ' ss
        | none => none
      match τ with
      | .val t => step t
      | .ptr t => if k then step t else none
      | .iface _ => match fa.tyOf ⟨x, pre⟩ with
        | some t => step t
        | none => none
      | _ => none
    | s => match τ with
      | .slice e => if k then goT req fa x (pre ++ [s]) e.single e ss else none
      | _ => none

/-- Type of an access path in an environment of types. -/
def typeOf (req : Ty → List Need) (te : List FTy) (fa : Facts) (r : Ref) : Option (FTy × Bool) :=
  match te[r.var]? with
  | some τ => goT req fa r.var [] τ.single τ r.sels
  | none => none

/-- An environment fits its types, and what is said to be known is true. -/
structure EnvOK (req : Ty → List Need) (te : List FTy) (fa : Facts) (env : List V) : Prop where
  len : env.length = te.length
  ty : ∀ (x : Nat) (τ : FTy), te[x]? = some τ → ∃ v : V, env[x]? = some v ∧ v.hasTy req τ = true ∧ v.nonNil = true
  known : ∀ r ∈ fa.nn, ∀ v : V, r.get env = some v → v.nonNil = true
  tys : ∀ p ∈ fa.tys, ∀ v : V, p.1.get env = some v → v.ty? = some p.2
  lens : ∀ r ∈ fa.len, ∀ v : V, r.get env = some v → v.filled = true
  unset : ∀ r ∈ fa.no, ∀ v : V, r.get env = some v → v.isSet = false

theorem EnvOK.tyOf {req te fa env} (he : EnvOK req te fa env) {r : Ref} {t : Ty} (h : fa.tyOf r = some t) {v : V}
    (hv : r.get env = some v) : v.ty? = some t := by
  simp only [Facts.tyOf, Option.map_eq_some_iff] at h
  obtain ⟨p, hp, rfl⟩ := h
  have h1 := List.mem_of_find?_eq_some hp
  have h2 := List.find?_some hp
  simp only [beq_iff_eq] at h2
  exact he.tys p h1 v (by rw [h2]; exact hv)

theorem EnvOK.knows {req te fa env} (he : EnvOK req te fa env) {r : Ref} {τ : FTy} (h : fa.knows r τ = true) {v : V}
    (hv : r.get env = some v) (ht : v.hasTy req τ = true) : v.filled = true := by
  simp only [Facts.knows, Bool.or_eq_true, Bool.and_eq_true, List.contains_iff_mem] at h
  rcases h with h | ⟨hs, h | h⟩
  · exact he.lens r h v hv
  · exact single_filled hs ht (he.known r h v hv)
  · obtain ⟨t, ht'⟩ := Option.isSome_iff_exists.1 h
    have := he.tyOf ht' hv
    cases v <;> simp_all [V.ty?, V.filled]

theorem getSels_append : ∀ (a b : List Sel) (v : V), getSels (a ++ b) v = (getSels a v).bind (getSels b)
  | [], b, v => rfl
  | s :: a, b, v => by
      simp only [List.cons_append, getSels]
      cases s.get v with
      | none => rfl
      | some w => exact getSels_append a b w

theorem Ref.get_append (env : List V) (x : Nat) (a b : List Sel) :
    Ref.get env ⟨x, a ++ b⟩ = (Ref.get env ⟨x, a⟩).bind (getSels b) := by
  simp only [Ref.get]
  cases env[x]? with
  | none => rfl
  | some v => simpa using getSels_append a b v

theorem isSet_filled {v : V} {τ : FTy} (_ : (τ.single || τ.isSlice) = true) (_ht : v.hasTy req τ = true)
    (h : v.isSet = true) : v.filled = true := by
  cases v with
  | list l => simpa [V.isSet, V.filled] using h
  | nil => simp [V.isSet] at h
  | _ => rfl

theorem needed_sound {te fa env} (he : EnvOK req te fa env) {x : Nat} {pre : List Sel} {t : Ty} {fs : List V}
    (hget : Ref.get env ⟨x, pre⟩ = some (.mk t fs)) (hf : V.structTy req t fs = true) {i : Nat} {τ : FTy} {w : V}
    (hw : fs[i]? = some w) (ht : w.hasTy req τ = true) (h : needed req fa x pre t i τ = true) : w.filled = true := by
  simp only [needed, List.any_eq_true] at h
  obtain ⟨nd, hnd, h⟩ := h
  have hold := structTy_need hf hnd
  have field : ∀ k : Nat, ∀ u : V, fs[k]? = some u → Ref.get env ⟨x, pre ++ [.f k]⟩ = some u := by
    intro k u hu
    rw [Ref.get_append, hget]
    simp [getSels, Sel.get, V.field, hu]
  cases nd with
  | filled j =>
    simp only [decide_eq_true_eq] at h; subst h
    simpa [Need.holds, hw] using hold
  | either j k =>
    simp only [Bool.and_eq_true, Bool.or_eq_true, decide_eq_true_eq, List.contains_iff_mem] at h
    obtain ⟨hs, h⟩ := h
    simp only [Need.holds, Bool.or_eq_true] at hold
    have unset : ∀ j : Nat, (⟨x, pre ++ [.f j]⟩ : Ref) ∈ fa.no → (fs[j]?.map V.isSet).getD false = true → False := by
      intro j hj hset
      cases hu : fs[j]? with
      | none => simp [hu] at hset
      | some u =>
        simp [hu] at hset
        have := he.unset _ hj u (field j u hu)
        rw [this] at hset; simp at hset
    rcases h with ⟨rfl, h⟩ | ⟨rfl, h⟩
    · rcases hold with hold | hold
      · exact (unset _ h hold).elim
      · simp [hw] at hold; exact isSet_filled (by simpa using hs) ht hold
    · rcases hold with hold | hold
      · simp [hw] at hold; exact isSet_filled (by simpa using hs) ht hold
      · exact (unset _ h hold).elim

theorem goT_sound {te fa env} (he : EnvOK req te fa env) {x : Nat} :
    ∀ (ss pre : List Sel) (k : Bool) (τ : FTy) (v : V), Ref.get env ⟨x, pre⟩ = some v →
    v.hasTy req τ = true → (k = true → v.filled = true) → ∀ {τ' k'}, goT req fa x pre k τ ss = some (τ', k') →
    ∃ w, Ref.get env ⟨x, pre ++ ss⟩ = some w ∧ w.hasTy req τ' = true ∧ (k' = true → w.filled = true)
  | [], pre, k, τ, v, h1, h2, h3, τ', k', h => by
      simp only [goT, Option.some.injEq, Prod.mk.injEq] at h
      obtain ⟨rfl, rfl⟩ := h
      exact ⟨v, by simpa using h1, h2, h3⟩
  | s :: ss, pre, k, τ, v, h1, h2, h3, τ', k', h => by
      have elem : ∀ e, τ = .slice e → k = true → ∀ s : Sel, (s = .last ∨ s = .first) →
          goT req fa x (pre ++ [s]) e.single e ss = some (τ', k') →
          ∃ w, Ref.get env ⟨x, pre ++ s :: ss⟩ = some w ∧ w.hasTy req τ' = true ∧ (k' = true → w.filled = true) := by
        intro e he' hk s hs hg
        subst he'
        have hne := filled_items (h3 hk) h2
        have hmem := hasTy_slice h2
        have hget : ∃ w, s.get v = some w ∧ w ∈ v.items := by
          rcases hs with rfl | rfl
          · exact ⟨v.items.getLast hne, by simp [Sel.get, List.getLast?_eq_some_getLast hne], List.getLast_mem hne⟩
          · exact ⟨v.items.head hne, by simp [Sel.get, List.head?_eq_some_head hne], List.head_mem hne⟩
        obtain ⟨w, hw, hwm⟩ := hget
        have hget' : Ref.get env ⟨x, pre ++ [s]⟩ = some w := by
          rw [Ref.get_append, h1]
          simp [getSels, hw]
        have := goT_sound he ss (pre ++ [s]) e.single e w hget' (hmem w hwm).2 (fun hs => single_filled hs (hmem w hwm).2 (hmem w hwm).1) hg
        simpa using this
      cases s with
      | last =>
        simp only [goT] at h
        cases τ with
        | slice e =>
          simp only at h
          split at h
          · rename_i hk; exact elem e rfl hk .last (Or.inl rfl) h
          · simp at h
        | _ => simp at h
      | first =>
        simp only [goT] at h
        cases τ with
        | slice e =>
          simp only at h
          split at h
          · rename_i hk; exact elem e rfl hk .first (Or.inr rfl) h
          · simp at h
        | _ => simp at h
      | f i =>
        have key : ∀ t fs, v = .mk t fs → V.structTy req t fs = true →
            (match (schema t)[i]? with
              | some τ'' => goT req fa x (pre ++ [.f i]) (needed req fa x pre t i τ'' || fa.knows ⟨x, pre ++ [.f i]⟩ τ'') τ'' ss
              | none => none) = some (τ', k') →
            ∃ w, Ref.get env ⟨x, pre ++ .f i :: ss⟩ = some w ∧ w.hasTy req τ' = true ∧ (k' = true → w.filled = true) := by
          intro t fs hv hf hg
          cases hs : (schema t)[i]? with
          | none => simp [hs] at hg
          | some τ'' =>
            simp only [hs] at hg
            obtain ⟨w, hw1, hw2⟩ := fieldsTy_get (structTy_fields hf) hs
            have hget : Ref.get env ⟨x, pre ++ [.f i]⟩ = some w := by
              rw [Ref.get_append, h1, hv]
              simp [getSels, Sel.get, V.field, hw1]
            have := goT_sound he ss (pre ++ [.f i]) _ τ'' w hget hw2 (by
              intro hk
              rw [Bool.or_eq_true] at hk
              rcases hk with hk | hk
              · exact needed_sound he (by rw [h1, hv]) hf hw1 hw2 hk
              · exact he.knows hk hget hw2) hg
            simpa using this
        simp only [goT] at h
        cases τ with
        | val t =>
          obtain ⟨fs, hv, hf⟩ := hasTy_val h2
          exact key t fs hv hf h
        | ptr t =>
          simp only at h
          split at h
          · rename_i hk
            obtain ⟨fs, hv, hf⟩ := hasTy_ptr h2 (filled_nonNil (h3 hk))
            exact key t fs hv hf h
          · simp at h
        | iface ifc =>
          simp only at h
          split at h
          · rename_i t ht
            have := he.tyOf ht h1
            cases v with
            | mk t' fs =>
              simp [V.ty?] at this; subst this
              exact key t' fs rfl (hasTy_mk h2).2 h
            | _ => simp [V.ty?] at this
          · simp at h
        | _ => simp at h

theorem typeOf_sound {te fa env} (he : EnvOK req te fa env) {r : Ref} {τ k}
    (h : typeOf req te fa r = some (τ, k)) :
    ∃ w, r.get env = some w ∧ w.hasTy req τ = true ∧ (k = true → w.filled = true) := by
  obtain ⟨x, ss⟩ := r
  simp only [typeOf] at h
  cases hx : te[x]? with
  | none => simp [hx] at h
  | some τ0 =>
    simp only [hx] at h
    obtain ⟨v, h1, h2, h3⟩ := he.ty x τ0 hx
    have := goT_sound he ss [] τ0.single τ0 v (by simp [Ref.get, h1, getSels]) h2 (fun hs => single_filled hs h2 h3) h
    simpa using this

/-- One more path is known not to be nil. -/
def Facts.addNN (fa : Facts) (r : Ref) : Facts := { fa with nn := r :: fa.nn }

theorem EnvOK.guard {te fa env} (he : EnvOK req te fa env) {r : Ref} {v : V} (h : r.get env = some v)
    (hn : v.nonNil = true) : EnvOK req te (fa.addNN r) env where
  len := he.len
  ty := he.ty
  tys := he.tys
  lens := he.lens
  unset := he.unset
  known := by
    intro r' hr' w hw
    rcases List.mem_cons.1 hr' with rfl | hr'
    · rw [h] at hw; simp at hw; subst hw; exact hn
    · exact he.known r' hr' w hw

/-- Facts whose paths start at variables below `n`. -/
def Facts.below (fa : Facts) (n : Nat) : Bool :=
  fa.nn.all (fun r => r.var < n) && fa.tys.all (fun p => p.1.var < n) && fa.len.all (fun r => r.var < n) && fa.no.all (fun r => r.var < n)

theorem Ref.get_push {env : List V} {v : V} {r : Ref} (h : r.var < env.length) : r.get (env ++ [v]) = r.get env := by
  simp only [Ref.get]
  rw [List.getElem?_append_left h]

theorem EnvOK.push {te fa env} (he : EnvOK req te fa env) (hb : fa.below te.length = true) {e : FTy} {v : V}
    (h : v.hasTy req e = true) (hn : v.nonNil = true) : EnvOK req (te ++ [e]) fa (env ++ [v]) where
  len := by simp [he.len]
  ty := by
    intro x τ hx
    rcases Nat.lt_trichotomy x te.length with hlt | heq | hgt
    · rw [List.getElem?_append_left hlt] at hx
      obtain ⟨w, a, b⟩ := he.ty x τ hx
      exact ⟨w, by rw [List.getElem?_append_left (by rw [he.len]; exact hlt)]; exact a, b⟩
    · subst heq
      simp at hx; subst hx
      exact ⟨v, by rw [← he.len]; simp, h, hn⟩
    · rw [List.getElem?_eq_none (by simp; omega)] at hx; simp at hx
  known := by
    intro r hr w hw
    simp only [Facts.below, Bool.and_eq_true, List.all_eq_true, decide_eq_true_eq] at hb
    rw [Ref.get_push (by rw [he.len]; exact hb.1.1.1 r hr)] at hw
    exact he.known r hr w hw
  tys := by
    intro p hp w hw
    simp only [Facts.below, Bool.and_eq_true, List.all_eq_true, decide_eq_true_eq] at hb
    rw [Ref.get_push (by rw [he.len]; exact hb.1.1.2 p hp)] at hw
    exact he.tys p hp w hw
  lens := by
    intro r hr w hw
    simp only [Facts.below, Bool.and_eq_true, List.all_eq_true, decide_eq_true_eq] at hb
    rw [Ref.get_push (by rw [he.len]; exact hb.1.2 r hr)] at hw
    exact he.lens r hr w hw
  unset := by
    intro r hr w hw
    simp only [Facts.below, Bool.and_eq_true, List.all_eq_true, decide_eq_true_eq] at hb
    rw [Ref.get_push (by rw [he.len]; exact hb.2 r hr)] at hw
    exact he.unset r hr w hw

/-! ### Depth -/

theorem depth_le_depthL : ∀ {l : List V} {v : V}, v ∈ l → v.depth ≤ V.depthL l
  | [], v, h => by simp at h
  | a :: l, v, h => by
      simp only [V.depthL]
      rcases List.mem_cons.1 h with rfl | h
      · omega
      · have := depth_le_depthL h; omega

theorem depth_items {v w : V} (h : w ∈ v.items) : w.depth < v.depth := by
  cases v with
  | list l => simp only [V.items] at h; have := depth_le_depthL h; simp [V.depth]; omega
  | _ => simp [V.items] at h

theorem depth_field {v w : V} {i : Nat} (h : v.field i = some w) : w.depth < v.depth := by
  cases v with
  | mk t fs =>
    have := depth_le_depthL (List.mem_of_getElem? h)
    simp [V.depth]; omega
  | _ => simp [V.field] at h

theorem depth_getSels : ∀ {ss : List Sel} {v w : V}, getSels ss v = some w → w.depth ≤ v.depth ∧ (ss ≠ [] → w.depth < v.depth)
  | [], v, w, h => by simp [getSels] at h; subst h; simp
  | s :: ss, v, w, h => by
      simp only [getSels, Option.bind_eq_some_iff] at h
      obtain ⟨u, hu, h⟩ := h
      have h1 : u.depth < v.depth := by
        cases s with
        | f i => exact depth_field hu
        | last => exact depth_items (List.mem_of_getLast? hu)
        | first => exact depth_items (List.mem_of_mem_head? (show v.items.head? = some u from hu))
      have h2 := (depth_getSels h).1
      exact ⟨by omega, fun _ => by omega⟩

end Verif

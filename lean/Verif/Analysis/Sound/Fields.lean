/-
What the analysis says about fields, `Pos()` and `End()` of structs is true.
-/
import Verif.Analysis.Sound.Value

namespace Verif.An
open List (Forall₂)

variable {need : Ty → List PNeed} {input : Str} {Fn : Type} {tb : Tables Fn} {lx : Option Lx}

theorem forall₂_get {α β : Type} {R : α → β → Prop} : ∀ {l : List α} {m : List β}, Forall₂ R l m → ∀ {i : Nat} {a : α},
    l[i]? = some a → ∃ b, m[i]? = some b ∧ R a b
  | _, _, .nil, i, a, h => by simp at h
  | _, _, .cons h t, 0, a, ha => by simp at ha; subst ha; exact ⟨_, rfl, h⟩
  | _, _, .cons h t, i + 1, a, ha => by simp at ha; simpa using forall₂_get t ha

theorem forall₂_get' {α β : Type} {R : α → β → Prop} {l : List α} {m : List β} (h : Forall₂ R l m) {i : Nat} {b : β}
    (hb : m[i]? = some b) : ∃ a, l[i]? = some a ∧ R a b := by
  obtain ⟨a, h1, h2⟩ := forall₂_get (List.Forall₂.flip h) hb
  exact ⟨a, h1, h2⟩

theorem forall₂_set {α β : Type} {R : α → β → Prop} : ∀ {l : List α} {m : List β}, Forall₂ R l m → ∀ {i : Nat} {a : α} {b : β},
    R a b → Forall₂ R (l.set i a) (m.set i b)
  | _, _, .nil, i, _, _, _ => by simp
  | _, _, .cons h t, 0, _, _, r => .cons r t
  | _, _, .cons h t, i + 1, _, _, r => .cons h (forall₂_set t r)

/-- Replace only the abstract value. -/
theorem forall₂_set_left {α β : Type} {R : α → β → Prop} {l : List α} {m : List β} (h : Forall₂ R l m) {i : Nat} {a : α}
    (hr : ∀ b, m[i]? = some b → R a b) : Forall₂ R (l.set i a) m := by
  by_cases hi : i < m.length
  · have hb : m[i]? = some m[i] := List.getElem?_eq_getElem hi
    have := forall₂_set h (i := i) (hr _ hb)
    rwa [List.set_getElem_self] at this
  · rw [List.set_eq_of_length_le (by rw [h.length_eq]; omega)]; exact h

/-- Fields described by abstract values that do not refer to the lexer. -/
abbrev FieldsSem (need : Ty → List PNeed) (input : Str) (fs : List AV) (vs : List V) : Prop :=
  Forall₂ (fun a v => a.sem need input none v) fs vs

/-! ### Fields of finished structs -/

theorem needBound_mem {ns : List PNeed} {i : Nat} {k : Int} (h : needBound ns i = some k) : .bound i k ∈ ns := by
  unfold needBound at h
  obtain ⟨n, hn, h⟩ := List.exists_of_findSome?_eq_some h
  cases n <;> simp at h
  obtain ⟨rfl, rfl⟩ := h; exact hn

theorem needPos_mem {ns : List PNeed} {i : Nat} : needPos ns i = .top ∨ .pos i (needPos ns i) ∈ ns := by
  unfold needPos
  cases h : ns.findSome? _ with
  | none => left; rfl
  | some b =>
    right
    obtain ⟨n, hn, h⟩ := List.exists_of_findSome?_eq_some h
    cases n <;> simp at h
    obtain ⟨rfl, rfl⟩ := h; exact hn

theorem needEnd_mem {ns : List PNeed} {i : Nat} : needEnd ns i = .top ∨ .end_ i (needEnd ns i) ∈ ns := by
  unfold needEnd
  cases h : ns.findSome? _ with
  | none => left; rfl
  | some b =>
    right
    obtain ⟨n, hn, h⟩ := List.exists_of_findSome?_eq_some h
    cases n <;> simp at h
    obtain ⟨rfl, rfl⟩ := h; exact hn

theorem fieldAV_sound {t : Ty} {ns : List PNeed} {fs : List V} {i : Nat} {τ : FTy} {v : V} (hf : fs[i]? = some v)
    (hv : Good need input.length v τ) (hn : ∀ nd ∈ ns, nd.holds input.length t fs) :
    (fieldAV ns i τ).sem need input lx v := by
  have hp : allIn input.length false (needPos ns i) v := by
    rcases needPos_mem (ns := ns) (i := i) with h | h
    · rw [h]; exact allIn_top
    · obtain ⟨w, hw, h⟩ := hn _ h
      rw [hf] at hw; simp at hw; subst hw; exact h
  have he : allIn input.length true (needEnd ns i) v := by
    rcases needEnd_mem (ns := ns) (i := i) with h | h
    · rw [h]; exact allIn_top
    · obtain ⟨w, hw, h⟩ := hn _ h
      rw [hf] at hw; simp at hw; subst hw; exact h
  have num : (τ = .pos ∨ τ = .int) → (AV.nat (needBound ns i)).sem need input lx v := by
    intro hτ
    have : ∃ n, v = .nat n := by
      rcases hτ with rfl | rfl <;> cases v <;> simp [Good] at hv <;> simp
      all_goals simp [FTy.admits] at hv
    obtain ⟨n, rfl⟩ := this
    refine ⟨n, rfl, ?_⟩
    intro j hj
    obtain ⟨m, hm, hb⟩ := hn _ (needBound_mem hj)
    rw [hf] at hm; simp at hm; subst hm
    exact hb _ rfl
  have gen : (AV.ty τ (ns.contains (.filled i)) (needPos ns i) (needEnd ns i)).sem need input lx v := by
    refine ⟨hv, fun hc => ?_, hp, he⟩
    obtain ⟨w, hw, h⟩ := hn (.filled i) (by simpa using hc)
    rw [hf] at hw; simp at hw; subst hw; exact h
  cases τ with
  | pos => exact num (Or.inl rfl)
  | int => exact num (Or.inr rfl)
  | bool => cases v <;> simp [Good, FTy.admits] at hv; exact ⟨_, rfl, by simp⟩
  | str => cases v <;> simp [Good, FTy.admits] at hv; exact ⟨_, rfl, by simp⟩
  | val t =>
    refine ⟨hv, fun _ => ?_, hp, he⟩
    obtain ⟨fs, rfl, _⟩ := good_val.1 hv; rfl
  | ptr t => exact gen
  | iface t => exact gen
  | slice t => exact gen

theorem expandFrom_sound {t : Ty} {ns : List PNeed} {all : List V} (hn : ∀ nd ∈ ns, nd.holds input.length t all) :
    ∀ (τs : List FTy) (i : Nat) (vs : List V), all.drop i = vs → GoodF need input.length vs τs →
      FieldsSem need input (expandFrom ns i τs) vs := by
  intro τs
  induction τs with
  | nil =>
    intro i vs _ h
    cases vs <;> simp [GoodF] at h
    exact .nil
  | cons τ τs ih =>
    intro i vs hd h
    cases vs with
    | nil => simp [GoodF] at h
    | cons v vs =>
      simp only [GoodF] at h
      refine .cons (fieldAV_sound ?_ h.1 hn) (ih (i + 1) vs ?_ h.2)
      · have := congrArg (fun l => l[0]?) hd; simpa using this
      · have := congrArg List.tail hd; simpa using this

/-- The fields of a finished struct are as the table says. -/
theorem expand_sound {t : Ty} {fs : List V} (h : GoodS tb.need input.length t fs) :
    FieldsSem tb.need input (expand tb t) fs :=
  expandFrom_sound h.2 (schema t) 0 fs rfl h.1

theorem fields_sound {a : AV} {t : Ty} {fs : List AV} (h : a.fields tb = some (t, fs)) {v : V}
    (hv : a.sem tb.need input lx v) : v = .nil ∨ ∃ vs, v = .mk t vs ∧ FieldsSem tb.need input fs vs := by
  unfold AV.fields at h
  split at h
  · simp at h; obtain ⟨rfl, rfl⟩ := h
    rcases good_ptr.1 hv.1 with rfl | ⟨vs, rfl, hs⟩
    · left; rfl
    · exact Or.inr ⟨vs, rfl, expand_sound hs⟩
  · simp at h; obtain ⟨rfl, rfl⟩ := h
    obtain ⟨vs, rfl, hs⟩ := good_val.1 hv.1
    exact Or.inr ⟨vs, rfl, expand_sound hs⟩
  · simp at h

theorem there_sound {a : AV} (h : a.there = true) {v : V} (hv : a.sem tb.need input lx v) : v.nonNil = true := by
  unfold AV.there at h
  split at h
  · obtain ⟨vs, rfl, hs⟩ := good_val.1 hv.1; rfl
  · exact filled_nonNil (hv.2.1 h)
  · simp at h

theorem elemAV_sound {τ : FTy} {p e : PB} {v : V} (hg : Good need input.length v τ) (hn : v.nonNil = true)
    (hp : allIn input.length false p v) (he : allIn input.length true e v) : (elemAV τ p e).sem need input lx v := by
  have fil : (∀ σ, τ ≠ .slice σ) → v.filled = true := by
    intro h
    cases v with
    | nil => simp [V.nonNil] at hn
    | list l => obtain ⟨e, he, _⟩ := (good_list _ _).1 hg; exact absurd he (h e)
    | _ => rfl
  have mk0 : ∀ (σ : FTy), (σ = .pos ∨ σ = .int) → τ = σ → (AV.nat none).sem need input lx v := by
    intro σ hσ hτ
    subst hτ
    have : ∃ n, v = .nat n := by
      rcases hσ with rfl | rfl <;> cases v <;> simp [Good] at hg <;> simp
      all_goals simp [FTy.admits] at hg
    obtain ⟨n, rfl⟩ := this
    exact ⟨n, rfl, by intro j hj; simp at hj⟩
  cases τ with
  | pos => exact mk0 _ (Or.inl rfl) rfl
  | int => exact mk0 _ (Or.inr rfl) rfl
  | bool => cases v <;> simp [Good, FTy.admits] at hg; exact ⟨_, rfl, by simp⟩
  | str => cases v <;> simp [Good, FTy.admits] at hg; exact ⟨_, rfl, by simp⟩
  | slice σ => exact ⟨hg, by simp, hp, he⟩
  | val t => exact ⟨hg, fun _ => fil (by simp), hp, he⟩
  | ptr t => exact ⟨hg, fun _ => fil (by simp), hp, he⟩
  | iface t => exact ⟨hg, fun _ => fil (by simp), hp, he⟩

/-- The elements of a slice. -/
theorem slice_elem {τ : FTy} {nn : Bool} {p e : PB} {v w : V} (hv : (AV.ty (.slice τ) nn p e).sem need input lx v)
    (hw : w ∈ v.items) : (elemAV τ p e).sem need input lx w := by
  rcases good_slice.1 hv.1 with rfl | ⟨l, rfl, hl⟩
  · simp [V.items] at hw
  · simp only [V.items] at hw
    have h1 := hl w hw
    exact elemAV_sound h1.2 h1.1 (allInL_iff.1 hv.2.2.1 w hw) (allInL_iff.1 hv.2.2.2 w hw)

theorem slice_nonempty {τ : FTy} {p e : PB} {v : V} (hv : (AV.ty (.slice τ) true p e).sem need input lx v) : v.items ≠ [] := by
  have hf := hv.2.1 rfl
  rcases good_slice.1 hv.1 with rfl | ⟨l, rfl, hl⟩
  · simp [V.filled] at hf
  · cases l <;> simp [V.filled, V.items] at hf ⊢

/-! ### Paths -/

/-- What an `R` says about the value of a path. -/
def R.sem (need : Ty → List PNeed) (input : Str) (r : R) (o : Option V) : Prop :=
  match r with
  | .bad => True
  | .never => o = none
  | .ok safe a => (safe = true → o.isSome = true) ∧ ∀ w, o = some w → a.sem need input none w

theorem aSel_sound {s : Sel} {a : AV} {v : V} (hv : a.sem tb.need input none v) :
    (aSel tb s a).sem tb.need input (s.get v) := by
  have fld : ∀ i, (match a.fields tb with
      | some (_, fs) => match fs[i]? with
        | some b => R.ok a.there b
        | none => .bad
      | none => .bad).sem tb.need input (v.field i) := by
    intro i
    split
    · rename_i fs hf
      split
      · rename_i b hb
        rcases fields_sound hf hv with rfl | ⟨vs, rfl, hs⟩
        · refine ⟨fun h => ?_, by simp [V.field]⟩
          have := there_sound h hv; simp [V.nonNil] at this
        · obtain ⟨w, hw, hbw⟩ := forall₂_get hs hb
          refine ⟨fun _ => by simp [V.field, hw], fun w' hw' => ?_⟩
          simp [V.field, hw] at hw'; subst hw'; exact hbw
      · trivial
    · trivial
  have lst : ∀ τ nn p e, a = .ty (.slice τ) nn p e → (R.ok nn (elemAV τ p e)).sem tb.need input v.items.getLast? := by
    rintro τ nn p e rfl
    refine ⟨fun h => ?_, fun w hw => slice_elem hv (List.mem_of_getLast? hw)⟩
    subst h
    rw [List.getLast?_isSome]; exact slice_nonempty hv
  have fst : ∀ τ nn p e, a = .ty (.slice τ) nn p e → (R.ok nn (elemAV τ p e)).sem tb.need input v.items.head? := by
    rintro τ nn p e rfl
    refine ⟨fun h => ?_, fun w hw => slice_elem hv (List.mem_of_head? hw)⟩
    subst h
    have := slice_nonempty hv
    cases hi : v.items <;> simp_all
  unfold aSel
  split
  · split
    · simp only [AV.sem] at hv; subst hv; rfl
    · exact fld _
  · exact lst _ _ _ _ rfl
  · exact fst _ _ _ _ rfl
  · simp only [AV.sem] at hv; subst hv; rfl
  · simp only [AV.sem] at hv; subst hv; rfl
  · rcases hv with rfl | rfl <;> rfl
  · rcases hv with rfl | rfl <;> rfl
  · trivial

theorem aSels_sound : ∀ (ss : List Sel) {safe : Bool} {a : AV} {o : Option V},
    (R.ok safe a).sem tb.need input o → (aSels tb safe a ss).sem tb.need input (o.bind (getSels ss))
  | [], safe, a, o, h => by
    have : o.bind (getSels []) = o := by cases o <;> rfl
    rw [this]; exact h
  | s :: ss, safe, a, o, h => by
    unfold aSels
    split
    · rename_i sf b hb
      have : o.bind (getSels (s :: ss)) = (o.bind s.get).bind (getSels ss) := by cases o <;> rfl
      rw [this]
      refine aSels_sound ss ⟨fun hs => ?_, fun w hw => ?_⟩
      · rw [Bool.and_eq_true] at hs
        have h1 := h.1 hs.1
        obtain ⟨v, rfl⟩ := Option.isSome_iff_exists.1 h1
        have h2 := aSel_sound (s := s) (h.2 v rfl)
        rw [hb] at h2
        exact h2.1 hs.2
      · cases o with
        | none => simp at hw
        | some v =>
          have h2 := aSel_sound (s := s) (h.2 v rfl)
          rw [hb] at h2
          exact h2.2 w hw
    · rename_i r hr
      cases o with
      | none =>
        simp only [Option.bind_none]
        cases hx : aSel tb s a with
        | bad => trivial
        | never => rfl
        | ok sf b => exact absurd hx (hr sf b)
      | some v =>
        have h2 := aSel_sound (s := s) (h.2 v rfl)
        cases hx : aSel tb s a with
        | bad => trivial
        | never => rw [hx] at h2; simp only [R.sem] at h2 ⊢; simp [getSels, h2]
        | ok sf b => exact absurd hx (hr sf b)

theorem aRef_sound {fs : List AV} {vs : List V} {t : Ty} (h : FieldsSem tb.need input fs vs) (r : Ref) :
    (aRef tb fs r).sem tb.need input (r.get [.mk t vs]) := by
  unfold aRef
  split
  · rename_i i ss
    split
    · rename_i a ha
      obtain ⟨w, hw, hs⟩ := forall₂_get h ha
      have := aSels_sound (tb := tb) (input := input) ss (safe := true) (a := a) (o := some w) ⟨fun _ => rfl, fun w' h' => by simp at h'; subst h'; exact hs⟩
      simpa [Ref.get, getSels, Sel.get, V.field, hw] using this
    · trivial
  · trivial

/-! ### Conditions -/

theorem notNil_sound {a : AV} {b : Bool} (h : a.notNil? = some b) {v : V} (hv : a.sem need input lx v) : v.nonNil = b := by
  unfold AV.notNil? at h
  split at h
  · simp at h; subst h; simp only [AV.sem] at hv; subst hv; rfl
  · simp at h; subst h; simp only [AV.sem] at hv; subst hv; rfl
  · simp at h; subst h; obtain ⟨_, rfl, _⟩ := hv; rfl
  · simp at h; subst h; obtain ⟨_, rfl, _⟩ := hv; rfl
  · simp at h; subst h; obtain ⟨_, rfl, _⟩ := hv; rfl
  · split at h <;> simp at h
    rename_i hn; subst h; subst hn
    rcases hv with ⟨h, _⟩ | h
    · simp at h
    · exact h.nonNil
  · split at h <;> simp at h
    subst h
    rename_i hn
    rw [Bool.or_eq_true] at hn
    rcases hn with hn | hn
    · exact filled_nonNil (hv.2.1 hn)
    · cases v with
      | nil => have := (good_nil _ _).1 hv.1; simp [this] at hn
      | _ => rfl
  · simp at h

/-- `len(v) > 0`. -/
def _root_.Verif.V.lenPos : V → Bool
  | .str s => !s.isEmpty
  | v => !v.items.isEmpty

theorem eval_lenPos (c : Ctx) (r : Ref) : (Cond.lenPos r).eval c = (r.get c.env).bind (fun v => some v.lenPos) := by
  cases h : r.get c.env <;> simp [Cond.eval, h]
  rename_i v; cases v <;> rfl

theorem hasLen_sound {a : AV} {b : Bool} (h : a.hasLen? = some b) {v : V} (hv : a.sem need input lx v) :
    v.lenPos = b := by
  unfold AV.hasLen? at h
  split at h
  · simp at h; subst h; simp only [AV.sem] at hv; subst hv; rfl
  · simp at h; subst h; rcases hv with rfl | rfl <;> rfl
  · split at h <;> simp at h
    rename_i hn; subst h; subst hn
    have hne := slice_nonempty hv
    rcases good_slice.1 hv.1 with rfl | ⟨l, rfl, hl⟩
    · simp [V.items] at hne
    · simp only [V.items] at hne; simp [V.lenPos, V.items, hne]
  · simp at h

/-- What the outcomes of a condition say. -/
def CR.sem (need : Ty → List PNeed) (input : Str) (r : CR) (vs : List V) (o : Option Bool) : Prop :=
  (r.safe = true → o.isSome = true) ∧ ∀ b, o = some b → ∃ fs, (b, fs) ∈ r.outs ∧ FieldsSem need input fs vs

theorem cr_both {fs : List AV} {vs : List V} (h : FieldsSem need input fs vs) (o : Option Bool) :
    (CR.mk false [(true, fs), (false, fs)]).sem need input vs o := by
  refine ⟨by simp, ?_⟩
  rintro (_ | _) _
  · exact ⟨fs, by simp, h⟩
  · exact ⟨fs, by simp, h⟩

theorem cr_ofR {fs : List AV} {vs : List V} (h : FieldsSem need input fs vs) {r : R} {o : Option V}
    (hr : r.sem need input o) {f : AV → Option (List (Bool × List AV))} {g : V → Option Bool}
    (hf : ∀ safe a l w, r = .ok safe a → f a = some l → o = some w → a.sem need input none w →
      (CR.mk true l).sem need input vs (g w)) :
    (CR.ofR fs r f).sem need input vs (o.bind g) := by
  unfold CR.ofR
  split
  · exact cr_both h _
  · simp only [R.sem] at hr; subst hr; exact ⟨by simp, by simp⟩
  · rename_i safe a
    split
    · rename_i l hl
      refine ⟨fun hs => ?_, fun b hb => ?_⟩
      · obtain ⟨w, rfl⟩ := Option.isSome_iff_exists.1 (hr.1 hs)
        exact (hf safe a l w rfl hl rfl (hr.2 w rfl)).1 rfl
      · cases o with
        | none => simp at hb
        | some w => exact (hf safe a l w rfl hl rfl (hr.2 w rfl)).2 b hb
    · exact cr_both h _

theorem cr_bind {r : CR} {vs : List V} {o : Option Bool} (hr : r.sem need input vs o) {f : Bool × List AV → CR}
    {g : Bool → Option Bool} (hf : ∀ b fs, FieldsSem need input fs vs → (f (b, fs)).sem need input vs (g b)) :
    (r.bind f).sem need input vs (o.bind g) := by
  have key : ∀ (l : List (Bool × List AV)) (s : Bool),
      let q := l.foldr (fun p (acc : CR) => let q := f p; (⟨q.safe && acc.safe, q.outs ++ acc.outs⟩ : CR)) ⟨s, []⟩
      (q.safe = true → s = true ∧ ∀ p ∈ l, (f p).safe = true) ∧ ∀ p ∈ l, ∀ x ∈ (f p).outs, x ∈ q.outs := by
    intro l s
    induction l with
    | nil => simp
    | cons p l ih =>
      simp only [List.foldr_cons] at ih ⊢
      refine ⟨fun h => ?_, ?_⟩
      · rw [Bool.and_eq_true] at h
        obtain ⟨h1, h2⟩ := ih.1 h.2
        refine ⟨h1, ?_⟩
        rintro q hq
        rcases List.mem_cons.1 hq with rfl | hq
        · exact h.1
        · exact h2 q hq
      · rintro q hq x hx
        rcases List.mem_cons.1 hq with rfl | hq
        · exact List.mem_append_left _ hx
        · exact List.mem_append_right _ (ih.2 q hq x hx)
  obtain ⟨k1, k2⟩ := key r.outs r.safe
  refine ⟨fun h => ?_, fun b hb => ?_⟩
  · obtain ⟨h1, h2⟩ := k1 h
    obtain ⟨x, rfl⟩ := Option.isSome_iff_exists.1 (hr.1 h1)
    obtain ⟨fs, hm, hs⟩ := hr.2 x rfl
    exact (hf x fs hs).1 (h2 _ hm)
  · cases o with
    | none => simp at hb
    | some x =>
      obtain ⟨fs, hm, hs⟩ := hr.2 x rfl
      obtain ⟨fs', hm', hs'⟩ := (hf x fs hs).2 b hb
      exact ⟨fs', k2 _ hm _ hm', hs'⟩

theorem cr_one {fs : List AV} {vs : List V} (h : FieldsSem need input fs vs) (b : Bool) :
    (CR.mk true [(b, fs)]).sem need input vs (some b) :=
  ⟨by simp, fun b' hb => by simp at hb; subst hb; exact ⟨fs, by simp, h⟩⟩

theorem cr_two {fs gs : List AV} {vs : List V} {b : Bool} (h : b = true → FieldsSem need input fs vs)
    (h' : b = false → FieldsSem need input gs vs) :
    (CR.mk true [(true, fs), (false, gs)]).sem need input vs (some b) := by
  refine ⟨by simp, fun b' hb => ?_⟩
  simp at hb; subst hb
  cases b
  · exact ⟨gs, by simp, h' rfl⟩
  · exact ⟨fs, by simp, h rfl⟩

theorem setNN_sound {a : AV} {v : V} (hv : a.sem need input lx v) (hn : v.nonNil = true)
    (hs : ∀ τ nn p e, a ≠ .ty (.slice τ) nn p e) : a.setNN.sem need input lx v := by
  cases a with
  | ty τ nn p e =>
    refine ⟨hv.1, fun _ => ?_, hv.2.2⟩
    cases v with
    | nil => simp [V.nonNil] at hn
    | list l => obtain ⟨e', rfl, _⟩ := (good_list _ _).1 hv.1; exact absurd rfl (hs e' nn p e)
    | _ => rfl
  | err nn w =>
    rcases hv with ⟨_, rfl⟩ | h
    · simp [V.nonNil] at hn
    · exact Or.inr h
  | _ => exact hv

theorem setNil_sound {a : AV} {v : V} (hv : a.sem need input lx v) (hn : v.nonNil = false) : a.setNil.sem need input lx v := by
  have : v = .nil := by cases v <;> simp [V.nonNil] at hn; rfl
  subst this
  cases a with
  | ty τ nn p e => simp only [AV.setNil]; split <;> first | rfl | exact hv
  | err nn w => rfl
  | _ => exact hv

theorem ref_field {vs : List V} {t : Ty} {i : Nat} : Ref.get [.mk t vs] ⟨0, [.f i]⟩ = vs[i]? := by
  simp [Ref.get, getSels, Sel.get, V.field]

theorem slice_lenPos {v : V} {τ : FTy} (h : Good need input.length v (.slice τ)) :
    v.lenPos = !v.items.isEmpty := by
  rcases good_slice.1 h with rfl | ⟨l, rfl, _⟩ <;> rfl

/-- Conditions. -/
theorem aCond_sound {t : Ty} {vs : List V} : ∀ (c : Cond) {fs : List AV}, FieldsSem tb.need input fs vs →
    (aCond tb fs c).sem tb.need input vs (c.eval { env := [.mk t vs] }) := by
  intro c
  induction c with
  | nonNil r =>
    intro fs h
    unfold aCond
    split
    · rename_i heq; simp at heq; subst heq
      exact cr_one h true
    · rename_i r' _ heq; simp at heq; subst heq
      simp only [Cond.eval, Option.map_eq_bind]
      refine cr_ofR h (aRef_sound h r) ?_
      intro safe a l w _ hl ho hw
      simp only [Option.some.injEq] at hl
      simp only [Function.comp]
      split at hl
      · rename_i b hb; subst hl; rw [notNil_sound hb hw]; exact cr_one h b
      · split at hl
        · rename_i i
          rw [ref_field] at ho
          split at hl
          · subst hl
            refine cr_two (fun _ => h) (fun hn => forall₂_set_left h ?_)
            intro b hb
            rw [ho] at hb; simp at hb; subst hb
            cases w <;> simp [V.nonNil] at hn; rfl
          · rename_i hns
            subst hl
            refine cr_two (fun hn => forall₂_set_left h ?_) (fun hn => forall₂_set_left h ?_)
            · intro b hb
              rw [ho] at hb; simp at hb; subst hb
              exact setNN_sound hw hn (fun τ nn p e he => hns τ nn p e he)
            · intro b hb
              rw [ho] at hb; simp at hb; subst hb
              exact setNil_sound hw hn
        · subst hl; exact cr_two (fun _ => h) (fun _ => h)
    all_goals first
      | (rename_i heq; simp at heq; done)
      | exact cr_both h _
  | lenPos r =>
    intro fs h
    simp only [aCond]
    rw [eval_lenPos]
    refine cr_ofR h (aRef_sound h r) ?_
    intro safe a l w _ hl ho hw
    simp only [Option.some.injEq] at hl
    split at hl
    · rename_i b hb; subst hl; rw [hasLen_sound hb hw]; exact cr_one h b
    · split at hl
      · rename_i τ nn p e i
        rw [ref_field] at ho
        subst hl
        rw [slice_lenPos hw.1]
        refine cr_two (fun hn => forall₂_set_left h ?_) (fun hn => forall₂_set_left h ?_)
        · intro b hb
          rw [ho] at hb; simp at hb; subst hb
          refine ⟨hw.1, fun _ => ?_, hw.2.2⟩
          cases w <;> simp [V.items] at hn <;> simp [V.filled, hn]
        · intro b hb
          rw [ho] at hb; simp at hb; subst hb
          rcases good_slice.1 hw.1 with rfl | ⟨l, rfl, _⟩
          · left; rfl
          · right; simp [V.items] at hn; simp [hn]
      · subst hl; exact cr_two (fun _ => h) (fun _ => h)
  | isTrue r =>
    intro fs h
    simp only [aCond, Cond.eval]
    refine cr_ofR h (aRef_sound h r) ?_
    intro safe a l w _ hl ho hw
    split at hl <;> simp at hl
    · obtain ⟨x, rfl, hx⟩ := hw
      subst hl
      rw [← hx _ rfl]
      exact cr_one h x
    · obtain ⟨x, rfl, hx⟩ := hw
      subst hl
      exact cr_two (fun _ => h) (fun _ => h)
  | strEq r s =>
    intro fs h
    simp only [aCond, Cond.eval]
    refine cr_ofR h (aRef_sound h r) ?_
    intro safe a l w _ hl ho hw
    split at hl <;> simp at hl
    · obtain ⟨x, rfl, hx⟩ := hw
      subst hl
      exact cr_two (fun _ => h) (fun _ => h)
  | natEq r n =>
    intro fs h
    simp only [aCond, Cond.eval]
    refine cr_ofR h (aRef_sound h r) ?_
    intro safe a l w _ hl ho hw
    split at hl <;> simp at hl
    · simp only [AV.sem] at hw; subst hw
      subst hl
      have : decide (0 = n) = (n == 0) := by cases n <;> simp
      simp only [V.toNat?, Option.map_some, this]
      exact cr_one h _
    · obtain ⟨x, rfl, hx⟩ := hw
      subst hl
      exact cr_two (fun _ => h) (fun _ => h)
  | isTy r u =>
    intro fs h
    simp only [aCond, Cond.eval, Option.map_eq_bind]
    refine cr_ofR h (aRef_sound h r) ?_
    intro safe a l w _ hl ho hw
    simp at hl; subst hl
    exact cr_two (fun _ => h) (fun _ => h)
  | idxPos => intro fs h; exact cr_both h _
  | idxLast => intro fs h; exact cr_both h _
  | beautify => intro fs h; exact cr_both h _
  | flag => intro fs h; exact cr_both h _
  | not c ih =>
    intro fs h
    have := ih h
    simp only [aCond, Cond.eval]
    refine ⟨fun hs => by simpa using this.1 hs, fun b hb => ?_⟩
    simp only [Option.map_eq_some_iff] at hb
    obtain ⟨x, hx, rfl⟩ := hb
    obtain ⟨fs', hm, hs⟩ := this.2 x hx
    exact ⟨fs', List.mem_map.2 ⟨_, hm, rfl⟩, hs⟩
  | and a b iha ihb =>
    intro fs h
    simp only [aCond, Cond.eval]
    refine cr_bind (iha h) ?_
    rintro (_ | _) fs' h'
    · exact cr_one h' false
    · exact ihb h'
  | or a b iha ihb =>
    intro fs h
    simp only [aCond, Cond.eval]
    refine cr_bind (iha h) ?_
    rintro (_ | _) fs' h'
    · exact ihb h'
    · exact cr_one h' true

end Verif.An

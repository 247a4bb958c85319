/-
What the analysis says about `Pos()` and `End()`, and about finished structs, is true.
-/
import Verif.Analysis.Sound.Fields

namespace Verif.An
open List (Forall₂)

variable {need : Ty → List PNeed} {input : Str} {Fn : Type} {tb : Tables Fn} {lx : Option Lx}

/-! ### The recursion bound of `Pos()` and `End()` does not matter -/

/-- All calls are on parts of the receiver. -/
def proper : PExp → Bool
  | .pos r _ => !r.sels.isEmpty
  | .end_ r _ => !r.sels.isEmpty
  | .plus e _ => proper e
  | .plusLen e _ => proper e
  | .ite _ a b => proper a && proper b
  | _ => true

theorem posTable_proper : ∀ t : Ty, proper (posBody t) = true := by intro t; cases t <;> rfl
theorem endTable_proper : ∀ t : Ty, proper (endBody t) = true := by intro t; cases t <;> rfl

/-- A method with a nil receiver panics or returns 0. -/
theorem posTable_nil : ∀ t : Ty, (posBody t).eval (posEndF 0) .nil = none ∨ (posBody t).eval (posEndF 0) .nil = some 0 := by
  intro t; cases t <;> first | exact Or.inl rfl | exact Or.inr rfl
theorem endTable_nil : ∀ t : Ty, (endBody t).eval (posEndF 0) .nil = none ∨ (endBody t).eval (posEndF 0) .nil = some 0 := by
  intro t; cases t <;> first | exact Or.inl rfl | exact Or.inr rfl

theorem ends_nil (which : Bool) (t : Ty) : posEndF 1 which t .nil = none ∨ posEndF 1 which t .nil = some 0 := by
  cases which
  · exact posTable_nil t
  · exact endTable_nil t

theorem ref_depth {r : Ref} {v w : V} (hr : (!r.sels.isEmpty) = true) (h : r.get [v] = some w) : w.depth < v.depth := by
  unfold Ref.get at h
  have hv : r.var = 0 := by
    cases hr0 : r.var with
    | zero => rfl
    | succ n => rw [hr0] at h; simp at h
  rw [hv] at h
  simp only [List.getElem?_cons_zero, Option.bind_some] at h
  exact (depth_getSels h).2 (by intro e; simp [e] at hr)

theorem pexp_congr {c c' : Bool → Ty → V → Option Nat} {v : V} (h : ∀ w, w.depth < v.depth → ∀ b t, c b t w = c' b t w) :
    ∀ (e : PExp), proper e = true → e.eval c v = e.eval c' v := by
  intro e
  induction e with
  | const n => intro _; rfl
  | field r => intro _; rfl
  | pos r s =>
    intro hp
    simp only [PExp.eval]
    cases hr : r.get [v] with
    | none => rfl
    | some w =>
      simp only [Option.bind_some]
      cases s.dispatch w with
      | none => rfl
      | some t => exact h w (ref_depth hp hr) _ _
  | end_ r s =>
    intro hp
    simp only [PExp.eval]
    cases hr : r.get [v] with
    | none => rfl
    | some w =>
      simp only [Option.bind_some]
      cases s.dispatch w with
      | none => rfl
      | some t => exact h w (ref_depth hp hr) _ _
  | plus e n ih => intro hp; simp only [PExp.eval, ih hp]
  | plusLen e r ih => intro hp; simp only [PExp.eval, ih hp]
  | ite c a b iha ihb =>
    intro hp
    simp only [proper, Bool.and_eq_true] at hp
    simp only [PExp.eval, iha hp.1, ihb hp.2]

theorem posEndF_fuel : ∀ (d : Nat) (v : V), v.depth ≤ d → ∀ (n m : Nat), v.depth < n → v.depth < m → ∀ (which : Bool) (t : Ty),
    posEndF n which t v = posEndF m which t v := by
  intro d
  induction d using Nat.strongRecOn with
  | _ d ih =>
    intro v hv n m hn hm which t
    cases n with
    | zero => omega
    | succ n =>
      cases m with
      | zero => omega
      | succ m =>
        simp only [posEndF]
        refine pexp_congr (fun w hw b u => ?_) _ (by cases which; exact posTable_proper t; exact endTable_proper t)
        exact ih w.depth (by omega) w (Nat.le_refl _) n m (by omega) (by omega) b u

/-- A call of `Pos()` or `End()` of a part. -/
def callEnds (which : Bool) (s : Static) (v : V) : Option Nat :=
  (s.dispatch v).bind (fun t => posEndF (v.depth + 1) which t v)

theorem endsOf_mk (which : Bool) (t : Ty) (fs : List V) :
    endsOf which (.mk t fs) = posEndF ((V.mk t fs).depth + 1) which t (.mk t fs) := rfl

/-- `Pos()` and `End()` of a value. -/
theorem av_ends_sound {a : AV} {v : V} (hv : a.sem need input lx v) (which : Bool) {s : Static} (hs : a.isStatic s = true) :
    (a.ends which).res input.length (callEnds which s v) := by
  have nilp : ∀ {k : Option Int}, (⟨false, boundMax k (some 0)⟩ : PB).res input.length (callEnds which s .nil) := by
    intro k
    refine ⟨by simp, fun n hn => ?_⟩
    cases s with
    | iface => simp [callEnds, Static.dispatch, V.ty?] at hn
    | ptr t =>
      have : callEnds which (.ptr t) .nil = posEndF 1 which t .nil := rfl
      rw [this] at hn
      rcases ends_nil which t with h | h <;> rw [h] at hn <;> simp at hn
      subst hn
      exact under_max_right (by intro j hj; simp at hj; omega)
  have weak : ∀ {p : PB} {r : Option Nat}, p.res input.length r → (⟨false, boundMax p.k (some 0)⟩ : PB).res input.length r := by
    intro p r h
    exact ⟨by simp, fun n hn => under_max_left (h.2 n hn)⟩
  have mk0 : ∀ {t : Ty} {vs : List V} {p e : PB}, (s = .ptr t ∨ s = .iface) → allIn input.length false p (.mk t vs) →
      allIn input.length true e (.mk t vs) → (if which then e else p).res input.length (callEnds which s (.mk t vs)) := by
    intro t vs p e hst hp he
    have : callEnds which s (.mk t vs) = endsOf which (.mk t vs) := by
      rcases hst with rfl | rfl <;> rfl
    rw [this]
    cases which
    · exact hp
    · exact he
  cases a with
  | ty τ nn p e =>
    obtain ⟨hg, hf, hp, he⟩ := hv
    cases τ with
    | ptr t =>
      have hst : s = .ptr t ∨ s = .iface := by
        cases s with
        | iface => right; rfl
        | ptr u => left; simp [AV.isStatic] at hs; rw [hs]
      simp only [AV.ends]
      rcases good_ptr.1 hg with rfl | ⟨vs, rfl, _⟩
      · cases nn with
        | true => simp [V.filled] at hf
        | false => exact nilp
      · cases nn with
        | true => exact mk0 hst hp he
        | false => exact weak (mk0 hst hp he)
    | val t =>
      have hst : s = .ptr t ∨ s = .iface := by
        cases s with
        | iface => right; rfl
        | ptr u => left; simp [AV.isStatic] at hs; rw [hs]
      simp only [AV.ends]
      obtain ⟨vs, rfl, _⟩ := good_val.1 hg
      exact mk0 hst hp he
    | iface i =>
      have hst : s = .iface := by
        cases s with
        | iface => rfl
        | ptr u => simp [AV.isStatic] at hs
      simp only [AV.ends]
      rcases good_iface.1 hg with rfl | ⟨t, vs, rfl, _, _⟩
      · cases nn with
        | true => simp [V.filled] at hf
        | false => exact nilp
      · cases nn with
        | true => exact mk0 (Or.inr hst) hp he
        | false => exact weak (mk0 (Or.inr hst) hp he)
    | _ => exact PB.res_top
  | nil =>
    simp only [AV.sem] at hv; subst hv
    have := nilp (k := some 0)
    simpa [AV.ends, boundMax] using this
  | _ => exact PB.res_top

theorem r_ends_sound {r : R} {o : Option V} (h : r.sem need input o) (which : Bool) (s : Static) :
    (r.ends which s).res input.length (o.bind (callEnds which s)) := by
  unfold R.ends
  split
  · exact PB.res_top
  · simp only [R.sem] at h; subst h; exact ⟨by simp, by simp⟩
  · rename_i safe a
    split
    · rename_i hs
      refine ⟨fun hh => ?_, fun n hn => ?_⟩
      · rw [Bool.and_eq_true] at hh
        obtain ⟨v, rfl⟩ := Option.isSome_iff_exists.1 (h.1 hh.1)
        exact (av_ends_sound (h.2 v rfl) which hs).1 hh.2
      · cases o with
        | none => simp at hn
        | some v => exact (av_ends_sound (h.2 v rfl) which hs).2 n hn
    · exact PB.res_top

theorem eval_call {t : Ty} {vs : List V} {r : Ref} {s : Static} {which : Bool} (hp : (!r.sels.isEmpty) = true) :
    ((r.get [V.mk t vs]).bind (fun v => (s.dispatch v).bind (fun u => posEndF (V.mk t vs).depth which u v))) =
    (r.get [V.mk t vs]).bind (callEnds which s) := by
  cases hr : r.get [V.mk t vs] with
  | none => rfl
  | some w =>
    have hd := ref_depth hp hr
    simp only [Option.bind_some, callEnds]
    cases s.dispatch w with
    | none => rfl
    | some u => exact posEndF_fuel w.depth w (Nat.le_refl _) _ _ (by omega) (by omega) _ _

theorem res_plus {b : PB} {r : Option Nat} (h : b.res input.length r) (n : Nat) :
    (⟨b.safe, b.k.map (· + (n : Int))⟩ : PB).res input.length (r.map (· + n)) := by
  refine ⟨fun hs => by simpa using h.1 hs, fun m hm j hj => ?_⟩
  simp only [Option.map_eq_some_iff] at hm hj
  obtain ⟨a, ha, rfl⟩ := hm
  obtain ⟨k, hk, rfl⟩ := hj
  have := h.2 a ha k hk
  push_cast
  omega

theorem aPExp_sound {t : Ty} {vs : List V} : ∀ (e : PExp), proper e = true → ∀ {fs : List AV}, FieldsSem tb.need input fs vs →
    (aPExp tb fs e).res input.length (e.eval (posEndF (V.mk t vs).depth) (.mk t vs)) := by
  intro e
  induction e with
  | const n =>
    intro _ fs h
    refine ⟨by simp [PExp.eval], fun m hm j hj => ?_⟩
    simp only [PExp.eval, aPExp, Option.some.injEq] at hm hj; omega
  | field r =>
    intro _ fs h
    have hr := aRef_sound (tb := tb) (t := t) h r
    simp only [aPExp, PExp.eval]
    split
    · exact PB.res_top
    · rename_i hb; rw [hb] at hr; simp only [R.sem] at hr; rw [hr]; exact ⟨by simp, by simp⟩
    · rename_i safe a hb
      rw [hb] at hr
      split
      · refine ⟨fun hs => ?_, fun n hn j hj => ?_⟩
        · obtain ⟨v, hv⟩ := Option.isSome_iff_exists.1 (hr.1 hs)
          have := hr.2 v hv
          simp only [AV.sem] at this; rw [hv, this]; rfl
        · cases hg : r.get [V.mk t vs] with
          | none => rw [hg] at hn; simp at hn
          | some v =>
            have := hr.2 v hg
            simp only [AV.sem] at this; rw [hg, this] at hn
            simp [V.toNat?] at hn; simp at hj; omega
      · refine ⟨fun hs => ?_, fun n hn => ?_⟩
        · obtain ⟨v, hv⟩ := Option.isSome_iff_exists.1 (hr.1 hs)
          obtain ⟨m, rfl, _⟩ := hr.2 v hv
          rw [hv]; rfl
        · cases hg : r.get [V.mk t vs] with
          | none => rw [hg] at hn; simp at hn
          | some v =>
            obtain ⟨m, rfl, hm⟩ := hr.2 v hg
            rw [hg] at hn; simp [V.toNat?] at hn; subst hn; exact hm
      · exact PB.res_top
  | pos r s =>
    intro hp fs h
    simp only [aPExp, PExp.eval]
    rw [eval_call hp]
    exact r_ends_sound (aRef_sound h r) false s
  | end_ r s =>
    intro hp fs h
    simp only [aPExp, PExp.eval]
    rw [eval_call hp]
    exact r_ends_sound (aRef_sound h r) true s
  | plus e n ih =>
    intro hp fs h
    exact res_plus (ih hp h) n
  | plusLen e r ih => intro _ fs h; exact PB.res_top
  | ite c a b iha ihb =>
    intro hp fs h
    simp only [proper, Bool.and_eq_true] at hp
    have hc := aCond_sound (tb := tb) (t := t) c h
    simp only [aPExp, PExp.eval]
    have key : ∀ (l : List (Bool × List AV)) (s : PB),
        let q := l.foldr (fun p acc => (if p.1 then aPExp tb p.2 a else aPExp tb p.2 b).max acc) s
        (q.safe = true → s.safe = true) ∧
          ∀ p ∈ l, ∀ r, (if p.1 then aPExp tb p.2 a else aPExp tb p.2 b).res input.length r → q.res input.length r := by
      intro l s
      induction l with
      | nil => simp
      | cons p l ih =>
        simp only [List.foldr_cons] at ih ⊢
        refine ⟨fun hs => ih.1 ?_, ?_⟩
        · simp [PB.max] at hs; exact hs.2
        · intro q hq r hr
          rcases List.mem_cons.1 hq with rfl | hq
          · exact PB.res_max_left hr
          · exact PB.res_max_right (ih.2 q hq r hr)
    obtain ⟨k1, k2⟩ := key (aCond tb fs c).outs ⟨(aCond tb fs c).safe, some (-1000)⟩
    cases ho : c.eval { env := [V.mk t vs] } with
    | none =>
      refine ⟨fun hs => ?_, by simp⟩
      have := hc.1 (k1 hs)
      rw [ho] at this; simp at this
    | some x =>
      obtain ⟨fs', hm, hs⟩ := hc.2 x ho
      refine k2 _ hm _ ?_
      simp only [Option.bind_some]
      cases x
      · exact ihb hp.2 hs
      · exact iha hp.1 hs

/-- `Pos()` and `End()` of a struct. -/
theorem structEnds_sound {t : Ty} {fs : List AV} {vs : List V} (h : FieldsSem tb.need input fs vs) (which : Bool) :
    (structEnds tb which t fs).res input.length (endsOf which (.mk t vs)) := by
  rw [endsOf_mk]
  exact aPExp_sound _ (by cases which; exact posTable_proper t; exact endTable_proper t) h

/-! ### Finished structs -/

theorem fits_sound {a : AV} {τ : FTy} (h : a.fits τ = true) {v : V} (hv : a.sem need input lx v) : Good need input.length v τ := by
  have num : ∀ n, (τ == .pos || τ == .int) = true → Good need input.length (.nat n) τ := by
    intro n hn
    rw [good_nat]; simpa using hn
  unfold AV.fits at h
  split at h
  · simp only [AV.sem] at hv; subst hv; exact nullable_nil h
  · simp only [AV.sem] at hv; subst hv; exact num _ h
  · obtain ⟨n, rfl, _⟩ := hv; exact num _ h
  · obtain ⟨n, rfl, _⟩ := hv; rw [good_bool]; simpa using h
  · obtain ⟨n, rfl, _⟩ := hv; rw [good_str]; simpa using h
  · exact (sem_empty_ty (need := need) (input := input) (lx := none) (p := .top) (e := .top) h hv).1
  · rename_i σ nn p e
    split at h
    · rename_i t
      rw [good_val]
      simp only [Bool.or_eq_true, Bool.and_eq_true, beq_iff_eq] at h
      rcases h with ⟨hn, rfl | rfl⟩ | rfl
      · rcases good_ptr.1 hv.1 with rfl | h
        · have := hv.2.1 hn; simp [V.filled] at this
        · exact h
      · exact good_val.1 hv.1
      · exact good_val.1 hv.1
    · exact tyLe_sound h hv.1
  · simp at h

theorem isFilled_sound {a : AV} (h : a.isFilled = true) {v : V} (hv : a.sem need input lx v) : v.filled = true := by
  unfold AV.isFilled at h
  split at h
  · simp only [AV.sem] at hv; subst hv; rfl
  · obtain ⟨_, rfl, _⟩ := hv; rfl
  · obtain ⟨_, rfl, _⟩ := hv; rfl
  · obtain ⟨_, rfl, _⟩ := hv; rfl
  · subst h
    rcases hv with ⟨h, _⟩ | h
    · simp at h
    · rcases h with ⟨_, _, _, _, rfl, _⟩ | ⟨_, _, rfl⟩ <;> rfl
  · rw [Bool.or_eq_true] at h
    rcases h with h | h
    · exact hv.2.1 h
    · split at h
      · obtain ⟨_, rfl, _⟩ := good_val.1 hv.1; rfl
      · simp at h
  · simp at h

theorem isSet_sound {a : AV} (h : a.isSet = true) {v : V} (hv : a.sem need input lx v) : v.isSet = true := by
  unfold AV.isSet at h
  split at h
  · obtain ⟨_, rfl, h⟩ := hv; exact h _ rfl
  · rename_i τ nn p e
    rw [Bool.or_eq_true] at h
    rcases h with h | h
    · simp only [Bool.and_eq_true, Bool.not_eq_true', Bool.or_eq_false_iff, beq_eq_false_iff_ne] at h
      obtain ⟨hn, ⟨⟨h1, h2⟩, h3⟩, h4⟩ := h
      have hf := hv.2.1 hn
      have hg := hv.1
      cases v with
      | nil => simp [V.filled] at hf
      | nat n => rcases (good_nat _ _).1 hg with rfl | rfl <;> simp at h2 h3
      | bool n => exact absurd ((good_bool _ _).1 hg) h4
      | str n => exact absurd ((good_str _ _).1 hg) h1
      | list l => exact hf
      | mk t fs => rfl
    · split at h
      · obtain ⟨_, rfl, _⟩ := good_val.1 hv.1; rfl
      · simp at h
  · simp at h

theorem allEnds_sound {a : AV} {which : Bool} {b : PB} (h : a.allEnds which b = true) {v : V} (hv : a.sem need input lx v) :
    allIn input.length which b v := by
  unfold AV.allEnds at h
  split at h
  · simp only [AV.sem] at hv; subst hv; trivial
  · rcases hv with rfl | rfl <;> trivial
  · cases which
    · exact allIn_mono hv.2.2.1 h
    · exact allIn_mono hv.2.2.2 h
  · simp at h

theorem getD_map {α : Type} {o : Option α} {f : α → Bool} (h : (o.map f).getD false = true) : ∃ a, o = some a ∧ f a = true := by
  cases o with
  | none => simp at h
  | some a => exact ⟨a, rfl, by simpa using h⟩

theorem need_check_sound {t : Ty} {fs : List AV} {vs : List V} (hs : FieldsSem tb.need input fs vs) {nd : PNeed}
    {p e : PB} (hp : p.res input.length (endsOf false (.mk t vs))) (he : e.res input.length (endsOf true (.mk t vs)))
    (h : nd.check fs p e = true) : nd.holds input.length t vs := by
  cases nd with
  | filled i =>
    obtain ⟨a, ha, h⟩ := getD_map h
    obtain ⟨v, hv, hav⟩ := forall₂_get hs ha
    exact ⟨v, hv, isFilled_sound h hav⟩
  | either i j =>
    simp only [PNeed.check, Bool.or_eq_true] at h
    rcases h with h | h
    · obtain ⟨a, ha, h⟩ := getD_map h
      obtain ⟨v, hv, hav⟩ := forall₂_get hs ha
      exact Or.inl ⟨v, hv, isSet_sound h hav⟩
    · obtain ⟨a, ha, h⟩ := getD_map h
      obtain ⟨v, hv, hav⟩ := forall₂_get hs ha
      exact Or.inr ⟨v, hv, isSet_sound h hav⟩
  | bound i k =>
    simp only [PNeed.check] at h
    split at h
    · rename_i ha
      obtain ⟨v, hv, hav⟩ := forall₂_get hs ha
      simp only [AV.sem] at hav; subst hav
      simp at h
      exact ⟨0, hv, by intro j hj; simp at hj; omega⟩
    · rename_i ha
      obtain ⟨v, hv, n, rfl, hn⟩ := forall₂_get hs ha
      exact ⟨n, hv, under_mono hn h⟩
    · simp at h
  | pos i b =>
    obtain ⟨a, ha, h⟩ := getD_map h
    obtain ⟨v, hv, hav⟩ := forall₂_get hs ha
    exact ⟨v, hv, allEnds_sound h hav⟩
  | end_ i b =>
    obtain ⟨a, ha, h⟩ := getD_map h
    obtain ⟨v, hv, hav⟩ := forall₂_get hs ha
    exact ⟨v, hv, allEnds_sound h hav⟩
  | lenGe i j => simp [PNeed.check] at h
  | own which b => cases which
                   · exact PB.res_mono hp h
                   · exact PB.res_mono he h

theorem all2_forall₂ {α β : Type} {p : α → β → Bool} : ∀ {l : List α} {m : List β}, all2 p l m = true ↔ Forall₂ (fun a b => p a b = true) l m
  | [], [] => by simp [all2]
  | [], _ :: _ => by simp [all2]
  | _ :: _, [] => by simp [all2]
  | a :: l, b :: m => by simp [all2, all2_forall₂ (l := l) (m := m)]

theorem goodF_of_fits {fs : List AV} {vs : List V} {τs : List FTy} (h : Forall₂ (fun a b => AV.fits a b = true) fs τs)
    (hs : FieldsSem need input fs vs) : GoodF need input.length vs τs := by
  induction h generalizing vs with
  | nil => cases hs; trivial
  | cons h _ ih =>
    cases hs with
    | cons h1 h2 => exact ⟨fits_sound h h1, ih h2⟩

theorem doneOK_sound {t : Ty} {fs : List AV} {p e : PB} (h : doneOK tb t fs p e = true) {vs : List V} (hs : FieldsSem tb.need input fs vs)
    (hp : p.res input.length (endsOf false (.mk t vs))) (he : e.res input.length (endsOf true (.mk t vs))) :
    GoodS tb.need input.length t vs := by
  simp only [doneOK, Bool.and_eq_true, all2_forall₂, List.all_eq_true] at h
  exact ⟨goodF_of_fits h.1 hs, fun nd hn => need_check_sound hs hp he (h.2 nd hn)⟩

theorem errOK_sound {fs : List AV} (h : errOK fs = true) {vs : List V} (hs : FieldsSem need input fs vs) :
    IsErr input false (.mk .ParseError vs) := by
  unfold errOK at h
  split at h
  · rename_i p l c rest
    simp only [Bool.and_eq_true, beq_iff_eq, decide_eq_true_eq] at h
    obtain ⟨⟨⟨h1, rfl⟩, rfl⟩, h4⟩ := h
    cases hs with | cons a1 hs =>
    cases hs with | cons a2 hs =>
    cases hs with | cons a3 hs =>
    obtain ⟨n, rfl, hn⟩ := AV.le_sound h1 a1
    simp only [AV.sem] at a2 a3
    subst a2 a3
    have := hn 0 rfl
    refine Or.inl ⟨n, 0, 0, _, rfl, by omega, by rw [← hs.length_eq]; exact h4, Or.inl ⟨rfl, rfl, rfl⟩⟩
  · simp at h

/-! ### Values with details -/

/-- `v` is described by `x`. -/
def XV.sem (need : Ty → List PNeed) (input : Str) (lx : Option Lx) (v : V) : XV → Prop
  | .v a => a.sem need input lx v
  | .obj t fs p e => ∃ vs, v = .mk t vs ∧ FieldsSem need input fs vs ∧
      p.res input.length (endsOf false v) ∧ e.res input.length (endsOf true v)

theorem XV.sem_mono {x : XV} {v : V} (h : x.sem need input none v) : x.sem need input lx v := by
  cases x with
  | v a => exact AV.sem_mono h
  | obj => exact h

/-- All conditions of a list are met. -/
def EvsOK (tb : Tables Fn) (sg : Sig) (l : List (Ev Fn)) : Prop := ∀ e ∈ l, Ev.ok tb sg e = true

variable {sg : Sig}

theorem evs_append {a b : List (Ev Fn)} : EvsOK tb sg (a ++ b) ↔ EvsOK tb sg a ∧ EvsOK tb sg b := by
  simp [EvsOK, or_imp, forall_and]
theorem evs_cons {a : Ev Fn} {b : List (Ev Fn)} : EvsOK tb sg (a :: b) ↔ Ev.ok tb sg a = true ∧ EvsOK tb sg b := by
  simp [EvsOK]
theorem evs_nil : EvsOK tb sg ([] : List (Ev Fn)) := by simp [EvsOK]

theorem weaken_sound {x : XV} {v : V} (hv : x.sem tb.need input lx v) (h : EvsOK tb sg (weaken tb x).2) :
    (weaken tb x).1.sem tb.need input lx v := by
  unfold weaken at h ⊢
  split
  · exact hv
  · obtain ⟨vs, rfl, hs, _, _⟩ := hv
    have : errOK _ = true := h _ (List.mem_singleton.2 rfl)
    exact Or.inr (errOK_sound this hs)
  · rename_i t fs p e hne
    obtain ⟨vs, rfl, hs, hp, he⟩ := hv
    have hp' := PB.res_meet hp (structEnds_sound (tb := tb) hs false)
    have he' := PB.res_meet he (structEnds_sound (tb := tb) hs true)
    have : doneOK tb t fs (p.meet (structEnds tb false t fs)) (e.meet (structEnds tb true t fs)) = true := by
      have := h (.done t fs (p.meet (structEnds tb false t fs)) (e.meet (structEnds tb true t fs))) (by simp)
      exact this
    exact ⟨good_ptr.2 (Or.inr ⟨vs, rfl, doneOK_sound this hs hp' he'⟩), fun _ => rfl, hp', he'⟩

theorem open_sound {a : AV} {x : XV} (h : a.open tb = some x) {v : V} (hv : a.sem tb.need input lx v) : x.sem tb.need input lx v := by
  unfold AV.open at h
  split at h
  · simp at h; subst h
    rcases good_ptr.1 hv.1 with rfl | ⟨vs, rfl, hs⟩
    · have := hv.2.1 rfl; simp [V.filled] at this
    · exact ⟨vs, rfl, expand_sound hs, hv.2.2.1, hv.2.2.2⟩
  · simp at h; subst h
    obtain ⟨vs, rfl, hs⟩ := good_val.1 hv.1
    exact ⟨vs, rfl, expand_sound hs, hv.2.2.1, hv.2.2.2⟩
  · simp at h

end Verif.An

/-
The analysis of expressions is sound.
-/
import Verif.Analysis.Sound.State

namespace Verif.An
open List (Forall₂)

variable {Fn : Type} {tb : Tables Fn} {sg : Sig} {input : Str} {hs : List Lx} {fr : Frame} {s : PS} {st : AS} {ln : Nat}

/-- The outcomes and conditions cover the result of an expression; `none` is a panic. -/
def ESem (tb : Tables Fn) (sg : Sig) (input : Str) (hs : List Lx) (fr : Frame) (s : PS) (ln : Nat) (r : ER Fn) (res : Option V) : Prop :=
  EvsOK tb sg r.evs →
    (∀ v, res = some v → ∃ x st, (x, st) ∈ r.outs ∧ XV.sem tb.need input (some s.lx) v x ∧ ASem tb input st hs fr s) ∧
    (res = none → ln ∈ tb.bad)

theorem panic_bad {l : List (Ev Fn)} (h : EvsOK tb sg l) (hp : .panic ln ∈ l) : ln ∈ tb.bad := by
  have := h _ hp
  simpa [Ev.ok, List.contains_iff_mem] using this

theorem evs_if {c : Bool} (h : EvsOK tb sg (if c then [] else [.panic ln])) : c = true ∨ ln ∈ tb.bad := by
  cases c with
  | true => exact Or.inl rfl
  | false => exact Or.inr (panic_bad h (by simp))

theorem er_fold {α : Type} (f : α → ER Fn) (e : List (Ev Fn)) (l : List α) :
    let r := l.foldr (fun p (acc : ER Fn) => (⟨(f p).outs ++ acc.outs, (f p).evs ++ acc.evs⟩ : ER Fn)) ⟨[], e⟩
    (∀ x, x ∈ r.outs ↔ ∃ p ∈ l, x ∈ (f p).outs) ∧ (EvsOK tb sg r.evs ↔ (∀ p ∈ l, EvsOK tb sg (f p).evs) ∧ EvsOK tb sg e) := by
  induction l with
  | nil => simp
  | cons a l ih =>
    simp only [List.foldr_cons, List.mem_append, List.mem_cons, exists_eq_or_imp, evs_append, forall_eq_or_imp] at ih ⊢
    constructor
    · intro x; rw [ih.1]
    · rw [ih.2, and_assoc]

theorem esem_bind {r : ER Fn} {f : XV → AS → ER Fn} {o res : Option V} (hr : ESem tb sg input hs fr s ln r o)
    (hf : ∀ x st v, o = some v → x.sem tb.need input (some s.lx) v → ASem tb input st hs fr s →
      ESem tb sg input hs fr s ln (f x st) res)
    (hn : o = none → res = none) : ESem tb sg input hs fr s ln (r.bind f) res := by
  have hsp := er_fold (tb := tb) (sg := sg) (fun p : XV × AS => f p.1 p.2) r.evs r.outs
  have hd : r.bind f = r.outs.foldr (fun p (acc : ER Fn) => (⟨(f p.1 p.2).outs ++ acc.outs, (f p.1 p.2).evs ++ acc.evs⟩ : ER Fn)) ⟨[], r.evs⟩ := rfl
  rw [← hd] at hsp
  intro he
  have he' := hsp.2.1 he
  obtain ⟨h1, h2⟩ := hr he'.2
  cases ho : o with
  | none =>
    rw [hn ho]
    exact ⟨by simp, fun _ => h2 ho⟩
  | some v =>
    obtain ⟨x, st, hm, hx, hst⟩ := h1 v ho
    obtain ⟨k1, k2⟩ := hf x st v ho hx hst (he'.1 _ hm)
    refine ⟨fun w hw => ?_, k2⟩
    obtain ⟨y, st', hm', h'⟩ := k1 w hw
    exact ⟨y, st', (hsp.1 _).2 ⟨_, hm, hm'⟩, h'⟩

theorem esem_ret {x : XV} {v : V} {evs : List (Ev Fn)} (h : ASem tb input st hs fr s)
    (hx : x.sem tb.need input (some s.lx) v) : ESem tb sg input hs fr s ln ⟨[(x, st)], evs⟩ (some v) := by
  intro _
  refine ⟨fun w hw => ?_, by simp⟩
  simp at hw; subst hw
  exact ⟨x, st, by simp, hx, h⟩

theorem esem_unknown {res : Option V} (h : ASem tb input st hs fr s) : ESem tb sg input hs fr s ln (unknown ln st) res := by
  intro he
  exact ⟨fun v _ => ⟨.v .top, st, by simp [unknown], trivial, h⟩, fun _ => panic_bad he (by simp [unknown])⟩

/-- One outcome, and a panic unless `c`. -/
theorem esem_guard {x : XV} {c : Bool} {res : Option V} {evs : List (Ev Fn)} (h : ASem tb input st hs fr s)
    (h1 : ∀ v, res = some v → EvsOK tb sg evs → x.sem tb.need input (some s.lx) v) (h2 : c = true → EvsOK tb sg evs → res ≠ none) :
    ESem tb sg input hs fr s ln ⟨[(x, st)], evs ++ if c then [] else [.panic ln]⟩ res := by
  intro he
  rw [evs_append] at he
  refine ⟨fun v hv => ⟨x, st, by simp, h1 v hv he.1, h⟩, fun hn => ?_⟩
  rcases evs_if he.2 with hc | hb
  · exact absurd hn (h2 hc he.1)
  · exact hb

theorem esem_guard' {x : XV} {c : Bool} {res : Option V} (h : ASem tb input st hs fr s)
    (h1 : ∀ v, res = some v → x.sem tb.need input (some s.lx) v) (h2 : c = true → res ≠ none) :
    ESem tb sg input hs fr s ln ⟨[(x, st)], if c then [] else [.panic ln]⟩ res :=
  esem_guard (evs := []) h (fun v hv _ => h1 v hv) (fun hc _ => h2 hc)

theorem sem_bool {b : Bool} {need : Ty → List PNeed} {lx : Option Lx} : (XV.v (.bool (some b))).sem need input lx (.bool b) :=
  ⟨b, rfl, by simp⟩

/-- Both truth values, and a panic unless `c`. -/
theorem esem_both {c : Bool} {res : Option V} (h : ASem tb input st hs fr s)
    (h1 : ∀ v, res = some v → ∃ b, v = .bool b) (h2 : c = true → res ≠ none) :
    ESem tb sg input hs fr s ln ⟨(both (Fn := Fn) st).outs, if c then [] else [.panic ln]⟩ res := by
  intro he
  refine ⟨fun v hv => ?_, fun hn => ?_⟩
  · obtain ⟨b, rfl⟩ := h1 v hv
    exact ⟨.v (.bool (some b)), st, by cases b <;> simp [both], sem_bool, h⟩
  · rcases evs_if he with hc | hb
    · exact absurd hn (h2 hc)
    · exact hb

theorem esem_both' {b : Bool} (h : ASem tb input st hs fr s) : ESem tb sg input hs fr s ln (both (Fn := Fn) st) (some (.bool b)) :=
  esem_both (c := true) h (by simp) (by simp)

theorem esem_tests {l : List (Bool × AS)} {evs : List (Ev Fn)} {b : Bool} (h : TSem tb input l hs fr s b) :
    ESem tb sg input hs fr s ln (.ofTests l evs) (some (.bool b)) := by
  intro _
  refine ⟨fun v hv => ?_, by simp⟩
  simp at hv; subst hv
  obtain ⟨st, hm, hst⟩ := h
  exact ⟨.v (.bool (some b)), st, by simp only [ER.ofTests, List.mem_map]; exact ⟨_, hm, rfl⟩, sem_bool, hst⟩

theorem esem_two {b : Bool} {st1 st2 : AS} {evs : List (Ev Fn)} (h1 : b = true → ASem tb input st1 hs fr s)
    (h2 : b = false → ASem tb input st2 hs fr s) :
    ESem tb sg input hs fr s ln ⟨[(.v (.bool (some true)), st1), (.v (.bool (some false)), st2)], evs⟩ (some (.bool b)) := by
  intro _
  refine ⟨fun v hv => ?_, by simp⟩
  simp at hv; subst hv
  cases b
  · exact ⟨.v (.bool (some false)), st2, by simp, sem_bool, h2 rfl⟩
  · exact ⟨.v (.bool (some true)), st1, by simp, sem_bool, h1 rfl⟩

theorem esem_two' {b : Bool} {st1 st2 : AS} {evs : List (Ev Fn)} (h1 : b = true → ASem tb input st1 hs fr s)
    (h2 : b = false → ASem tb input st2 hs fr s) :
    ESem tb sg input hs fr s ln ⟨[(.v (.bool (some false)), st2), (.v (.bool (some true)), st1)], evs⟩ (some (.bool b)) := by
  intro _
  refine ⟨fun v hv => ?_, by simp⟩
  simp at hv; subst hv
  cases b
  · exact ⟨.v (.bool (some false)), st2, by simp, sem_bool, h2 rfl⟩
  · exact ⟨.v (.bool (some true)), st1, by simp, sem_bool, h1 rfl⟩

/-! ### Shapes of values -/

theorem isStr_sound {x : XV} (h : isStr x = true) {lx : Option Lx} {v : V} {need : Ty → List PNeed} (hv : x.sem need input lx v) :
    ∃ y, v = .str y := by
  unfold isStr at h
  split at h
  · obtain ⟨y, rfl, _⟩ := hv; exact ⟨y, rfl⟩
  · obtain ⟨l, _, rfl⟩ := hv; exact ⟨_, rfl⟩
  · simp at h

theorem isNat_sound (hn : tokNeed tb.need) {x : XV} (hst : ASem tb input st hs fr s) (h : isNat st x = true) {v : V}
    (hv : x.sem tb.need input (some s.lx) v) : ∃ y, v = .nat y := by
  have hr := resolve_sound hn hst.inv hst.cur hv
  unfold isNat at h
  split at h
  · rename_i e; rw [e] at hr; simp only [XV.sem, AV.sem] at hr; exact ⟨0, hr⟩
  · rename_i e; rw [e] at hr; obtain ⟨y, rfl, _⟩ := hr; exact ⟨y, rfl⟩
  · simp at h

theorem natBound_sound (hn : tokNeed tb.need) {x : XV} (hst : ASem tb input st hs fr s) {n : Nat}
    (hv : x.sem tb.need input (some s.lx) (.nat n)) : under input.length (natBound st x) n := by
  have hr := resolve_sound hn hst.inv hst.cur hv
  unfold natBound
  split
  · rename_i e; rw [e] at hr; simp only [XV.sem, AV.sem, V.nat.injEq] at hr; subst hr
    intro j hj; simp at hj; omega
  · rename_i e; rw [e] at hr; obtain ⟨y, e', hy⟩ := hr; simp at e'; subst e'; exact hy
  · intro j hj; simp at hj

theorem mapM_strs {l : List V} {need : Ty → List PNeed} {N : Nat} (h : ∀ v ∈ l, Good need N v .str) : ∃ xs, l.mapM V.toStr? = some xs := by
  induction l with
  | nil => exact ⟨[], rfl⟩
  | cons a l ih =>
    obtain ⟨xs, hx⟩ := ih (fun v hv => h v (List.mem_cons_of_mem _ hv))
    have ha := h a (by simp)
    cases a <;> simp [Good, FTy.admits] at ha
    rename_i y
    exact ⟨y :: xs, by simp [List.mapM_cons, V.toStr?, hx]⟩

theorem isStrs_sound {x : XV} (h : isStrs x = true) {lx : Option Lx} {v : V} {need : Ty → List PNeed} (hv : x.sem need input lx v) :
    ∃ y, v.strs? = some y := by
  unfold isStrs at h
  split at h
  · simp only [XV.sem, AV.sem] at hv; subst hv; exact ⟨[], rfl⟩
  · rcases hv with rfl | rfl <;> exact ⟨[], rfl⟩
  · simp at h; subst h
    rcases good_slice.1 hv.1 with rfl | ⟨l, rfl, hl⟩
    · exact ⟨[], rfl⟩
    · exact mapM_strs (fun v hv => (hl v hv).2)
  · simp at h

theorem nil_of_nonNil {v : V} (h : v.nonNil = false) : v = .nil := by
  cases v <;> simp [V.nonNil] at h; rfl

/-- A test for nil. -/
theorem splitNil_sound {e : Exp} {x : XV} {v : V} (h : ASem tb input st hs fr s) (he : e.eval s fr.env = some v)
    (hx : x.sem tb.need input (some s.lx) v) :
    (v.nonNil = true → ∃ y st', (y, st') ∈ (splitNil tb e x st).1 ∧ y.sem tb.need input (some s.lx) v ∧ ASem tb input st' hs fr s) ∧
    (v.nonNil = false → ∃ st' ∈ (splitNil tb e x st).2, ASem tb input st' hs fr s) := by
  unfold splitNil
  split
  · refine ⟨fun _ => ⟨_, st, by simp, hx, h⟩, fun hn => ?_⟩
    obtain ⟨vs, rfl, _⟩ := hx
    simp [V.nonNil] at hn
  · obtain ⟨l, hl, rfl⟩ := hx
    simp at hl; subst hl
    constructor
    · intro hn
      cases ht : s.lx.cur with
      | none => rw [ht] at hn; simp [tokV, V.nonNil] at hn
      | some t =>
        have := h.inv.endp_le ht
        obtain ⟨st', hm, hst⟩ := as_some (m := 0) (k := .any) h ht (by omega) trivial
        exact ⟨.v .curTok, st', by simp [hm], ⟨_, rfl, by rw [ht]⟩, hst⟩
    · intro hn
      cases ht : s.lx.cur with
      | some t => rw [ht] at hn; simp [tokV, Token.toV, V.nonNil, N.Token] at hn
      | none => exact as_noTok h ht
  · rename_i a _
    split
    · rename_i hb
      have := notNil_sound hb hx
      exact ⟨fun _ => ⟨_, st, by simp, hx, h⟩, fun hn => by rw [this] at hn; simp at hn⟩
    · rename_i hb
      have := notNil_sound hb hx
      exact ⟨fun hn => by rw [this] at hn; simp at hn, fun _ => ⟨st, by simp, h⟩⟩
    · have hnil : v.nonNil = false → ASem tb input (st.refine tb e (.v .nil)) hs fr s :=
        fun hn => refine_sound h he (nil_of_nonNil hn)
      split
      · exact ⟨fun _ => ⟨_, st, by simp, hx, h⟩, fun hn => ⟨_, by simp, hnil hn⟩⟩
      · rename_i τ nn p ee hsl _ _
        refine ⟨fun hn => ?_, fun hn => ⟨_, by simp, hnil hn⟩⟩
        have hx' : (AV.ty τ nn p ee).sem tb.need input none v := hx
        have := setNN_sound hx' hn (by intro τ' nn' p' e' h1; simp at h1; exact hsl _ h1.1)
        exact ⟨_, _, List.mem_cons_self, XV.sem_mono (x := .v _) this, refine_sound h he this⟩
      · rename_i nn w _ _
        refine ⟨fun hn => ?_, fun hn => ⟨_, by simp, hnil hn⟩⟩
        have hx' : (AV.err nn w).sem tb.need input none v := hx
        have := setNN_sound hx' hn (by simp)
        exact ⟨_, _, List.mem_cons_self, XV.sem_mono (x := .v _) this, refine_sound h he this⟩
      · exact ⟨fun _ => ⟨_, st, by simp, hx, h⟩, fun hn => ⟨st, by simp, h⟩⟩

theorem xv_fields_sound (hn : tokNeed tb.need) {x : XV} {v : V} {t : Ty} {fs : List AV} (h : ASem tb input st hs fr s)
    (hx : x.sem tb.need input (some s.lx) v) (hv : v.nonNil = true) (hf : x.fields tb st = some (t, fs)) :
    ∃ vs, v = .mk t vs ∧ FieldsSem tb.need input fs vs := by
  have hr := resolve_sound hn h.inv h.cur hx
  unfold XV.fields at hf
  split at hf
  · rename_i e; rw [e] at hr
    simp at hf; obtain ⟨rfl, rfl⟩ := hf
    obtain ⟨vs, rfl, h1, _⟩ := hr
    exact ⟨vs, rfl, h1⟩
  · rename_i e; rw [e] at hr
    rcases fields_sound hf hr with rfl | h
    · simp [V.nonNil] at hv
    · exact h

theorem withFields_sound (hn : tokNeed tb.need) {e : Exp} {x : XV} {v : V} {res : Option V} {f : List AV → AS → ER Fn}
    (h : ASem tb input st hs fr s) (he : e.eval s fr.env = some v) (hx : x.sem tb.need input (some s.lx) v)
    (hnil : v.nonNil = false → res = none)
    (hf : ∀ fs t vs st, v = .mk t vs → FieldsSem tb.need input fs vs → ASem tb input st hs fr s →
      ESem tb sg input hs fr s ln (f fs st) res) :
    ESem tb sg input hs fr s ln (withFields tb ln e x st f) res := by
  obtain ⟨h1, h2⟩ := splitNil_sound h he hx
  let q : XV × AS → ER Fn := fun y => match y.1.fields tb y.2 with
      | some (_, fs) => f fs y.2
      | none => unknown ln y.2
  have hsp := er_fold (tb := tb) (sg := sg) q [] (splitNil tb e x st).1
  have hd : withFields tb ln e x st f = if (splitNil tb e x st).2.isEmpty then
      (splitNil tb e x st).1.foldr (fun p (acc : ER Fn) => (⟨(q p).outs ++ acc.outs, (q p).evs ++ acc.evs⟩ : ER Fn)) ⟨[], []⟩
    else ⟨((splitNil tb e x st).1.foldr (fun p (acc : ER Fn) => (⟨(q p).outs ++ acc.outs, (q p).evs ++ acc.evs⟩ : ER Fn)) ⟨[], []⟩).outs,
      .panic ln :: ((splitNil tb e x st).1.foldr (fun p (acc : ER Fn) => (⟨(q p).outs ++ acc.outs, (q p).evs ++ acc.evs⟩ : ER Fn)) ⟨[], []⟩).evs⟩ := rfl
  rw [hd]
  generalize (splitNil tb e x st).1.foldr (fun p (acc : ER Fn) => (⟨(q p).outs ++ acc.outs, (q p).evs ++ acc.evs⟩ : ER Fn)) ⟨[], []⟩ = r at hsp
  simp only at hsp
  cases hv : v.nonNil with
  | false =>
    obtain ⟨st', hm, _⟩ := h2 hv
    rw [if_neg (by cases hh : (splitNil tb e x st).2 with
      | nil => rw [hh] at hm; simp at hm
      | cons => simp)]
    rw [hnil hv]
    intro he
    exact ⟨by simp, fun _ => panic_bad he (by simp)⟩
  | true =>
    obtain ⟨y, st', hm, hy, hst⟩ := h1 hv
    have hq : ESem tb sg input hs fr s ln (q (y, st')) res := by
      show ESem tb sg input hs fr s ln (match y.fields tb st' with
        | some (_, fs) => f fs st'
        | none => unknown ln st') res
      split
      · rename_i t fs hfs
        obtain ⟨vs, rfl, hs⟩ := xv_fields_sound hn hst hy hv hfs
        exact hf fs t vs st' rfl hs hst
      · exact esem_unknown hst
    have fin : ∀ r' : ER Fn, r'.outs = r.outs → (EvsOK tb sg r'.evs → EvsOK tb sg r.evs) → ESem tb sg input hs fr s ln r' res := by
      intro r' ho hev he
      have he' := hsp.2.1 (hev he)
      obtain ⟨k1, k2⟩ := hq (he'.1 _ hm)
      refine ⟨fun w hw => ?_, k2⟩
      obtain ⟨z, st2, hz, h'⟩ := k1 w hw
      exact ⟨z, st2, by rw [ho]; exact (hsp.1 _).2 ⟨_, hm, hz⟩, h'⟩
    split
    · exact fin _ rfl id
    · exact fin _ rfl (fun h => (evs_cons.1 h).2)

end Verif.An

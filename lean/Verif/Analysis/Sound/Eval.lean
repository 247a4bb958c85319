/-
The analysis of expressions is sound: the main theorem.
-/
import Verif.Analysis.Sound.Expr

namespace Verif.An
open List (Forall₂)

variable {Fn : Type} {tb : Tables Fn} {sg : Sig} {input : Str} {hs : List Lx} {fr : Frame} {s : PS} {st : AS} {ln : Nat}

/-! ### Slices -/

theorem allIn_list {N : Nat} {which : Bool} {b : PB} {l : List V} (h : ∀ v ∈ l, allIn N which b v) : allIn N which b (.list l) :=
  allInL_iff.2 h

/-- What a slice type says about the elements. -/
theorem slice_items {τ : FTy} {nn : Bool} {p e : PB} {v : V} {need : Ty → List PNeed} {lx : Option Lx}
    (hv : (AV.ty (.slice τ) nn p e).sem need input lx v) :
    ∀ w ∈ v.items, w.nonNil = true ∧ Good need input.length w τ ∧ allIn input.length false p w ∧ allIn input.length true e w := by
  intro w hw
  rcases good_slice.1 hv.1 with rfl | ⟨l, rfl, hl⟩
  · simp [V.items] at hw
  · exact ⟨(hl w hw).1, (hl w hw).2, allInL_iff.1 hv.2.2.1 w hw, allInL_iff.1 hv.2.2.2 w hw⟩

theorem slice_sem {τ : FTy} {nn : Bool} {p e : PB} {l : List V} {need : Ty → List PNeed} {lx : Option Lx}
    (hn : nn = true → l ≠ [])
    (h : ∀ w ∈ l, w.nonNil = true ∧ Good need input.length w τ ∧ allIn input.length false p w ∧ allIn input.length true e w) :
    (AV.ty (.slice τ) nn p e).sem need input lx (.list l) := by
  refine ⟨good_slice.2 (Or.inr ⟨l, rfl, fun w hw => ⟨(h w hw).1, (h w hw).2.1⟩⟩), fun hh => ?_,
    allIn_list (fun w hw => (h w hw).2.2.1), allIn_list (fun w hw => (h w hw).2.2.2)⟩
  have := hn hh
  cases l with
  | nil => simp at this
  | cons => rfl

theorem appendAV_sound {x a r : AV} {v w : V} {need : Ty → List PNeed} {lx : Option Lx} (h : appendAV x a = some r)
    (hv : x.sem need input lx v) (hw : a.sem need input lx w) : r.sem need input lx (.list (v.items ++ [w])) := by
  simp only [appendAV] at h
  split at h
  · simp at h
  · rename_i τ p e hel
    have hw' : w.nonNil = true ∧ Good need input.length w τ ∧ allIn input.length false p w ∧ allIn input.length true e w := by
      split at hel
      · rename_i τ' nn p' e'
        split at hel
        · simp at hel
        · simp at hel; obtain ⟨rfl, rfl, rfl, rfl⟩ := hel
          exact ⟨filled_nonNil (hw.2.1 rfl), hw.1, hw.2.2.1, hw.2.2.2⟩
      · simp at hel; obtain ⟨rfl, rfl, rfl⟩ := hel
        obtain ⟨y, rfl, _⟩ := hw
        exact ⟨rfl, by simp [Good], trivial, trivial⟩
      · simp at hel
    have one : (AV.ty (.slice τ) true p e).sem need input lx (.list ([] ++ [w])) :=
      slice_sem (by simp) (by simpa using hw')
    split at h
    · simp at h; subst h; simp only [AV.sem] at hv; subst hv; exact one
    · simp at h; subst h; rcases hv with rfl | rfl <;> exact one
    · rename_i σ nn p' e'
      simp only [Option.map_eq_some_iff] at h
      obtain ⟨τ', ht, rfl⟩ := h
      obtain ⟨h1, h2⟩ := tyLub_sound (need := need) (N := input.length) ht
      refine slice_sem (by simp) (fun u hu => ?_)
      rw [List.mem_append, List.mem_singleton] at hu
      rcases hu with hu | rfl
      · obtain ⟨k1, k2, k3, k4⟩ := slice_items hv u hu
        exact ⟨k1, h1 _ k2, allIn_max_right k3, allIn_max_right k4⟩
      · exact ⟨hw'.1, h2 _ hw'.2.1, allIn_max_left hw'.2.2.1, allIn_max_left hw'.2.2.2⟩
    · simp at h

theorem appendAllAV_sound {x a r : AV} {v w : V} {need : Ty → List PNeed} {lx : Option Lx} (h : appendAllAV x a = some r)
    (hv : x.sem need input lx v) (hw : a.sem need input lx w) : r.sem need input lx (.list (v.items ++ w.items)) := by
  have hnil : ∀ {v}, (AV.nil).sem need input lx v → v.items = [] := by
    intro v h; simp only [AV.sem] at h; subst h; rfl
  have hemp : ∀ {v}, (AV.empty).sem need input lx v → v.items = [] := by
    intro v h; rcases h with rfl | rfl <;> rfl
  have both : ∀ {v w : V}, v.items = [] → w.items = [] → (AV.empty).sem need input lx (.list (v.items ++ w.items)) := by
    intro v w h1 h2; rw [h1, h2]; exact Or.inr rfl
  have l1 : ∀ {v w : V} {σ : FTy} {nn : Bool} {p e : PB}, (AV.ty (.slice σ) nn p e).sem need input lx v → w.items = [] →
      (AV.ty (.slice σ) nn p e).sem need input lx (.list (v.items ++ w.items)) := by
    intro v w σ nn p e h1 h2
    rw [h2, List.append_nil]
    refine slice_sem (fun hn => ?_) (slice_items h1)
    subst hn; exact slice_nonempty h1
  have l2 : ∀ {v w : V} {σ : FTy} {nn : Bool} {p e : PB}, v.items = [] → (AV.ty (.slice σ) nn p e).sem need input lx w →
      (AV.ty (.slice σ) nn p e).sem need input lx (.list (v.items ++ w.items)) := by
    intro v w σ nn p e h2 h1
    rw [h2, List.nil_append]
    refine slice_sem (fun hn => ?_) (slice_items h1)
    subst hn; exact slice_nonempty h1
  unfold appendAllAV at h
  split at h
  · simp at h; subst h; exact both (hnil hv) (hnil hw)
  · simp at h; subst h; exact both (hnil hv) (hemp hw)
  · simp at h; subst h; exact both (hemp hv) (hnil hw)
  · simp at h; subst h; exact both (hemp hv) (hemp hw)
  · simp at h; subst h; exact l1 hv (hnil hw)
  · simp at h; subst h; exact l1 hv (hemp hw)
  · simp at h; subst h; exact l2 (hnil hv) hw
  · simp at h; subst h; exact l2 (hemp hv) hw
  · rename_i σ nn p e τ nn' p' e'
    simp only [Option.map_eq_some_iff] at h
    obtain ⟨τ', ht, rfl⟩ := h
    obtain ⟨h1, h2⟩ := tyLub_sound (need := need) (N := input.length) ht
    refine slice_sem (fun hh => ?_) (fun u hu => ?_)
    · simp only [Bool.or_eq_true] at hh
      rcases hh with rfl | rfl
      · have := slice_nonempty hv; simp [this]
      · have := slice_nonempty hw; simp [this]
    · rw [List.mem_append] at hu
      rcases hu with hu | hu
      · obtain ⟨k1, k2, k3, k4⟩ := slice_items hv u hu
        exact ⟨k1, h1 _ k2, allIn_max_left k3, allIn_max_left k4⟩
      · obtain ⟨k1, k2, k3, k4⟩ := slice_items hw u hu
        exact ⟨k1, h2 _ k2, allIn_max_right k3, allIn_max_right k4⟩
  · simp at h

/-! ### Comparisons -/

theorem len_eval {e : Exp} {v : V} (he : e.eval s fr.env = some v) : (Exp.len e).eval s fr.env = some (.nat (vlen v)) := by
  simp only [Exp.eval, he, Option.map_some]
  cases v <;> rfl

theorem key_eval {e : Exp} {k : Key} {n : Nat} (h : Exp.key? e = some k) (he : e.eval s fr.env = some (.nat n)) :
    k.val fr.env = some n := by
  unfold Exp.key? at h
  split at h
  · simp at h; subst h
    simp only [Exp.eval] at he
    simp [Key.val, he, V.toNat?]
  · rename_i i j
    simp at h; subst h
    simp only [Exp.eval, Option.bind_eq_some_iff, Option.map_eq_some_iff] at he
    obtain ⟨a, ⟨v, hv, ha⟩, b, ⟨w, hw, hb⟩, hn⟩ := he
    simp at hn; subst hn
    simp [Key.val, hv, hw, ha, hb]
  · rename_i i j
    simp at h; subst h
    simp only [Exp.eval, Option.bind_eq_some_iff] at he
    obtain ⟨v, hv, hf⟩ := he
    simp [Key.val, hv, hf, V.toNat?]
  · rename_i i j
    simp at h; subst h
    cases hv : (Exp.fld (.var i) j).eval s fr.env with
    | none => simp only [Exp.eval] at hv he; simp [hv] at he
    | some v =>
      rw [len_eval hv] at he
      simp at he; subst he
      simp only [Exp.eval, Option.bind_eq_some_iff] at hv
      obtain ⟨w, hw, hf⟩ := hv
      simp [Key.val, hw, hf]
  · simp at h

theorem inRange_sound {l i : Exp} {v : V} {n : Nat} {τ : FTy} {nn : Bool} {p e : PB} (h : ASem tb input st hs fr s)
    (hr : inRange tb st l i = true) (hl : l.eval s fr.env = some v) (hi : i.eval s fr.env = some (.nat n))
    (hv : (AV.ty (.slice τ) nn p e).sem tb.need input (some s.lx) v) : n < v.items.length := by
  have hvl : vlen v = v.items.length := by
    rcases good_slice.1 hv.1 with rfl | ⟨l, rfl, _⟩ <;> rfl
  unfold inRange at hr
  split at hr
  · rename_i k x j hk
    have hkv := key_eval hk hi
    simp only [Exp.eval, Option.bind_eq_some_iff] at hl
    obtain ⟨w, hw, hf⟩ := hl
    simp only [Bool.or_eq_true, Bool.and_eq_true, List.contains_iff_mem, decide_eq_true_eq] at hr
    rcases hr with hr | ⟨⟨rfl, hr⟩, h2⟩
    · rw [← hvl]
      exact h.facts _ _ hr _ _ hkv (by simp [Key.val, hw, hf])
    · split at h2
      · rename_i a b c hx
        obtain ⟨w', hw', hs'⟩ := env_get h hx
        rw [hw] at hw'; simp at hw'; subst hw'
        obtain ⟨fs, rfl, hg⟩ := good_val.1 hs'.1
        rw [List.contains_iff_mem] at h2
        obtain ⟨u, m, hu, hm, hle⟩ := hg.2 _ h2
        simp only [V.field] at hf
        rw [hf] at hu; simp at hu; subst hu
        have := h.facts _ _ hr n m hkv (by simp [Key.val, hw, V.field, hm, V.toNat?])
        omega
      · simp at h2
  · simp at hr

/-! ### Literals `keywordArgForm` -/

theorem strs_good {l : List Str} {need : Ty → List PNeed} {N : Nat} : Good need N (.list (l.map V.str)) (.slice .str) := by
  refine good_slice.2 (Or.inr ⟨_, rfl, fun w hw => ?_⟩)
  obtain ⟨y, _, rfl⟩ := List.mem_map.1 hw
  exact ⟨rfl, by simp [Good]⟩

theorem formLit_sound {es : List Exp} {b : Bool} (h : formLit es = some b) :
    ∃ vs, Exp.evalL s fr.env es = some vs ∧ (b = true → tb.need .KeywordArgForm = formNeed →
      GoodS tb.need input.length .KeywordArgForm vs) := by
  have gnil : Good tb.need input.length .nil (.slice .str) := good_slice.2 (Or.inl rfl)
  have fin : ∀ (v : V) (l : List Str) (b1 b2 : Bool) (n m : Nat), Good tb.need input.length v (.slice .str) →
      (!l.isEmpty && decide (n ≤ l.length)) = true → tb.need .KeywordArgForm = formNeed →
      GoodS tb.need input.length .KeywordArgForm [v, .bool b1, .list (l.map V.str), .nat n, .bool b2, .nat m] := by
    intro v l b1 b2 n m hv hl hneed
    simp only [Bool.and_eq_true, decide_eq_true_eq, Bool.not_eq_true', List.isEmpty_eq_false_iff] at hl
    refine ⟨⟨hv, by simp [Good], strs_good, by simp [Good], by simp [Good], by simp [Good], trivial⟩, ?_⟩
    intro nd hnd
    rw [hneed] at hnd
    simp only [formNeed, List.mem_cons, List.not_mem_nil, or_false] at hnd
    rcases hnd with rfl | rfl
    · refine ⟨_, rfl, ?_⟩
      cases l with
      | nil => simp at hl
      | cons => rfl
    · exact ⟨_, n, rfl, rfl, by simp [V.items]; exact hl.2⟩
  unfold formLit at h
  split at h
  · rename_i a b1 b' n b2 m
    split at h
    · simp at h; subst h
      exact ⟨_, by simp only [Exp.evalL, Exp.eval]; rfl, by simp⟩
    · simp at h
      exact ⟨_, by simp only [Exp.evalL, Exp.eval]; rfl, fun hb hn => fin _ _ _ _ _ _ gnil (by subst hb; simpa using h) hn⟩
    · simp at h
      exact ⟨_, by simp only [Exp.evalL, Exp.eval]; rfl, fun hb hn => fin _ _ _ _ _ _ strs_good (by subst hb; simpa using h) hn⟩
    · simp at h
  · simp at h

/-! ### Expressions -/

/-- The analysis of an expression is right. -/
def ExpOK (tb : Tables Fn) (sg : Sig) (input : Str) (hs : List Lx) (fr : Frame) (s : PS) (ln : Nat) (e : Exp) : Prop :=
  ∀ st, ASem tb input st hs fr s → ESem tb sg input hs fr s ln (aeval tb ln st e) (e.eval s fr.env)

/-- The analysis of a list of expressions. -/
def ELSem (tb : Tables Fn) (sg : Sig) (input : Str) (hs : List Lx) (fr : Frame) (s : PS) (ln : Nat) (r : ELR Fn) (res : Option (List V)) : Prop :=
  EvsOK tb sg r.evs →
    (∀ vs, res = some vs → ∃ xs st, (xs, st) ∈ r.outs ∧ Forall₂ (fun x v => XV.sem tb.need input (some s.lx) v x) xs vs ∧
      ASem tb input st hs fr s) ∧
    (res = none → ln ∈ tb.bad)

theorem bind_eq_none' {α β : Type} {o : Option α} {f : α → Option β} (h : o = none) : o.bind f = none := by rw [h]; rfl
theorem map_eq_none' {α β : Type} {o : Option α} {f : α → β} (h : o = none) : o.map f = none := by rw [h]; rfl

theorem esem_bind2 {a b : Exp} {res : Option V} {f : XV → XV → AS → ER Fn} (ha : ExpOK tb sg input hs fr s ln a)
    (hb : ExpOK tb sg input hs fr s ln b) (h : ASem tb input st hs fr s)
    (na : a.eval s fr.env = none → res = none) (nb : ∀ v, a.eval s fr.env = some v → b.eval s fr.env = none → res = none)
    (hf : ∀ x y st v w, a.eval s fr.env = some v → b.eval s fr.env = some w → x.sem tb.need input (some s.lx) v →
      y.sem tb.need input (some s.lx) w → ASem tb input st hs fr s → ESem tb sg input hs fr s ln (f x y st) res) :
    ESem tb sg input hs fr s ln ((aeval tb ln st a).bind fun x st => (aeval tb ln st b).bind fun y st => f x y st) res :=
  esem_bind (ha st h) (fun x st v hv hx hst => esem_bind (hb st hst) (fun y st' w hw hy hst' => hf x y st' v w hv hw hx hy hst')
    (nb v hv)) na

theorem eval_var (i : Nat) : ExpOK tb sg input hs fr s ln (.var i) := by
  intro st h
  simp only [aeval, Exp.eval]
  split
  · rename_i x hx
    obtain ⟨v, hv, hs⟩ := env_get h hx
    rw [hv]; exact esem_ret h hs
  · exact esem_unknown h

theorem eval_fld (hn : tokNeed tb.need) {e : Exp} (he : ExpOK tb sg input hs fr s ln e) (i : Nat) :
    ExpOK tb sg input hs fr s ln (.fld e i) := by
  intro st h
  simp only [aeval, Exp.eval]
  refine esem_bind (he st h) (fun x st v hv hx hst => ?_) (fun h => bind_eq_none' h)
  refine withFields_sound hn hst hv hx (fun hnil => by rw [hv, nil_of_nonNil hnil]; rfl) (fun fs t vs st e hfs hst => ?_)
  rw [hv]; subst e
  simp only [Option.bind_some, V.field]
  split
  · rename_i a ha
    obtain ⟨w, hw, hs⟩ := forall₂_get hfs ha
    rw [hw]; exact esem_ret hst (XV.sem_mono (x := .v _) hs)
  · exact esem_unknown hst

theorem eval_simple (hn : tokNeed tb.need) {e : Exp} (h : (∃ i, e = .var i) ∨ ∃ i j, e = .fld (.var i) j) :
    ExpOK tb sg input hs fr s ln e := by
  rcases h with ⟨i, rfl⟩ | ⟨i, j, rfl⟩
  · exact eval_var i
  · exact eval_fld hn (eval_var i) j

/-- `len(e)` of a slice. -/
theorem slice_len {τ : FTy} {nn : Bool} {p e : PB} {v : V} {need : Ty → List PNeed} {lx : Option Lx}
    (hv : (AV.ty (.slice τ) nn p e).sem need input lx v) :
    (vlen v = 0 → (AV.empty).sem need input none v) ∧ (vlen v ≠ 0 → (AV.ty (.slice τ) true p e).sem need input none v) := by
  constructor
  · intro h
    rcases good_slice.1 hv.1 with rfl | ⟨l, rfl, _⟩
    · exact Or.inl rfl
    · cases l with
      | nil => exact Or.inr rfl
      | cons => simp [vlen, V.items] at h
  · intro h
    refine ⟨hv.1, fun _ => ?_, hv.2.2⟩
    rcases good_slice.1 hv.1 with rfl | ⟨l, rfl, _⟩
    · simp [vlen, V.items] at h
    · cases l with
      | nil => simp [vlen, V.items] at h
      | cons => rfl

theorem eval_eqNat (hn : tokNeed tb.need) {a b : Exp} (ha : ExpOK tb sg input hs fr s ln a) (hb : ExpOK tb sg input hs fr s ln b) :
    ExpOK tb sg input hs fr s ln (.eqNat a b) := by
  intro st h
  rw [aeval]
  refine esem_bind2 ha hb h (fun h => by simp [Exp.eval, h]) (fun v hv h => by simp only [Exp.eval, hv, h]; cases V.toNat? v <;> simp) ?_
  intro x y st v w hv hw hx hy hst
  have bool : ∀ u, (Exp.eqNat a b).eval s fr.env = some u → ∃ b, u = .bool b := by
    intro u hu
    simp only [Exp.eval, Option.bind_eq_some_iff, Option.map_eq_some_iff] at hu
    obtain ⟨_, _, _, _, rfl⟩ := hu; exact ⟨_, rfl⟩
  split
  · rename_i hc
    rw [Bool.and_eq_true] at hc
    obtain ⟨n, rfl⟩ := isNat_sound hn hst hc.1 hx
    obtain ⟨m, rfl⟩ := isNat_sound hn hst hc.2 hy
    have hres : (Exp.eqNat a b).eval s fr.env = some (.bool (n == m)) := by simp [Exp.eval, hv, hw, V.toNat?]
    rw [hres]
    split
    · rename_i e k
      split
      · rename_i hk; subst hk
        have hm : m = 0 := by simp [Exp.eval] at hw; exact hw.symm
        subst hm
        have main : ((∃ i, e = .var i) ∨ ∃ i j, e = .fld (.var i) j) →
            ESem tb sg input hs fr s ln ((aeval tb ln st e).bind fun z st => match z with
              | .v (.ty (.slice τ) _ p ee) =>
                ⟨[(.v (.bool (some true)), st.refine tb e (.v .empty)),
                  (.v (.bool (some false)), st.refine tb e (.v (.ty (.slice τ) true p ee)))], []⟩
              | .v .nil | .v .empty => ⟨[(.v (.bool (some true)), st)], []⟩
              | _ => both st) (some (.bool (n == 0))) := by
          intro hsim
          refine esem_bind (eval_simple hn hsim st hst) (fun z st u hu hz hst => ?_) (fun h => by
            simp only [Exp.eval] at hv; rw [h] at hv; simp at hv)
          rw [len_eval hu] at hv
          simp at hv; subst hv
          split
          · obtain ⟨k1, k2⟩ := slice_len (lx := some s.lx) hz
            refine esem_two (fun hb => refine_sound hst hu (k1 (by simpa using hb))) (fun hb => refine_sound hst hu (k2 (by simpa using hb)))
          · simp only [XV.sem, AV.sem] at hz; subst hz; exact esem_ret hst sem_bool
          · rcases hz with rfl | rfl <;> exact esem_ret hst sem_bool
          · exact esem_both' hst
        split
        · exact main (Or.inl ⟨_, rfl⟩)
        · exact main (Or.inr ⟨_, _, rfl⟩)
        · exact esem_both' hst
      · exact esem_both' hst
    · exact esem_both' hst
  · exact esem_both (c := false) hst bool (by simp)

theorem eval_lt (hn : tokNeed tb.need) {a b : Exp} (ha : ExpOK tb sg input hs fr s ln a) (hb : ExpOK tb sg input hs fr s ln b) :
    ExpOK tb sg input hs fr s ln (.lt a b) := by
  intro st h
  rw [aeval]
  refine esem_bind2 ha hb h (fun h => by simp [Exp.eval, h]) (fun v hv h => by simp only [Exp.eval, hv, h]; cases V.toNat? v <;> simp) ?_
  intro x y st v w hv hw hx hy hst
  have bool : ∀ u, (Exp.lt a b).eval s fr.env = some u → ∃ b, u = .bool b := by
    intro u hu
    simp only [Exp.eval, Option.bind_eq_some_iff, Option.map_eq_some_iff] at hu
    obtain ⟨_, _, _, _, rfl⟩ := hu; exact ⟨_, rfl⟩
  split
  · rename_i hc
    rw [Bool.and_eq_true] at hc
    obtain ⟨n, rfl⟩ := isNat_sound hn hst hc.1 hx
    obtain ⟨m, rfl⟩ := isNat_sound hn hst hc.2 hy
    have hres : (Exp.lt a b).eval s fr.env = some (.bool (decide (n < m))) := by simp [Exp.eval, hv, hw, V.toNat?]
    rw [hres]
    split
    · rename_i k k' hk hk'
      refine esem_two (fun hlt => { hst with facts := ?_ }) (fun _ => hst)
      intro k1 k2 hmem c d hc hd
      rcases List.mem_cons.1 hmem with he | hmem
      · simp at he
        obtain ⟨rfl, rfl⟩ := he
        rw [key_eval hk hv] at hc; rw [key_eval hk' hw] at hd
        simp at hc hd; subst hc; subst hd; simpa using hlt
      · exact hst.facts _ _ hmem _ _ hc hd
    · split
      · rename_i k e _
        split
        · rename_i hk; subst hk
          have hm : n = 0 := by simp [Exp.eval] at hv; exact hv.symm
          subst hm
          have main : ((∃ i, e = .var i) ∨ ∃ i j, e = .fld (.var i) j) →
              ESem tb sg input hs fr s ln ((aeval tb ln st e).bind fun z st => match z with
                | .v (.ty (.slice τ) _ p ee) =>
                  ⟨[(.v (.bool (some true)), st.refine tb e (.v (.ty (.slice τ) true p ee))),
                    (.v (.bool (some false)), st.refine tb e (.v .empty))], []⟩
                | .v .nil | .v .empty => ⟨[(.v (.bool (some false)), st)], []⟩
                | _ => both st) (some (.bool (decide (0 < m)))) := by
            intro hsim
            refine esem_bind (eval_simple hn hsim st hst) (fun z st u hu hz hst => ?_) (fun h => by
              simp only [Exp.eval] at hw; rw [h] at hw; simp at hw)
            rw [len_eval hu] at hw
            simp at hw; subst hw
            split
            · obtain ⟨k1, k2⟩ := slice_len (lx := some s.lx) hz
              refine esem_two (fun hb => refine_sound hst hu (k2 (by simp at hb; omega))) (fun hb => refine_sound hst hu (k1 (by simp at hb; omega)))
            · simp only [XV.sem, AV.sem] at hz; subst hz; exact esem_ret hst sem_bool
            · rcases hz with rfl | rfl <;> exact esem_ret hst sem_bool
            · exact esem_both' hst
          split
          · exact main (Or.inl ⟨_, rfl⟩)
          · exact main (Or.inr ⟨_, _, rfl⟩)
          · exact esem_both' hst
        · exact esem_both' hst
      · exact esem_both' hst
  · exact esem_both (c := false) hst bool (by simp)

theorem eval_eqStr (hn : tokNeed tb.need) {a b : Exp} (ha : ExpOK tb sg input hs fr s ln a) (hb : ExpOK tb sg input hs fr s ln b) :
    ExpOK tb sg input hs fr s ln (.eqStr a b) := by
  intro st h
  have bool : ∀ u, (Exp.eqStr a b).eval s fr.env = some u → ∃ b, u = .bool b := by
    intro u hu
    simp only [Exp.eval, Option.bind_eq_some_iff, Option.map_eq_some_iff] at hu
    obtain ⟨_, _, _, _, rfl⟩ := hu; exact ⟨_, rfl⟩
  rw [aeval.eq_def]
  dsimp only
  split
  · simp only [Exp.eval, Option.bind_some, V.toStr?, Option.map_some]
    exact esem_tests (testKind_sound h _)
  · rename_i i x
    split
    · rename_i hx
      obtain ⟨v, hv, l, hl, rfl⟩ := env_get h hx
      simp at hl; subst hl
      simp only [Exp.eval, hv, Option.bind_some, V.toStr?, Option.map_some]
      exact esem_tests (testKind_sound h _)
    · rename_i y _ hx
      obtain ⟨v, hv, hs⟩ := env_get h hx
      have : (if isStr y then both st else ⟨(both (Fn := Fn) st).outs, [.panic ln]⟩ : ER Fn) =
          ⟨(both (Fn := Fn) st).outs, if isStr y then [] else [.panic ln]⟩ := by split <;> rfl
      rw [this]
      refine esem_both h bool (fun hc => ?_)
      obtain ⟨z, rfl⟩ := isStr_sound hc hs
      simp [Exp.eval, hv, V.toStr?]
    · exact esem_both (c := false) h bool (by simp)
  · refine esem_bind2 ha hb h (fun h => by simp [Exp.eval, h]) (fun v hv h => by simp only [Exp.eval, hv, h]; cases V.toStr? v <;> simp) ?_
    intro x y st v w hv hw hx hy hst
    have : (if isStr x && isStr y then both st else ⟨(both (Fn := Fn) st).outs, [.panic ln]⟩ : ER Fn) =
        ⟨(both (Fn := Fn) st).outs, if isStr x && isStr y then [] else [.panic ln]⟩ := by split <;> rfl
    rw [this]
    refine esem_both hst bool (fun hc => ?_)
    rw [Bool.and_eq_true] at hc
    obtain ⟨z, rfl⟩ := isStr_sound hc.1 hx
    obtain ⟨z', rfl⟩ := isStr_sound hc.2 hy
    simp [Exp.eval, hv, hw, V.toStr?]

/-! ### The remaining expressions -/

theorem eval_mk (hn : tokNeed tb.need) {t : Ty} {es : List Exp}
    (he : ∀ st, ASem tb input st hs fr s → ELSem tb sg input hs fr s ln (aevalL tb ln st es) (Exp.evalL s fr.env es)) :
    ExpOK tb sg input hs fr s ln (.mk t es) := by
  intro st h
  rw [aeval]
  split
  · rename_i ht; subst ht
    split
    · rename_i hf
      obtain ⟨vs, hv, hg⟩ := formLit_sound (tb := tb) (input := input) (s := s) (fr := fr) hf
      split
      · rename_i hneed
        simp only [Exp.eval, hv, Option.map_some]
        refine esem_ret h ?_
        exact ⟨good_val.2 ⟨vs, rfl, hg rfl (by simpa using hneed)⟩, fun _ => rfl, allIn_top, allIn_top⟩
      · exact esem_unknown h
    · rename_i hf
      obtain ⟨vs, hv, hg⟩ := formLit_sound (tb := tb) (input := input) (s := s) (fr := fr) hf
      simp only [Exp.eval, hv, Option.map_some]
      exact esem_ret h trivial
    · exact esem_unknown h
  · let q : List XV × AS → ER Fn := fun p =>
      ⟨[(.obj t ((p.1.map (fun x => flat tb p.2.cur x)).map Prod.fst) .top .top, p.2)], ((p.1.map (fun x => flat tb p.2.cur x)).map Prod.snd).flatten⟩
    have hsp := er_fold (tb := tb) (sg := sg) q (aevalL tb ln st es).evs (aevalL tb ln st es).outs
    simp only at hsp
    intro hev
    have hev' := hsp.2.1 hev
    obtain ⟨h1, h2⟩ := he st h hev'.2
    refine ⟨fun v hv => ?_, fun hnone => h2 (by simpa [Exp.eval] using hnone)⟩
    simp only [Exp.eval, Option.map_eq_some_iff] at hv
    obtain ⟨vs, hvs, rfl⟩ := hv
    obtain ⟨xs, st', hm, hx, hst⟩ := h1 vs hvs
    refine ⟨_, st', (hsp.1 (_, st')).2 ⟨(xs, st'), hm, List.mem_singleton.2 rfl⟩, ⟨vs, rfl, ?_, PB.res_top, PB.res_top⟩, hst⟩
    have hq := hev'.1 _ hm
    clear hm hvs h1
    simp only [q, List.map_map] at hq
    simp only [List.map_map]
    induction hx with
    | nil => exact .nil
    | @cons x v xs vs hx _ ih =>
      simp only [List.map_cons, List.flatten_cons, evs_append, Function.comp_apply] at hq ⊢
      exact .cons (flat_sound hn hst.inv hst.cur hx hq.1) (ih hq.2)

theorem eval_error {m : Str} {es : List Exp}
    (he : ∀ st, ASem tb input st hs fr s → ELSem tb sg input hs fr s ln (aevalL tb ln st es) (Exp.evalL s fr.env es)) :
    ExpOK tb sg input hs fr s ln (.error m es) := by
  intro st h
  rw [aeval]
  intro hev
  obtain ⟨h1, h2⟩ := he st h hev
  refine ⟨fun v hv => ?_, fun hnone => h2 (by simpa [Exp.eval] using hnone)⟩
  simp only [Exp.eval, Option.map_eq_some_iff] at hv
  obtain ⟨vs, hvs, rfl⟩ := hv
  obtain ⟨xs, st', hm, hx, hst⟩ := h1 vs hvs
  exact ⟨_, st', List.mem_map.2 ⟨_, hm, rfl⟩, Or.inr (Or.inr ⟨rfl, _, rfl⟩), hst⟩

theorem constStrs_eval {ks : List Exp} {ss : List Str} (h : constStrs ks = some ss) :
    (Exp.evalL s fr.env ks).bind (List.mapM V.toStr?) = some ss := by
  induction ks generalizing ss with
  | nil => simp [constStrs] at h; subst h; rfl
  | cons a l ih =>
    unfold constStrs at h
    split at h
    · rename_i e; simp at e
    · rename_i x es e
      simp at e; obtain ⟨rfl, rfl⟩ := e
      simp only [Option.map_eq_some_iff] at h
      obtain ⟨ys, hy, rfl⟩ := h
      have := ih hy
      simp only [Option.bind_eq_some_iff] at this
      obtain ⟨vs, hv, hm⟩ := this
      simp [Exp.evalL, Exp.eval, hv, List.mapM_cons, V.toStr?, hm]
    · simp at h

theorem allStr_sound {xs : List XV} {vs : List V} {lx : Option Lx} {need : Ty → List PNeed} (h : allStr xs = true)
    (hx : Forall₂ (fun x v => XV.sem need input lx v x) xs vs) : ∃ ss, vs.mapM V.toStr? = some ss := by
  induction hx with
  | nil => exact ⟨[], rfl⟩
  | cons h1 _ ih =>
    simp only [allStr, Bool.and_eq_true] at h
    obtain ⟨y, rfl⟩ := isStr_sound h.1 h1
    obtain ⟨ss, hs⟩ := ih h.2
    exact ⟨y :: ss, by simp [List.mapM_cons, V.toStr?, hs]⟩

theorem allNe_sound {xs : List XV} {vs : List V} {lx : Option Lx} {need : Ty → List PNeed} (h : allNe xs = true)
    (hx : Forall₂ (fun x v => XV.sem need input lx v x) xs vs) :
    ∃ ss, vs.mapM V.toStr? = some ss ∧ ss.contains Kind.eof.toStr = false := by
  induction hx with
  | nil => exact ⟨[], rfl, rfl⟩
  | cons h1 _ ih =>
    unfold allNe at h
    split at h
    · rename_i e; simp at e
    · rename_i e
      simp at e; obtain ⟨rfl, rfl⟩ := e
      obtain ⟨y, rfl, hy⟩ := h1
      obtain ⟨ss, hs, hc⟩ := ih h
      refine ⟨y :: ss, by simp [List.mapM_cons, V.toStr?, hs], ?_⟩
      rw [Bool.eq_false_iff] at hc ⊢
      intro hm
      rw [ne_eq, List.contains_iff_mem] at hc
      rw [List.contains_iff_mem] at hm
      rcases List.mem_cons.1 hm with e | hm
      · exact hy rfl e.symm
      · exact hc hm
    · simp at h

theorem eval_matchKinds {ks : List Exp}
    (he : ∀ st, ASem tb input st hs fr s → ELSem tb sg input hs fr s ln (aevalL tb ln st ks) (Exp.evalL s fr.env ks)) :
    ExpOK tb sg input hs fr s ln (.matchKinds ks) := by
  intro st h
  rw [aeval]
  split
  · rename_i ss hc
    simp only [Exp.eval, constStrs_eval hc, Option.map_some]
    exact esem_tests (testKinds_sound h ss)
  · let q : List XV × AS → ER Fn := fun p =>
      if allNe p.1 then ⟨(p.2.some 0 .any).map (fun st => (.v (.bool (some true)), st)) ++ [(.v (.bool (some false)), p.2)], []⟩
      else ⟨(both (Fn := Fn) p.2).outs, if allStr p.1 then [] else [.panic ln]⟩
    have hd : ∀ l : List (List XV × AS), ∀ e : List (Ev Fn), l.foldr (fun p (acc : ER Fn) =>
        if allNe p.1 then (⟨(p.2.some 0 .any).map (fun st => (.v (.bool (some true)), st)) ++ ((.v (.bool (some false)), p.2) :: acc.outs), acc.evs⟩ : ER Fn)
        else ⟨(both (Fn := Fn) p.2).outs ++ acc.outs, if allStr p.1 then acc.evs else .panic ln :: acc.evs⟩) ⟨[], e⟩ =
        l.foldr (fun p (acc : ER Fn) => (⟨(q p).outs ++ acc.outs, (q p).evs ++ acc.evs⟩ : ER Fn)) ⟨[], e⟩ := by
      intro l e
      congr 1
      funext p acc
      simp only [q]
      split
      · simp
      · split <;> simp
    dsimp only
    rw [hd]
    have hsp := er_fold (tb := tb) (sg := sg) q (aevalL tb ln st ks).evs (aevalL tb ln st ks).outs
    simp only at hsp
    intro hev
    have hev' := hsp.2.1 hev
    obtain ⟨h1, h2⟩ := he st h hev'.2
    cases hvs : Exp.evalL s fr.env ks with
    | none => exact ⟨fun v hv => by simp [Exp.eval, hvs] at hv, fun _ => h2 hvs⟩
    | some vs =>
      obtain ⟨xs, st', hm, hx, hst⟩ := h1 vs hvs
      have hq : ESem tb sg input hs fr s ln (q (xs, st')) ((Exp.matchKinds ks).eval s fr.env) := by
        simp only [q]
        split
        · rename_i hne
          obtain ⟨ss, hss, hc⟩ := allNe_sound hne hx
          simp only [Exp.eval, hvs, Option.bind_some, hss, Option.map_some]
          have ht : TSem tb input ((st'.some 0 .any).map (fun st => (true, st)) ++ [(false, st')]) hs fr s (s.lx.matchKinds ss) := by
            refine tsem_some hst (fun hm => ?_)
            obtain ⟨t, ht⟩ := matchKinds_eof hm hc
            have := hst.inv.endp_le ht
            exact ⟨t, ht, by omega, trivial⟩
          have := esem_tests (sg := sg) (ln := ln) (evs := []) ht
          simpa [ER.ofTests, Function.comp_def] using this
        · refine esem_both hst (fun v hv => ?_) (fun hc => ?_)
          · simp only [Exp.eval, Option.map_eq_some_iff] at hv
            obtain ⟨_, _, rfl⟩ := hv; exact ⟨_, rfl⟩
          · obtain ⟨ss, hss⟩ := allStr_sound hc hx
            simp [Exp.eval, hvs, hss]
      obtain ⟨k1, k2⟩ := hq (hev'.1 _ hm)
      refine ⟨fun w hw => ?_, k2⟩
      obtain ⟨z, st2, hz, h'⟩ := k1 w hw
      exact ⟨z, st2, (hsp.1 _).2 ⟨_, hm, hz⟩, h'⟩

theorem eval_appendLike (hn : tokNeed tb.need) {a b : Exp} (ha : ExpOK tb sg input hs fr s ln a) (hb : ExpOK tb sg input hs fr s ln b)
    {f : AV → AV → Option AV} {g : V → V → V} {msg : String}
    (hf : ∀ x y r v w, f x y = some r → x.sem tb.need input none v → y.sem tb.need input none w → r.sem tb.need input none (g v w))
    (h : ASem tb input st hs fr s) :
    ESem tb sg input hs fr s ln ((aeval tb ln st a).bind fun x st => (aeval tb ln st b).bind fun y st =>
      let p := flat tb st.cur x; let q := flat tb st.cur y
      match f p.1 q.1 with
      | some r => ⟨[(.v r, st)], p.2 ++ q.2⟩
      | none => ⟨[(.v .top, st)], p.2 ++ (q.2 ++ [.fail msg])⟩)
      ((a.eval s fr.env).bind (fun v => (b.eval s fr.env).map (fun x => g v x))) := by
  refine esem_bind2 ha hb h (fun h => by simp [h]) (fun v hv h => by simp [h]) ?_
  intro x y st v w hv hw hx hy hst
  simp only [hv, hw, Option.bind_some, Option.map_some]
  intro hev
  refine ⟨fun u hu => ?_, by simp⟩
  simp at hu; subst hu
  split at hev
  · rename_i r hr
    simp only [evs_append] at hev
    have := hf _ _ _ _ _ hr (flat_sound hn hst.inv hst.cur hx hev.1) (flat_sound hn hst.inv hst.cur hy hev.2)
    exact ⟨.v r, st, by simp [hr], XV.sem_mono (x := .v _) this, hst⟩
  · rename_i hr
    exact ⟨.v .top, st, by simp [hr], trivial, hst⟩

theorem eval_ends (hn : tokNeed tb.need) {e : Exp} (he : ExpOK tb sg input hs fr s ln e) (which : Bool) (sc : Static)
    (h : ASem tb input st hs fr s) :
    ESem tb sg input hs fr s ln ((aeval tb ln st e).bind fun x st =>
      let p := flat tb st.cur x
      let b := if p.1.isStatic sc then p.1.ends which else .top
      ⟨[(.v (.nat b.k), st)], p.2 ++ if b.safe then [] else [.panic ln]⟩)
      ((e.eval s fr.env).bind (fun v => (sc.dispatch v).bind (fun t => (posEndF (v.depth + 1) which t v).map V.nat))) := by
  refine esem_bind (he st h) (fun x st v hv hx hst => ?_) (fun h => bind_eq_none' h)
  simp only [hv, Option.bind_some]
  have hcall : ((sc.dispatch v).bind (fun t => (posEndF (v.depth + 1) which t v).map V.nat)) = (callEnds which sc v).map V.nat := by
    unfold callEnds; cases sc.dispatch v <;> simp
  rw [hcall]
  have key : EvsOK tb sg (flat tb st.cur x).2 → (if (flat tb st.cur x).1.isStatic sc then (flat tb st.cur x).1.ends which else PB.top).res
      input.length (callEnds which sc v) := by
    intro hev
    split
    · rename_i hst'
      exact av_ends_sound (flat_sound hn hst.inv hst.cur hx hev) which hst'
    · exact PB.res_top
  refine esem_guard hst (fun u hu hev => ?_) (fun hc hev => ?_)
  · simp only [Option.map_eq_some_iff] at hu
    obtain ⟨n, hn, rfl⟩ := hu
    exact ⟨n, rfl, (key hev).2 n hn⟩
  · have := (key hev).1 hc
    intro hnone
    simp at hnone
    rw [hnone] at this; simp at this

theorem eval_last (hn : tokNeed tb.need) {e : Exp} (he : ExpOK tb sg input hs fr s ln e) : ExpOK tb sg input hs fr s ln (.last e) := by
  intro st h
  rw [aeval]
  simp only [Exp.eval]
  refine esem_bind (he st h) (fun x st v hv hx hst => ?_) (fun h => bind_eq_none' h)
  simp only [hv, Option.bind_some]
  split
  · rename_i τ nn p ee
    intro hev
    refine ⟨fun w hw => ?_, fun hnone => ?_⟩
    · have hmem : w ∈ v.items := List.mem_of_getLast? hw
      refine ⟨_, _, List.mem_cons_self, slice_elem (lx := some s.lx) hx hmem, refine_sound hst hv ?_⟩
      refine ⟨hx.1, fun _ => ?_, hx.2.2⟩
      rcases good_slice.1 hx.1 with rfl | ⟨l, rfl, _⟩
      · simp [V.items] at hmem
      · cases l with
        | nil => simp [V.items] at hmem
        | cons => rfl
    · rcases evs_if hev with hc | hb
      · subst hc
        exact absurd (List.getLast?_eq_none_iff.1 hnone) (slice_nonempty (lx := some s.lx) hx)
      · exact hb
  · simp only [XV.sem, AV.sem] at hx; subst hx
    exact fun hev => ⟨by simp [V.items], fun _ => panic_bad hev (by simp)⟩
  · intro hev
    refine ⟨fun w hw => ?_, fun _ => panic_bad hev (by simp)⟩
    rcases hx with rfl | rfl <;> simp [V.items] at hw
  · exact esem_unknown hst

theorem eval_idx (hn : tokNeed tb.need) {e i : Exp} (he : ExpOK tb sg input hs fr s ln e) (hi : ExpOK tb sg input hs fr s ln i) :
    ExpOK tb sg input hs fr s ln (.idx e i) := by
  intro st h
  rw [aeval]
  refine esem_bind2 he hi h (fun h => by simp [Exp.eval, h]) (fun v hv h => by simp [Exp.eval, h, hv]) ?_
  intro x y st v w hv hw hx hy hst
  simp only [Exp.eval, hv, hw, Option.bind_some]
  split
  · rename_i τ nn p ee
    refine esem_guard' hst (fun u hu => ?_) (fun hc => ?_)
    · simp only [Option.bind_eq_some_iff] at hu
      obtain ⟨n, _, hu⟩ := hu
      exact slice_elem (lx := some s.lx) hx (List.mem_of_getElem? hu)
    · simp only [Bool.and_eq_true, Bool.or_eq_true, beq_iff_eq] at hc
      obtain ⟨hc, hc'⟩ := hc
      obtain ⟨n, rfl⟩ := isNat_sound hn hst hc hy
      simp only [V.toNat?, Option.bind_some, ne_eq]
      have hlt : n < v.items.length := by
        rcases hc' with ⟨hnn, rfl⟩ | hr
        · subst hnn
          simp only [XV.sem, AV.sem, V.nat.injEq] at hy; subst hy
          exact List.length_pos_iff.2 (slice_nonempty (lx := some s.lx) hx)
        · exact inRange_sound hst hr hv hw hx
      rw [List.getElem?_eq_getElem hlt]; simp
  · exact esem_unknown hst

theorem eval_isTy {e : Exp} (he : ExpOK tb sg input hs fr s ln e) (t : Ty) : ExpOK tb sg input hs fr s ln (.isTy e t) := by
  intro st h
  rw [aeval]
  simp only [Exp.eval]
  refine esem_bind (he st h) (fun x st v hv hx hst => ?_) (fun h => map_eq_none' h)
  simp only [hv, Option.map_some]
  split
  · rename_i i nn p ee
    split
    · refine esem_two (fun hb => refine_sound hst hv ?_) (fun _ => hst)
      simp only [decide_eq_true_eq] at hb
      rcases good_iface.1 hx.1 with rfl | ⟨u, fs, rfl, ha, hg⟩
      · simp [V.ty?] at hb
      · simp [V.ty?] at hb; subst hb
        exact ⟨good_ptr.2 (Or.inr ⟨fs, rfl, hg⟩), fun _ => rfl, hx.2.2⟩
    · exact esem_both' hst
  · rename_i u nn p ee
    split
    · rename_i htu; subst htu
      split
      · rename_i hnn; subst hnn
        have := hx.2.1 rfl
        rcases good_ptr.1 hx.1 with rfl | ⟨fs, rfl, hg⟩
        · simp [V.filled] at this
        · simp only [V.ty?, decide_true]; exact esem_ret hst sem_bool
      · exact esem_both' hst
    · rename_i htu
      have : decide (v.ty? = some t) = false := by
        rcases good_ptr.1 hx.1 with rfl | ⟨fs, rfl, hg⟩
        · simp [V.ty?]
        · simp [V.ty?]; exact fun h => htu h.symm
      rw [this]; exact esem_ret hst sem_bool
  · simp only [XV.sem, AV.sem] at hx; subst hx
    simp only [V.ty?]; exact esem_ret hst sem_bool
  · rename_i u fs p ee
    obtain ⟨vs, rfl, _⟩ := hx
    have : decide ((V.mk u vs).ty? = some t) = decide (u = t) := by simp [V.ty?]
    rw [this]; exact esem_ret hst sem_bool
  · exact esem_both' hst

theorem eval_and {a b : Exp} (ha : ExpOK tb sg input hs fr s ln a) (hb : ExpOK tb sg input hs fr s ln b) :
    ExpOK tb sg input hs fr s ln (.and a b) := by
  intro st h
  rw [aeval]
  simp only [Exp.eval]
  refine esem_bind (ha st h) (fun x st v hv hx hst => ?_) (fun h => by rw [h]; rfl)
  simp only [hv, Option.bind_some]
  have more : ∀ (c : Bool), ESem tb sg input hs fr s ln ⟨(.v (.bool (some false)), st) :: (aeval tb ln st b).outs, (aeval tb ln st b).evs⟩
      (if c = true then b.eval s fr.env else some (.bool false)) := by
    intro c hev
    cases c with
    | false =>
      refine ⟨fun u hu => ?_, by simp⟩
      simp at hu; subst hu
      exact ⟨_, _, List.mem_cons_self, sem_bool, hst⟩
    | true =>
      obtain ⟨k1, k2⟩ := hb st hst hev
      refine ⟨fun u hu => ?_, k2⟩
      obtain ⟨y, st', hm, h'⟩ := k1 u hu
      exact ⟨y, st', List.mem_cons_of_mem _ hm, h'⟩
  split
  · obtain ⟨c', rfl, hc⟩ := hx
    have := hc _ rfl; subst this
    simp only [V.toBool?, Option.bind_some]
    exact hb st hst
  · obtain ⟨c', rfl, hc⟩ := hx
    have := hc _ rfl; subst this
    simp only [V.toBool?, Option.bind_some]
    exact esem_ret hst sem_bool
  · obtain ⟨c', rfl, hc⟩ := hx
    simp only [V.toBool?, Option.bind_some]
    exact more c'
  · intro hev
    rw [evs_cons] at hev
    have hbad : ln ∈ tb.bad := by simpa [Ev.ok, List.contains_iff_mem] using hev.1
    refine ⟨fun u hu => ?_, fun _ => hbad⟩
    simp only [Option.bind_eq_some_iff] at hu
    obtain ⟨c, hc, hu⟩ := hu
    exact (more c hev.2).1 u hu

theorem eval_or {a b : Exp} (ha : ExpOK tb sg input hs fr s ln a) (hb : ExpOK tb sg input hs fr s ln b) :
    ExpOK tb sg input hs fr s ln (.or a b) := by
  intro st h
  rw [aeval]
  simp only [Exp.eval]
  refine esem_bind (ha st h) (fun x st v hv hx hst => ?_) (fun h => by rw [h]; rfl)
  simp only [hv, Option.bind_some]
  have more : ∀ (c : Bool), ESem tb sg input hs fr s ln ⟨(.v (.bool (some true)), st) :: (aeval tb ln st b).outs, (aeval tb ln st b).evs⟩
      (if c = true then some (.bool true) else b.eval s fr.env) := by
    intro c hev
    cases c with
    | true =>
      refine ⟨fun u hu => ?_, by simp⟩
      simp at hu; subst hu
      exact ⟨_, _, List.mem_cons_self, sem_bool, hst⟩
    | false =>
      obtain ⟨k1, k2⟩ := hb st hst hev
      refine ⟨fun u hu => ?_, k2⟩
      obtain ⟨y, st', hm, h'⟩ := k1 u hu
      exact ⟨y, st', List.mem_cons_of_mem _ hm, h'⟩
  split
  · obtain ⟨c', rfl, hc⟩ := hx
    have := hc _ rfl; subst this
    simp only [V.toBool?, Option.bind_some]
    exact esem_ret hst sem_bool
  · obtain ⟨c', rfl, hc⟩ := hx
    have := hc _ rfl; subst this
    simp only [V.toBool?, Option.bind_some]
    exact hb st hst
  · obtain ⟨c', rfl, hc⟩ := hx
    simp only [V.toBool?, Option.bind_some]
    exact more c'
  · intro hev
    rw [evs_cons] at hev
    have hbad : ln ∈ tb.bad := by simpa [Ev.ok, List.contains_iff_mem] using hev.1
    refine ⟨fun u hu => ?_, fun _ => hbad⟩
    simp only [Option.bind_eq_some_iff] at hu
    obtain ⟨c, hc, hu⟩ := hu
    exact (more c hev.2).1 u hu

theorem tokText_fields {fs : List AV} {vs : List V} {t : Ty} {need : Ty → List PNeed}
    (hfs : FieldsSem need input fs vs) : (match fs with
        | [_, _, .str _, .str _, _, _] => ([] : List (Ev Fn))
        | _ => [.panic ln]) = [] → ∃ a b, (V.mk t vs).field 2 = some (.str a) ∧ (V.mk t vs).field 3 = some (.str b) := by
  intro h
  split at h
  · cases hfs with | cons _ h1 => cases h1 with | cons _ h2 => cases h2 with | cons k1 h3 => cases h3 with | cons k2 _ =>
      obtain ⟨a, rfl, _⟩ := k1
      obtain ⟨b, rfl, _⟩ := k2
      exact ⟨a, b, rfl, rfl⟩
  · simp at h

theorem str1 {v : V} {β : Type} {f : Str → β} {res : β} (h : v.toStr?.map f = some res) : ∃ x, v = .str x ∧ f x = res := by
  cases v <;> simp [V.toStr?] at h
  exact ⟨_, rfl, h⟩

mutual
/-- The analysis of expressions is right. -/
theorem aeval_sound (hn : tokNeed tb.need) : ∀ e : Exp, ExpOK tb sg input hs fr s ln e
  | .nil => fun st h => by rw [aeval, Exp.eval]; exact esem_ret h rfl
  | .nat n => fun st h => by
    rw [aeval, Exp.eval]
    refine esem_ret h ?_
    split
    · rename_i e; subst e; rfl
    · exact ⟨n, rfl, by intro j hj; simp at hj; omega⟩
  | .bool b => fun st h => by rw [aeval, Exp.eval]; exact esem_ret h sem_bool
  | .str x => fun st h => by
    rw [aeval, Exp.eval]
    exact esem_ret h ⟨x, rfl, by simp⟩
  | .empty => fun st h => by rw [aeval, Exp.eval]; exact esem_ret h (Or.inr rfl)
  | .strs ss => fun st h => by
    rw [aeval, Exp.eval]
    refine esem_ret h ?_
    split
    · rename_i e; simp at e; subst e; exact Or.inr rfl
    · rename_i e
      refine ⟨strs_good, fun _ => ?_, allIn_top, allIn_top⟩
      cases ss with
      | nil => simp at e
      | cons => rfl
  | .var i => eval_var i
  | .fld e i => eval_fld hn (aeval_sound hn e) i
  | .deref e => fun st h => by
    rw [aeval, Exp.eval]
    refine esem_bind (aeval_sound hn e st h) (fun x st v hv hx hst => ?_) (fun h => bind_eq_none' h)
    obtain ⟨h1, h2⟩ := splitNil_sound hst hv hx
    simp only [hv, Option.bind_some]
    intro hev
    refine ⟨fun w hw => ?_, fun hnone => ?_⟩
    · split at hw
      · rename_i hnn
        simp at hw; subst hw
        obtain ⟨y, st', hm, h'⟩ := h1 hnn
        exact ⟨y, st', hm, h'⟩
      · simp at hw
    · split at hnone
      · simp at hnone
      · rename_i hnn
        simp only [Bool.not_eq_true] at hnn
        obtain ⟨st', hm, _⟩ := h2 hnn
        rcases evs_if hev with hc | hb
        · rw [List.isEmpty_iff] at hc; rw [hc] at hm; simp at hm
        · exact hb
  | .mk t es => eval_mk hn (aevalL_sound hn es)
  | .last e => eval_last hn (aeval_sound hn e)
  | .idx e i => eval_idx hn (aeval_sound hn e) (aeval_sound hn i)
  | .len e => fun st h => by
    rw [aeval]
    refine esem_bind (aeval_sound hn e st h) (fun x st v hv hx hst => ?_) (fun h => by simp [Exp.eval, h])
    rw [len_eval hv]
    exact esem_ret hst ⟨_, rfl, by intro j hj; simp at hj⟩
  | .append e a => fun st h => by
    rw [aeval, Exp.eval]
    exact eval_appendLike hn (aeval_sound hn e) (aeval_sound hn a) (f := appendAV) (g := fun v x => .list (v.items ++ [x]))
      (fun _ _ _ _ _ hr hv hw => appendAV_sound hr hv hw) h
  | .appendAll e a => fun st h => by
    rw [aeval, Exp.eval]
    exact eval_appendLike hn (aeval_sound hn e) (aeval_sound hn a) (f := appendAllAV) (g := fun v x => .list (v.items ++ x.items))
      (fun _ _ _ _ _ hr hv hw => appendAllAV_sound hr hv hw) h
  | .isNil e => fun st h => by
    rw [aeval, Exp.eval]
    refine esem_bind (aeval_sound hn e st h) (fun x st v hv hx hst => ?_) (fun h => map_eq_none' h)
    obtain ⟨h1, h2⟩ := splitNil_sound hst hv hx
    simp only [hv, Option.map_some]
    intro hev
    refine ⟨fun w hw => ?_, by simp⟩
    simp at hw; subst hw
    cases hb : v.nonNil with
    | true =>
      obtain ⟨y, st', hm, _, hst'⟩ := h1 hb
      exact ⟨.v (.bool (some false)), st', List.mem_append.2 (Or.inl (List.mem_map.2 ⟨_, hm, rfl⟩)), sem_bool, hst'⟩
    | false =>
      obtain ⟨st', hm, hst'⟩ := h2 hb
      exact ⟨.v (.bool (some true)), st', List.mem_append.2 (Or.inr (List.mem_map.2 ⟨_, hm, rfl⟩)), sem_bool, hst'⟩
  | .not e => fun st h => by
    rw [aeval, Exp.eval]
    refine esem_bind (aeval_sound hn e st h) (fun x st v hv hx hst => ?_) (fun h => by rw [h]; rfl)
    simp only [hv, Option.bind_some]
    split
    · obtain ⟨b, rfl, hb⟩ := hx
      refine esem_ret hst ⟨!b, rfl, fun y hy => ?_⟩
      simp at hy
      subst hy
      rw [hb _ rfl, Bool.not_not]
    · exact esem_unknown hst
  | .and a b => eval_and (aeval_sound hn a) (aeval_sound hn b)
  | .or a b => eval_or (aeval_sound hn a) (aeval_sound hn b)
  | .eqStr a b => eval_eqStr hn (aeval_sound hn a) (aeval_sound hn b)
  | .eqNat a b => eval_eqNat hn (aeval_sound hn a) (aeval_sound hn b)
  | .lt a b => eval_lt hn (aeval_sound hn a) (aeval_sound hn b)
  | .add a b => fun st h => by
    rw [aeval]
    refine esem_bind2 (aeval_sound hn a) (aeval_sound hn b) h (fun h => by simp [Exp.eval, h])
      (fun v hv h => by simp only [Exp.eval, hv, h]; cases V.toNat? v <;> simp) ?_
    intro x y st v w hv hw hx hy hst
    refine esem_guard' hst (fun u hu => ?_) (fun hc => ?_)
    · simp only [Exp.eval, hv, hw, Option.bind_some, Option.bind_eq_some_iff, Option.map_eq_some_iff] at hu
      obtain ⟨n, hvn, m, hwm, rfl⟩ := hu
      cases v <;> simp [V.toNat?] at hvn
      cases w <;> simp [V.toNat?] at hwm
      subst hvn; subst hwm
      refine ⟨_, rfl, ?_⟩
      have hb := natBound_sound hn hst hx
      split
      · simp [Exp.eval] at hw; subst hw
        intro j hj
        simp only [Option.bind_eq_some_iff] at hj
        obtain ⟨k, hk, hj⟩ := hj
        have := hb k hk
        split at hj <;> simp at hj
        omega
      · simp [Exp.eval] at hw; subst hw
        intro j hj
        simp only [Option.bind_eq_some_iff] at hj
        obtain ⟨k, hk, hj⟩ := hj
        have := hb k hk
        split at hj <;> simp at hj
        omega
      · intro j hj; simp at hj
    · rw [Bool.and_eq_true] at hc
      obtain ⟨n, rfl⟩ := isNat_sound hn hst hc.1 hx
      obtain ⟨m, rfl⟩ := isNat_sound hn hst hc.2 hy
      simp [Exp.eval, hv, hw, V.toNat?]
  | .sub a b => fun st h => by
    rw [aeval]
    refine esem_bind2 (aeval_sound hn a) (aeval_sound hn b) h (fun h => by simp [Exp.eval, h])
      (fun v hv h => by simp only [Exp.eval, hv, h]; cases V.toNat? v <;> simp) ?_
    intro x y st v w hv hw hx hy hst
    refine esem_guard' hst (fun u hu => ?_) (fun hc => ?_)
    · simp only [Exp.eval, hv, hw, Option.bind_some, Option.bind_eq_some_iff, Option.map_eq_some_iff] at hu
      obtain ⟨n, hvn, m, hwm, rfl⟩ := hu
      cases v <;> simp [V.toNat?] at hvn
      subst hvn
      refine ⟨_, rfl, ?_⟩
      have hb := natBound_sound hn hst hx
      intro j hj
      have := hb j hj
      omega
    · rw [Bool.and_eq_true] at hc
      obtain ⟨n, rfl⟩ := isNat_sound hn hst hc.1 hx
      obtain ⟨m, rfl⟩ := isNat_sound hn hst hc.2 hy
      simp [Exp.eval, hv, hw, V.toNat?]
  | .cat a b => fun st h => by
    rw [aeval]
    refine esem_bind2 (aeval_sound hn a) (aeval_sound hn b) h (fun h => by simp [Exp.eval, h])
      (fun v hv h => by simp only [Exp.eval, hv, h]; cases V.toStr? v <;> simp) ?_
    intro x y st v w hv hw hx hy hst
    refine esem_guard' hst (fun u hu => ?_) (fun hc => ?_)
    · simp only [Exp.eval, hv, hw, Option.bind_some, Option.bind_eq_some_iff, Option.map_eq_some_iff] at hu
      obtain ⟨n, hvn, m, hwm, rfl⟩ := hu
      exact ⟨_, rfl, by simp⟩
    · rw [Bool.and_eq_true] at hc
      obtain ⟨n, rfl⟩ := isStr_sound hc.1 hx
      obtain ⟨m, rfl⟩ := isStr_sound hc.2 hy
      simp [Exp.eval, hv, hw, V.toStr?]
  | .upper e => fun st h => by
    rw [aeval, Exp.eval]
    refine esem_bind (aeval_sound hn e st h) (fun x st v hv hx hst => ?_) (fun h => by rw [h]; rfl)
    refine esem_guard' hst (fun u hu => ?_) (fun hc => ?_)
    · rw [hv] at hu
      obtain ⟨y, rfl, rfl⟩ := str1 hu
      exact ⟨_, rfl, by simp⟩
    · obtain ⟨n, rfl⟩ := isStr_sound hc hx
      simp [hv, V.toStr?]
  | .equalFold a b => fun st h => by
    rw [aeval]
    refine esem_bind2 (aeval_sound hn a) (aeval_sound hn b) h (fun h => by simp [Exp.eval, h])
      (fun v hv h => by simp only [Exp.eval, hv, h]; cases V.toStr? v <;> simp) ?_
    intro x y st v w hv hw hx hy hst
    refine esem_both hst (fun u hu => ?_) (fun hc => ?_)
    · simp only [Exp.eval, Option.bind_eq_some_iff, Option.map_eq_some_iff] at hu
      obtain ⟨_, _, _, _, rfl⟩ := hu; exact ⟨_, rfl⟩
    · rw [Bool.and_eq_true] at hc
      obtain ⟨n, rfl⟩ := isStr_sound hc.1 hx
      obtain ⟨m, rfl⟩ := isStr_sound hc.2 hy
      simp [Exp.eval, hv, hw, V.toStr?]
  | .isTy e t => eval_isTy (aeval_sound hn e) t
  | .posOf e sc => fun st h => by
    rw [aeval, Exp.eval]
    exact eval_ends hn (aeval_sound hn e) false sc h
  | .endOf e sc => fun st h => by
    rw [aeval, Exp.eval]
    exact eval_ends hn (aeval_sound hn e) true sc h
  | .isUnit e => fun st h => by
    rw [aeval, Exp.eval]
    refine esem_bind (aeval_sound hn e st h) (fun x st v hv hx hst => ?_) (fun h => by rw [h]; rfl)
    refine esem_both hst (fun u hu => ?_) (fun hc => ?_)
    · simp only [Option.map_eq_some_iff] at hu
      obtain ⟨_, _, rfl⟩ := hu; exact ⟨_, rfl⟩
    · obtain ⟨n, rfl⟩ := isStr_sound hc hx
      simp [hv, V.toStr?]
  | .contains a b => fun st h => by
    rw [aeval]
    refine esem_bind2 (aeval_sound hn a) (aeval_sound hn b) h (fun h => by simp [Exp.eval, h])
      (fun v hv h => by simp only [Exp.eval, hv, h, Option.bind_some]; cases V.strs? v <;> simp) ?_
    intro x y st v w hv hw hx hy hst
    refine esem_both hst (fun u hu => ?_) (fun hc => ?_)
    · simp only [Exp.eval, Option.bind_eq_some_iff, Option.map_eq_some_iff] at hu
      obtain ⟨_, _, _, _, rfl⟩ := hu; exact ⟨_, rfl⟩
    · rw [Bool.and_eq_true] at hc
      obtain ⟨n, hn'⟩ := isStrs_sound hc.1 hx
      obtain ⟨m, rfl⟩ := isStr_sound hc.2 hy
      simp [Exp.eval, hv, hw, V.toStr?, hn']
  | .containsFold a b => fun st h => by
    rw [aeval]
    refine esem_bind2 (aeval_sound hn a) (aeval_sound hn b) h (fun h => by simp [Exp.eval, h])
      (fun v hv h => by simp only [Exp.eval, hv, h, Option.bind_some]; cases V.strs? v <;> simp) ?_
    intro x y st v w hv hw hx hy hst
    refine esem_both hst (fun u hu => ?_) (fun hc => ?_)
    · simp only [Exp.eval, Option.bind_eq_some_iff, Option.map_eq_some_iff] at hu
      obtain ⟨_, _, _, _, rfl⟩ := hu; exact ⟨_, rfl⟩
    · rw [Bool.and_eq_true] at hc
      obtain ⟨n, hn'⟩ := isStrs_sound hc.1 hx
      obtain ⟨m, rfl⟩ := isStr_sound hc.2 hy
      simp [Exp.eval, hv, hw, V.toStr?, hn']
  | .tokText e => fun st h => by
    rw [aeval, Exp.eval]
    refine esem_bind (aeval_sound hn e st h) (fun x st v hv hx hst => ?_) (fun h => bind_eq_none' h)
    refine withFields_sound hn hst hv hx (fun hnil => by rw [hv, nil_of_nonNil hnil]; rfl) (fun fs t vs st e hfs hst => ?_)
    subst e
    simp only [hv, Option.bind_some]
    intro hev
    refine ⟨fun u hu => ?_, fun hnone => ?_⟩
    · simp only [Option.bind_eq_some_iff, Option.map_eq_some_iff] at hu
      obtain ⟨_, _, _, _, _, _, _, _, rfl⟩ := hu
      exact ⟨_, _, List.mem_cons_self, ⟨_, rfl, by simp⟩, hst⟩
    · rcases Classical.em ((match fs with
        | [_, _, .str _, .str _, _, _] => ([] : List (Ev Fn))
        | _ => [.panic ln]) = []) with hc | hc
      · obtain ⟨a, b, h1, h2⟩ := tokText_fields (t := t) hfs hc
        rw [h1, h2] at hnone
        simp [V.toStr?] at hnone
      · have : (match fs with
          | [_, _, .str _, .str _, _, _] => ([] : List (Ev Fn))
          | _ => [.panic ln]) = [.panic ln] := by
          split
          · exact absurd rfl hc
          · rfl
        exact panic_bad (l := [.panic ln]) (by rw [← this]; exact hev) (by simp)
  | .error m args => eval_error (aevalL_sound hn args)
  | .cur => fun st h => by rw [aeval, Exp.eval]; exact esem_ret h ⟨_, rfl, rfl⟩
  | .curKind => fun st h => by rw [aeval, Exp.eval]; exact esem_ret h ⟨_, rfl, rfl⟩
  | .curString => fun st h => by rw [aeval, Exp.eval]; exact esem_ret h ⟨_, rfl, by simp⟩
  | .pos => fun st h => by rw [aeval, Exp.eval]; exact esem_ret h ⟨_, rfl, rfl⟩
  | .end_ => fun st h => by
    rw [aeval, Exp.eval]
    refine esem_ret h ⟨_, rfl, ?_⟩
    intro j hj
    simp at hj; subst hj
    have hc := h.cur
    split
    · rename_i m k he
      rw [he] at hc
      obtain ⟨t, ht, _⟩ := hc
      have := h.inv.endp_le ht
      simp only [Lx.curEnd, ht]; omega
    · simp only [Lx.curEnd]
      split
      · have := h.inv.rest_len; omega
      · rename_i t ht
        have := h.inv.endp_le ht; omega
  | .isEOF => fun st h => by
    rw [aeval, Exp.eval]
    have hc := h.cur
    split
    · rename_i he
      rw [he] at hc
      have : s.lx.isEOF = true := by simp [Lx.isEOF, hc.2]
      rw [this]; exact esem_ret h sem_bool
    · exact esem_both' h
  | .matchKinds ks => eval_matchKinds (aevalL_sound hn ks)
  | .matchKw k => fun st h => by
    rw [aeval, Exp.eval]
    refine esem_bind (aeval_sound hn k st h) (fun x st v hv hx hst => ?_) (fun h => by rw [h]; rfl)
    simp only [hv, Option.bind_some]
    cases hstr : v.toStr? with
    | none =>
      intro hev
      refine ⟨by simp, fun _ => ?_⟩
      rcases evs_if hev with hc | hb
      · obtain ⟨n, rfl⟩ := isStr_sound hc hx; simp [V.toStr?] at hstr
      · exact hb
    | some y =>
      cases v <;> simp [V.toStr?] at hstr
      subst hstr
      exact esem_tests (testKwE_sound hst hv)
  | .matchOneOf e => fun st h => by
    rw [aeval.eq_def, Exp.eval]
    dsimp only
    refine esem_bind (aeval_sound hn e st h) (fun x st v hv hx hst => ?_) (fun h => by rw [h]; rfl)
    simp only [hv, Option.bind_some]
    cases hstr : v.strs? with
    | none =>
      intro hev
      refine ⟨by simp, fun _ => ?_⟩
      rcases evs_if hev with hc | hb
      · obtain ⟨n, hn'⟩ := isStrs_sound hc hx; simp [hn'] at hstr
      · exact hb
    | some ys =>
      refine esem_tests (testOneOf_sound hst ys _ ?_)
      intro l hl
      split at hl
      · simp at hl; subst hl
        simp [Exp.eval] at hv; subst hv
        rename_i ss
        have : ∀ ss : List Str, (ss.map V.str).mapM V.toStr? = some ss := by
          intro ss; induction ss with
          | nil => rfl
          | cons a l ih => simp [List.mapM_cons, V.toStr?, ih]
        simp [V.strs?, V.items, this] at hstr; exact hstr
      · simp at hl
  | .memoHas e => fun st h => by
    rw [aeval, Exp.eval]
    refine esem_bind (aeval_sound hn e st h) (fun x st v hv hx hst => ?_) (fun h => by rw [h]; rfl)
    refine esem_both hst (fun u hu => ?_) (fun hc => ?_)
    · simp only [Option.map_eq_some_iff] at hu
      obtain ⟨_, _, rfl⟩ := hu; exact ⟨_, rfl⟩
    · obtain ⟨n, rfl⟩ := isNat_sound hn hst hc hx
      simp [hv, V.toNat?]

theorem aevalL_sound (hn : tokNeed tb.need) : ∀ (es : List Exp) (st : AS), ASem tb input st hs fr s →
    ELSem tb sg input hs fr s ln (aevalL tb ln st es) (Exp.evalL s fr.env es)
  | [], st, h => by
    rw [aevalL, Exp.evalL]
    intro _
    refine ⟨fun vs hv => ?_, by simp⟩
    simp at hv; subst hv
    exact ⟨[], st, by simp, .nil, h⟩
  | e :: es, st, h => by
    rw [aevalL, Exp.evalL]
    intro hev
    have hsp : ∀ (l : List (XV × AS)) (ev : List (Ev Fn)),
        let r := l.foldr (fun p (acc : ELR Fn) =>
          (⟨(aevalL tb ln p.2 es).outs.map (fun y => (p.1 :: y.1, y.2)) ++ acc.outs, (aevalL tb ln p.2 es).evs ++ acc.evs⟩ : ELR Fn)) ⟨[], ev⟩
        (∀ x, x ∈ r.outs ↔ ∃ p ∈ l, ∃ y ∈ (aevalL tb ln p.2 es).outs, (p.1 :: y.1, y.2) = x) ∧
        (EvsOK tb sg r.evs ↔ (∀ p ∈ l, EvsOK tb sg (aevalL tb ln p.2 es).evs) ∧ EvsOK tb sg ev) := by
      intro l ev
      induction l with
      | nil => simp
      | cons a l ih =>
        simp only [List.foldr_cons, List.mem_append, List.mem_map, List.mem_cons, exists_eq_or_imp, evs_append, forall_eq_or_imp] at ih ⊢
        constructor
        · intro x; rw [ih.1]
        · rw [ih.2, and_assoc]
    have hsp := hsp (aeval tb ln st e).outs (aeval tb ln st e).evs
    simp only at hsp
    have hev' := hsp.2.1 hev
    obtain ⟨h1, h2⟩ := aeval_sound hn e st h hev'.2
    cases hv : e.eval s fr.env with
    | none => exact ⟨by simp, fun _ => h2 hv⟩
    | some v =>
      obtain ⟨x, st', hm, hx, hst⟩ := h1 v hv
      obtain ⟨k1, k2⟩ := aevalL_sound hn es st' hst (hev'.1 _ hm)
      simp only [Option.bind_some]
      refine ⟨fun vs hvs => ?_, fun hnone => k2 (by simpa using hnone)⟩
      simp only [Option.map_eq_some_iff] at hvs
      obtain ⟨ws, hws, rfl⟩ := hvs
      obtain ⟨xs, st2, hm2, hxs, hst2⟩ := k1 ws hws
      exact ⟨x :: xs, st2, (hsp.1 _).2 ⟨_, hm, _, hm2, rfl⟩, .cons hx hxs, hst2⟩
end

end Verif.An

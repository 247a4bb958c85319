/-
Abstract states: what they mean, and that joins, order and refinement respect it.
-/
import Verif.Analysis.Sound.Lexer

namespace Verif.An
open List (Forall₂)

variable {Fn : Type} {tb : Tables Fn} {sg : Sig} {input : Str}

/-- `len(v)`. -/
def vlen : V → Nat
  | .str x => x.length
  | v => v.items.length

/-- The value of an expression that occurs in comparisons. -/
def Key.val (env : List V) : Key → Option Nat
  | .v i => env[i]?.bind V.toNat?
  | .add i j => (env[i]?.bind V.toNat?).bind fun a => (env[j]?.bind V.toNat?).map fun b => a + b
  | .fld i j => (env[i]?.bind (V.field j)).bind V.toNat?
  | .len i j => (env[i]?.bind (V.field j)).map vlen

/-- The variables, lexers and saved state are described by an abstract state; `hs` are the lexers at the
start of the method and of the current iteration of each enclosing loop. -/
structure ASem (tb : Tables Fn) (input : Str) (st : AS) (hs : List Lx) (fr : Frame) (s : PS) : Prop where
  env : Forall₂ (fun x v => XV.sem tb.need input (some s.lx) v x) st.env fr.env
  cur : st.cur.sem input s.lx
  mv : Forall₂ (fun m h => Mv.sem s.lx h m) st.mv hs
  inv : LInv input s.lx
  inp : s.input = input
  saved : st.saved.sem input fr.saved
  smv : ∃ h1 h2, hs = h1 ++ h2 ∧ Forall₂ (fun m h => Mv.sem fr.saved h m) st.smv h1
  sinv : LInv input fr.saved
  facts : ∀ k k', (k, k') ∈ st.facts → ∀ a b, k.val fr.env = some a → k'.val fr.env = some b → a < b

variable {st : AS} {hs : List Lx} {fr : Frame} {s : PS}

theorem env_get (h : ASem tb input st hs fr s) {i : Nat} {x : XV} (hx : st.env[i]? = some x) :
    ∃ v, fr.env[i]? = some v ∧ x.sem tb.need input (some s.lx) v := forall₂_get h.env hx

/-- Only the description of variables changes. -/
theorem ASem.withEnv (h : ASem tb input st hs fr s) {env : List XV}
    (he : Forall₂ (fun x v => XV.sem tb.need input (some s.lx) v x) env fr.env) :
    ASem tb input { st with env := env } hs fr s := { h with env := he }

theorem ASem.setEnv (h : ASem tb input st hs fr s) {i : Nat} {x : XV}
    (hx : ∀ v, fr.env[i]? = some v → x.sem tb.need input (some s.lx) v) :
    ASem tb input { st with env := st.env.set i x } hs fr s := h.withEnv (forall₂_set_left h.env hx)

theorem ASem.withCur (h : ASem tb input st hs fr s) {c : CurS} (hc : c.sem input s.lx) :
    ASem tb input { st with cur := c } hs fr s := { h with cur := hc }

/-! ### Refinement -/

theorem obj_setField {t : Ty} {fs : List AV} {p e : PB} {lx : Option Lx} {w v : V} {j : Nat} {a : AV}
    (hw : (XV.obj t fs p e).sem tb.need input lx w) (hf : w.field j = some v) (ha : a.sem tb.need input none v) :
    (XV.obj t (fs.set j a) p e).sem tb.need input lx w := by
  obtain ⟨vs, rfl, h1, h2, h3⟩ := hw
  refine ⟨vs, rfl, forall₂_set_left h1 ?_, h2, h3⟩
  intro b hb
  simp only [V.field] at hf
  rw [hf] at hb; simp at hb; subst hb; exact ha

theorem open_obj {a : AV} {x : XV} (h : a.open tb = some x) : ∃ t fs p e, x = .obj t fs p e := by
  unfold AV.open at h
  split at h
  · simp at h; exact ⟨_, _, _, _, h.symm⟩
  · simp at h; exact ⟨_, _, _, _, h.symm⟩
  · simp at h

theorem refine_sound (h : ASem tb input st hs fr s) {e : Exp} {x : XV} {v : V} (he : e.eval s fr.env = some v)
    (hx : x.sem tb.need input none v) : ASem tb input (st.refine tb e x) hs fr s := by
  unfold AS.refine
  split
  · rename_i i
    simp only [Exp.eval] at he
    exact h.setEnv (fun w hw => by rw [he] at hw; simp at hw; subst hw; exact XV.sem_mono hx)
  · rename_i i j
    simp only [Exp.eval, Option.bind_eq_some_iff] at he
    obtain ⟨w, hw, hf⟩ := he
    split
    · rename_i a
      split
      · rename_i t fs p e hi
        obtain ⟨w', hw', hs'⟩ := env_get h hi
        rw [hw] at hw'; simp at hw'; subst hw'
        exact h.setEnv (fun w' hw' => by rw [hw] at hw'; simp at hw'; subst hw'; exact obj_setField hs' hf hx)
      · rename_i y hi
        obtain ⟨w', hw', hs'⟩ := env_get h hi
        rw [hw] at hw'; simp at hw'; subst hw'
        split
        · rename_i t fs p e ho
          exact h.setEnv (fun w' hw' => by
            rw [hw] at hw'; simp at hw'; subst hw'; exact obj_setField (open_sound ho hs') hf hx)
        · exact h
      · exact h
    · exact h
  · exact h

/-! ### Joins -/

theorem flat_sound (hn : tokNeed tb.need) {c : CurS} {l : Lx} (hi : LInv input l) (hc : c.sem input l) {x : XV} {v : V}
    (hv : x.sem tb.need input (some l) v) (he : EvsOK tb sg (flat tb c x).2) :
    (flat tb c x).1.sem tb.need input none v := weaken_sound (resolve_sound hn hi hc hv) he

theorem map2_lub {fs gs : List AV} {vs : List V} {need : Ty → List PNeed} (hl : fs.length = gs.length)
    (h : FieldsSem need input fs vs ∨ FieldsSem need input gs vs) : FieldsSem need input (map2 AV.lub fs gs) vs := by
  induction fs generalizing gs vs with
  | nil =>
    cases gs with
    | nil => exact h.elim id id
    | cons => simp at hl
  | cons a fs ih =>
    cases gs with
    | nil => simp at hl
    | cons b gs =>
      simp at hl
      cases vs with
      | nil => rcases h with h | h <;> cases h
      | cons v vs =>
        rcases h with h | h
        · cases h with | cons h1 h2 => exact .cons (AV.lub_sound (Or.inl h1)) (ih hl (Or.inl h2))
        · cases h with | cons h1 h2 => exact .cons (AV.lub_sound (Or.inr h1)) (ih hl (Or.inr h2))

theorem xv_lub_sound (hn : tokNeed tb.need) {c d : CurS} {x y : XV} {l : Lx} {v : V} (hi : LInv input l)
    (h : (x.sem tb.need input (some l) v ∧ c.sem input l) ∨ (y.sem tb.need input (some l) v ∧ d.sem input l))
    (he : EvsOK tb sg (XV.lub tb c d x y).2) : (XV.lub tb c d x y).1.sem tb.need input (some l) v := by
  have h' : (x.resolve c).sem tb.need input none v ∨ (y.resolve d).sem tb.need input none v :=
    h.imp (fun h => resolve_sound hn hi h.2 h.1) (fun h => resolve_sound hn hi h.2 h.1)
  revert he
  unfold XV.lub
  split
  · intro _; exact h.elim (fun h => h.1) (fun h => h.1)
  · intro _; exact h.elim (fun h => h.1) (fun h => h.1)
  · intro _; exact h.elim (fun h => h.1) (fun h => h.1)
  · clear h
    generalize x.resolve c = x' at h'
    generalize y.resolve d = y' at h'
    split
    · intro _; exact XV.sem_mono (AV.lub_sound h')
    · rename_i t fs p e u gs p' e'
      split
      · rename_i htu
        obtain ⟨rfl, hl⟩ := htu
        intro _
        rcases h' with ⟨vs, rfl, h1, h2, h3⟩ | ⟨vs, rfl, h1, h2, h3⟩
        · exact ⟨vs, rfl, map2_lub hl (Or.inl h1), PB.res_max_left (PB.res_meet h2 (structEnds_sound h1 false)),
            PB.res_max_left (PB.res_meet h3 (structEnds_sound h1 true))⟩
        · exact ⟨vs, rfl, map2_lub hl (Or.inr h1), PB.res_max_right (PB.res_meet h2 (structEnds_sound h1 false)),
            PB.res_max_right (PB.res_meet h3 (structEnds_sound h1 true))⟩
      · intro he
        simp only [evs_append] at he
        exact XV.sem_mono (x := .v _) (AV.lub_sound (h'.imp (fun h => weaken_sound h he.1) (fun h => weaken_sound h he.2)))
    · intro he
      simp only [evs_append] at he
      exact XV.sem_mono (x := .v _) (AV.lub_sound (h'.imp (fun h => weaken_sound h he.1) (fun h => weaken_sound h he.2)))

theorem lubEnv_sound (hn : tokNeed tb.need) {c d : CurS} {l : Lx} (hi : LInv input l) :
    ∀ {xs ys : List XV} {vs : List V}, xs.length = ys.length →
    ((Forall₂ (fun x v => XV.sem tb.need input (some l) v x) xs vs ∧ c.sem input l) ∨
     (Forall₂ (fun x v => XV.sem tb.need input (some l) v x) ys vs ∧ d.sem input l)) →
    EvsOK tb sg (lubEnv tb c d xs ys).2 →
    Forall₂ (fun x v => XV.sem tb.need input (some l) v x) (lubEnv tb c d xs ys).1 vs := by
  intro xs
  induction xs with
  | nil =>
    intro ys vs hl h _
    cases ys with
    | nil => exact h.elim (fun h => h.1) (fun h => h.1)
    | cons => simp at hl
  | cons x xs ih =>
    intro ys vs hl h he
    cases ys with
    | nil => simp at hl
    | cons y ys =>
      simp at hl
      simp only [lubEnv] at he ⊢
      rw [evs_append] at he
      cases vs with
      | nil => rcases h with h | h <;> cases h.1
      | cons v vs =>
        rcases h with ⟨h, hc⟩ | ⟨h, hc⟩
        · cases h with
          | cons h1 h2 => exact .cons (xv_lub_sound hn hi (Or.inl ⟨h1, hc⟩) he.1) (ih hl (Or.inl ⟨h2, hc⟩) he.2)
        · cases h with
          | cons h1 h2 => exact .cons (xv_lub_sound hn hi (Or.inr ⟨h1, hc⟩) he.1) (ih hl (Or.inr ⟨h2, hc⟩) he.2)

theorem map2_mv {l : Lx} : ∀ {a b : List Mv} {hs : List Lx}, a.length = b.length →
    (Forall₂ (fun m h => Mv.sem l h m) a hs ∨ Forall₂ (fun m h => Mv.sem l h m) b hs) →
    Forall₂ (fun m h => Mv.sem l h m) (map2 Mv.lub a b) hs := by
  intro a
  induction a with
  | nil =>
    intro b hs hl h
    cases b with
    | nil => exact h.elim id id
    | cons => simp at hl
  | cons x a ih =>
    intro b hs hl h
    cases b with
    | nil => simp at hl
    | cons y b =>
      simp at hl
      cases hs with
      | nil => rcases h with h | h <;> cases h
      | cons g hs =>
        rcases h with h | h
        · cases h with | cons h1 h2 => exact .cons (mv_lub_sound (Or.inl h1)) (ih hl (Or.inl h2))
        · cases h with | cons h1 h2 => exact .cons (mv_lub_sound (Or.inr h1)) (ih hl (Or.inr h2))

/-- A list of movements describes a prefix of the heads. -/
theorem map2_smv {l : Lx} : ∀ {a b : List Mv} {hs : List Lx},
    ((∃ h1 h2, hs = h1 ++ h2 ∧ Forall₂ (fun m h => Mv.sem l h m) a h1) ∨ (∃ h1 h2, hs = h1 ++ h2 ∧ Forall₂ (fun m h => Mv.sem l h m) b h1)) →
    ∃ h1 h2, hs = h1 ++ h2 ∧ Forall₂ (fun m h => Mv.sem l h m) (map2 Mv.lub a b) h1 := by
  intro a
  induction a with
  | nil => intro b hs _; exact ⟨[], hs, rfl, by cases b <;> exact .nil⟩
  | cons x a ih =>
    intro b hs h
    cases b with
    | nil => exact ⟨[], hs, rfl, .nil⟩
    | cons y b =>
      rcases h with ⟨h1, h2, rfl, h⟩ | ⟨h1, h2, rfl, h⟩
      · cases h with
        | @cons _ g _ t h h' =>
          obtain ⟨k1, k2, e, hk⟩ := ih (b := b) (hs := t ++ h2) (Or.inl ⟨_, _, rfl, h'⟩)
          exact ⟨g :: k1, k2, by simp [e], .cons (mv_lub_sound (Or.inl h)) hk⟩
      · cases h with
        | @cons _ g _ t h h' =>
          obtain ⟨k1, k2, e, hk⟩ := ih (b := b) (hs := t ++ h2) (Or.inr ⟨_, _, rfl, h'⟩)
          exact ⟨g :: k1, k2, by simp [e], .cons (mv_lub_sound (Or.inr h)) hk⟩

theorem as_lub_sound (hn : tokNeed tb.need) {a b : AS} (hm : a.mv = b.mv) (hl : a.env.length = b.env.length)
    (h : ASem tb input a hs fr s ∨ ASem tb input b hs fr s) (he : EvsOK tb sg (AS.lub tb a b).2) :
    ASem tb input (AS.lub tb a b).1 hs fr s := by
  have hi : LInv input s.lx := h.elim (·.inv) (·.inv)
  refine ⟨?_, ?_, ?_, hi, h.elim (·.inp) (·.inp), ?_, ?_, h.elim (·.sinv) (·.sinv), ?_⟩
  · exact lubEnv_sound hn hi hl (h.imp (fun h => ⟨h.env, h.cur⟩) (fun h => ⟨h.env, h.cur⟩)) he
  · exact curS_lub_sound (h.imp (·.cur) (·.cur))
  · exact map2_mv (by rw [hm]) (h.imp (·.mv) (·.mv))
  · exact curS_lub_sound (h.imp (·.saved) (·.saved))
  · exact map2_smv (h.imp (·.smv) (·.smv))
  · intro k k' hk
    simp only [AS.lub, List.mem_filter, List.contains_iff_mem] at hk
    rcases h with h | h
    · exact h.facts k k' hk.1
    · exact h.facts k k' hk.2

theorem insert_sound (hn : tokNeed tb.need) {level : Nat} {a : AS} : ∀ {l : List AS},
    EvsOK tb sg (insert tb level a l).2 → (ASem tb input a hs fr s ∨ ∃ b ∈ l, ASem tb input b hs fr s) →
    ∃ b ∈ (insert tb level a l).1, ASem tb input b hs fr s := by
  intro l
  induction l with
  | nil =>
    intro _ h
    rcases h with h | ⟨b, hb, _⟩
    · exact ⟨a, by simp [insert], h⟩
    · simp at hb
  | cons b l ih =>
    intro he h
    unfold insert at he ⊢
    split
    · rename_i hab
      rcases h with h | ⟨c, hc, h⟩
      · subst hab; exact ⟨a, by simp, h⟩
      · exact ⟨c, hc, h⟩
    · rename_i hab
      rw [if_neg hab] at he
      split
      · rename_i hap
        rw [if_pos hap] at he
        rcases h with h | ⟨c, hc, h⟩
        · obtain ⟨d, hd, h⟩ := ih he (Or.inl h)
          exact ⟨d, List.mem_cons_of_mem _ hd, h⟩
        · rcases List.mem_cons.1 hc with rfl | hc
          · exact ⟨c, by simp, h⟩
          · obtain ⟨d, hd, h⟩ := ih he (Or.inr ⟨c, hc, h⟩)
            exact ⟨d, List.mem_cons_of_mem _ hd, h⟩
      · rename_i hap
        rw [if_neg hap] at he
        have hap' : a.mv = b.mv ∧ a.env.length = b.env.length := by
          simp only [AS.apart, Bool.or_eq_true, not_or, bne_iff_ne, ne_eq, not_not] at hap
          exact ⟨hap.1.1.2, hap.2⟩
        rcases h with h | ⟨c, hc, h⟩
        · exact ⟨_, List.mem_cons_self, as_lub_sound hn hap'.1 hap'.2 (Or.inl h) he⟩
        · rcases List.mem_cons.1 hc with rfl | hc
          · exact ⟨_, List.mem_cons_self, as_lub_sound hn hap'.1 hap'.2 (Or.inr h) he⟩
          · exact ⟨c, List.mem_cons_of_mem _ hc, h⟩

theorem joinL_sound (hn : tokNeed tb.need) {level : Nat} : ∀ {l : List AS},
    EvsOK tb sg (joinL tb level l).2 → (∃ b ∈ l, ASem tb input b hs fr s) → ∃ b ∈ (joinL tb level l).1, ASem tb input b hs fr s := by
  intro l
  induction l with
  | nil => rintro _ ⟨b, hb, _⟩; simp at hb
  | cons a l ih =>
    rintro he ⟨b, hb, h⟩
    simp only [joinL] at he ⊢
    rw [evs_append] at he
    refine insert_sound hn he.2 ?_
    rcases List.mem_cons.1 hb with rfl | hb
    · exact Or.inl h
    · exact Or.inr (ih he.1 ⟨b, hb, h⟩)

/-- A state described by one of the list is described by one of the joined list. -/
theorem join_sound (hn : tokNeed tb.need) {l : List AS} (he : EvsOK tb sg (join tb l).2)
    (h : ∃ b ∈ l, ASem tb input b hs fr s) : ∃ b ∈ (join tb l).1, ASem tb input b hs fr s := by
  simp only [join] at he ⊢
  split
  · rename_i h1
    rw [if_pos h1] at he
    exact joinL_sound hn he h
  · rename_i h1
    rw [if_neg h1] at he
    split
    · rename_i h2
      rw [if_pos h2] at he
      rw [evs_append] at he
      exact joinL_sound hn he.2 (joinL_sound hn he.1 h)
    · rename_i h2
      rw [if_neg h2] at he
      split
      · rename_i h3
        rw [if_pos h3] at he
        simp only [evs_append] at he
        exact joinL_sound hn he.2.2 (joinL_sound hn he.2.1 (joinL_sound hn he.1 h))
      · rename_i h3
        rw [if_neg h3] at he
        simp only [evs_append] at he
        exact joinL_sound hn he.2.2.2 (joinL_sound hn he.2.2.1 (joinL_sound hn he.2.1 (joinL_sound hn he.1 h)))

/-! ### Order -/

theorem xv_le_sound {x y : XV} {lx : Option Lx} {v : V} (h : x.le tb y = true)
    (hv : x.sem tb.need input lx v) : y.sem tb.need input lx v := by
  unfold XV.le at h
  split at h
  · exact AV.le_sound h hv
  · simp only [Bool.and_eq_true, decide_eq_true_eq] at h
    obtain ⟨⟨rfl, h1⟩, h2, h3⟩ := h
    obtain ⟨vs, rfl, hs, hp, he⟩ := hv
    have h2' := (Bool.or_eq_true _ _ ▸ h2).elim (PB.res_mono hp) (PB.res_mono (PB.res_meet hp (structEnds_sound hs false)))
    have h3' := (Bool.or_eq_true _ _ ▸ h3).elim (PB.res_mono he) (PB.res_mono (PB.res_meet he (structEnds_sound hs true)))
    refine ⟨vs, rfl, ?_, h2', h3'⟩
    rw [all2_forall₂] at h1
    clear hp he h2 h3 h2' h3'
    induction h1 generalizing vs with
    | nil => exact hs
    | cons h _ ih =>
      cases hs with
      | cons h1 h2 => exact .cons (AV.le_sound h h1) (ih _ h2)
  · trivial
  · simp at h

theorem xv_leV_sound {x : XV} {b : AV} {lx : Option Lx} {v : V} {need : Ty → List PNeed} (h : x.leV b = true)
    (hv : x.sem need input lx v) : b.sem need input lx v := by
  unfold XV.leV at h
  split at h
  · exact AV.le_sound h hv
  · simp at h; subst h; trivial

theorem leW_sound (hn : tokNeed tb.need) {c : CurS} {x y : XV} {l : Lx} {v : V} (hi : LInv input l) (hc : c.sem input l)
    (hv : x.sem tb.need input (some l) v) (h : (XV.leW tb c x y).1 = true) (he : EvsOK tb sg (XV.leW tb c x y).2) :
    y.sem tb.need input (some l) v := by
  simp only [XV.leW] at h he
  split at h
  · rename_i h1; exact xv_le_sound h1 hv
  · rename_i h1
    rw [if_neg h1] at he
    have hr := resolve_sound hn hi hc hv
    split at h
    · rename_i h2; exact XV.sem_mono (xv_le_sound h2 hr)
    · rename_i h2
      rw [if_neg h2] at he
      exact XV.sem_mono (xv_le_sound (x := .v (weaken tb (x.resolve c)).1) (lx := none) h (weaken_sound hr he))

theorem envLeW_sound (hn : tokNeed tb.need) {c : CurS} {l : Lx} (hi : LInv input l) (hc : c.sem input l) :
    ∀ {xs ys : List XV} {vs : List V}, Forall₂ (fun x v => XV.sem tb.need input (some l) v x) xs vs →
    (envLeW tb c xs ys).1 = true → EvsOK tb sg (envLeW tb c xs ys).2 →
    Forall₂ (fun x v => XV.sem tb.need input (some l) v x) ys vs := by
  intro xs ys vs h
  induction h generalizing ys with
  | nil =>
    intro h1 _
    cases ys with
    | nil => exact .nil
    | cons => simp [envLeW] at h1
  | cons hx _ ih =>
    intro h1 he
    cases ys with
    | nil => simp [envLeW] at h1
    | cons y ys =>
      simp only [envLeW] at h1 he
      split at h1
      · rename_i h2
        rw [if_pos h2] at he
        rw [evs_append] at he
        exact .cons (leW_sound hn hi hc hx h2 he.1) (ih h1 he.2)
      · simp at h1

theorem all2_mv {l : Lx} {a b : List Mv} {hs : List Lx} (h : all2 Mv.cmp a b = true)
    (ha : Forall₂ (fun m h => Mv.sem l h m) a hs) : Forall₂ (fun m h => Mv.sem l h m) b hs := by
  rw [all2_forall₂] at h
  induction h generalizing hs with
  | nil => exact ha
  | cons h _ ih =>
    cases ha with
    | cons h1 h2 => exact .cons (mv_cmp_sound h h1) (ih h2)

theorem as_leW_sound (hn : tokNeed tb.need) {a b : AS} (ha : ASem tb input a hs fr s) (h : (AS.leW tb a b).1 = true)
    (he : EvsOK tb sg (AS.leW tb a b).2) : ASem tb input b hs fr s := by
  unfold AS.leW at h he
  split at h
  · rename_i hc
    rw [if_pos hc] at he
    simp only [Bool.and_eq_true, List.all_eq_true, List.contains_iff_mem] at hc
    obtain ⟨⟨⟨⟨h1, h2⟩, h3⟩, h4⟩, h5⟩ := hc
    refine ⟨envLeW_sound hn ha.inv ha.cur ha.env h he, curS_le_sound h1 ha.cur, all2_mv h2 ha.mv, ha.inv, ha.inp,
      curS_le_sound h3 ha.saved, ?_, ha.sinv, fun k k' hk => ha.facts k k' (h5 _ hk)⟩
    obtain ⟨h1, h2, e, hm⟩ := ha.smv
    exact ⟨h1, h2, e, all2_mv h4 hm⟩
  · simp at h

theorem coveredBy_sound (hn : tokNeed tb.need) {a : AS} (ha : ASem tb input a hs fr s) : ∀ {l : List AS},
    (coveredBy tb a l).1 = true → EvsOK tb sg (coveredBy tb a l).2 → ∃ b ∈ l, ASem tb input b hs fr s := by
  intro l
  induction l with
  | nil => intro h _; simp [coveredBy] at h
  | cons b l ih =>
    intro h he
    simp only [coveredBy] at h he
    split at h
    · rename_i h1
      rw [if_pos h1] at he
      exact ⟨b, by simp, as_leW_sound hn ha h he⟩
    · rename_i h1
      rw [if_neg h1] at he
      obtain ⟨c, hc, h⟩ := ih h he
      exact ⟨c, List.mem_cons_of_mem _ hc, h⟩

theorem allCovered_sound (hn : tokNeed tb.need) {m : List AS} : ∀ {l : List AS}, (allCovered tb l m).1 = true →
    EvsOK tb sg (allCovered tb l m).2 → (∃ b ∈ l, ASem tb input b hs fr s) → ∃ b ∈ m, ASem tb input b hs fr s := by
  intro l
  induction l with
  | nil => rintro _ _ ⟨b, hb, _⟩; simp at hb
  | cons a l ih =>
    rintro h he ⟨b, hb, hs⟩
    simp only [allCovered] at h he
    split at h
    · rename_i h1
      rw [if_pos h1] at he
      rw [evs_append] at he
      rcases List.mem_cons.1 hb with rfl | hb
      · exact coveredBy_sound hn hs h1 he.1
      · exact ih h he.2 ⟨b, hb, hs⟩
    · simp at h

/-! ### Tests -/

theorem as_some {m : Nat} {k : Tk} (h : ASem tb input st hs fr s) {t : Token} (ht : s.lx.cur = some t)
    (hm : t.pos + m ≤ input.length) (hk : k.sem t) : ∃ st' ∈ st.some m k, ASem tb input st' hs fr s := by
  unfold AS.some
  have hc := h.cur
  split
  · exact ⟨_, by simp, h.withCur (c := .tok m k) ⟨t, ht, hm, hk⟩⟩
  · rename_i m' k' hcur
    rw [hcur] at hc
    obtain ⟨t', ht', hm', hk'⟩ := hc
    rw [ht] at ht'; simp at ht'; subst ht'
    refine ⟨_, List.mem_cons_self, h.withCur (c := .tok _ _) ⟨t, ht, by omega, ?_⟩⟩
    split
    · exact hk'
    · exact hk
  · exfalso
    rename_i h1 h2
    cases hcc : st.cur with
    | any => exact h1 hcc
    | tok m k => exact h2 m k hcc
    | none => rw [hcc] at hc; simp only [CurS.sem] at hc; rw [ht] at hc; simp at hc
    | eof => rw [hcc] at hc; have := hc.1; rw [ht] at this; simp at this

theorem as_noTok (h : ASem tb input st hs fr s) (ht : s.lx.cur = none) : ∃ st' ∈ st.noTok, ASem tb input st' hs fr s := by
  unfold AS.noTok
  have hc := h.cur
  split
  · exact ⟨_, by simp, h.withCur (c := .none) ht⟩
  · rename_i m' k' hcur
    rw [hcur] at hc
    obtain ⟨t', ht', _⟩ := hc
    rw [ht] at ht'; simp at ht'
  · exact ⟨_, by simp, h⟩

/-- The outcomes of a test cover its result. -/
def TSem (tb : Tables Fn) (input : Str) (l : List (Bool × AS)) (hs : List Lx) (fr : Frame) (s : PS) (b : Bool) : Prop :=
  ∃ st, (b, st) ∈ l ∧ ASem tb input st hs fr s

theorem tsem_one (h : ASem tb input st hs fr s) {b c : Bool} (hb : b = c) : TSem tb input [(c, st)] hs fr s b :=
  ⟨st, by simp [hb], h⟩

theorem tsem_both (h : ASem tb input st hs fr s) {b : Bool} : TSem tb input [(true, st), (false, st)] hs fr s b :=
  ⟨st, by cases b <;> simp, h⟩

theorem tsem_some (h : ASem tb input st hs fr s) {b : Bool} {m : Nat} {k : Tk}
    (hb : b = true → ∃ t, s.lx.cur = some t ∧ t.pos + m ≤ input.length ∧ k.sem t) :
    TSem tb input ((st.some m k).map (fun st => (true, st)) ++ [(false, st)]) hs fr s b := by
  cases b with
  | false => exact ⟨st, by simp, h⟩
  | true =>
    obtain ⟨t, h1, h2, h3⟩ := hb rfl
    obtain ⟨st', hm, hs'⟩ := as_some h h1 h2 h3
    exact ⟨st', by simp [hm], hs'⟩

theorem testKinds_sound (h : ASem tb input st hs fr s) (ks : List Str) :
    TSem tb input (testKinds st ks) hs fr s (s.lx.matchKinds ks) := by
  have hc := h.cur
  unfold testKinds
  split
  · rename_i he; rw [he] at hc; exact tsem_one h (matchKinds_none hc ks)
  · rename_i he; rw [he] at hc; exact tsem_one h (matchKinds_none hc.1 ks)
  · rename_i m k he
    rw [he] at hc
    obtain ⟨t, ht, _, hk, hk'⟩ := hc
    subst hk
    exact tsem_one h (matchKinds_kind ht hk' ks)
  · rename_i m k he
    rw [he] at hc
    obtain ⟨t, ht, _, hk, hk'⟩ := hc
    rw [← hk']
    exact tsem_one h (matchKinds_kw ht hk ks)
  · split
    · exact tsem_both h
    · rename_i he
      simp only [Bool.not_eq_true] at he
      refine tsem_some h (fun hm => ?_)
      obtain ⟨t, ht⟩ := matchKinds_eof hm he
      exact ⟨t, ht, kinds_len h.inv ht hm, kinds_tk ht hm⟩

theorem testKw_sound (h : ASem tb input st hs fr s) (k : Str) :
    TSem tb input (testKw st k) hs fr s (s.lx.matchKw k) := by
  have hc := h.cur
  unfold testKw
  split
  · rename_i he; rw [he] at hc; exact tsem_one h (matchKw_none hc k)
  · rename_i he; rw [he] at hc; exact tsem_one h (matchKw_none hc.1 k)
  · rename_i m k' he
    rw [he] at hc
    obtain ⟨t, ht, _, hk, hk'⟩ := hc
    refine tsem_one h ?_
    cases hm : s.lx.matchKw k with
    | false => rfl
    | true =>
      obtain ⟨t', ht', h1, _⟩ := matchKw_iff.1 hm
      rw [ht] at ht'; simp at ht'; subst ht'
      rw [hk] at h1; exact absurd h1 hk'
  · rename_i m k' he
    rw [he] at hc
    obtain ⟨t, ht, _, hk, hk'⟩ := hc
    refine tsem_one h ?_
    rw [Bool.eq_iff_iff, matchKw_iff]
    simp only [equalFold, beq_iff_eq]
    constructor
    · rintro ⟨t', ht', _, h2⟩
      rw [ht] at ht'; simp at ht'; subst ht'
      rw [← hk']; exact h2
    · intro h2; exact ⟨t, ht, hk, by rw [hk', h2]⟩
  · refine tsem_some h (fun hm => ?_)
    obtain ⟨t, ht, hk, hu⟩ := matchKw_iff.1 hm
    have hl := h.inv.str_len ht
    have := congrArg List.length hu
    rw [upper_length, upper_length] at this
    exact ⟨t, ht, by omega, hk, hu⟩

theorem matchOneOf_iff {l : Lx} {ks : List Str} : l.matchOneOf ks = true ↔
    ∃ k ∈ ks, ∃ t, l.cur = some t ∧ t.kind.toStr = Kind.keyword.toStr ∧ upper t.str = upper k := by
  simp only [Lx.matchOneOf, List.any_eq_true]
  constructor
  · rintro ⟨k, hk, h⟩; exact ⟨k, hk, matchKw_iff.1 h⟩
  · rintro ⟨k, hk, h⟩; exact ⟨k, hk, matchKw_iff.2 h⟩

theorem testOneOf_sound (h : ASem tb input st hs fr s) (ks : List Str) (o : Option (List Str)) (ho : ∀ l, o = some l → l = ks) :
    TSem tb input (testOneOf st o) hs fr s (s.lx.matchOneOf ks) := by
  have hc := h.cur
  have no : (∀ t, s.lx.cur = some t → t.kind.toStr ≠ Kind.keyword.toStr) → s.lx.matchOneOf ks = false := by
    intro hn
    cases hm : s.lx.matchOneOf ks with
    | false => rfl
    | true =>
      obtain ⟨k, _, t, ht, h1, _⟩ := matchOneOf_iff.1 hm
      exact absurd h1 (hn t ht)
  unfold testOneOf
  split
  · rename_i he; rw [he] at hc; simp only [CurS.sem] at hc
    exact tsem_one h (no (by simp [hc]))
  · rename_i he; rw [he] at hc
    exact tsem_one h (no (by simp [hc.1]))
  · rename_i m k' he
    rw [he] at hc
    obtain ⟨t, ht, _, hk, hk'⟩ := hc
    refine tsem_one h (no ?_)
    intro t' ht'
    rw [ht] at ht'; simp at ht'; subst ht'
    rw [hk]; exact hk'
  · split
    · rename_i m k' l he
      have hl := ho _ rfl
      subst hl
      rw [he] at hc
      obtain ⟨t, ht, _, hk, hk'⟩ := hc
      refine tsem_one h ?_
      rw [Bool.eq_iff_iff, matchOneOf_iff]
      simp only [List.any_eq_true, equalFold, beq_iff_eq]
      constructor
      · rintro ⟨k, hm, t', ht', _, h2⟩
        rw [ht] at ht'; simp at ht'; subst ht'
        exact ⟨k, hm, by rw [← hk']; exact h2⟩
      · rintro ⟨k, hm, h2⟩; exact ⟨k, hm, t, ht, hk, by rw [hk', h2]⟩
    · rename_i l _
      have hl := ho _ rfl
      subst hl
      refine tsem_some h (fun hm => ?_)
      obtain ⟨k, hmem, t, ht, hk, hu⟩ := matchOneOf_iff.1 hm
      have hl := h.inv.str_len ht
      have := congrArg List.length hu
      rw [upper_length, upper_length] at this
      have := minLen_le hmem
      exact ⟨t, ht, by omega, trivial⟩
    · refine tsem_some h (fun hm => ?_)
      obtain ⟨k, hmem, t, ht, hk, hu⟩ := matchOneOf_iff.1 hm
      have hl := h.inv.str_len ht
      exact ⟨t, ht, by omega, trivial⟩

theorem testKind_sound (h : ASem tb input st hs fr s) (x : Str) :
    TSem tb input (testKind st x) hs fr s (s.lx.curKind == x) := by
  have hc := h.cur
  have comm : ∀ a b : Str, (a == b) = (b == a) := by
    intro a b; rw [Bool.eq_iff_iff, beq_iff_eq, beq_iff_eq]; exact eq_comm
  unfold testKind
  split
  · rename_i he; rw [he] at hc; simp only [CurS.sem] at hc
    exact tsem_one h (by rw [curKind_none hc, comm])
  · rename_i he; rw [he] at hc
    exact tsem_one h (by rw [curKind_none hc.1, comm])
  · rename_i m k' he
    rw [he] at hc
    obtain ⟨t, ht, _, hk, hk'⟩ := hc
    exact tsem_one h (by rw [curKind_eq ht, hk, comm])
  · rename_i m k' he
    rw [he] at hc
    obtain ⟨t, ht, _, hk, hk'⟩ := hc
    exact tsem_one h (by rw [curKind_eq ht, hk, comm])
  · split
    · exact tsem_both h
    · rename_i he
      refine tsem_some h (fun hm => ?_)
      simp only [beq_iff_eq] at hm he
      cases hcur : s.lx.cur with
      | none => rw [curKind_none hcur] at hm; exact absurd hm.symm he
      | some t =>
        rw [curKind_eq hcur] at hm
        refine ⟨t, rfl, ?_, ?_⟩
        · refine kinds_len h.inv hcur ?_
          by_cases hk : t.kind.toStr = Kind.keyword.toStr
          · rw [matchKinds_kw hcur hk, ← hm, hk]; simp
          · rw [matchKinds_kind hcur hk, hm]; simp
        · split
          · trivial
          · rename_i hne
            simp only [beq_iff_eq] at hne
            exact ⟨hm, hne⟩

theorem testKindE_sound (h : ASem tb input st hs fr s) {e : Exp} {k : Str} (he : e.eval s fr.env = some (.str k))
    (hk : k ≠ Kind.eof.toStr) : TSem tb input (testKindE st e) hs fr s (s.lx.matchKinds [k]) := by
  unfold testKindE
  split
  · simp [Exp.eval] at he; subst he; exact testKinds_sound h _
  · refine tsem_some h (fun hm => ?_)
    obtain ⟨t, ht⟩ := matchKinds_eof hm (by rw [Bool.eq_false_iff]; intro hc; rw [List.contains_iff_mem] at hc; exact hk (List.mem_singleton.1 hc).symm)
    have := h.inv.str_len ht
    exact ⟨t, ht, by omega, trivial⟩

theorem matchKw_oneOf {l : Lx} {k : Str} : l.matchOneOf [k] = l.matchKw k := by simp [Lx.matchOneOf]

theorem testKwE_sound (h : ASem tb input st hs fr s) {e : Exp} {k : Str} (he : e.eval s fr.env = some (.str k)) :
    TSem tb input (testKwE st e) hs fr s (s.lx.matchKw k) := by
  unfold testKwE
  split
  · simp [Exp.eval] at he; subst he; exact testKw_sound h _
  · rw [← matchKw_oneOf]; exact testOneOf_sound h [k] none (by simp)

end Verif.An

/-
Soundness of the check of `Verif.Group.Check`.
-/
import Verif.Group.Check
import Verif.Group.Hoare

namespace Verif.Group
open Verif.Spec

/-! ### Values -/

/-- All operations in the value are grouped. -/
def Good (v : V) : Prop := ∀ u ∈ v.structs, Grouped u

theorem mem_nodesL {isN : Ty → Bool} {u : V} : ∀ {l : List V}, u ∈ V.nodesL isN l ↔ ∃ v ∈ l, u ∈ v.nodes isN
  | [] => by simp [V.nodesL]
  | a :: l => by simp [V.nodesL, mem_nodesL (l := l)]

theorem good_mk {t : Ty} {fs : List V} : Good (.mk t fs) ↔ Grouped (.mk t fs) ∧ ∀ f ∈ fs, Good f := by
  simp only [Good, V.structs, V.nodes, if_true, List.mem_cons, mem_nodesL]
  constructor
  · intro h
    exact ⟨h _ (.inl rfl), fun f hf u hu => h u (.inr ⟨f, hf, hu⟩)⟩
  · rintro ⟨h, hf⟩ u (rfl | ⟨f, hm, hu⟩)
    · exact h
    · exact hf f hm u hu

theorem good_list {l : List V} : Good (.list l) ↔ ∀ f ∈ l, Good f := by
  simp only [Good, V.structs, V.nodes, mem_nodesL]
  exact ⟨fun h f hf u hu => h u ⟨f, hf, hu⟩, fun h u ⟨f, hf, hu⟩ => h f hf u hu⟩

theorem good_nil : Good .nil := by simp [Good, V.structs, V.nodes]
theorem good_nat {n : Nat} : Good (.nat n) := by simp [Good, V.structs, V.nodes]
theorem good_bool {n : Bool} : Good (.bool n) := by simp [Good, V.structs, V.nodes]
theorem good_str {n : Str} : Good (.str n) := by simp [Good, V.structs, V.nodes]

theorem good_items {v : V} (h : Good v) : ∀ f ∈ v.items, Good f := by
  cases v with
  | list l => exact good_list.1 h
  | _ => simp [V.items]

theorem good_field {v w : V} {i : Nat} (h : Good v) (hw : v.field i = some w) : Good w := by
  cases v with
  | mk t fs => exact (good_mk.1 h).2 w (List.mem_of_getElem? hw)
  | _ => simp [V.field] at hw

/-- No operation. -/
def NotOp (v : V) : Prop := ∀ t, v.ty? = some t → opTys.contains t = false

theorem leftOpen_notOp {v : V} (h : NotOp v) : leftOpen v = none := by
  unfold leftOpen
  split <;> first | rfl | exact absurd (h _ rfl) (by decide)

theorem rightOpen_notOp {v : V} (h : NotOp v) : rightOpen v = none := by
  unfold rightOpen
  split <;> first | rfl | exact absurd (h _ rfl) (by decide)

theorem grouped_closed {v : V} (hl : leftOpen v = none) (hr : rightOpen v = none) : Grouped v where
  left p l h := by rw [hl] at h; cases h
  right p l h := by rw [hr] at h; cases h
  between e n b p a h he := by subst h; simp [leftOpen, he] at hl

theorem grouped_notOp {v : V} (h : NotOp v) : Grouped v := grouped_closed (leftOpen_notOp h) (rightOpen_notOp h)

theorem notOp_mk {t : Ty} {fs : List V} (h : opTys.contains t = false) : NotOp (.mk t fs) := by
  intro t' h'; simp only [V.ty?, Option.some.injEq] at h'; exact h' ▸ h

theorem good_mk_plain {t : Ty} {fs : List V} (h : opTys.contains t = false) (hf : ∀ f ∈ fs, Good f) : Good (.mk t fs) :=
  good_mk.2 ⟨grouped_notOp (notOp_mk h), hf⟩

theorem noLeft {v : V} (h : leftOpen v = none) {q : Nat} : ¬ LeftPower v q := by
  intro hq; cases hq with
  | here e => rw [h] at e; cases e
  | down e _ => rw [h] at e; cases e

theorem noRight {v : V} (h : rightOpen v = none) {q : Nat} : ¬ RightPower v q := by
  intro hq; cases hq with
  | here e => rw [h] at e; cases e
  | down e _ => rw [h] at e; cases e

/-- What the classes stand for. -/
def Cls.sat (c : Cls) (v : V) : Prop := Good v ∧ match c with
  | .any => True
  | .atom => leftOpen v = none ∧ rightOpen v = none
  | .plain => NotOp v
  | .name => isName v = true
  | .form => ∃ a b c d e f, v = .mk .KeywordArgForm [a, b, c, d, e, f] ∧ (∀ k, V.str k ∈ a.items → k ∈ modWords) ∧
    ∀ k, V.str k ∈ c.items → k ∈ sepWords

theorem notOp_name {v : V} (h : isName v = true) : NotOp v := by
  intro t ht
  simp only [isName, ht, beq_iff_eq] at h
  subst h; decide

theorem sat_plain_of {c : Cls} {v : V} (hc : c.le .plain = true) (h : c.sat v) : Good v ∧ NotOp v := by
  cases c with
  | any => simp [Cls.le] at hc
  | atom => simp [Cls.le] at hc
  | plain => exact h
  | name => exact ⟨h.1, notOp_name h.2⟩
  | form => obtain ⟨a, b, c, d, e, f, rfl, -⟩ := h.2; exact ⟨h.1, notOp_mk (by decide)⟩

theorem sat_le {c d : Cls} {v : V} (hc : c.le d = true) (h : c.sat v) : d.sat v := by
  by_cases hcd : c = d
  · exact hcd ▸ h
  · cases d with
    | any => exact ⟨h.1, trivial⟩
    | atom =>
      have : Good v ∧ NotOp v := sat_plain_of (by clear h; cases c <;> first | rfl | exact absurd hc (by decide) | exact absurd rfl hcd) h
      exact ⟨this.1, leftOpen_notOp this.2, rightOpen_notOp this.2⟩
    | plain => exact sat_plain_of hc h
    | name => cases c <;> first | exact absurd hc (by decide) | exact absurd rfl hcd
    | form => cases c <;> first | exact absurd hc (by decide) | exact absurd rfl hcd

theorem sat_join_left {c d : Cls} {v : V} (h : c.sat v) : (c.join d).sat v :=
  sat_le (by clear h; cases c <;> cases d <;> rfl) h

theorem sat_join_right {c d : Cls} {v : V} (h : d.sat v) : (c.join d).sat v :=
  sat_le (by clear h; cases c <;> cases d <;> rfl) h

theorem sat_nil : Cls.name.sat .nil := ⟨good_nil, rfl⟩
theorem sat_nat {n : Nat} : Cls.name.sat (.nat n) := ⟨good_nat, rfl⟩
theorem sat_bool {n : Bool} : Cls.name.sat (.bool n) := ⟨good_bool, rfl⟩
theorem sat_str {n : Str} : Cls.name.sat (.str n) := ⟨good_str, rfl⟩
theorem sat_list {l : List V} (h : ∀ f ∈ l, Good f) : Cls.name.sat (.list l) := ⟨good_list.2 h, rfl⟩

theorem sat_mk {t : Ty} {fs : List V} (h : opTys.contains t = false) (hf : ∀ f ∈ fs, Good f) : Cls.plain.sat (.mk t fs) :=
  ⟨good_mk_plain h hf, notOp_mk h⟩

theorem good_forall₂ {cs : List Cls} {vs : List V} (h : List.Forall₂ Cls.sat cs vs) : ∀ v ∈ vs, Good v := by
  induction h with
  | nil => simp
  | cons h _ ih =>
    intro v hv
    rcases List.mem_cons.1 hv with rfl | hv
    · exact h.1
    · exact ih v hv

theorem sat_tokV (t : Option Token) : Cls.plain.sat (tokV t) := by
  cases t with
  | none => exact sat_le (by decide) sat_nil
  | some t =>
    apply sat_mk (by decide)
    simp [good_nat, good_str]

theorem sat_plainErr (s : Str) : Cls.plain.sat (plainErr s) := sat_mk (by decide) (by simp [good_str])

theorem sat_kindErr (l : Lx) (k : Str) : Cls.plain.sat (kindErr l k) := by
  refine sat_mk (by decide) ?_
  simp [good_nat, good_str, good_list, (sat_tokV l.cur).1]

theorem sat_keywordErr (l : Lx) (k : Str) : Cls.plain.sat (keywordErr l k) := by
  refine sat_mk (by decide) ?_
  simp [good_nat, good_str, good_list, good_nil, (sat_tokV l.cur).1]

theorem good_wrapErr (s : PS) {e : V} (h : Good e) : Good (wrapErr s e) := by
  unfold wrapErr
  dsimp only
  split
  · rename_i pos line column rest
    have hf := (good_mk.1 h).2
    simp only [List.mem_cons, forall_eq_or_imp] at hf
    split <;> refine good_mk_plain (by decide) ?_ <;> simp only [List.mem_cons, forall_eq_or_imp]
    · exact ⟨good_nat, good_nat, good_nat, hf.2.2.2⟩
    · exact ⟨good_nat, hf.2.1, hf.2.2.1, hf.2.2.2⟩
  · rename_i m
    have hf := (good_mk.1 h).2
    simp only [List.mem_cons, forall_eq_or_imp] at hf
    split <;> refine good_mk_plain (by decide) ?_ <;> simp [good_nat, good_str, good_nil, (sat_tokV s.lx.cur).1, hf.1]
  · exact h

/-! ### Expressions -/

/-- The variables hold what they may hold. -/
def EnvSat (Γ : List Cls) (env : List V) : Prop := ∀ (x : Nat) (c : Cls) (v : V), Γ[x]? = some c → env[x]? = some v → c.sat v

theorem envSat_set {Γ : List Cls} {env : List V} (h : EnvSat Γ env) {x : Nat} {c : Cls} {v : V} (hv : c.sat v) :
    EnvSat (Γ.set x c) (env.set x v) := by
  intro y d w hd hw
  rw [List.getElem?_set] at hd hw
  split at hd
  · rename_i hxy
    rw [if_pos hxy] at hw
    split at hd <;> simp only [Option.some.injEq, reduceCtorEq] at hd
    split at hw <;> simp only [Option.some.injEq, reduceCtorEq] at hw
    exact hd ▸ hw ▸ hv
  · rename_i hxy
    rw [if_neg hxy] at hw
    exact h y d w hd hw

theorem envSat_of {Γ : List Cls} {env : List V} (h : List.Forall₂ Cls.sat Γ env) : EnvSat Γ env := by
  induction h with
  | nil => intro x c v hc; simp at hc
  | cons h _ ih =>
    intro x c v hc hv
    cases x with
    | zero => simp only [List.getElem?_cons_zero, Option.some.injEq] at hc hv; exact hc ▸ hv ▸ h
    | succ x => simp only [List.getElem?_cons_succ] at hc hv; exact ih x c v hc hv

theorem envSat_append {Γ Δ : List Cls} {env ent : List V} (h : List.Forall₂ Cls.sat Γ env) (h' : EnvSat Δ ent) : EnvSat (Γ ++ Δ) (env ++ ent) := by
  induction h with
  | nil => exact h'
  | cons h _ ih =>
    intro x c v hc hv
    cases x with
    | zero => simp only [List.cons_append, List.getElem?_cons_zero, Option.some.injEq] at hc hv; exact hc ▸ hv ▸ h
    | succ x => simp only [List.cons_append, List.getElem?_cons_succ] at hc hv; exact ih x c v hc hv

theorem envSat_replicate {n m : Nat} : EnvSat (List.replicate n .name) (List.replicate m V.nil) := by
  intro x c v hc hv
  rw [List.getElem?_replicate] at hc hv
  split at hc <;> simp only [Option.some.injEq, reduceCtorEq] at hc
  split at hv <;> simp only [Option.some.injEq, reduceCtorEq] at hv
  exact hc ▸ hv ▸ sat_nil

theorem words_mem {ws : List Str} {e : Exp} {s : PS} {env : List V} {v : V} (h : Exp.wordsIn ws e = true) (hv : e.eval s env = some v) {k : Str}
    (hk : V.str k ∈ v.items) : k ∈ ws := by
  cases e with
  | nil => simp only [Exp.eval, Option.some.injEq] at hv; subst hv; simp [V.items] at hk
  | strs ss =>
    simp only [Exp.eval, Option.some.injEq] at hv; subst hv
    simp only [V.items, List.mem_map, V.str.injEq, exists_eq_right] at hk
    simp only [Exp.wordsIn, List.all_eq_true, List.contains_iff_mem] at h
    exact h k hk
  | _ => simp [Exp.wordsIn] at h


/-- Without a left operand. -/
theorem sat_atom {t : Ty} {fs : List V} (hf : ∀ f ∈ fs, Good f) (hl : leftOpen (.mk t fs) = none) (hr : rightOpen (.mk t fs) = none) :
    Cls.atom.sat (.mk t fs) := ⟨good_mk.2 ⟨grouped_closed hl hr, hf⟩, hl, hr⟩

theorem isSome_of {α β : Type} {f : α → β} {o : Option α} {c : β} (h : o.map f = some c) : ∃ a, o = some a ∧ f a = c := by
  simpa [Option.map_eq_some_iff] using h

mutual
theorem cls_sound {Γ : List Cls} {s : PS} {env : List V} (h : EnvSat Γ env) :
    ∀ (e : Exp) {c : Cls} {v : V}, cls Γ e = some c → e.eval s env = some v → c.sat v
  | .nil, c, v, hc, hv => by simp only [cls, Exp.eval, Option.some.injEq] at hc hv; subst hc hv; exact sat_nil
  | .nat n, c, v, hc, hv => by simp only [cls, Exp.eval, Option.some.injEq] at hc hv; subst hc hv; exact sat_nat
  | .bool n, c, v, hc, hv => by simp only [cls, Exp.eval, Option.some.injEq] at hc hv; subst hc hv; exact sat_bool
  | .str n, c, v, hc, hv => by simp only [cls, Exp.eval, Option.some.injEq] at hc hv; subst hc hv; exact sat_str
  | .empty, c, v, hc, hv => by simp only [cls, Exp.eval, Option.some.injEq] at hc hv; subst hc hv; exact sat_list (by simp)
  | .strs ss, c, v, hc, hv => by
    simp only [cls, Exp.eval, Option.some.injEq] at hc hv; subst hc hv
    exact sat_list (by simp only [List.mem_map]; rintro _ ⟨x, -, rfl⟩; exact good_str)
  | .var x, c, v, hc, hv => by simp only [cls, Exp.eval] at hc hv; exact h x c v hc hv
  | .fld e i, c, v, hc, hv => by
    simp only [cls, Exp.eval, Option.map_eq_some_iff, Option.bind_eq_some_iff] at hc hv
    obtain ⟨c', hc', rfl⟩ := hc
    obtain ⟨w, hw, hv⟩ := hv
    exact ⟨good_field (cls_sound h e hc' hw).1 hv, trivial⟩
  | .deref e, c, v, hc, hv => by
    simp only [cls, Exp.eval, Option.bind_eq_some_iff] at hc hv
    obtain ⟨w, hw, hv⟩ := hv
    split at hv
    · simp only [Option.some.injEq] at hv; exact hv ▸ cls_sound h e hc hw
    · cases hv
  | .mk t fs, c, v, hc, hv => by
    simp only [Exp.eval, Option.map_eq_some_iff] at hv
    obtain ⟨vs, hvs, rfl⟩ := hv
    have hL := fun cs hcs => clsL_sound h fs (cs := cs) hcs hvs
    rw [cls.eq_def] at hc
    dsimp only at hc
    split at hc
    · rename_i a b c d
      obtain ⟨cs, hcs, rfl⟩ := isSome_of hc
      have hg := good_forall₂ (hL (.name :: cs) (by rw [clsL]; simp [cls, hcs]))
      simp only [Exp.evalL, Exp.eval, Option.bind_some, Option.map_eq_some_iff] at hvs
      obtain ⟨ws, -, rfl⟩ := hvs
      refine sat_atom hg ?_ ?_
      · unfold leftOpen; split <;> first | rfl | (rename_i hh; cases hh; done) | (rename_i hh; cases hh; rfl)
      · unfold rightOpen; split <;> first | rfl | (rename_i hh; cases hh; done) | (rename_i hh; cases hh; rfl)
    · rename_i a b
      split at hc
      · rename_i ha
        obtain ⟨cs, hcs, rfl⟩ := isSome_of hc
        have hg := hL [.name, cs] (by simp [clsL, ha, hcs])
        cases hg with | cons hx hg =>
        cases hg with | cons hy hg =>
        cases hg
        refine sat_atom (by simp [hx.1, hy.1]) ?_ rfl
        simp only [leftOpen, hx.2, if_true]
      · cases hc
    · rename_i a b d
      split at hc
      · rename_i ha
        obtain ⟨cs, hcs, rfl⟩ := isSome_of hc
        have hg := hL (.name :: cs) (by rw [clsL]; simp [ha, hcs])
        cases hg with | cons hx hg =>
        have hgg := good_forall₂ hg
        refine sat_atom (by simpa [hx.1] using hgg) ?_ ?_
        · unfold leftOpen; split <;> first | rfl | (rename_i hh; cases hh; done) | (rename_i hh; cases hh; simp only [hx.2, if_true])
        · unfold rightOpen; split <;> first | rfl | (rename_i hh; cases hh)
      · cases hc
    · rename_i a b c d e f
      obtain ⟨cs, hcs, rfl⟩ := isSome_of hc
      have hg := good_forall₂ (hL cs hcs)
      split
      · rename_i hw
        rw [Bool.and_eq_true] at hw
        refine ⟨good_mk_plain (by decide) hg, ?_⟩
        simp only [Exp.evalL, Option.bind_eq_some_iff, Option.map_eq_some_iff, Option.some.injEq] at hvs
        obtain ⟨va, ha, _, ⟨vb, hb, _, ⟨vc, hc, _, ⟨vd, hd, _, ⟨ve, he, _, ⟨vf, hf, _, rfl, rfl⟩, rfl⟩, rfl⟩, rfl⟩, rfl⟩, rfl⟩ := hvs
        exact ⟨va, vb, vc, vd, ve, vf, rfl, fun k hk => words_mem hw.1 ha hk, fun k hk => words_mem hw.2 hc hk⟩
      · exact sat_mk (by decide) hg
    · split at hc
      · cases hc
      · rename_i ht
        obtain ⟨cs, hcs, rfl⟩ := isSome_of hc
        have hg := good_forall₂ (hL cs hcs)
        split
        · rename_i hi; subst hi; exact ⟨good_mk_plain (by decide) hg, rfl⟩
        · exact sat_mk (by simpa using ht) hg
  | .last e, c, v, hc, hv => by
    simp only [cls, Exp.eval, Option.map_eq_some_iff, Option.bind_eq_some_iff] at hc hv
    obtain ⟨c', hc', rfl⟩ := hc
    obtain ⟨w, hw, hv⟩ := hv
    exact ⟨good_items (cls_sound h e hc' hw).1 v (List.mem_of_getLast? hv), trivial⟩
  | .idx e i, c, v, hc, hv => by
    simp only [cls, Exp.eval, Option.map_eq_some_iff, Option.bind_eq_some_iff] at hc hv
    obtain ⟨c', hc', _, -, rfl⟩ := hc
    obtain ⟨w, hw, n, -, hv⟩ := hv
    exact ⟨good_items (cls_sound h e hc' hw).1 v (List.mem_of_getElem? hv), trivial⟩
  | .append a b, c, v, hc, hv => by
    simp only [cls, Exp.eval, Option.map_eq_some_iff, Option.bind_eq_some_iff] at hc hv
    obtain ⟨c', hc', c'', hc'', rfl⟩ := hc
    obtain ⟨w, hw, w', hw', rfl⟩ := hv
    refine sat_list ?_
    simp only [List.mem_append, List.mem_singleton]
    rintro f (hf | rfl)
    · exact good_items (cls_sound h a hc' hw).1 f hf
    · exact (cls_sound h b hc'' hw').1
  | .appendAll a b, c, v, hc, hv => by
    simp only [cls, Exp.eval, Option.map_eq_some_iff, Option.bind_eq_some_iff] at hc hv
    obtain ⟨c', hc', c'', hc'', rfl⟩ := hc
    obtain ⟨w, hw, w', hw', rfl⟩ := hv
    refine sat_list ?_
    simp only [List.mem_append]
    rintro f (hf | hf)
    · exact good_items (cls_sound h a hc' hw).1 f hf
    · exact good_items (cls_sound h b hc'' hw').1 f hf
  | .and a b, c, v, hc, hv => by
    simp only [cls, Exp.eval, Option.map_eq_some_iff, Option.bind_eq_some_iff] at hc hv
    obtain ⟨c', hc', c'', hc'', rfl⟩ := hc
    obtain ⟨x, -, hv⟩ := hv
    split at hv
    · exact sat_join_right (cls_sound h b hc'' hv)
    · simp only [Option.some.injEq] at hv; exact hv ▸ sat_join_left sat_bool
  | .or a b, c, v, hc, hv => by
    simp only [cls, Exp.eval, Option.map_eq_some_iff, Option.bind_eq_some_iff] at hc hv
    obtain ⟨c', hc', c'', hc'', rfl⟩ := hc
    obtain ⟨x, -, hv⟩ := hv
    split at hv
    · simp only [Option.some.injEq] at hv; exact hv ▸ sat_join_left sat_bool
    · exact sat_join_right (cls_sound h b hc'' hv)
  | .cur, c, v, hc, hv => by simp only [cls, Exp.eval, Option.some.injEq] at hc hv; subst hc hv; exact sat_tokV _
  | .curKind, c, v, hc, hv => by simp only [cls, Exp.eval, Option.some.injEq] at hc hv; subst hc hv; exact sat_str
  | .curString, c, v, hc, hv => by simp only [cls, Exp.eval, Option.some.injEq] at hc hv; subst hc hv; exact sat_str
  | .pos, c, v, hc, hv => by simp only [cls, Exp.eval, Option.some.injEq] at hc hv; subst hc hv; exact sat_nat
  | .end_, c, v, hc, hv => by simp only [cls, Exp.eval, Option.some.injEq] at hc hv; subst hc hv; exact sat_nat
  | .isEOF, c, v, hc, hv => by simp only [cls, Exp.eval, Option.some.injEq] at hc hv; subst hc hv; exact sat_bool
  | .error m es, c, v, hc, hv => by
    simp only [cls, Exp.eval, Option.map_eq_some_iff] at hc hv
    obtain ⟨_, -, rfl⟩ := hc
    obtain ⟨_, -, rfl⟩ := hv
    exact sat_plainErr m
  | .matchKinds es, c, v, hc, hv => by
    simp only [cls, Exp.eval, Option.map_eq_some_iff] at hc hv
    obtain ⟨_, -, rfl⟩ := hc
    obtain ⟨_, -, rfl⟩ := hv
    exact sat_bool
  | .len e, c, v, hc, hv => by
    simp only [cls, Exp.eval, Option.map_eq_some_iff] at hc hv
    obtain ⟨_, -, rfl⟩ := hc
    obtain ⟨w, -, rfl⟩ := hv
    split <;> exact sat_nat
  | .isNil e, c, v, hc, hv | .isTy e _, c, v, hc, hv => by
    simp only [cls, Exp.eval, Option.map_eq_some_iff] at hc hv
    obtain ⟨_, -, rfl⟩ := hc
    obtain ⟨w, -, rfl⟩ := hv
    exact sat_bool
  | .not e, c, v, hc, hv | .isUnit e, c, v, hc, hv | .matchKw e, c, v, hc, hv | .matchOneOf e, c, v, hc, hv | .memoHas e, c, v, hc, hv => by
    simp only [cls, Exp.eval, Option.map_eq_some_iff] at hc hv
    obtain ⟨_, -, rfl⟩ := hc
    obtain ⟨w, -, rfl⟩ := hv
    exact sat_bool
  | .upper e, c, v, hc, hv => by
    simp only [cls, Exp.eval, Option.map_eq_some_iff] at hc hv
    obtain ⟨_, -, rfl⟩ := hc
    obtain ⟨w, -, rfl⟩ := hv
    exact sat_str
  | .posOf e _, c, v, hc, hv | .endOf e _, c, v, hc, hv => by
    simp only [cls, Exp.eval, Option.map_eq_some_iff, Option.bind_eq_some_iff] at hc hv
    obtain ⟨_, -, rfl⟩ := hc
    obtain ⟨w, -, t, -, n, -, rfl⟩ := hv
    exact sat_nat
  | .tokText e, c, v, hc, hv => by
    simp only [cls, Exp.eval, Option.map_eq_some_iff, Option.bind_eq_some_iff] at hc hv
    obtain ⟨_, -, rfl⟩ := hc
    obtain ⟨w, -, k, -, x, -, _, -, _, -, rfl⟩ := hv
    exact sat_str
  | .eqStr a b, c, v, hc, hv | .eqNat a b, c, v, hc, hv | .lt a b, c, v, hc, hv | .equalFold a b, c, v, hc, hv | .contains a b, c, v, hc, hv
  | .containsFold a b, c, v, hc, hv => by
    simp only [cls, Exp.eval, Option.map_eq_some_iff, Option.bind_eq_some_iff] at hc hv
    obtain ⟨_, -, _, -, rfl⟩ := hc
    obtain ⟨w, -, w', -, rfl⟩ := hv
    exact sat_bool
  | .add a b, c, v, hc, hv | .sub a b, c, v, hc, hv => by
    simp only [cls, Exp.eval, Option.map_eq_some_iff, Option.bind_eq_some_iff] at hc hv
    obtain ⟨_, -, _, -, rfl⟩ := hc
    obtain ⟨w, -, w', -, rfl⟩ := hv
    exact sat_nat
  | .cat a b, c, v, hc, hv => by
    simp only [cls, Exp.eval, Option.map_eq_some_iff, Option.bind_eq_some_iff] at hc hv
    obtain ⟨_, -, _, -, rfl⟩ := hc
    obtain ⟨w, -, w', -, rfl⟩ := hv
    exact sat_str
theorem clsL_sound {Γ : List Cls} {s : PS} {env : List V} (h : EnvSat Γ env) :
    ∀ (es : List Exp) {cs : List Cls} {vs : List V}, clsL Γ es = some cs → Exp.evalL s env es = some vs → List.Forall₂ Cls.sat cs vs
  | [], cs, vs, hc, hv => by simp only [clsL, Exp.evalL, Option.some.injEq] at hc hv; subst hc hv; exact .nil
  | e :: es, cs, vs, hc, hv => by
    simp only [clsL, Exp.evalL, Option.bind_eq_some_iff, Option.map_eq_some_iff] at hc hv
    obtain ⟨c, hc, cs, hcs, rfl⟩ := hc
    obtain ⟨v, hv, vs, hvs, rfl⟩ := hv
    exact .cons (cls_sound h e hc hv) (clsL_sound h es hcs hvs)
end

theorem forall₂_le {cs ds : List Cls} {vs : List V} (h : leL cs ds = true) (hv : List.Forall₂ Cls.sat cs vs) : List.Forall₂ Cls.sat ds vs := by
  induction hv generalizing ds with
  | nil => cases ds with
    | nil => exact .nil
    | cons => simp [leL] at h
  | cons hv _ ih => cases ds with
    | nil => simp [leL] at h
    | cons d ds =>
      simp only [leL, Bool.and_eq_true] at h
      exact .cons (sat_le h.1 hv) (ih h.2)

/-! ### Statements -/

/-- What is known holds of the variables. -/
def Know.sat (k : Know) (env : List V) : Prop :=
  EnvSat k.env env ∧ ∀ d ∈ k.deep, ∀ u w, env[d.1]? = some u → u.field d.2 = some w → NotOp w

theorem leL_get {as bs : List Cls} (h : leL as bs = true) {x : Nat} {b : Cls} (hb : bs[x]? = some b) : ∃ a, as[x]? = some a ∧ a.le b = true := by
  induction as generalizing bs x with
  | nil => cases bs with
    | nil => simp at hb
    | cons => simp [leL] at h
  | cons a as ih => cases bs with
    | nil => simp at hb
    | cons b' bs =>
      simp only [leL, Bool.and_eq_true] at h
      cases x with
      | zero => simp only [List.getElem?_cons_zero, Option.some.injEq] at hb; exact ⟨a, rfl, hb ▸ h.1⟩
      | succ x => simp only [List.getElem?_cons_succ] at hb ⊢; exact ih h.2 hb

theorem Know.sat_le {a b : Know} {env : List V} (h : a.le b = true) (ha : a.sat env) : b.sat env := by
  simp only [Know.le, Bool.and_eq_true, List.all_eq_true, List.contains_iff_mem] at h
  refine ⟨fun x c v hc hv => ?_, fun d hd => ha.2 d (h.2 d hd)⟩
  obtain ⟨a', ha', hle⟩ := leL_get h.1 hc
  exact Group.sat_le hle (ha.1 x a' v ha' hv)

theorem Know.sat_join_left {a b : Know} {env : List V} (ha : a.sat env) : (a.join b).sat env := by
  refine ⟨fun x c v hc hv => ?_, fun d hd => ha.2 d (List.mem_filter.1 hd).1⟩
  simp only [Know.join, List.getElem?_zipWith] at hc
  split at hc <;> simp only [Option.some.injEq, reduceCtorEq] at hc
  rename_i c1 c2 h1 h2
  exact hc ▸ Group.sat_join_left (ha.1 x _ v h1 hv)

theorem Know.sat_join_right {a b : Know} {env : List V} (hb : b.sat env) : (a.join b).sat env := by
  refine ⟨fun x c v hc hv => ?_, fun d hd => hb.2 d (List.contains_iff_mem.1 (List.mem_filter.1 hd).2)⟩
  simp only [Know.join, List.getElem?_zipWith] at hc
  split at hc <;> simp only [Option.some.injEq, reduceCtorEq] at hc
  rename_i c1 c2 h1 h2
  exact hc ▸ Group.sat_join_right (hb.1 x _ v h2 hv)

def OSat (o : Option Know) (env : List V) : Prop := ∃ k, o = some k ∧ k.sat env

theorem joinO_left {a b : Option Know} {env : List V} (h : OSat a env) : OSat (joinO a b) env := by
  obtain ⟨k, rfl, hk⟩ := h
  cases b with
  | none => exact ⟨k, rfl, hk⟩
  | some b => exact ⟨_, rfl, Know.sat_join_left hk⟩

theorem joinO_right {a b : Option Know} {env : List V} (h : OSat b env) : OSat (joinO a b) env := by
  obtain ⟨k, rfl, hk⟩ := h
  cases a with
  | none => exact ⟨k, rfl, hk⟩
  | some a => exact ⟨_, rfl, Know.sat_join_right hk⟩

theorem leO_sat {a : Option Know} {b : Know} {env : List V} (h : leO a b = true) (ha : OSat a env) : b.sat env := by
  obtain ⟨k, rfl, hk⟩ := ha
  exact Know.sat_le h hk

theorem Know.sat_set {k : Know} {env : List V} (h : k.sat env) {x : Nat} {c : Cls} {v : V} (hv : c.sat v) : (k.set x c).sat (env.set x v) := by
  refine ⟨envSat_set h.1 hv, fun d hd u w hu hw => ?_⟩
  obtain ⟨hd, hx⟩ := List.mem_filter.1 hd
  rw [List.getElem?_set, if_neg (by simpa using Ne.symm (by simpa using hx))] at hu
  exact h.2 d hd u w hu hw

theorem Know.sat_setAll {cs : List Cls} {vs : List V} (hv : List.Forall₂ Cls.sat cs vs) : ∀ {k : Know} {env : List V} {dst : List Nat}, k.sat env →
    (k.setAll dst cs).sat (storeAll env dst vs) := by
  induction hv with
  | nil => intro k env dst h; cases dst <;> exact h
  | cons hv _ ih =>
    intro k env dst h
    cases dst with
    | nil => exact h
    | cons x dst => exact ih (Know.sat_set h hv)

theorem primRes_sound {Γ : List Cls} {s : PS} {env : List V} (h : EnvSat Γ env) {q : Prim} {cs : List Cls} {vs : List V} {l : Lx}
    (hc : primRes Γ q = some cs) (hv : q.run s env = some (vs, l)) : List.Forall₂ Cls.sat cs vs := by
  cases q with
  | consume =>
    simp only [primRes, Prim.run, Option.some.injEq] at hc hv
    subst hc
    split at hv <;> simp only [Prod.mk.injEq] at hv <;> rw [← hv.1]
    · exact .cons (sat_le (by decide) sat_nil) .nil
    · exact .cons (sat_plainErr _) .nil
  | tryKind e =>
    simp only [primRes, Prim.run, Option.map_eq_some_iff] at hc hv
    obtain ⟨_, -, rfl⟩ := hc
    obtain ⟨k, -, hv⟩ := hv
    simp only [Prod.mk.injEq] at hv
    rw [← hv.1]
    refine .cons ?_ .nil
    unfold Lx.tryKind
    split
    · exact sat_tokV _
    · exact sat_le (by decide) sat_nil
  | expectKind e =>
    simp only [primRes, Prim.run, Option.map_eq_some_iff] at hc hv
    obtain ⟨_, -, rfl⟩ := hc
    obtain ⟨k, -, hv⟩ := hv
    split at hv <;> simp only [Prod.mk.injEq] at hv <;> rw [← hv.1]
    · exact .cons (sat_kindErr _ _) .nil
    · exact .cons (sat_le (by decide) sat_nil) .nil
  | expectKw e =>
    simp only [primRes, Prim.run, Option.map_eq_some_iff] at hc hv
    obtain ⟨_, -, rfl⟩ := hc
    obtain ⟨k, -, hv⟩ := hv
    split at hv <;> simp only [Prod.mk.injEq] at hv <;> rw [← hv.1]
    · exact .cons (sat_keywordErr _ _) .nil
    · exact .cons (sat_le (by decide) sat_nil) .nil
  | tryKws ks =>
    simp only [primRes, Prim.run, Option.some.injEq, Prod.mk.injEq] at hc hv
    rw [← hc, ← hv.1]
    exact .cons sat_bool .nil
  | peek =>
    simp only [primRes, Prim.run, Option.some.injEq] at hc hv
    subst hc
    split at hv <;> simp only [Prod.mk.injEq] at hv <;> rw [← hv.1]
    · exact .cons (sat_tokV _) (.cons (sat_le (by decide) sat_nil) .nil)
    · exact .cons (sat_le (by decide) sat_nil) (.cons (sat_plainErr _) .nil)
  | wrap e =>
    simp only [primRes, Prim.run, Option.map_eq_some_iff] at hc hv
    obtain ⟨c, hc, rfl⟩ := hc
    obtain ⟨v, hv, hw⟩ := hv
    simp only [Prod.mk.injEq] at hw
    rw [← hw.1]
    exact .cons ⟨good_wrapErr s (cls_sound h e hc hv).1, trivial⟩ .nil

/-- The calls of methods do what their signatures say. -/
def Holds (sig : Fn → Sig) (input : Str) (call : Fn → List V → PS → COut) : Prop :=
  ∀ f args s vs s', guarded f = false → List.Forall₂ Cls.sat (sig f).args args → Reach input s.lx → call f args s = .ret vs s' →
    List.Forall₂ Cls.sat (sig f).res vs ∧ Reach input s'.lx

/-- The states of the lexer can be reached on the input. -/
def Inv (input : Str) (fr : Frame) (s : PS) : Prop := Reach input s.lx ∧ Reach input fr.saved

/-- What holds after a statement. -/
def Res.post (input : Str) (res : List Cls) (r : Res) : Post where
  next fr s := Inv input fr s ∧ OSat r.next fr.env
  brk fr s := Inv input fr s ∧ OSat r.brk fr.env
  cont fr s := Inv input fr s ∧ OSat r.cont fr.env
  ret vs s := List.Forall₂ Cls.sat res vs ∧ Reach input s.lx

theorem loop_sound {input : Str} {res : List Cls} {call : Fn → List V → PS → COut} {n : Nat} {body : Stmt Fn} {f : Know → Res}
    (hf : ∀ k fr s, (f k).ok = true → k.sat fr.env → Inv input fr s → (body.run call n fr s).Ens ((f k).post input res)) :
    ∀ (m : Nat) (k : Know) (fr : Frame) (s : PS), (checkLoop f m k).ok = true → k.sat fr.env → Inv input fr s →
      ((Stmt.loop body).run call n fr s).Ens ((checkLoop f m k).post input res) := by
  intro m
  induction m with
  | zero => intro k fr s h; simp [checkLoop] at h
  | succ m ih =>
    intro k fr s h hk hi
    simp only [checkLoop] at h ⊢
    split at h
    · rename_i hle
      rw [if_pos hle]
      rw [Bool.and_eq_true] at hle
      refine ens_loop (fun fr s => k.sat fr.env ∧ Inv input fr s) ?_ ⟨hk, hi⟩
      intro fr s ⟨hk, hi⟩
      exact (hf k fr s h hk hi).mono (fun fr s h => ⟨leO_sat hle.1 h.2, h.1⟩) (fun fr s h => h) (fun fr s h => ⟨leO_sat hle.2 h.2, h.1⟩)
        (fun vs s h => h)
    · rename_i hle
      rw [if_neg hle]
      have hj : OSat (joinO (joinO (some k) (f k).next) (f k).cont) fr.env := joinO_left (joinO_left ⟨k, rfl, hk⟩)
      obtain ⟨k', hk', hs⟩ := hj
      rw [hk'] at h
      simp only [hk'] at h ⊢
      exact ih k' fr s h hs hi

theorem setPath_cons {x v w : V} {i : Nat} {p : List Nat} (h : setPath x (i :: p) v = some w) :
    ∃ t fs a b, x = .mk t fs ∧ fs[i]? = some a ∧ setPath a p v = some b ∧ w = .mk t (fs.set i b) := by
  cases x with
  | mk t fs =>
    simp only [setPath, Option.bind_eq_some_iff, Option.map_eq_some_iff] at h
    obtain ⟨a, ha, b, hb, rfl⟩ := h
    exact ⟨t, fs, a, b, rfl, ha, hb, rfl⟩
  | _ => simp [setPath] at h

theorem good_set {t : Ty} {fs : List V} {i : Nat} {b : V} (ht : opTys.contains t = false) (h : Good (.mk t fs)) (hb : Good b) : Good (.mk t (fs.set i b)) := by
  refine good_mk_plain ht fun f hf => ?_
  rcases List.mem_or_eq_of_mem_set hf with hf | rfl
  · exact (good_mk.1 h).2 f hf
  · exact hb

theorem stmt_sound {sig : Fn → Sig} {input : Str} {res : List Cls} {call : Fn → List V → PS → COut} {n : Nat} (hcall : Holds sig input call) :
    ∀ (st : Stmt Fn) (k : Know) (fr : Frame) (s : PS), (check sig res st k).ok = true → k.sat fr.env → Inv input fr s →
      (st.run call n fr s).Ens ((check sig res st k).post input res) := by
  intro st
  induction st with
  | skip => intro k fr s _ hk hi; exact ⟨hi, k, rfl, hk⟩
  | brk => intro k fr s _ hk hi; exact ⟨hi, k, rfl, hk⟩
  | cont => intro k fr s _ hk hi; exact ⟨hi, k, rfl, hk⟩
  | save => intro k fr s _ hk hi; exact ⟨⟨hi.1, hi.1⟩, k, rfl, hk⟩
  | restore => intro k fr s _ hk hi; exact ⟨⟨hi.2, hi.2⟩, k, rfl, hk⟩
  | memoAdd ln e => intro k fr s _ hk hi; exact ens_memoAdd fun m _ => ⟨hi, k, rfl, hk⟩
  | seq a b iha ihb =>
    intro k fr s h hk hi
    refine ens_seq ?_
    simp only [check] at h ⊢
    cases hn : (check sig res a k).next with
    | none =>
      simp only [hn] at h ⊢
      refine (iha k fr s h hk hi).mono ?_ (fun _ _ h => h) (fun _ _ h => h) (fun _ _ h => h)
      intro fr s h
      obtain ⟨-, k', hk', -⟩ := h
      rw [hn] at hk'; cases hk'
    | some k' =>
      simp only [hn, Bool.and_eq_true] at h ⊢
      refine (iha k fr s h.1 hk hi).mono ?_ (fun _ _ h => ⟨h.1, joinO_left h.2⟩) (fun _ _ h => ⟨h.1, joinO_left h.2⟩) (fun _ _ h => h)
      intro fr s hs
      obtain ⟨hi, k'', hk'', hs⟩ := hs
      rw [hn] at hk''; cases hk''
      exact (ihb k' fr s h.2 hs hi).mono (fun _ _ h => h) (fun _ _ h => ⟨h.1, joinO_right h.2⟩) (fun _ _ h => ⟨h.1, joinO_right h.2⟩) (fun _ _ h => h)
  | set ln x e =>
    intro k fr s h hk hi
    refine ens_set fun v hv => ?_
    simp only [check] at h ⊢
    cases hc : cls k.env e with
    | none => simp [hc] at h
    | some c => exact ⟨hi, _, rfl, Know.sat_set hk (cls_sound hk.1 e hc hv)⟩
  | setF ln x path e =>
    intro k fr s h hk hi
    refine ens_setF fun v u w hv hu hw => ?_
    simp only [check] at h ⊢
    cases hc : cls k.env e with
    | none => simp [hc] at h
    | some c =>
      cases hd : k.env[x]? with
      | none => simp [hc, hd] at h
      | some d =>
        simp only [hc, hd] at h ⊢
        have hsv := cls_sound hk.1 e hc hv
        have hsu := hk.1 x d u hd hu
        split at h
        · rename_i i
          simp only [Bool.and_eq_true] at h
          obtain ⟨t, fs, a, b, rfl, ha, hb, rfl⟩ := setPath_cons hw
          simp only [setPath, Option.some.injEq] at hb
          subst hb
          obtain ⟨hg, hno⟩ := sat_plain_of h.1 hsu
          refine ⟨hi, _, rfl, envSat_set hk.1 ⟨good_set (hno t rfl) hg hsv.1, notOp_mk (hno t rfl)⟩, ?_⟩
          intro y hy u' w' hu' hw'
          by_cases hyx : y = (x, i)
          · subst hyx
            rw [List.getElem?_set] at hu'
            rw [if_pos rfl] at hu'
            split at hu' <;> simp only [Option.some.injEq, reduceCtorEq] at hu'
            subst hu'
            rw [V.field, List.getElem?_set, if_pos rfl] at hw'
            split at hw' <;> simp only [Option.some.injEq, reduceCtorEq] at hw'
            subst hw'
            dsimp only at hy
            split at hy
            · rename_i hcp; exact (sat_plain_of hcp hsv).2
            · simp at hy
          · have hy' : y ∈ k.deep := by
              dsimp only at hy
              split at hy
              · simpa [hyx] using hy
              · exact (List.mem_filter.1 hy).1
            rw [List.getElem?_set] at hu'
            split at hu'
            · rename_i hx
              split at hu' <;> simp only [Option.some.injEq, reduceCtorEq] at hu'
              subst hu'
              have hne : i ≠ y.2 := fun e => hyx (by rw [hx, e])
              rw [V.field, List.getElem?_set, if_neg hne] at hw'
              exact hk.2 y hy' (.mk t fs) w' (hx ▸ hu) hw'
            · exact hk.2 y hy' u' w' hu' hw'
        · rename_i i j
          simp only [Bool.and_eq_true, List.contains_iff_mem] at h
          obtain ⟨t, fs, a, b, rfl, ha, hb, rfl⟩ := setPath_cons hw
          obtain ⟨t', fs', a', b', rfl, ha', hb', rfl⟩ := setPath_cons hb
          simp only [setPath, Option.some.injEq] at hb'
          subst hb'
          obtain ⟨hg, hno⟩ := sat_plain_of h.1.1 hsu
          have hno' := hk.2 (x, i) h.2 _ _ hu ha
          refine ⟨hi, _, rfl, envSat_set hk.1 ⟨good_set (hno t rfl) hg (good_set (hno' t' rfl) (good_field hg ha) hsv.1), notOp_mk (hno t rfl)⟩, ?_⟩
          intro y hy u' w' hu' hw'
          rw [List.getElem?_set] at hu'
          split at hu'
          · rename_i hx
            split at hu' <;> simp only [Option.some.injEq, reduceCtorEq] at hu'
            subst hu'
            rw [V.field, List.getElem?_set] at hw'
            split at hw'
            · split at hw' <;> simp only [Option.some.injEq, reduceCtorEq] at hw'
              subst hw'
              exact notOp_mk (hno' t' rfl)
            · exact hk.2 y hy (.mk t fs) w' (hx ▸ hu) hw'
          · exact hk.2 y hy u' w' hu' hw'
        · simp at h
  | ite ln c a b iha ihb =>
    intro k fr s h hk hi
    simp only [check, Bool.and_eq_true] at h
    refine ens_ite fun x _ => ?_
    cases x with
    | true =>
      exact (iha k fr s h.1.2 hk hi).mono (fun _ _ h => ⟨h.1, joinO_left h.2⟩) (fun _ _ h => ⟨h.1, joinO_left h.2⟩) (fun _ _ h => ⟨h.1, joinO_left h.2⟩)
        (fun _ _ h => h)
    | false =>
      exact (ihb k fr s h.2 hk hi).mono (fun _ _ h => ⟨h.1, joinO_right h.2⟩) (fun _ _ h => ⟨h.1, joinO_right h.2⟩) (fun _ _ h => ⟨h.1, joinO_right h.2⟩)
        (fun _ _ h => h)
  | loop body ih =>
    intro k fr s h hk hi
    exact loop_sound (fun k fr s => ih k fr s) 8 k fr s h hk hi
  | ret ln es =>
    intro k fr s h hk hi
    refine ens_ret fun vs hvs => ?_
    simp only [check] at h
    cases hc : clsL k.env es with
    | none => simp [hc] at h
    | some cs =>
      simp only [hc] at h
      exact ⟨forall₂_le h (clsL_sound hk.1 es hc hvs), hi.1⟩
  | call ln f es dst =>
    intro k fr s h hk hi
    refine ens_call fun vs rs s' hvs hr => ?_
    simp only [check] at h ⊢
    cases hc : clsL k.env es with
    | none => simp [hc] at h
    | some cs =>
      simp only [hc, Bool.and_eq_true, Bool.not_eq_true'] at h ⊢
      obtain ⟨hrs, hs'⟩ := hcall f vs s rs s' h.1 (forall₂_le h.2 (clsL_sound hk.1 es hc hvs)) hi.1 hr
      exact ⟨⟨hs', hi.2⟩, _, rfl, Know.sat_setAll hrs hk⟩
  | prim ln q dst =>
    intro k fr s h hk hi
    refine ens_prim fun rs l hr => ?_
    simp only [check] at h ⊢
    cases hc : primRes k.env q with
    | none => simp [hc] at h
    | some cs =>
      simp only [hc] at h ⊢
      exact ⟨⟨reach_prim hi.1 hr, hi.2⟩, _, rfl, Know.sat_setAll (primRes_sound hk.1 hc hr) hk⟩

/-- A method that passes the check does what its signature says, if the methods it calls do. -/
theorem checkFn_sound {sig : Fn → Sig} {input : Str} {n : Nat} (hcall : Holds sig input (runFn fnTable n)) {f : Fn} (hf : checkFn sig f = true)
    {args : List V} {s : PS} {vs : List V} {s' : PS} (ha : List.Forall₂ Cls.sat (sig f).args args) (hs : Reach input s.lx)
    (hr : runFn fnTable (n + 1) f args s = .ret vs s') : List.Forall₂ Cls.sat (sig f).res vs ∧ Reach input s'.lx := by
  simp only [checkFn, Bool.and_eq_true, Bool.or_eq_true, Option.isNone_iff_eq_none, List.isEmpty_iff] at hf
  obtain ⟨⟨⟨hok, hbrk⟩, hcont⟩, hnext⟩ := hf
  refine ens_runFn (n := n) (R := fun vs s' => List.Forall₂ Cls.sat (sig f).res vs ∧ Reach input s'.lx) ?_ hr
  refine (stmt_sound hcall _ _ _ s hok ⟨?_, by simp⟩ ⟨hs, hs⟩).mono ?_ ?_ ?_ (fun _ _ h => h)
  · exact envSat_append ha envSat_replicate
  · intro fr s h
    obtain ⟨hi, k, hk, -⟩ := h
    rcases hnext with hnext | hnext
    · rw [hnext] at hk; cases hk
    · rw [hnext]; exact ⟨.nil, hi.1⟩
  · intro fr s h
    obtain ⟨hi, k, hk, -⟩ := h
    rw [hbrk] at hk; cases hk
  · intro fr s h
    obtain ⟨hi, k, hk, -⟩ := h
    rw [hcont] at hk; cases hk

end Verif.Group

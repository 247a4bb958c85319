/-
What the abstract values of the analysis mean, and that order and joins respect it.
-/
import Verif.Analysis.Run
import Verif.Lemmas.Typing
import Verif.Lemmas.Reach
import Mathlib.Data.List.Forall2

namespace Verif.An
open List (Forall₂)

/-- `Pos()` or `End()` of a node, dispatched on its dynamic type. -/
def endsOf (which : Bool) (v : V) : Option Nat := v.ty?.bind (fun t => posEndF (v.depth + 1) which t v)

/-- A number is at most `N + k`. -/
def under (N : Nat) (k : Option Int) (n : Nat) : Prop := ∀ j, k = some j → (n : Int) ≤ (N : Int) + j

/-- What a `PB` says about the result of a call. -/
def PB.res (N : Nat) (b : PB) (r : Option Nat) : Prop :=
  (b.safe = true → r.isSome = true) ∧ ∀ n, r = some n → under N b.k n

mutual
/-- `Pos()` or `End()` of all structs directly in a value. -/
def allIn (N : Nat) (which : Bool) (b : PB) : V → Prop
  | .mk t fs => b.res N (endsOf which (.mk t fs))
  | .list l => allInL N which b l
  | _ => True
def allInL (N : Nat) (which : Bool) (b : PB) : List V → Prop
  | [] => True
  | v :: l => allIn N which b v ∧ allInL N which b l
end

theorem allInL_iff {N which b} {l : List V} : allInL N which b l ↔ ∀ v ∈ l, allIn N which b v := by
  induction l with
  | nil => simp [allInL]
  | cons a l ih => simp [allInL, ih]

/-- What a `PNeed` says. -/
def PNeed.holds (N : Nat) (t : Ty) (fs : List V) : PNeed → Prop
  | .filled i => ∃ v, fs[i]? = some v ∧ v.filled = true
  | .either i j => (∃ v, fs[i]? = some v ∧ v.isSet = true) ∨ (∃ v, fs[j]? = some v ∧ v.isSet = true)
  | .bound i k => ∃ n, fs[i]? = some (.nat n) ∧ under N (some k) n
  | .pos i b => ∃ v, fs[i]? = some v ∧ allIn N false b v
  | .end_ i b => ∃ v, fs[i]? = some v ∧ allIn N true b v
  | .lenGe i j => ∃ v n, fs[i]? = some v ∧ fs[j]? = some (.nat n) ∧ n ≤ v.items.length
  | .own which b => b.res N (endsOf which (.mk t fs))

section
variable (need : Ty → List PNeed) (N : Nat)

mutual
/-- `v` may be stored in a place of type `τ`, and all structs in it meet the requirements. -/
def Good : V → FTy → Prop
  | .nil, .ptr _ => True
  | .nil, .iface _ => True
  | .nil, .slice _ => True
  | .nat _, .pos => True
  | .nat _, .int => True
  | .bool _, .bool => True
  | .str _, .str => True
  | .list l, .slice e => GoodL l e
  | .mk t fs, τ => τ.admits t = true ∧ GoodF fs (schema t) ∧ ∀ nd ∈ need t, nd.holds N t fs
  | _, _ => False
def GoodL : List V → FTy → Prop
  | [], _ => True
  | v :: l, e => v.nonNil = true ∧ Good v e ∧ GoodL l e
def GoodF : List V → List FTy → Prop
  | [], [] => True
  | v :: l, τ :: τs => Good v τ ∧ GoodF l τs
  | _, _ => False
end

theorem goodL_iff {l : List V} {e : FTy} : GoodL need N l e ↔ ∀ v ∈ l, v.nonNil = true ∧ Good need N v e := by
  induction l with
  | nil => simp [GoodL]
  | cons a l ih => simp [GoodL, ih, and_assoc]

theorem goodF_iff {l : List V} {τs : List FTy} : GoodF need N l τs ↔ Forall₂ (Good need N) l τs := by
  induction l generalizing τs with
  | nil => cases τs <;> simp [GoodF]
  | cons a l ih => cases τs <;> simp [GoodF, ih]

theorem good_mk {t : Ty} {fs : List V} {τ : FTy} :
    Good need N (.mk t fs) τ ↔ τ.admits t = true ∧ GoodF need N fs (schema t) ∧ ∀ nd ∈ need t, nd.holds N t fs := by
  cases τ <;> simp [Good]

theorem good_list {l : List V} {τ : FTy} :
    Good need N (.list l) τ ↔ ∃ e, τ = .slice e ∧ ∀ v ∈ l, v.nonNil = true ∧ Good need N v e := by
  cases τ <;> simp [Good, goodL_iff]

theorem good_nil {τ : FTy} : Good need N .nil τ ↔ nullable τ = true := by
  cases τ <;> simp [Good, nullable]

theorem good_nat {n : Nat} {τ : FTy} : Good need N (.nat n) τ ↔ (τ = .pos ∨ τ = .int) := by
  cases τ <;> simp [Good]
theorem good_bool {b : Bool} {τ : FTy} : Good need N (.bool b) τ ↔ τ = .bool := by
  cases τ <;> simp [Good]
theorem good_str {s : Str} {τ : FTy} : Good need N (.str s) τ ↔ τ = .str := by
  cases τ <;> simp [Good]

end

variable {need : Ty → List PNeed} {N : Nat}

/-- A struct that is finished. -/
def GoodS (need : Ty → List PNeed) (N : Nat) (t : Ty) (fs : List V) : Prop :=
  GoodF need N fs (schema t) ∧ ∀ nd ∈ need t, nd.holds N t fs

theorem good_ptr {v : V} {t : Ty} : Good need N v (.ptr t) ↔ v = .nil ∨ ∃ fs, v = .mk t fs ∧ GoodS need N t fs := by
  cases v with
  | mk u fs =>
    rw [good_mk]; simp only [FTy.admits, decide_eq_true_eq]
    constructor
    · rintro ⟨rfl, h⟩; exact Or.inr ⟨fs, rfl, h⟩
    · rintro (h | ⟨_, h, h'⟩)
      · simp at h
      · simp only [V.mk.injEq] at h; obtain ⟨rfl, rfl⟩ := h; exact ⟨rfl, h'⟩
  | _ => simp [Good]

theorem good_val {v : V} {t : Ty} : Good need N v (.val t) ↔ ∃ fs, v = .mk t fs ∧ GoodS need N t fs := by
  cases v with
  | mk u fs =>
    rw [good_mk]; simp only [FTy.admits, decide_eq_true_eq]
    constructor
    · rintro ⟨rfl, h⟩; exact ⟨fs, rfl, h⟩
    · rintro ⟨_, h, h'⟩
      simp only [V.mk.injEq] at h; obtain ⟨rfl, rfl⟩ := h; exact ⟨rfl, h'⟩
  | _ => simp [Good]

theorem good_iface {v : V} {i : Iface} : Good need N v (.iface i) ↔
    v = .nil ∨ ∃ t fs, v = .mk t fs ∧ FTy.admits (.iface i) t = true ∧ GoodS need N t fs := by
  cases v with
  | mk u fs =>
    rw [good_mk]
    constructor
    · rintro ⟨h, h'⟩; exact Or.inr ⟨u, fs, rfl, h, h'⟩
    · rintro (h | ⟨_, _, h, h'⟩)
      · simp at h
      · simp only [V.mk.injEq] at h; obtain ⟨rfl, rfl⟩ := h; exact h'
  | _ => simp [Good]

theorem good_slice {v : V} {e : FTy} : Good need N v (.slice e) ↔
    v = .nil ∨ ∃ l, v = .list l ∧ ∀ w ∈ l, w.nonNil = true ∧ Good need N w e := by
  cases v with
  | mk u fs => rw [good_mk]; simp [FTy.admits]
  | list l => rw [good_list]; simp
  | _ => simp [Good]

/-! ### Errors -/

/-- An error of the parser for `input`; if `w`, its line and column are known. -/
def IsErr (input : Str) (w : Bool) (v : V) : Prop :=
  (∃ p l c rest, v = .mk .ParseError (.nat p :: .nat l :: .nat c :: rest) ∧ p ≤ input.length ∧
    rest.length = 4 ∧ ((w = false ∧ l = 0 ∧ c = 0) ∨ (l, c) = position (newLineStarts input) p)) ∨
  (w = false ∧ ∃ m, v = .mk .PlainError [m])

theorem IsErr.nonNil {input : Str} {w : Bool} {v : V} (h : IsErr input w v) : v.nonNil = true := by
  rcases h with ⟨_, _, _, _, rfl, _⟩ | ⟨_, _, rfl⟩ <;> rfl

theorem IsErr.weaken {input : Str} {w w' : Bool} {v : V} (h : IsErr input w v) (hw : (w || !w') = true) :
    IsErr input w' v := by
  cases w'
  · rcases h with ⟨p, l, c, r, e, h1, h2, h3⟩ | ⟨_, h⟩
    · exact Or.inl ⟨p, l, c, r, e, h1, h2, by rcases h3 with ⟨_, h⟩ | h <;> simp_all⟩
    · exact Or.inr ⟨rfl, h⟩
  · simp at hw; subst hw; exact h

theorem IsErr.and_left {input : Str} {w w' : Bool} {v : V} (h : IsErr input w v) : IsErr input (w && w') v :=
  h.weaken (by cases w <;> simp)
theorem IsErr.and_right {input : Str} {w w' : Bool} {v : V} (h : IsErr input w' v) : IsErr input (w && w') v :=
  h.weaken (by cases w' <;> simp)

/-! ### Abstract values -/

/-- `v` is described by the abstract value; `lx` is the lexer to which it may refer. -/
def AV.sem (need : Ty → List PNeed) (input : Str) (lx : Option Lx) (v : V) : AV → Prop
  | .top => True
  | .nil => v = .nil
  | .zero => v = .nat 0
  | .bool b => ∃ x, v = .bool x ∧ ∀ y, b = some y → x = y
  | .nat k => ∃ n, v = .nat n ∧ under input.length k n
  | .str ne => ∃ s, v = .str s ∧ (ne = true → s ≠ Kind.eof.toStr)
  | .err nn w => (nn = false ∧ v = .nil) ∨ IsErr input w v
  | .ty τ nn p e => Good need input.length v τ ∧ (nn = true → v.filled = true) ∧
      allIn input.length false p v ∧ allIn input.length true e v
  | .empty => v = .nil ∨ v = .list []
  | .curTok => ∃ l, lx = some l ∧ v = tokV l.cur
  | .curPos => ∃ l, lx = some l ∧ v = .nat l.curPos
  | .curKind => ∃ l, lx = some l ∧ v = .str l.curKind

variable {input : Str}

theorem under_mono {N : Nat} {k k' : Option Int} {n : Nat} (h : under N k n) (hk : boundLe k k' = true) : under N k' n := by
  intro j hj
  subst hj
  cases k with
  | none => simp [boundLe] at hk
  | some a => simp [boundLe] at hk; have := h a rfl; omega

theorem under_max_left {N : Nat} {k k' : Option Int} {n : Nat} (h : under N k n) : under N (boundMax k k') n := by
  intro j hj
  cases k with
  | none => simp [boundMax] at hj
  | some a =>
    cases k' with
    | none => simp [boundMax] at hj
    | some b =>
      simp only [boundMax, Option.some.injEq] at hj
      have := h a rfl
      split at hj <;> omega

theorem boundMax_comm (k k' : Option Int) : boundMax k k' = boundMax k' k := by
  cases k <;> cases k' <;> simp [boundMax]
  split <;> split <;> omega

theorem under_max_right {N : Nat} {k k' : Option Int} {n : Nat} (h : under N k' n) : under N (boundMax k k') n := by
  rw [boundMax_comm]; exact under_max_left h

theorem PB.res_mono {N : Nat} {b c : PB} {r : Option Nat} (h : b.res N r) (hl : b.le c = true) : c.res N r := by
  simp only [PB.le, Bool.and_eq_true] at hl
  refine ⟨fun hs => ?_, fun n hn => under_mono (h.2 n hn) hl.2⟩
  exact h.1 (by have := hl.1; simp [hs] at this; exact this)

theorem PB.res_max_left {N : Nat} {b c : PB} {r : Option Nat} (h : b.res N r) : (b.max c).res N r := by
  refine ⟨fun hs => h.1 ?_, fun n hn => under_max_left (h.2 n hn)⟩
  simp [PB.max] at hs; exact hs.1

theorem PB.res_max_right {N : Nat} {b c : PB} {r : Option Nat} (h : c.res N r) : (b.max c).res N r := by
  refine ⟨fun hs => h.1 ?_, fun n hn => under_max_right (h.2 n hn)⟩
  simp [PB.max] at hs; exact hs.2

theorem PB.res_top {N : Nat} {r : Option Nat} : PB.top.res N r :=
  ⟨fun h => by simp [PB.top] at h, fun _ _ j hj => by simp [PB.top] at hj⟩

theorem PB.res_meet {N : Nat} {b c : PB} {r : Option Nat} (h : b.res N r) (h' : c.res N r) : (b.meet c).res N r := by
  refine ⟨fun hs => ?_, fun n hn j hj => ?_⟩
  · simp [PB.meet] at hs
    rcases hs with hs | hs
    · exact h.1 hs
    · exact h'.1 hs
  · have h1 := h.2 n hn
    have h2 := h'.2 n hn
    simp only [PB.meet] at hj
    split at hj
    · rename_i a c' ha hc
      simp only [Option.some.injEq] at hj
      have := h1 a ha; have := h2 c' hc
      split at hj <;> omega
    · rename_i a ha _
      simp only [Option.some.injEq] at hj; subst hj
      exact h1 a ha
    · exact h2 j hj

mutual
theorem allIn_imp {which : Bool} {b c : PB} (h : ∀ r, b.res N r → c.res N r) : ∀ {v : V}, allIn N which b v → allIn N which c v
  | .mk t fs, hv => h _ hv
  | .list l, hv => allInL_imp h hv
  | .nil, _ => trivial
  | .nat _, _ => trivial
  | .bool _, _ => trivial
  | .str _, _ => trivial
theorem allInL_imp {which : Bool} {b c : PB} (h : ∀ r, b.res N r → c.res N r) : ∀ {l : List V}, allInL N which b l → allInL N which c l
  | [], _ => trivial
  | _ :: _, hv => ⟨allIn_imp h hv.1, allInL_imp h hv.2⟩
end

theorem allIn_mono {which : Bool} {b c : PB} {v : V} (h : allIn N which b v) (hl : b.le c = true) : allIn N which c v :=
  allIn_imp (fun _ hr => PB.res_mono hr hl) h
theorem allIn_max_left {which : Bool} {b c : PB} {v : V} (h : allIn N which b v) : allIn N which (b.max c) v :=
  allIn_imp (fun _ hr => PB.res_max_left hr) h
theorem allIn_max_right {which : Bool} {b c : PB} {v : V} (h : allIn N which c v) : allIn N which (b.max c) v :=
  allIn_imp (fun _ hr => PB.res_max_right hr) h

mutual
theorem allIn_top {which : Bool} : ∀ {v : V}, allIn N which .top v
  | .mk _ _ => PB.res_top
  | .list _ => allInL_top
  | .nil => trivial
  | .nat _ => trivial
  | .bool _ => trivial
  | .str _ => trivial
theorem allInL_top {which : Bool} : ∀ {l : List V}, allInL N which .top l
  | [] => trivial
  | _ :: _ => ⟨allIn_top, allInL_top⟩
end

/-! ### Types -/

theorem ifaceLe_admits {i j : Iface} (h : ifaceLe i j = true) {t : Ty} (ha : FTy.admits (.iface i) t = true) :
    FTy.admits (.iface j) t = true := by
  have key : ∀ i j : Iface, ifaceLe i j = true → ∀ t : Ty, t.implements i = true → t.implements j = true := by
    intro i j h t
    cases i <;> cases j <;> simp [ifaceLe] at h <;> simp only [Ty.implements] <;> intro h1 <;>
      first | exact h1 | (rw [Bool.and_eq_true] at h1; exact h1.1)
  simp only [FTy.admits, Bool.and_eq_true] at ha ⊢
  exact ⟨key i j h t ha.1, ha.2⟩

theorem tyLe_sound : ∀ {τ σ : FTy} {v : V}, tyLe τ σ = true → Good need N v τ → Good need N v σ := by
  intro τ
  induction τ with
  | slice a ih =>
    intro σ v h hv
    cases σ with
    | slice b =>
      simp only [tyLe, Bool.or_eq_true] at h
      rw [good_slice] at hv ⊢
      refine hv.imp id ?_
      rintro ⟨l, rfl, hl⟩
      refine ⟨l, rfl, fun w hw => ⟨(hl w hw).1, ?_⟩⟩
      have h1 := hl w hw
      rcases h with h | h
      · exact ih h h1.2
      · cases a <;> cases b <;> simp at h
        subst h
        rw [good_val]
        rcases good_ptr.1 h1.2 with e | h2
        · rw [e] at h1; simp [V.nonNil] at h1
        · exact h2
    | _ => simp [tyLe] at h
  | _ =>
    intro σ v h hv
    cases σ <;> simp [tyLe] at h
    all_goals try subst h
    all_goals try exact hv
    all_goals first
      | (rw [good_val] at hv; rw [good_ptr]; exact Or.inr hv)
      | (rw [good_ptr] at hv; rw [good_iface]
         refine hv.imp id ?_
         rintro ⟨fs, rfl, h'⟩
         exact ⟨_, fs, rfl, h, h'⟩)
      | (rw [good_val] at hv; rw [good_iface]
         obtain ⟨fs, rfl, h'⟩ := hv
         exact Or.inr ⟨_, fs, rfl, h, h'⟩)
      | (rw [good_iface] at hv ⊢
         refine hv.imp id ?_
         rintro ⟨t, fs, rfl, ha, h'⟩
         exact ⟨t, fs, rfl, ifaceLe_admits h ha, h'⟩)

theorem tyLub_sound : ∀ {τ σ ρ : FTy}, tyLub τ σ = some ρ →
    (∀ v, Good need N v τ → Good need N v ρ) ∧ (∀ v, Good need N v σ → Good need N v ρ) := by
  have gen : ∀ {a b ρ : FTy}, (if tyLe a b then some b else if tyLe b a then some a
      else [Iface.ColumnType, .AlterTableClause, .Expr].findSome? fun i =>
        if tyLe a (.iface i) && tyLe b (.iface i) then some (.iface i) else none) = some ρ →
      (∀ v, Good need N v a → Good need N v ρ) ∧ (∀ v, Good need N v b → Good need N v ρ) := by
    intro a b ρ h
    split at h
    · rename_i h1; simp at h; subst h; exact ⟨fun v hv => tyLe_sound h1 hv, fun v hv => hv⟩
    · split at h
      · rename_i h1; simp at h; subst h; exact ⟨fun v hv => hv, fun v hv => tyLe_sound h1 hv⟩
      · obtain ⟨i, _, hi⟩ := List.exists_of_findSome?_eq_some h
        split at hi
        · rename_i h1; simp at hi; subst hi
          rw [Bool.and_eq_true] at h1
          exact ⟨fun v hv => tyLe_sound h1.1 hv, fun v hv => tyLe_sound h1.2 hv⟩
        · simp at hi
  intro τ
  induction τ with
  | slice a ih =>
    intro σ ρ h
    cases σ with
    | slice b =>
      simp only [tyLub, Option.map_eq_some_iff] at h
      obtain ⟨c, hc, rfl⟩ := h
      obtain ⟨i1, i2⟩ := ih hc
      constructor
      · intro v hv
        rw [good_slice] at hv ⊢
        refine hv.imp id ?_
        rintro ⟨l, rfl, hl⟩
        exact ⟨l, rfl, fun w hw => ⟨(hl w hw).1, i1 w (hl w hw).2⟩⟩
      · intro v hv
        rw [good_slice] at hv ⊢
        refine hv.imp id ?_
        rintro ⟨l, rfl, hl⟩
        exact ⟨l, rfl, fun w hw => ⟨(hl w hw).1, i2 w (hl w hw).2⟩⟩
    | _ => simp only [tyLub] at h; exact gen h
  | _ => intro σ ρ h; simp only [tyLub] at h; exact gen h

theorem nullable_nil {τ : FTy} (h : nullable τ = true) : Good need N .nil τ := good_nil need N |>.2 h

theorem isSlice_empty {τ : FTy} (h : isSlice τ = true) : Good need N (.list []) τ := by
  cases τ <;> simp [isSlice] at h
  rw [good_slice]; exact Or.inr ⟨[], rfl, by simp⟩

/-! ### Order and joins of abstract values -/

variable {lx : Option Lx}

theorem AV.sem_mono {a : AV} {v : V} (h : a.sem need input none v) : a.sem need input lx v := by
  cases a <;> first | exact h | (obtain ⟨_, h, _⟩ := h; simp at h)

theorem sem_nil_ty {τ : FTy} {p e : PB} (h : nullable τ = true) : (AV.ty τ false p e).sem need input lx .nil :=
  ⟨nullable_nil h, by simp, trivial, trivial⟩

theorem isSlice_nullable {τ : FTy} (h : isSlice τ = true) : nullable τ = true := by
  cases τ <;> simp [isSlice] at h; rfl

theorem sem_empty_ty {τ : FTy} {p e : PB} {v : V} (h : isSlice τ = true) (hv : v = .nil ∨ v = .list []) :
    (AV.ty τ false p e).sem need input lx v := by
  rcases hv with rfl | rfl
  · exact sem_nil_ty (isSlice_nullable h)
  · exact ⟨isSlice_empty h, by simp, trivial, trivial⟩

theorem sem_zero_nat {k : Option Int} (h : boundLe (some 0) k = true) : (AV.nat k).sem need input lx (.nat 0) := by
  refine ⟨0, rfl, ?_⟩
  intro j hj; subst hj
  simp [boundLe] at h
  omega

theorem sem_ty_mono {τ σ : FTy} {nn nn' : Bool} {p p' e e' : PB} {v : V}
    (hτ : ∀ v, Good need input.length v τ → Good need input.length v σ)
    (hn : nn' = true → nn = true) (hp : ∀ r, p.res input.length r → p'.res input.length r)
    (he : ∀ r, e.res input.length r → e'.res input.length r)
    (h : (AV.ty τ nn p e).sem need input lx v) : (AV.ty σ nn' p' e').sem need input lx v :=
  ⟨hτ _ h.1, fun hh => h.2.1 (hn hh), allIn_imp hp h.2.2.1, allIn_imp he h.2.2.2⟩

theorem AV.le_sound {a b : AV} {v : V} (h : a.le b = true) (hv : a.sem need input lx v) : b.sem need input lx v := by
  unfold AV.le at h
  split at h
  · trivial
  · exact hv
  · exact Or.inl ⟨rfl, hv⟩
  · simp only [AV.sem] at hv; subst hv; exact sem_nil_ty h
  · exact Or.inl hv
  · exact hv
  · simp only [AV.sem] at hv; subst hv; exact sem_zero_nat h
  · obtain ⟨x, rfl, hx⟩ := hv
    refine ⟨x, rfl, fun y hy => hx y ?_⟩
    subst hy; simp at h; exact h
  · obtain ⟨n, rfl, hn⟩ := hv; exact ⟨n, rfl, under_mono hn h⟩
  · obtain ⟨s, rfl, hs⟩ := hv
    refine ⟨s, rfl, fun hb => hs ?_⟩
    subst hb; simpa using h
  · rw [Bool.and_eq_true] at h
    rcases hv with ⟨rfl, rfl⟩ | hv
    · left; simpa using h.1
    · exact Or.inr (hv.weaken h.2)
  · simp only [Bool.and_eq_true] at h
    obtain ⟨⟨h1, h2⟩, h3, h4⟩ := h
    exact sem_ty_mono (fun v hv => tyLe_sound h1 hv) (fun hb => by subst hb; simpa using h2)
      (fun _ hr => PB.res_mono hr h3) (fun _ hr => PB.res_mono hr h4) hv
  · exact hv
  · exact sem_empty_ty h hv
  · exact hv
  · exact hv
  · exact hv
  · simp at h

theorem AV.lub_sound {a b : AV} {v : V} (hv : a.sem need input lx v ∨ b.sem need input lx v) :
    (a.lub b).sem need input lx v := by
  unfold AV.lub
  split
  · rename_i h; exact hv.elim (AV.le_sound h) id
  split
  · rename_i h; exact hv.elim id (AV.le_sound h)
  split
  · rcases hv with rfl | hv
    · exact Or.inl ⟨rfl, rfl⟩
    · rcases hv with ⟨_, rfl⟩ | hv
      · exact Or.inl ⟨rfl, rfl⟩
      · exact Or.inr hv
  · rcases hv with hv | rfl
    · rcases hv with ⟨_, rfl⟩ | hv
      · exact Or.inl ⟨rfl, rfl⟩
      · exact Or.inr hv
    · exact Or.inl ⟨rfl, rfl⟩
  · split
    · rename_i h
      rcases hv with rfl | hv
      · exact sem_nil_ty h
      · exact sem_ty_mono (fun _ h => h) (by simp) (fun _ h => h) (fun _ h => h) hv
    · trivial
  · split
    · rename_i h
      rcases hv with hv | rfl
      · exact sem_ty_mono (fun _ h => h) (by simp) (fun _ h => h) (fun _ h => h) hv
      · exact sem_nil_ty h
    · trivial
  · rcases hv with rfl | ⟨n, rfl, hn⟩
    · exact ⟨0, rfl, under_max_left (by intro j hj; simp at hj; omega)⟩
    · exact ⟨n, rfl, under_max_right hn⟩
  · rcases hv with ⟨n, rfl, hn⟩ | rfl
    · exact ⟨n, rfl, under_max_right hn⟩
    · exact ⟨0, rfl, under_max_left (by intro j hj; simp at hj; omega)⟩
  · rcases hv with ⟨x, rfl, _⟩ | ⟨x, rfl, _⟩ <;> exact ⟨x, rfl, by simp⟩
  · rcases hv with ⟨n, rfl, hn⟩ | ⟨n, rfl, hn⟩
    · exact ⟨n, rfl, under_max_left hn⟩
    · exact ⟨n, rfl, under_max_right hn⟩
  · rcases hv with ⟨n, rfl, hn⟩ | ⟨n, rfl, hn⟩ <;> refine ⟨n, rfl, fun h => hn ?_⟩ <;> simp at h
    · exact h.1
    · exact h.2
  · rcases hv with (⟨rfl, rfl⟩ | hv) | (⟨rfl, rfl⟩ | hv)
    · exact Or.inl ⟨by simp, rfl⟩
    · exact Or.inr (hv.and_left)
    · exact Or.inl ⟨by simp, rfl⟩
    · exact Or.inr (hv.and_right)
  · split
    · rename_i h
      obtain ⟨h1, h2⟩ := tyLub_sound (need := need) (N := input.length) h
      rcases hv with hv | hv
      · exact sem_ty_mono h1 (by simp; intro h _; exact h) (fun _ => PB.res_max_left) (fun _ => PB.res_max_left) hv
      · exact sem_ty_mono h2 (by simp) (fun _ => PB.res_max_right) (fun _ => PB.res_max_right) hv
    · trivial
  · split
    · rename_i h
      rcases hv with hv | hv
      · exact sem_empty_ty h hv
      · exact sem_ty_mono (fun _ h => h) (by simp) (fun _ h => h) (fun _ h => h) hv
    · trivial
  · split
    · rename_i h
      rcases hv with hv | hv
      · exact sem_ty_mono (fun _ h => h) (by simp) (fun _ h => h) (fun _ h => h) hv
      · exact sem_empty_ty h hv
    · trivial
  · trivial

end Verif.An

/- Helper lemmas: methods that only look ahead. -/
import Verif.Lemmas.Retry

namespace Verif
open Spec

/-- The statement does not move the lexer: its only primitive is the lookahead. -/
def Stmt.quiet {Fn : Type} (q : Fn → Bool) : Stmt Fn → Bool
  | .seq a b => a.quiet q && b.quiet q
  | .ite _ _ a b => a.quiet q && b.quiet q
  | .loop b => b.quiet q
  | .call _ f _ _ => q f
  | .prim _ p _ => match p with | .peek => true | .wrap _ => true | _ => false
  | .restore => false
  | .memoAdd _ _ => false
  | _ => true

/-- The next token can be scanned. -/
def NextFine (l : Lx) : Prop := ∀ l', l.peek ≠ .err l'

/-- The state `s` and the number `K` of variables are unchanged. -/
def Out.Quiet (K : Nat) (s : PS) : Out → Prop
  | .next fr s' | .brk fr s' | .cont fr s' => s' = s ∧ fr.env.length = K
  | .ret _ s' => s' = s
  | _ => True

theorem peek_fine {l : Lx} (h : NextFine l) : ∃ t, l.peek = .ok t l := by
  cases hp : l.peek with
  | err l' => exact absurd hp (h l')
  | ok t l' => exact ⟨t, by rw [(C09_lookahead_pure_partial l l' t hp).1]⟩

theorem quiet_run {Fn : Type} {q : Fn → Bool} {call : Fn → List V → PS → COut} {n : Nat} {s : PS} (hp : NextFine s.lx)
    (hc : ∀ f args rs s', q f = true → call f args s = .ret rs s' → s' = s) : ∀ (st : Stmt Fn), st.quiet q = true →
    ∀ fr, (st.run call n fr s).Quiet fr.env.length s := by
  intro st
  induction st with
  | skip => intro _ fr; exact ⟨rfl, rfl⟩
  | brk => intro _ fr; exact ⟨rfl, rfl⟩
  | cont => intro _ fr; exact ⟨rfl, rfl⟩
  | save => intro _ fr; exact ⟨rfl, rfl⟩
  | restore => intro h; simp [Stmt.quiet] at h
  | memoAdd => intro h; simp [Stmt.quiet] at h
  | set ln x e =>
    intro _ fr
    simp only [Stmt.run]
    split
    · exact ⟨rfl, by simp⟩
    · trivial
  | setF ln x path e =>
    intro _ fr
    simp only [Stmt.run]
    split
    · split
      · exact ⟨rfl, by simp⟩
      · trivial
    · trivial
  | ret ln es =>
    intro _ fr
    simp only [Stmt.run]
    split
    · rfl
    · trivial
  | call ln f args dst =>
    intro h fr
    simp only [Stmt.quiet] at h
    simp only [Stmt.run]
    split
    · split
      · rename_i hr
        exact ⟨hc _ _ _ _ h hr, storeAll_length _ _ _⟩
      · trivial
      · trivial
    · trivial
  | prim ln p dst =>
    intro h fr
    simp only [Stmt.run]
    obtain ⟨t, ht⟩ := peek_fine hp
    cases p <;> simp only [Stmt.quiet, Bool.false_eq_true] at h
    · simp only [Prim.run, ht]
      exact ⟨rfl, storeAll_length _ _ _⟩
    · simp only [Prim.run]
      split
      · rename_i hr
        simp only [Option.map_eq_some_iff, Prod.mk.injEq] at hr
        obtain ⟨_, _, _, rfl⟩ := hr
        exact ⟨rfl, storeAll_length _ _ _⟩
      · trivial
  | ite ln c a b iha ihb =>
    intro h fr
    simp only [Stmt.quiet, Bool.and_eq_true] at h
    simp only [Stmt.run]
    split
    · exact iha h.1 fr
    · exact ihb h.2 fr
    · trivial
  | seq a b iha ihb =>
    intro h fr
    simp only [Stmt.quiet, Bool.and_eq_true] at h
    have := iha h.1 fr
    simp only [Stmt.run]
    split
    · rename_i hr
      rw [hr] at this
      obtain ⟨rfl, h2⟩ := this
      rw [← h2]
      exact ihb h.2 _
    · exact this
  | loop b ih =>
    intro h fr
    simp only [Stmt.quiet] at h
    simp only [Stmt.run]
    have : ∀ k fr, (loopN (b.run call n) k fr s).Quiet fr.env.length s := by
      intro k
      induction k with
      | zero => intro fr; trivial
      | succ k ihk =>
        intro fr
        have hb := ih h fr
        simp only [loopN]
        cases hr : b.run call n fr s <;> rw [hr] at hb <;> simp only
        · obtain ⟨rfl, h2⟩ := hb
          rw [← h2]; exact ihk _
        · exact hb
        · obtain ⟨rfl, h2⟩ := hb
          rw [← h2]; exact ihk _
        · exact hb
        · trivial
        · trivial
    exact this n fr

/-- No return, break or continue. -/
def Stmt.flows {Fn : Type} : Stmt Fn → Bool
  | .seq a b => a.flows && b.flows
  | .ite _ _ a b => a.flows && b.flows
  | .loop _ | .ret .. | .brk | .cont => false
  | _ => true

theorem flows_run {Fn : Type} {call : Fn → List V → PS → COut} {n : Nat} : ∀ (st : Stmt Fn), st.flows = true → ∀ fr s,
    (∃ fr' s', st.run call n fr s = .next fr' s') ∨ (∃ ln, st.run call n fr s = .panic ln) ∨ st.run call n fr s = .fuel := by
  intro st
  induction st with
  | loop => intro h; simp [Stmt.flows] at h
  | ret => intro h; simp [Stmt.flows] at h
  | brk => intro h; simp [Stmt.flows] at h
  | cont => intro h; simp [Stmt.flows] at h
  | seq a b iha ihb =>
    intro h fr s
    simp only [Stmt.flows, Bool.and_eq_true] at h
    simp only [Stmt.run]
    rcases iha h.1 fr s with ⟨fr1, s1, e⟩ | ⟨ln, e⟩ | e <;> simp only [e]
    · exact ihb h.2 _ _
    · exact Or.inr (Or.inl ⟨_, rfl⟩)
    · exact Or.inr (Or.inr trivial)
  | ite ln c a b iha ihb =>
    intro h fr s
    simp only [Stmt.flows, Bool.and_eq_true] at h
    simp only [Stmt.run]
    split
    · exact iha h.1 _ _
    · exact ihb h.2 _ _
    · exact Or.inr (Or.inl ⟨_, rfl⟩)
  | skip => intro _ fr s; exact Or.inl ⟨_, _, rfl⟩
  | save => intro _ fr s; exact Or.inl ⟨_, _, rfl⟩
  | restore => intro _ fr s; exact Or.inl ⟨_, _, rfl⟩
  | set =>
    intro _ fr s; simp only [Stmt.run]; split
    · exact Or.inl ⟨_, _, rfl⟩
    · exact Or.inr (Or.inl ⟨_, rfl⟩)
  | memoAdd =>
    intro _ fr s; simp only [Stmt.run]; split
    · exact Or.inl ⟨_, _, rfl⟩
    · exact Or.inr (Or.inl ⟨_, rfl⟩)
  | prim =>
    intro _ fr s; simp only [Stmt.run]; split
    · exact Or.inl ⟨_, _, rfl⟩
    · exact Or.inr (Or.inl ⟨_, rfl⟩)
  | setF =>
    intro _ fr s; simp only [Stmt.run]; split
    · split
      · exact Or.inl ⟨_, _, rfl⟩
      · exact Or.inr (Or.inl ⟨_, rfl⟩)
    · exact Or.inr (Or.inl ⟨_, rfl⟩)
  | call =>
    intro _ fr s; simp only [Stmt.run]; split
    · split
      · exact Or.inl ⟨_, _, rfl⟩
      · exact Or.inr (Or.inl ⟨_, rfl⟩)
      · exact Or.inr (Or.inr rfl)
    · exact Or.inr (Or.inl ⟨_, rfl⟩)

/-- The methods that only look ahead. -/
def looks : Fn → Bool
  | .peekTokenKind | .peekKeyword | .peekIsClauseStarterKeyword | .peekIsExpressionContinuation
  | .peekIsEndOfStatement | .keywordIsSelectItemIdentifier => true
  | _ => false

theorem looks_quiet (f : Fn) (h : looks f = true) : (fnTable f).body.quiet looks = true := by
  cases f <;> first | rfl | simp [looks] at h

theorem looks_same {s : PS} (hp : NextFine s.lx) : ∀ n f args rs s', looks f = true → runFn fnTable n f args s = .ret rs s' → s' = s := by
  intro n
  induction n with
  | zero => intro f args rs s' _ h; simp [runFn] at h
  | succ n ih =>
    intro f args rs s' hf h
    have := quiet_run (n := n) hp ih _ (looks_quiet f hf) ⟨args ++ List.replicate ((fnTable f).locals - args.length) V.nil, s.lx⟩
    simp only [runFn] at h
    split at h <;> simp only [COut.ret.injEq, reduceCtorEq] at h <;> rename_i hr <;> rw [hr] at this <;> obtain ⟨_, rfl⟩ := h
    · exact this
    · exact this.1
    · exact this.1
    · exact this.1

/-- Lookahead before a statement that returns. -/
theorem look_seq {n : Nat} {s : PS} (hp : NextFine s.lx) {a b : Stmt Fn} (hq : a.quiet looks = true) (hf : a.flows = true) {fr : Frame}
    {vs : List V} {s' : PS} (h : (a ;; b).run (runFn fnTable n) n fr s = .ret vs s') :
    ∃ fr', fr'.env.length = fr.env.length ∧ b.run (runFn fnTable n) n fr' s = .ret vs s' := by
  have h1 := quiet_run (n := n) hp (looks_same hp n) a hq fr
  simp only [Stmt.run] at h
  rcases flows_run (call := runFn fnTable n) (n := n) a hf fr s with ⟨fr1, s1, e⟩ | ⟨ln, e⟩ | e <;>
    simp only [e, reduceCtorEq] at h h1
  obtain ⟨rfl, h2⟩ := h1
  exact ⟨fr1, h2, h⟩

/-! ### Methods that move the lexer and put it back -/

/-- What is known about the lexer relative to the beginning of the method: whether it is in the same
state, and whether the saved state is that state; `none` when the code does not go on. -/
abbrev Back := Option (Bool × Bool)

/-- Both may be the case. -/
def Back.join : Back → Back → Back
  | none, b => b
  | a, none => a
  | some (c, v), some (c', v') => some (c && c', v && v')

/-- Every return, except of expressions with `x`, happens in the state of the beginning; only methods
with `q` are called. -/
def Stmt.back {Fn : Type} (x : List Exp → Bool) (q : Fn → Bool) : Stmt Fn → Bool × Bool → Option Back
  | .skip, st | .set .., st | .setF .., st => some (some st)
  | .ret _ es, st => if st.1 || x es then some none else none
  | .call _ f _ _, st => if q f then some (some (false, st.2)) else none
  | .prim .., st => some (some (false, st.2))
  | .save, st => some (some (st.1, st.1))
  | .restore, st => some (some (st.2, st.2))
  | .seq a b, st => match a.back x q st with
    | some (some st') => b.back x q st'
    | r => r
  | .ite _ _ a b, st => match a.back x q st, b.back x q st with
    | some y, some z => some (y.join z)
    | _, _ => none
  | _, _ => none

/-- The state satisfies `st`, where `s0` is the state at the beginning. -/
def Known (s0 : PS) (st : Bool × Bool) (fr : Frame) (s : PS) : Prop :=
  s0.Same s ∧ (st.1 = true → s.lx = s0.lx) ∧ (st.2 = true → fr.saved = s0.lx)

/-- The same for outcomes. -/
def Out.Known (X : List V → Prop) (s0 : PS) (b : Back) : Out → Prop
  | .next fr s => ∃ st, b = some st ∧ Verif.Known s0 st fr s
  | .ret vs s => s = s0 ∨ X vs
  | .brk _ _ | .cont _ _ => False
  | _ => True

theorem known_join_left {X : List V → Prop} {s0 : PS} {a b : Back} {o : Out} (h : o.Known X s0 a) : o.Known X s0 (a.join b) := by
  cases o <;> try exact h
  obtain ⟨st, rfl, h1, h2, h3⟩ := h
  cases b with
  | none => exact ⟨st, rfl, h1, h2, h3⟩
  | some b =>
    refine ⟨_, rfl, h1, ?_, ?_⟩
    · intro h; simp only [Bool.and_eq_true] at h; exact h2 h.1
    · intro h; simp only [Bool.and_eq_true] at h; exact h3 h.1

theorem known_join_right {X : List V → Prop} {s0 : PS} {a b : Back} {o : Out} (h : o.Known X s0 b) : o.Known X s0 (a.join b) := by
  cases o <;> try exact h
  obtain ⟨st, rfl, h1, h2, h3⟩ := h
  cases a with
  | none => exact ⟨st, rfl, h1, h2, h3⟩
  | some a =>
    refine ⟨_, rfl, h1, ?_, ?_⟩
    · intro h; simp only [Bool.and_eq_true] at h; exact h2 h.2
    · intro h; simp only [Bool.and_eq_true] at h; exact h3 h.2

theorem same_eq {s s' : PS} (h : s.Same s') (hl : s'.lx = s.lx) : s' = s := by
  obtain ⟨h1, h2⟩ := h
  cases s; cases s'; simp_all

theorem back_run {Fn : Type} {x : List Exp → Bool} {X : List V → Prop}
    (hx : ∀ es s env vs, x es = true → Exp.evalL s env es = some vs → X vs) {q : Fn → Bool} {call : Fn → List V → PS → COut} {n : Nat} {s0 : PS}
    (hc : ∀ f args s rs s', q f = true → call f args s = .ret rs s' → s.Same s') : ∀ (st : Stmt Fn) (k : Bool × Bool) (b : Back),
    st.back x q k = some b → ∀ fr s, Known s0 k fr s → (st.run call n fr s).Known X s0 b := by
  intro st
  induction st with
  | skip => intro k b h fr s hk; simp only [Stmt.back, Option.some.injEq] at h; subst h; exact ⟨k, rfl, hk⟩
  | brk => intro k b h; simp [Stmt.back] at h
  | cont => intro k b h; simp [Stmt.back] at h
  | loop => intro k b h; simp [Stmt.back] at h
  | memoAdd => intro k b h; simp [Stmt.back] at h
  | save =>
    intro k b h fr s hk
    simp only [Stmt.back, Option.some.injEq] at h; subst h
    exact ⟨_, rfl, hk.1, hk.2.1, hk.2.1⟩
  | restore =>
    intro k b h fr s hk
    simp only [Stmt.back, Option.some.injEq] at h; subst h
    exact ⟨_, rfl, hk.1, hk.2.2, hk.2.2⟩
  | set =>
    intro k b h fr s hk
    simp only [Stmt.back, Option.some.injEq] at h; subst h
    simp only [Stmt.run]
    split
    · exact ⟨_, rfl, hk⟩
    · trivial
  | setF =>
    intro k b h fr s hk
    simp only [Stmt.back, Option.some.injEq] at h; subst h
    simp only [Stmt.run]
    split
    · split
      · exact ⟨_, rfl, hk⟩
      · trivial
    · trivial
  | ret =>
    intro k b h fr s hk
    simp only [Stmt.back] at h
    split at h
    · rename_i h1
      simp only [Stmt.run]
      split
      · rename_i he
        simp only [Bool.or_eq_true] at h1
        rcases h1 with h1 | h1
        · exact Or.inl (same_eq hk.1 (hk.2.1 h1))
        · exact Or.inr (hx _ _ _ _ h1 he)
      · trivial
    · simp at h
  | call ln f args dst =>
    intro k b h fr s hk
    simp only [Stmt.back] at h
    split at h
    · rename_i hq
      simp only [Option.some.injEq] at h; subst h
      simp only [Stmt.run]
      split
      · split
        · rename_i hr
          have := hc _ _ _ _ _ hq hr
          exact ⟨_, rfl, ⟨this.1.trans hk.1.1, this.2.trans hk.1.2⟩, by simp, hk.2.2⟩
        · trivial
        · trivial
      · trivial
    · simp at h
  | prim =>
    intro k b h fr s hk
    simp only [Stmt.back, Option.some.injEq] at h; subst h
    simp only [Stmt.run]
    split
    · exact ⟨_, rfl, hk.1, by simp, hk.2.2⟩
    · trivial
  | seq a b iha ihb =>
    intro k r h fr s hk
    simp only [Stmt.back] at h
    simp only [Stmt.run]
    split at h
    · rename_i st' ha
      have := iha _ _ ha fr s hk
      split
      · rename_i hr
        rw [hr] at this
        obtain ⟨st, e, this⟩ := this
        simp only [Option.some.injEq] at e; subst e
        exact ihb _ _ h _ _ this
      · rename_i hr
        revert this hr
        cases a.run call n fr s <;> intro this hr <;> first | exact this | exact (hr _ _ rfl).elim
    · rename_i hne
      cases ha : a.back x q k with
      | none => simp [ha] at h
      | some x =>
        cases x with
        | some x => exact (hne _ ha).elim
        | none =>
          simp only [ha, Option.some.injEq] at h; subst h
          have := iha _ _ ha fr s hk
          revert this
          cases a.run call n fr s <;> intro this <;> first | exact this | (obtain ⟨_, e, _⟩ := this; simp at e)
  | ite ln c a b iha ihb =>
    intro k r h fr s hk
    simp only [Stmt.back] at h
    split at h
    · rename_i x y hx hy
      simp only [Option.some.injEq] at h; subst h
      simp only [Stmt.run]
      split
      · exact known_join_left (iha _ _ hx _ _ hk)
      · exact known_join_right (ihb _ _ hy _ _ hk)
      · trivial
    · simp at h

end Verif

/-
Whole statements.  No definition here is part of the model.
-/
import Verif.Echo.All
import Verif.Echo.Print4
import Verif.Echo.Rewrite

namespace Verif.Echo
open Verif.Spec

/-- One name is read. -/
def Name (l l' : Lx) : Prop := ∃ t, l.cur = some t ∧ (isKind t .ident ∨ isKind t .keyword) ∧ l' = l.advance
/-- `FORMAT` and a name are read, or nothing. -/
def Form (l l' : Lx) : Prop := l' = l ∨ (l.matchKw b!"FORMAT" = true ∧ Name l.advance l')

/-- What is needed of the methods for whole statements. -/
def Post2 : Fn → P0
  | .parseIdent => A0 fun l => Ok2 (fun _ l' => Name l l')
  | .parseFormat => A1 fun _ l => Ok2 (fun _ l' => l.matchKw b!"FORMAT" = true ∧ Name l.advance l')
  | .tryParseFormat => A1 fun _ l => Ok2 (fun _ l' => Form l l')
  | .parseSelectQuery => A1 fun _ l => Ok2 (fun v l' => Val l v l')
  | .parseStmt => A1 fun _ l rs l' => l.matchKw b!"SELECT" = true ∨ l.matchKw b!"WITH" = true →
      Ok2 (fun v l' => ∃ m, Val l v m ∧ Form m l' ∧ (l'.cur = none ∨ l'.matchKinds [b!";"] = true)) rs l'
  | .parseDDL => A1 fun _ _ => Ok2 (fun _ _ => True)
  | .parseDeleteClause => A1 fun _ _ => Ok2 (fun _ _ => True)
  | .parseInsertStmt => A1 fun _ _ => Ok2 (fun _ _ => True)
  | .parseUseStmt => A1 fun _ _ => Ok2 (fun _ _ => True)
  | .parseSetStmt => A1 fun _ _ => Ok2 (fun _ _ => True)
  | .parseSettingsStmt => A1 fun _ _ => Ok2 (fun _ _ => True)
  | .parseSystemStmt => A1 fun _ _ => Ok2 (fun _ _ => True)
  | .parseOptimizeStmt => A1 fun _ _ => Ok2 (fun _ _ => True)
  | .parseCheckStmt => A1 fun _ _ => Ok2 (fun _ _ => True)
  | .parseExplainStmt => A1 fun _ _ => Ok2 (fun _ _ => True)
  | .parseGrantPrivilegeStmt => A1 fun _ _ => Ok2 (fun _ _ => True)
  | .parseShowStmt => A1 fun _ _ => Ok2 (fun _ _ => True)
  | .parseDescribeStmt => A1 fun _ _ => Ok2 (fun _ _ => True)
  | _ => fun _ _ _ _ => True

/-- The same for all methods. -/
def Call2 (n : Nat) : Prop := ∀ f args l m i rs l' m' i', Clean l → runFn retryTable n f args ⟨l, m, i⟩ = .ret rs ⟨l', m', i'⟩ → Post2 f args l rs l'

theorem loopN_next {body : Frame → PS → Out} : ∀ n fr s, (∀ fr' s', loopN body n fr s ≠ .brk fr' s' ∧ loopN body n fr s ≠ .cont fr' s')
  | 0, _, _ => by simp [loopN]
  | n + 1, fr, s => by
    intro fr' s'
    simp only [loopN]
    split
    · exact loopN_next n _ _ _ _
    · exact loopN_next n _ _ _ _
    · simp
    · rename_i h1 h2 h3
      exact ⟨fun h => h3 _ _ h, fun h => h2 _ _ h⟩

/-- The end of the statement is not reached. -/
def halts {Fn : Type} : Stmt Fn → Bool
  | .seq _ b => halts b
  | .ite _ _ a b => halts a && halts b
  | .ret _ _ => true
  | _ => false

/-- There is no `break` or `continue` outside of a loop. -/
def closed {Fn : Type} : Stmt Fn → Bool
  | .seq a b => closed a && closed b
  | .ite _ _ a b => closed a && closed b
  | .brk => false
  | .cont => false
  | _ => true

theorem closed_sound {Fn : Type} {call : Fn → List V → PS → COut} {n : Nat} : ∀ (st : Stmt Fn) fr s, closed st = true →
    ∀ fr' s', st.run call n fr s ≠ .brk fr' s' ∧ st.run call n fr s ≠ .cont fr' s' := by
  intro st
  induction st with
  | seq a b iha ihb =>
    intro fr s h
    simp only [closed, Bool.and_eq_true] at h
    simp only [Stmt.run]
    cases ha : a.run call n fr s with
    | next fr1 s1 => exact ihb fr1 s1 h.2
    | brk fr1 s1 => exact absurd ha (iha fr s h.1 fr1 s1).1
    | cont fr1 s1 => exact absurd ha (iha fr s h.1 fr1 s1).2
    | _ => simp
  | ite ln c a b iha ihb =>
    intro fr s h
    simp only [closed, Bool.and_eq_true] at h
    simp only [Stmt.run]
    split
    · exact iha fr s h.1
    · exact ihb fr s h.2
    · simp
  | loop b ih => intro fr s _; exact loopN_next _ _ _
  | brk => intro fr s h; simp [closed] at h
  | cont => intro fr s h; simp [closed] at h
  | _ => intro fr s _; simp only [Stmt.run]; (repeat' split) <;> simp

theorem halts_sound {Fn : Type} {call : Fn → List V → PS → COut} {n : Nat} : ∀ (st : Stmt Fn) fr s, halts st = true →
    ∀ fr' s', st.run call n fr s ≠ .next fr' s' := by
  intro st
  induction st with
  | seq a b iha ihb =>
    intro fr s h
    simp only [halts] at h
    simp only [Stmt.run]
    cases ha : a.run call n fr s with
    | next fr1 s1 => exact ihb fr1 s1 h
    | _ => simp
  | ite ln c a b iha ihb =>
    intro fr s h
    simp only [halts, Bool.and_eq_true] at h
    simp only [Stmt.run]
    split
    · exact iha fr s h.1
    · exact ihb fr s h.2
    · simp
  | ret ln es => intro fr s _; simp only [Stmt.run]; split <;> simp
  | _ => intro fr s h; simp [halts] at h

theorem two_of {n : Nat} {f : Fn} {args : List V} {s : PS} {vs : List V} {s' : PS} (h1 : (retryTable f).body.rets 2 = true)
    (h2 : halts (retryTable f).body = true) (h3 : closed (retryTable f).body = true)
    (h : runFn retryTable n f args s = .ret vs s') {l : Lx} : Ok2 (fun _ _ => True) vs l := by
  have : vs.length = 2 := by
    cases n with
    | zero => simp [runFn] at h
    | succ n =>
      simp only [runFn] at h
      split at h
      · rename_i hr
        simp only [COut.ret.injEq] at h
        obtain ⟨rfl, rfl⟩ := h
        exact rets_sound _ h1 _ _ _ _ hr
      · simp at h
      · simp at h
      · rename_i hr; exact absurd hr (halts_sound _ _ _ h2 _ _)
      · rename_i hr; exact absurd hr (closed_sound _ _ _ h3 _ _).1
      · rename_i hr; exact absurd hr (closed_sound _ _ _ h3 _ _).2
  match vs, this with
  | [v, e], _ => exact ⟨v, e, rfl, fun _ => trivial⟩

theorem match_excl {l : Lx} {j k : Str} (h : l.matchKw j = true) (h' : l.matchKw k = true) : upper j = upper k := by
  obtain ⟨t, ht, _, h1⟩ := An.matchKw_iff.1 h
  obtain ⟨t', ht', _, h2⟩ := An.matchKw_iff.1 h'
  rw [ht] at ht'
  cases ht'
  rw [← h1, h2]

theorem p2_parseIdent : ∀ n, Call2 n → ∀ l m i rs l' m' i', Clean l → runFn retryTable (n + 1) .parseIdent [] ⟨l, m, i⟩ = .ret rs ⟨l', m', i'⟩ →
    Ok2 (fun _ l' => Name l l') rs l' := by
  intro n ih l m i rs l' m' i' hl hr
  enter hr
  sym
  refine ⟨t1, ht1, ?_, rfl⟩
  simp only [Lx.matchKinds, Lx.curKind, ht1, List.contains_iff_mem] at c1
  by_cases hc : t1.kind.toStr ∈ [Kind.ident.toStr]
  · exact .inl (by simpa using hc)
  · by_cases h2 : t1.kind.toStr = Kind.keyword.toStr
    · exact .inr h2
    · have hc' : t1.kind.toStr ∉ [[60, 105, 100, 101, 110, 116, 62]] := hc
      simp [hc', h2] at c1

theorem p2_parseFormat : ∀ n, Call2 n → ∀ a l m i rs l' m' i', Clean l → runFn retryTable (n + 1) .parseFormat [a] ⟨l, m, i⟩ = .ret rs ⟨l', m', i'⟩ →
    Ok2 (fun _ l' => l.matchKw b!"FORMAT" = true ∧ Name l.advance l') rs l' := by
  intro n ih a l m i rs l' m' i' hl hr
  enter hr
  sym
  exact ⟨by assumption, by assumption⟩

theorem p2_tryParseFormat : ∀ n, Call2 n → ∀ a l m i rs l' m' i', Clean l → runFn retryTable (n + 1) .tryParseFormat [a] ⟨l, m, i⟩ = .ret rs ⟨l', m', i'⟩ →
    Ok2 (fun _ l' => Form l l') rs l' := by
  intro n ih a l m i rs l' m' i' hl hr
  enter hr
  sym
  · exact .inl rfl
  · exact ⟨_, _, rfl, fun he => .inr (hv2 he)⟩

theorem p2_parseStmt : ∀ n, Call2 n → ∀ a l m i rs l' m' i', Clean l → runFn retryTable (n + 1) .parseStmt [a] ⟨l, m, i⟩ = .ret rs ⟨l', m', i'⟩ →
    l.matchKw b!"SELECT" = true ∨ l.matchKw b!"WITH" = true →
      Ok2 (fun v l' => ∃ m, Val l v m ∧ Form m l' ∧ (l'.cur = none ∨ l'.matchKinds [b!";"] = true)) rs l' := by
  intro n ih a l m i rs l' m' i' hl hr hm
  enter hr
  sym
  · exfalso
    rcases hm with hm | hm <;> rcases c1 with (((((c1 | c1) | c1) | c1) | c1) | c1) | c1 <;> exact absurd (match_excl hm c1) (by decide)
  · refine ⟨l3, hv3, hv5, ?_⟩
    cases hc : l5.cur with
    | none => exact .inl rfl
    | some t => right; simpa [hc, tokV, V.nonNil, Token.toV, N.Token] using c7
  all_goals (exfalso; rcases hm with hm | hm <;> simp_all)

theorem calls2 : ∀ n, Call2 n := by
  intro n
  induction n with
  | zero => intro f args l m i rs l' m' i' _ h; simp [runFn] at h
  | succ n ih =>
    intro f args l m i rs l' m' i' hl hr
    unfold Post2
    split
    · intro ha; subst ha; exact p2_parseIdent n ih l m i rs l' m' i' hl hr
    · intro a ha; subst ha; exact p2_parseFormat n ih a l m i rs l' m' i' hl hr
    · intro a ha; subst ha; exact p2_tryParseFormat n ih a l m i rs l' m' i' hl hr
    · intro a ha
      obtain ⟨v, e, h1, h2⟩ := calls (n + 1) _ args l m i rs l' m' i' hl hr a ha
      exact ⟨v, e, h1, fun he => (h2 he).1⟩
    · intro a ha; subst ha; exact p2_parseStmt n ih a l m i rs l' m' i' hl hr
    all_goals first | exact trivial | exact fun _ _ => two_of rfl rfl rfl hr

end Verif.Echo

/-
`parseStmt` succeeds only at the end of the input or at a `;`.
-/
import Verif.Semi.Run

namespace Verif.Semi
open Verif Spec

/-- Every `return` in the code returns an error. -/
def errRets : Stmt Fn → Bool
  | .seq a b => errRets a && errRets b
  | .ite _ (.not (.isNil (.var x))) (.ret _ [_, .var y]) b => x == y && errRets b
  | .ite _ _ a b => errRets a && errRets b
  | .loop b => errRets b
  | .ret _ [_, .error _ _] => true
  | .ret _ _ => false
  | _ => true

theorem errRets_sound {call : Fn → List V → PS → COut} {n : Nat} : ∀ (st : Stmt Fn), errRets st = true → ∀ {fr : Frame} {s : PS} {vs : List V} {s' : PS},
    st.run call n fr s = .ret vs s' → ∃ v e, vs = [v, e] ∧ e.nonNil = true := by
  intro st
  induction st with
  | seq a b iha ihb =>
    intro h fr s vs s' hr
    simp only [errRets, Bool.and_eq_true] at h
    rw [run_seq] at hr
    cases ha : a.run call n fr s with
    | next fr1 s1 => rw [ha] at hr; exact ihb h.2 hr
    | _ => rw [ha] at hr; simp only [Out.andThen] at hr; exact iha h.1 (ha.trans hr)
  | ite ln c a b iha ihb =>
    intro h fr s vs s' hr
    rw [run_ite] at hr
    unfold errRets at h
    split at h <;> try (rename_i e; cases e)
    · rename_i x _ w y
      rw [Bool.and_eq_true, beq_iff_eq] at h
      obtain ⟨rfl, h⟩ := h
      simp only [Exp.eval] at hr
      cases hv : fr.env[x]? with
      | none => rw [hv] at hr; simp [onSome] at hr
      | some v =>
        rw [hv] at hr
        simp only [Option.map_some, Option.bind_some, V.toBool?, onSome, Bool.not_not] at hr
        split at hr
        · rename_i hn
          simp only [Stmt.run, Exp.evalL, Exp.eval, hv] at hr
          split at hr
          · rename_i vs' hvs
            simp only [Out.ret.injEq] at hr
            obtain ⟨rfl, rfl⟩ := hr
            cases hw : w.eval s fr.env with
            | none => rw [hw] at hvs; simp at hvs
            | some w' =>
              rw [hw] at hvs
              simp at hvs
              exact ⟨w', v, hvs.symm, hn⟩
          · simp at hr
        · exact ihb h hr
    · rw [Bool.and_eq_true] at h
      cases hc : (c.eval s fr.env).bind V.toBool? with
      | none => rw [hc] at hr; simp [onSome] at hr
      | some x =>
        rw [hc] at hr
        cases x with
        | true => exact iha h.1 hr
        | false => exact ihb h.2 hr
    · rename_i h0 _ _ _; exact (h0 _ _ _ _ rfl).elim
  | loop b ih =>
    intro h fr s vs s' hr
    simp only [errRets] at h
    have : ∀ k fr s, loopN (b.run call n) k fr s = .ret vs s' → ∃ v e, vs = [v, e] ∧ e.nonNil = true := by
      intro k
      induction k with
      | zero => intro fr s h; simp [loopN] at h
      | succ k ihk =>
        intro fr s hl
        simp only [loopN] at hl
        split at hl
        · exact ihk _ _ hl
        · exact ihk _ _ hl
        · simp at hl
        · exact ih h hl
    exact this _ _ _ hr
  | ret ln es =>
    intro h fr s vs s' hr
    unfold errRets at h
    split at h <;> try (rename_i e; cases e)
    · rename_i w m args
      simp only [Stmt.run, Exp.evalL, Exp.eval] at hr
      split at hr
      · rename_i vs' hvs
        simp only [Out.ret.injEq] at hr
        obtain ⟨rfl, rfl⟩ := hr
        cases hw : w.eval s fr.env with
        | none => rw [hw] at hvs; simp at hvs
        | some w' =>
          rw [hw] at hvs
          cases ha : Exp.evalL s fr.env args with
          | none => rw [ha] at hvs; simp at hvs
          | some as =>
            rw [ha] at hvs
            simp at hvs
            exact ⟨w', _, hvs.symm, rfl⟩
      · simp at hr
    · cases h
    · rename_i h0; exact absurd rfl (h0 _ _)
  | call ln f es dst =>
    intro h fr s vs s' hr
    rw [run_call] at hr
    cases he : Exp.evalL s fr.env es with
    | none => rw [he] at hr; simp [onSome] at hr
    | some as =>
      rw [he] at hr
      simp only [onSome] at hr
      split at hr <;> simp at hr
  | set => intro h fr s vs s' hr; simp only [Stmt.run] at hr; split at hr <;> simp at hr
  | setF => intro h fr s vs s' hr; simp only [Stmt.run] at hr; split at hr <;> (try split at hr) <;> simp at hr
  | prim => intro h fr s vs s' hr; simp only [Stmt.run] at hr; split at hr <;> simp at hr
  | memoAdd => intro h fr s vs s' hr; simp only [Stmt.run] at hr; split at hr <;> simp at hr
  | _ => intro h fr s vs s' hr; simp [Stmt.run] at hr

/-- The last lines of `parseStmt`, parser/parser_table.go:1541-1545. -/
def stmtEnd : Stmt Fn :=
  .ite 41542 (.and (.not (.isNil .cur)) (.not (.matchKinds [(.str b!";")])))
    (.ret 41543 [.nil, (.error b!"<EOF> or ';' was expected, but got: %q" [.curString])])
    .skip ;;
  .ret 41545 [(.var 2 /-expr-/), .nil]

/-- The code ends with `z`, and `p` holds of what comes before. -/
def splitSeq (p : Stmt Fn → Bool) (k : Nat) : Stmt Fn → Option (Stmt Fn)
  | .seq a b => match k with
    | 0 => some (.seq a b)
    | k + 1 => if p a then splitSeq p k b else none
  | st => if k = 0 then some st else none

theorem splitSeq_sound {call : Fn → List V → PS → COut} {n : Nat} {z : Stmt Fn} {vs : List V} {s' : PS} : ∀ {k : Nat} {st : Stmt Fn} {fr : Frame} {s : PS},
    splitSeq errRets k st = some z → st.run call n fr s = .ret vs s' →
    (∃ v e, vs = [v, e] ∧ e.nonNil = true) ∨ ∃ fr1 s1, z.run call n fr1 s1 = .ret vs s'
  | 0, st, fr, s, h, hr => by
    cases st <;> simp [splitSeq] at h <;> subst h <;> exact Or.inr ⟨fr, s, hr⟩
  | k + 1, st, fr, s, h, hr => by
    cases st <;> simp [splitSeq] at h
    rename_i a b
    rw [run_seq] at hr
    cases ha : a.run call n fr s with
    | next fr1 s1 => rw [ha] at hr; exact splitSeq_sound h.2 hr
    | _ => rw [ha] at hr; simp only [Out.andThen] at hr; exact Or.inl (errRets_sound a h.1 (ha.trans hr))

theorem stmt_split : splitSeq errRets 6 (retryTable .parseStmt).body = some stmtEnd := rfl

theorem stmt1_stop {l l' : Lx} {v : V} (h : Stmt1 l v l') : l'.cur = none ∨ ¬ NotSemi l' := by
  obtain ⟨n, s, h, rfl⟩ := h
  cases n with
  | zero => simp [runFn] at h
  | succ n =>
    simp only [runFn] at h
    split at h <;> simp only [COut.ret.injEq, reduceCtorEq] at h
    · rename_i vs s1 hr
      obtain ⟨rfl, rfl⟩ := h
      rcases splitSeq_sound stmt_split hr with ⟨v, e, h, hn⟩ | ⟨fr1, s1', hz⟩
      · simp only [List.cons.injEq] at h
        rw [← h.2.1] at hn
        simp [V.nonNil] at hn
      · simp only [stmtEnd] at hz
        rw [run_seq, run_ite] at hz
        simp only [Exp.eval, Exp.evalL, Option.map_some, Option.bind_some, V.toBool?, V.toStr?, List.mapM_cons, List.mapM_nil, Option.pure_def,
          Option.bind_eq_bind] at hz
        cases hc : s1'.lx.cur with
        | none =>
          left
          rw [hc] at hz
          simp only [tokV, V.nonNil, Bool.not_false, Bool.not_true, onSome] at hz
          simp only [Bool.false_eq_true, if_false, Option.bind_some, V.toBool?, Stmt.run, Out.andThen] at hz
          split at hz <;> simp at hz
          rw [← hz.2]; exact hc
        | some t =>
          right
          rw [hc] at hz
          cases hm : s1'.lx.matchKinds [b!";"] with
          | true =>
            rw [hm] at hz
            simp only [tokV, Token.toV, N.Token, V.nonNil, Bool.not_false, Bool.not_true, onSome] at hz
            simp only [if_true, Option.bind_some, V.toBool?, Stmt.run, Out.andThen] at hz
            simp only [Bool.false_eq_true, if_false, Stmt.run] at hz
            split at hz <;> simp at hz
            rw [← hz.2]; exact semi_match.1 hm
          | false =>
            rw [hm] at hz
            simp only [tokV, Token.toV, N.Token, V.nonNil, Bool.not_false, Bool.not_true, onSome] at hz
            simp only [if_true, Option.bind_some, V.toBool?, Stmt.run, Out.andThen] at hz
            simp [Exp.evalL, Exp.eval, plainErr, N.PlainError] at hz
    all_goals
      rename_i hr
      simp at h

end Verif.Semi

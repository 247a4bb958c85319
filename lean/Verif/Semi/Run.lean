/-
The loop of `ParseStmts` as a relation: statement after statement.
-/
import Verif.Semi.Table
import Verif.Relation.Result

namespace Verif.Semi
open Verif Spec

/-- From `l`, whose current token is the first of a statement, `parseStmt` returns `v` and stops at `l'`. -/
def Stmt1 (l : Lx) (v : V) (l' : Lx) : Prop :=
  ∃ n s, runFn retryTable n .parseStmt [.nat l.curPos] ⟨l, [], []⟩ = .ret [v, .nil] s ∧ s.lx = l'

/-- The statement loop goes from `l` to `l'` and yields `vs`. -/
inductive Stmts : Lx → List V → Lx → Prop
  | done {l : Lx} : Stmts l [] l
  | semi {l l1 l' : Lx} {vs : List V} : l.consume = .ok l1 → l1.isEOF = false → ¬ NotSemi l1 → Stmts l1 vs l' → Stmts l vs l'
  | stmt {l l1 l2 l' : Lx} {v : V} {vs : List V} : l.consume = .ok l1 → l1.isEOF = false → NotSemi l1 → Stmt1 l1 v l2 → Stmts l2 vs l' →
      Stmts l (v :: vs) l'

/-- The statement loop from `l` to the end of the text yields `vs`. -/
def StmtsAll (l : Lx) (vs : List V) : Prop := ∃ l1 l2, Stmts l vs l1 ∧ l1.consume = .ok l2 ∧ l2.isEOF = true

theorem Stmts.trans {l l' l'' : Lx} {vs ws : List V} (h : Stmts l vs l') (h' : Stmts l' ws l'') : Stmts l (vs ++ ws) l'' := by
  induction h with
  | done => exact h'
  | semi a b c _ ih => exact .semi a b c (ih h')
  | stmt a b c d _ ih => exact .stmt a b c d (ih h')

/-! ### One round of the loop -/

/-- The body of the loop, parser/parser_table.go:1550-1565. -/
def loopBody : Stmt Fn :=
    (.prim 41551 .consume [1] ;;
    .ite 41551 (.not (.isNil (.var 1 /-err-/)))
      (.prim 41552 (.wrap (.var 1 /-err-/)) [2] ;;
      .ret 41552 [.nil, (.var 2 /-tmp-/)])
      .skip ;;
    .ite 41554 .isEOF
      .brk
      .skip ;;
    .ite 41557 (.matchKinds [(.str b!";")])
      .cont
      .skip ;;
    .call 41560 .parseStmt [.pos] [3, 4] ;;
    .ite 41561 (.not (.isNil (.var 4 /-err-/)))
      (.prim 41562 (.wrap (.var 4 /-err-/)) [5] ;;
      .ret 41562 [.nil, (.var 5 /-tmp-/)])
      .skip ;;
    .set 41564 0 (.append (.var 0 /-stmts-/) (.var 3 /-stmt-/)) /-stmts-/)

theorem stmts_body : (retryTable .ParseStmts).body = (.set 41549 0 .nil ;; .loop loopBody ;; .ret 41566 [(.var 0 /-stmts-/), .nil]) := rfl

theorem eof_kind : Kind.eof.toStr ≠ b!";" := by decide

theorem semi_match {l : Lx} : l.matchKinds [b!";"] = true ↔ ¬ NotSemi l := by
  constructor
  · intro h hn
    simp only [Lx.matchKinds] at h
    split at h
    · rename_i hc
      simp only [List.contains_iff_mem, List.mem_singleton] at hc
      exact hn hc
    · split at h
      · cases h
      · rw [if_neg (by decide)] at h; cases h
  · intro h
    have : l.curKind = b!";" := by unfold NotSemi at h; exact Classical.not_not.1 h
    simp [Lx.matchKinds, this]

theorem wrap_nonNil {s : PS} {e : V} (h : e.nonNil = true) : (wrapErr s e).nonNil = true := by
  unfold wrapErr
  split
  · simp only; split <;> rfl
  · simp only; split <;> rfl
  · exact h

section
variable {call : Fn → List V → PS → COut} {n : Nat} {a0 a1 a2 a3 a4 a5 : V} {sv l1 : Lx} {s : PS}

theorem body_err (h : s.lx.consume = .err l1) :
    ∃ w e, (loopBody.run call n ⟨[a0, a1, a2, a3, a4, a5], sv⟩ s) = .ret [.nil, e] w ∧ e.nonNil = true := by
  refine ⟨_, _, by
    simp [loopBody, Stmt.run, Prim.run, h, storeAll, Exp.eval, lexErr, plainErr, N.PlainError, V.nonNil, V.toBool?, Exp.evalL]; exact ⟨rfl, rfl⟩, ?_⟩
  exact wrap_nonNil rfl

theorem body_eof (h : s.lx.consume = .ok l1) (he : l1.isEOF = true) :
    (loopBody.run call n ⟨[a0, a1, a2, a3, a4, a5], sv⟩ s) = .brk ⟨[a0, .nil, a2, a3, a4, a5], sv⟩ { s with lx := l1 } := by
  simp [loopBody, Stmt.run, Prim.run, h, storeAll, Exp.eval, V.nonNil, V.toBool?, he]

theorem body_semi (h : s.lx.consume = .ok l1) (he : l1.isEOF = false) (hs : ¬ NotSemi l1) :
    (loopBody.run call n ⟨[a0, a1, a2, a3, a4, a5], sv⟩ s) = .cont ⟨[a0, .nil, a2, a3, a4, a5], sv⟩ { s with lx := l1 } := by
  simp [loopBody, Stmt.run, Prim.run, h, storeAll, Exp.eval, Exp.evalL, V.nonNil, V.toBool?, V.toStr?, he, semi_match.2 hs]

theorem body_stmt (h : s.lx.consume = .ok l1) (he : l1.isEOF = false) (hs : NotSemi l1) :
    (loopBody.run call n ⟨[a0, a1, a2, a3, a4, a5], sv⟩ s) = match call .parseStmt [.nat l1.curPos] { s with lx := l1 } with
      | .ret rs s' => (Stmt.ite 41561 (.not (.isNil (.var 4 /-err-/)))
          (.prim 41562 (.wrap (.var 4 /-err-/)) [5] ;; .ret 41562 [.nil, (.var 5 /-tmp-/)]) .skip ;;
          .set 41564 0 (.append (.var 0 /-stmts-/) (.var 3 /-stmt-/))).run call n ⟨storeAll [a0, .nil, a2, a3, a4, a5] [3, 4] rs, sv⟩ s'
      | .panic l => .panic l
      | .fuel => .fuel := by
  have hm : l1.matchKinds [b!";"] = false := by
    cases hk : l1.matchKinds [b!";"] with
    | false => rfl
    | true => exact absurd hs (semi_match.1 hk)
  simp only [loopBody, Stmt.run, Prim.run, h, storeAll, Exp.eval, Exp.evalL, V.nonNil, V.toBool?, he, Option.map_some, Option.bind_some,
    List.set_cons_succ, List.set_cons_zero, List.getElem?_cons_succ, List.getElem?_cons_zero, Bool.not_false, Bool.not_true, V.toStr?,
    List.mapM_cons, List.mapM_nil, Option.pure_def, Option.bind_eq_bind, hm]
  cases call .parseStmt [.nat l1.curPos] { s with lx := l1 } <;> rfl

theorem tail_ok {v : V} {s' : PS} : (Stmt.ite 41561 (.not (.isNil (.var 4 /-err-/)))
    (.prim 41562 (.wrap (.var 4 /-err-/)) [5] ;; .ret 41562 [.nil, (.var 5 /-tmp-/)]) .skip ;;
    .set 41564 0 (.append (.var 0 /-stmts-/) (.var 3 /-stmt-/))).run call n ⟨storeAll [a0, .nil, a2, a3, a4, a5] [3, 4] [v, .nil], sv⟩ s' =
    .next ⟨[.list (a0.items ++ [v]), .nil, a2, v, .nil, a5], sv⟩ s' := by
  simp [Stmt.run, storeAll, Exp.eval, V.nonNil, V.toBool?]

theorem tail_err {v e : V} {s' : PS} (he : e.nonNil = true) : ∃ w e', (Stmt.ite 41561 (.not (.isNil (.var 4 /-err-/)))
    (.prim 41562 (.wrap (.var 4 /-err-/)) [5] ;; .ret 41562 [.nil, (.var 5 /-tmp-/)]) .skip ;;
    .set 41564 0 (.append (.var 0 /-stmts-/) (.var 3 /-stmt-/))).run call n ⟨storeAll [a0, .nil, a2, a3, a4, a5] [3, 4] [v, e], sv⟩ s' =
    .ret [.nil, e'] w ∧ e'.nonNil = true := by
  refine ⟨_, _, by simp [Stmt.run, Prim.run, storeAll, Exp.eval, Exp.evalL, he, V.toBool?]; exact ⟨rfl, rfl⟩, wrap_nonNil he⟩

end

/-! ### The whole loop -/

theorem eq_lock : Lock Eq where
  cur := by rintro l _ rfl; rfl
  off := by rintro l _ rfl; rfl
  eof := by rintro l _ rfl; rfl
  step := by
    rintro l _ rfl _
    cases l.consume <;> rfl

theorem stmt_two {n : Nat} {args : List V} {s : PS} {vs : List V} {s' : PS} (h : runFn retryTable n .parseStmt args s = .ret vs s') :
    ∃ v e, vs = [v, e] := by
  have := runFn_length (k := 2) rfl rfl h
  match vs, this with
  | [v, e], _ => exact ⟨v, e, rfl⟩

theorem sig_stmt : sig .parseStmt = ⟨false, false⟩ := rfl

/-- The input as a whole and the fuel do not matter to `parseStmt`. -/
theorem stmt1_of {n : Nat} {l : Lx} {inp : Str} {v : V} {s : PS}
    (h : runFn retryTable n .parseStmt [.nat l.curPos] ⟨l, [], inp⟩ = .ret [v, .nil] s) : Stmt1 l v s.lx ∧ s.memo = [] := by
  have := runFn_twin eq_lock all_checked n .parseStmt [.nat l.curPos] ⟨l, [], inp⟩ ⟨l, [], []⟩ (by decide) ⟨rfl, rfl, rfl⟩ (by simp [sig_stmt])
  rw [h] at this
  cases hr : runFn retryTable n .parseStmt [.nat l.curPos] ⟨l, [], []⟩ with
  | ret ws s' =>
    rw [hr] at this
    obtain ⟨rfl, h2, _⟩ := this
    exact ⟨⟨n, s', hr, h2.lx.symm⟩, h2.memo⟩
  | panic _ => rw [hr] at this; exact this.elim
  | fuel => rw [hr] at this; exact this.elim

theorem of_stmt1 {l l' : Lx} {v : V} (inp : Str) (h : Stmt1 l v l') :
    ∃ n s, runFn retryTable n .parseStmt [.nat l.curPos] ⟨l, [], inp⟩ = .ret [v, .nil] s ∧ s.lx = l' ∧ s.memo = [] := by
  obtain ⟨n, s, h, rfl⟩ := h
  have := runFn_twin eq_lock all_checked n .parseStmt [.nat l.curPos] ⟨l, [], inp⟩ ⟨l, [], []⟩ (by decide) ⟨rfl, rfl, rfl⟩ (by simp [sig_stmt])
  rw [h] at this
  cases hr : runFn retryTable n .parseStmt [.nat l.curPos] ⟨l, [], inp⟩ with
  | ret ws s' =>
    rw [hr] at this
    obtain ⟨rfl, h2, _⟩ := this
    exact ⟨n, s', hr, h2.lx, h2.memo⟩
  | panic _ => rw [hr] at this; exact this.elim
  | fuel => rw [hr] at this; exact this.elim

theorem same_input {n : Nat} {f : Fn} {args : List V} {s s' : PS} {vs : List V} (h : runFn retryTable n f args s = .ret vs s') :
    s'.input = s.input := by
  have : ∀ n f args s vs s', runFn retryTable n f args s = .ret vs s' → s.Same s' := by
    intro n
    induction n with
    | zero => intro f args s vs s' h; simp [runFn] at h
    | succ n ih =>
      intro f args s vs s' h
      have := noAdd_same (q := fun _ => true) (call := runFn retryTable n) (n := n) (fun f args s rs s' _ => ih f args s rs s')
        (retryTable f).body (noMemo_noAdd _) { env := args ++ List.replicate ((retryTable f).locals - args.length) V.nil, saved := s.lx } s s'
      apply this
      simp only [runFn] at h
      split at h <;> simp only [COut.ret.injEq, reduceCtorEq] at h
      all_goals
        rename_i hr
        rw [hr]
        obtain ⟨_, rfl⟩ := h
        rfl
  exact (this _ _ _ _ _ _ h).2

/-- From a run of the loop to the relation. -/
theorem loop_stmts {n : Nat} : ∀ (k : Nat) {a0 a1 a2 a3 a4 a5 : V} {sv : Lx} {s : PS} {r : Out}, s.memo = [] →
    loopN (loopBody.run (runFn retryTable n) n) k ⟨[a0, a1, a2, a3, a4, a5], sv⟩ s = r →
    (∀ fr s', r = .next fr s' → ∃ vs, StmtsAll s.lx vs ∧ ∃ v rest, fr.env = v :: rest ∧ v.items = a0.items ++ vs) ∧
    (∀ vs s', r = .ret vs s' → ∃ e, vs = [.nil, e] ∧ e.nonNil = true)
  | 0, _, _, _, _, _, _, _, _, _, _, h => by subst h; exact ⟨nofun, nofun⟩
  | k + 1, a0, a1, a2, a3, a4, a5, sv, s, r, hm, h => by
    rw [loopN] at h
    cases hc : s.lx.consume with
    | err l1 =>
      obtain ⟨w, e, hb, he⟩ := body_err (call := runFn retryTable n) (n := n) (a0 := a0) (a1 := a1) (a2 := a2) (a3 := a3) (a4 := a4) (a5 := a5) (sv := sv) hc
      rw [hb] at h
      subst h
      exact ⟨nofun, fun vs s' h => by cases h; exact ⟨e, rfl, he⟩⟩
    | ok l1 =>
      cases he : l1.isEOF with
      | true =>
        rw [body_eof hc he] at h
        subst h
        refine ⟨fun fr s' h => ?_, nofun⟩
        cases h
        exact ⟨[], ⟨_, _, .done, hc, he⟩, _, _, rfl, by simp⟩
      | false =>
        by_cases hs : NotSemi l1
        · rw [body_stmt hc he hs] at h
          cases hr : runFn retryTable n .parseStmt [.nat l1.curPos] { s with lx := l1 } with
          | panic ln => rw [hr] at h; subst h; exact ⟨nofun, nofun⟩
          | fuel => rw [hr] at h; subst h; exact ⟨nofun, nofun⟩
          | ret rs s' =>
            rw [hr] at h
            obtain ⟨v, e, rfl⟩ := stmt_two hr
            simp only at h
            by_cases hee : e.nonNil = true
            · obtain ⟨w, e', ht, he'⟩ := tail_err (call := runFn retryTable n) (n := n) (a0 := a0) (a2 := a2) (a3 := a3) (a4 := a4) (a5 := a5) (sv := sv) (v := v) (s' := s') hee
              rw [ht] at h
              subst h
              exact ⟨nofun, fun vs s' h => by cases h; exact ⟨_, rfl, he'⟩⟩
            · have : e = .nil := by cases e <;> simp [V.nonNil] at hee ⊢
              subst this
              rw [tail_ok] at h
              have e1 : ({ s with lx := l1 } : PS) = ⟨l1, [], s.input⟩ := by rw [← hm]
              rw [e1] at hr
              obtain ⟨h1, h2⟩ := stmt1_of hr
              obtain ⟨i1, i2⟩ := loop_stmts k h2 h
              refine ⟨fun fr s'' h => ?_, i2⟩
              obtain ⟨vs, ⟨m1, m2, j1, j2, j3⟩, w, rest, j4, j5⟩ := i1 fr s'' h
              exact ⟨v :: vs, ⟨m1, m2, .stmt hc he hs h1 j1, j2, j3⟩, w, rest, j4, by rw [j5]; simp [V.items]⟩
        · rw [body_semi hc he hs] at h
          obtain ⟨i1, i2⟩ := loop_stmts k (s := { s with lx := l1 }) hm h
          refine ⟨fun fr s'' h => ?_, i2⟩
          obtain ⟨vs, ⟨m1, m2, j1, j2, j3⟩, w, rest, j4, j5⟩ := i1 fr s'' h
          exact ⟨vs, ⟨m1, m2, .semi hc he hs j1, j2, j3⟩, w, rest, j4, j5⟩

/-- From the relation to a run of the loop. -/
theorem stmts_loop {l1 l2 : Lx} (h1 : l1.consume = .ok l2) (h2 : l2.isEOF = true) {l : Lx} {vs : List V} (h : Stmts l vs l1) :
    ∃ N, ∀ n k, N ≤ n → N ≤ k → ∀ (a0 a1 a2 a3 a4 a5 : V) (sv : Lx) (inp : Str), ∃ v rest s',
      loopN (loopBody.run (runFn retryTable n) n) k ⟨[a0, a1, a2, a3, a4, a5], sv⟩ ⟨l, [], inp⟩ = .next ⟨v :: rest, sv⟩ s' ∧
      v.items = a0.items ++ vs := by
  induction h with
  | done =>
    refine ⟨1, fun n k _ hk a0 a1 a2 a3 a4 a5 sv inp => ?_⟩
    obtain ⟨k, rfl⟩ := Nat.exists_eq_add_of_le' hk
    rw [loopN, body_eof h1 h2]
    exact ⟨_, _, _, rfl, by simp⟩
  | semi a b c _ ih =>
    obtain ⟨N, ih⟩ := ih h1
    refine ⟨N + 1, fun n k hn hk a0 a1 a2 a3 a4 a5 sv inp => ?_⟩
    obtain ⟨k, rfl⟩ := Nat.exists_eq_add_of_le' hk
    rw [← Nat.add_assoc, loopN, body_semi a b c]
    exact ih n _ (by omega) (by omega) _ _ _ _ _ _ _ _
  | @stmt l la lb l' v vs a b c d _ ih =>
    obtain ⟨N, ih⟩ := ih h1
    have hM : ∃ M, ∀ inp, ∃ s, runFn retryTable M .parseStmt [.nat la.curPos] ⟨la, [], inp⟩ = .ret [v, .nil] s ∧ s.lx = lb ∧ s.memo = [] := by
      obtain ⟨M, s, d, rfl⟩ := d
      refine ⟨M, fun inp => ?_⟩
      have := runFn_twin eq_lock all_checked M .parseStmt [.nat la.curPos] ⟨la, [], inp⟩ ⟨la, [], []⟩ (by decide) ⟨rfl, rfl, rfl⟩ (by simp [sig_stmt])
      rw [d] at this
      cases hr : runFn retryTable M .parseStmt [.nat la.curPos] ⟨la, [], inp⟩ with
      | ret ws s' =>
        rw [hr] at this
        obtain ⟨rfl, h2, _⟩ := this
        exact ⟨s', rfl, h2.lx, h2.memo⟩
      | panic _ => rw [hr] at this; exact this.elim
      | fuel => rw [hr] at this; exact this.elim
    obtain ⟨M, hM⟩ := hM
    refine ⟨N + M + 1, fun n k hn hk a0 a1 a2 a3 a4 a5 sv inp => ?_⟩
    obtain ⟨k, rfl⟩ := Nat.exists_eq_add_of_le' hk
    obtain ⟨s, hs, rfl, hmemo⟩ := hM inp
    rw [← Nat.add_assoc, loopN, body_stmt a b c, runFn_le (by omega : M ≤ n) hs (by simp)]
    simp only
    rw [tail_ok]
    simp only
    have hs' : s = ⟨s.lx, [], s.input⟩ := by rw [← hmemo]
    obtain ⟨w, rest, s', e1, e2⟩ := ih n (k + (N + M)) (by omega) (by omega) (.list (a0.items ++ [v])) .nil a2 v .nil a5 sv s.input
    rw [← hs'] at e1
    exact ⟨w, rest, s', e1, by rw [e2]; simp [V.items]⟩

/-- `ParseStmts` from any lexer. -/
theorem run_stmts {l : Lx} {inp : Str} {vs : List V} :
    (∃ n v s, runFn retryTable n .ParseStmts [] ⟨l, [], inp⟩ = .ret [v, .nil] s ∧ v.items = vs) ↔ StmtsAll l vs := by
  constructor
  · rintro ⟨n, v, s, h, rfl⟩
    cases n with
    | zero => simp [runFn] at h
    | succ n =>
      simp only [runFn, stmts_body] at h
      rw [run_seq, run_set] at h
      simp only [Exp.eval, onSome, Out.andThen] at h
      have hl : (retryTable .ParseStmts).locals = 6 := rfl
      simp only [hl, List.length_nil, List.nil_append, List.replicate, List.set_cons_zero, Stmt.run] at h
      obtain ⟨h1, h2⟩ := loop_stmts (n := n) n (a0 := .nil) (a1 := .nil) (a2 := .nil) (a3 := .nil) (a4 := .nil) (a5 := .nil) (sv := l)
        (s := ⟨l, [], inp⟩) rfl rfl
      revert h
      cases hr : loopN (loopBody.run (runFn retryTable n) n) n ⟨[.nil, .nil, .nil, .nil, .nil, .nil], l⟩ ⟨l, [], inp⟩ with
      | next fr s' =>
        obtain ⟨vs, a, w, rest, b, c⟩ := h1 fr s' hr
        simp only [Exp.evalL, Exp.eval, b, List.getElem?_cons_zero, Option.map_some, Option.bind_some]
        intro h
        cases h
        rw [c]
        exact a
      | ret ws s' =>
        obtain ⟨e, rfl, he⟩ := h2 ws s' hr
        intro h
        cases h
        simp [V.nonNil] at he
      | brk fr s' => intro h; simp at h
      | cont fr s' => intro h; simp at h
      | panic _ => intro h; simp at h
      | fuel => intro h; simp at h
  · rintro ⟨l1, l2, h, h1, h2⟩
    obtain ⟨N, h⟩ := stmts_loop h1 h2 h
    obtain ⟨v, rest, s', e1, e2⟩ := h N N (Nat.le_refl _) (Nat.le_refl _) .nil .nil .nil .nil .nil .nil l inp
    refine ⟨N + 1, v, s', ?_, by simpa [V.items] using e2⟩
    simp only [runFn, stmts_body]
    rw [run_seq, run_set]
    have hl : (retryTable .ParseStmts).locals = 6 := rfl
    simp only [Exp.eval, onSome, Out.andThen, hl, List.length_nil, List.nil_append, List.replicate, List.set_cons_zero, Stmt.run, e1, Exp.evalL,
      List.getElem?_cons_zero, Option.map_some, Option.bind_some]

/-- The parser accepts a text if and only if the loop runs through it. -/
theorem parses_iff {input : Str} {vs : List V} : Parses input vs ↔ StmtsAll (Lx.new input) vs := by
  rw [← run_stmts (inp := input)]
  constructor
  · rintro ⟨v, s, h, rfl⟩
    refine ⟨parseFuel input, v, { s with memo := [] }, ?_, rfl⟩
    have := retry_run input (Nat.le_refl _)
    rw [h] at this
    exact this
  · rintro ⟨n, v, s, h, rfl⟩
    have := retry_run input (Nat.le_max_left (parseFuel input) n)
    rw [runFn_le (Nat.le_max_right _ n) (show runFn retryTable n .ParseStmts [] (PS.new input) = _ from h) (by simp)] at this
    cases hr : parseStmts input with
    | ret ws s' =>
      rw [hr] at this
      simp only [COut.clear, COut.ret.injEq] at this
      exact ⟨v, s', by rw [hr, ← this.1], rfl⟩
    | panic _ => rw [hr] at this; simp [COut.clear] at this
    | fuel => rw [hr] at this; simp [COut.clear] at this

end Verif.Semi

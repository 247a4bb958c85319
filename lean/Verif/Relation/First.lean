/-
The explicit positions of `guardTable` make no difference in any text.  A text that begins with INTERVAL or a
parenthesis ends with an error in `parseStmt`, before any of the changed methods is called.
-/
import Verif.Relation.Guard

namespace Verif
open Spec

theorem wrong_kw {l : Lx} (h : l.startsWrong = true) {k : Str} (hk : upper k ≠ b!"INTERVAL") : l.matchKw k = false := by
  cases hm : l.matchKw k with
  | false => rfl
  | true =>
    simp only [Lx.matchKw, Bool.and_eq_true] at hm
    have hkind : l.curKind = Kind.keyword.toStr := by
      have := hm.1
      simp only [Lx.matchKinds] at this
      split at this
      · rename_i hc
        simpa using hc
      · split at this
        · cases this
        · rw [if_neg (by decide)] at this; cases this
    have hne : ∀ p : Str, Kind.keyword.toStr ≠ p → ([p] : List Str).contains Kind.ident.toStr = false → l.matchKinds [p] = false := by
      intro p h1 h2
      have : ([p] : List Str).contains l.curKind = false := by
        rw [hkind]; simpa using h1
      simp only [Lx.matchKinds, this, h2]
      simp [hkind]
    simp only [Lx.startsWrong, Lx.matchKw, Bool.or_eq_true, Bool.and_eq_true,
      hne b!"(" (by decide) (by decide), hne b!")" (by decide) (by decide), Bool.false_eq_true, or_false] at h
    have h1 := h.2
    have h2 := hm.2
    simp only [equalFold, beq_iff_eq] at h1 h2
    exact absurd (h2.symm.trans h1) hk

theorem kind_single {l : Lx} {p : Str} (hp : ([p] : List Str).contains Kind.ident.toStr = false) (h : l.matchKinds [p] = true) : l.curKind = p := by
  simp only [Lx.matchKinds] at h
  split at h
  · rename_i hc
    simpa using hc
  · split at h
    · cases h
    · rw [if_neg (by rw [hp]; decide)] at h; cases h

theorem wrong_semi {l : Lx} (h : l.startsWrong = true) : l.matchKinds [b!";"] = false := by
  cases hm : l.matchKinds [b!";"] with
  | false => rfl
  | true =>
    have hk := kind_single (by decide) hm
    simp only [Lx.startsWrong, Lx.matchKw, Bool.or_eq_true, Bool.and_eq_true] at h
    rcases h with (⟨h, _⟩ | h) | h <;>
    · have := kind_single (by decide) h
      rw [hk] at this
      exact absurd this (by decide)

section
variable {call : Fn → List V → PS → COut} {n : Nat} {sv : Lx} {s : PS}

/-- `parseStmt` rejects such a token at once, parser/parser_table.go:1528-1531. -/
theorem parseStmt_wrong (h : s.lx.startsWrong = true) {a : V} : (retryTable .parseStmt).body.run call n ⟨[a, .nil, .nil], sv⟩ s =
    .ret [.nil, plainErr b!"unexpected token: %q"] s := by
  obtain ⟨t, ht⟩ := startsWrong_cur h
  have hk : ∀ k, upper k ≠ b!"INTERVAL" → s.lx.matchKw k = false := fun k hk => wrong_kw h hk
  simp only [retryTable, fnTable, Body.parseStmt, Stmt.noMemo, Stmt.run, Exp.eval, V.toStr?, V.toBool?, Option.bind_some, Option.map_some,
    hk b!"CREATE" (by decide),
    hk b!"ATTACH" (by decide),
    hk b!"ALTER" (by decide),
    hk b!"DROP" (by decide),
    hk b!"DETACH" (by decide),
    hk b!"TRUNCATE" (by decide),
    hk b!"RENAME" (by decide),
    hk b!"SELECT" (by decide),
    hk b!"WITH" (by decide),
    hk b!"DELETE" (by decide),
    hk b!"INSERT" (by decide),
    hk b!"USE" (by decide),
    hk b!"SET" (by decide),
    hk b!"SETTINGS" (by decide),
    hk b!"SYSTEM" (by decide),
    hk b!"OPTIMIZE" (by decide),
    hk b!"CHECK" (by decide),
    hk b!"EXPLAIN" (by decide),
    hk b!"GRANT" (by decide),
    hk b!"SHOW" (by decide),
    hk b!"DESC" (by decide),
    hk b!"DESCRIBE" (by decide)]

  simp [ht, tokV, V.nonNil, Exp.evalL, V.toBool?, Exp.eval, Token.toV, N.Token]

/-- What `ParseStmts` does with such a first token does not depend on the other methods, parser/parser_table.go:1549-1566. -/
theorem stmts_wrong {call' : Fn → List V → PS → COut} {l : Lx} (hc : s.lx.consume = .ok l)
    (h1 : ∀ a, call .parseStmt [a] { s with lx := l } = .ret [.nil, plainErr b!"unexpected token: %q"] { s with lx := l })
    (h2 : ∀ a, call' .parseStmt [a] { s with lx := l } = .ret [.nil, plainErr b!"unexpected token: %q"] { s with lx := l })
    (hl : l.startsWrong = true) :
    (retryTable .ParseStmts).body.run call n ⟨[.nil, .nil, .nil, .nil, .nil, .nil], sv⟩ s =
    (retryTable .ParseStmts).body.run call' n ⟨[.nil, .nil, .nil, .nil, .nil, .nil], sv⟩ s := by
  cases n with
  | zero => rfl
  | succ n =>
    simp only [retryTable, fnTable, Body.ParseStmts, Stmt.noMemo, Stmt.run, loopN, Exp.eval, Exp.evalL, Prim.run, V.toStr?, V.toBool?, Option.bind_some,
      Option.map_some, hc, storeAll, List.set_cons_zero, List.set_cons_succ, List.getElem?_cons_succ, List.getElem?_cons_zero, V.nonNil,
      Bool.not_false, Bool.not_true, List.mapM_cons, List.mapM_nil, Option.pure_def, Option.bind_eq_bind]
    cases he : l.isEOF with
    | true => rfl
    | false =>
      have hs := wrong_semi hl
      simp [hs, h1, h2, plainErr, N.PlainError, storeAll, V.toBool?]

end

/-- The runs of the parser are the same. -/
theorem guard_all (input : Str) (n : Nat) :
    runFn retryTable n .ParseStmts [] (PS.new input) = runFn guardTable n .ParseStmts [] (PS.new input) := by
  by_cases hb : BeginsWell input
  · exact (guard_runs hb n .ParseStmts [] _ .start).1
  · simp only [BeginsWell, Classical.not_forall, Bool.not_eq_false] at hb
    obtain ⟨l, hl, hw⟩ := hb
    match n with
    | 0 => rfl
    | 1 => rfl
    | m + 2 =>
      have h1 : ∀ a s, s.lx = l → runFn retryTable (m + 1) .parseStmt [a] s = .ret [.nil, plainErr b!"unexpected token: %q"] s := by
        intro a s hs
        have := parseStmt_wrong (call := runFn retryTable m) (n := m) (sv := s.lx) (s := s) (hs ▸ hw) (a := a)
        rw [runFn]
        rw [show ([a] ++ List.replicate ((retryTable .parseStmt).locals - [a].length) V.nil) = [a, .nil, .nil] from rfl, this]
      have h2 : ∀ a s, s.lx = l → runFn guardTable (m + 1) .parseStmt [a] s = .ret [.nil, plainErr b!"unexpected token: %q"] s := by
        intro a s hs
        have := parseStmt_wrong (call := runFn guardTable m) (n := m) (sv := s.lx) (s := s) (hs ▸ hw) (a := a)
        rw [runFn, show guardTable .parseStmt = retryTable .parseStmt from rfl]
        rw [show ([a] ++ List.replicate ((retryTable .parseStmt).locals - [a].length) V.nil) = [a, .nil, .nil] from rfl, this]
      rw [runFn, runFn, show guardTable .ParseStmts = retryTable .ParseStmts from rfl]
      rw [show ([] ++ List.replicate ((retryTable .ParseStmts).locals - ([] : List V).length) V.nil) = [.nil, .nil, .nil, .nil, .nil, .nil] from rfl,
        stmts_wrong (s := PS.new input) hl (fun a => h1 a _ rfl) (fun a => h2 a _ rfl) hw]

end Verif

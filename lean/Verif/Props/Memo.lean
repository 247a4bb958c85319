/-
C22: the memo of failed INTERVAL attempts does not change the result.
C23: a failed attempt leaves no trace.
-/
import Verif.Lemmas.Look
import Verif.Analysis.Result
import Verif.Props.Steps

namespace Verif
open Spec

/-! ### C22 -/

theorem fine_new (input : Str) : Fine input (PS.new input) := ⟨.start, rfl, by simp [PS.new, MemoOK]⟩

theorem retry_checked : An.Checked An.Cert.tables retryTable := by
  intro f
  by_cases hf : f = .parseColumnExpr
  · subst hf; decide +kernel
  · have e : retryTable f = fnTable f := by
      simp only [retryTable, plain_noMemo _ (plain_methods f hf)]
    have := An.checked f
    simp only [An.check, An.afunc] at this ⊢
    rw [e]; exact this

/-- **C22**.  The parser with the memo of failed INTERVAL attempts and the parser that retries every
time return the same statements, the same error, or panic in the same line. -/
theorem C22_memo_transparent (input : Str) : parseRetrying input = (parseStmts input).clear := by
  have h0 := An.result input
  have h1 := An.result_of retry_checked input (parseFuel input) (Nat.le_refl _)
  have h2 := call_sim (input := input) (parseFuel input) .ParseStmts [] (PS.new input) (fine_new input)
  have key : ∀ m, runFn retryTable m .ParseStmts [] (PS.new input) = (parseStmts input).clear →
      (parseStmts input).clear ≠ .fuel → parseRetrying input = (parseStmts input).clear := by
    intro m hm hne
    have a := runFn_le (Nat.le_max_left m (parseFuel input)) hm hne
    have b : runFn retryTable (parseFuel input) .ParseStmts [] (PS.new input) ≠ .fuel := by
      intro hb; rw [hb] at h1; exact h1
    have c := runFn_le (Nat.le_max_right m (parseFuel input)) rfl b
    exact c.symm.trans a
  simp only [parseStmts] at h0 h2 key ⊢
  revert h2 h0 key
  cases runFn fnTable (parseFuel input) .ParseStmts [] (PS.new input) with
  | ret vs s => rintro _ ⟨_, m, h⟩ key; exact key m h (by simp [COut.clear])
  | panic ln => rintro _ ⟨m, h⟩ key; exact key m h (by simp [COut.clear])
  | fuel => intro h; exact absurd h id

/-- The memo is in use: here the attempts at 16 and at 7 fail, and the INTERVAL at 16 is read again
after the failure of the outer attempt. -/
example : ∃ vs s, parseStmts b!"SELECT interval[interval[interval]] FROM t" = .ret [vs, .nil] s ∧ s.memo = [7, 16] := by
  have h : (match parseStmts b!"SELECT interval[interval[interval]] FROM t" with
    | .ret [_, .nil] s => decide (s.memo = [7, 16])
    | _ => false) = true := by decide +kernel
  split at h
  · rename_i vs s hs; exact ⟨vs, s, hs, by simpa using h⟩
  · simp at h

/-- **C22** for every method and every state that can arise: whatever the (correct) contents of the
memo, the outcome is that of the parser without a memo, and the memo is correct afterwards. -/
theorem C22_every_method (input : Str) (n : Nat) (f : Fn) (args : List V) (s : PS) (hs : Fine input s) :
    (∀ vs s', runFn fnTable n f args s = .ret vs s' →
      Fine input s' ∧ ∃ m, runFn retryTable m f args { s with memo := [] } = .ret vs { s' with memo := [] }) ∧
    (∀ ln, runFn fnTable n f args s = .panic ln → ∃ m, runFn retryTable m f args { s with memo := [] } = .panic ln) := by
  have := call_sim n f args s hs
  constructor
  · intro vs s' h; rw [h] at this; exact this
  · intro ln h; rw [h] at this; exact this

/-- A state as it arises in the middle of a parse, with something in the memo. -/
example : ∃ s, Fine b!"SELECT interval[interval[interval]] FROM t" s ∧ s.memo = [7, 16] := by
  have h : (match parseStmts b!"SELECT interval[interval[interval]] FROM t" with
    | .ret [_, .nil] s => decide (s.memo = [7, 16])
    | _ => false) = true := by decide +kernel
  split at h
  · rename_i vs s hs
    exact ⟨s, ((C22_every_method _ _ _ _ _ (fine_new _)).1 _ _ hs).1, by simpa using h⟩
  · simp at h

/-! ### C23 -/

/-- The methods that move the lexer but do not touch the memo. -/
def joins : Fn → Bool
  | .parseJoinType | .parseJoinModifiers => true
  | _ => false

theorem joins_same : ∀ n f args s rs s', joins f = true → runFn fnTable n f args s = .ret rs s' → s.Same s' := by
  intro n
  induction n with
  | zero => intro f args s rs s' _ h; simp [runFn] at h
  | succ n ih =>
    intro f args s rs s' hf h
    simp only [runFn] at h
    have hq : (fnTable f).body.noAdd joins = true := by cases f <;> first | rfl | simp [joins] at hf
    have key := noAdd_same (call := runFn fnTable n) (n := n) ih (fnTable f).body hq
    split at h <;> simp only [COut.ret.injEq, reduceCtorEq] at h <;> rename_i hr <;>
      (obtain ⟨rfl, rfl⟩ := h; exact key _ _ _ (by rw [hr]; rfl))

theorem back_same {f : Fn} (hf : (fnTable f).body.back (fun _ => false) joins (true, true) = some none) {n : Nat} {args : List V} {s : PS} {vs : List V}
    {s' : PS} (h : runFn fnTable n f args s = .ret vs s') : s' = s := by
  cases n with
  | zero => simp [runFn] at h
  | succ n =>
    simp only [runFn] at h
    have := back_run (X := fun _ => False) (fun _ _ _ _ h => by simp at h) (s0 := s) (n := n) (joins_same n) _ _ _ hf
      ⟨args ++ List.replicate ((fnTable f).locals - args.length) V.nil, s.lx⟩ s ⟨⟨rfl, rfl⟩, fun _ => rfl, fun _ => rfl⟩
    split at h <;> simp only [COut.ret.injEq, reduceCtorEq] at h <;> rename_i hr <;> rw [hr] at this <;> obtain ⟨_, rfl⟩ := h
    · simpa [Out.Known] using this
    · obtain ⟨_, e, _⟩ := this; simp at e
    · exact this.elim
    · exact this.elim

/-- **C23** for lookahead of any length: whether a JOIN follows GLOBAL or LOCAL, and whether the word
after a parenthesis is the name of a window, is found out without changing the state. -/
theorem C23_lookahead (n : Nat) (f : Fn) (hf : f = .peekJoinAfterLocality ∨ f = .canParseWindowNameInParens) (args : List V) (s : PS)
    (vs : List V) (s' : PS) (h : runFn fnTable n f args s = .ret vs s') : s' = s := by
  rcases hf with rfl | rfl
  · exact back_same rfl h
  · exact back_same rfl h

/-- The results of a call, if it returns. -/
def COut.vals : COut → Option (List V)
  | .ret vs _ => some vs
  | _ => none

/-- The truth value a call returns. -/
def COut.truth (o : COut) : Option Bool := match o.vals with
  | some [.bool b] => some b
  | _ => none

/-- `GLOBAL ANY JOIN` is a join, `LOCAL x` is not, `(order x` begins with the name of a window,
`(order by` does not. -/
example :
    (runFn fnTable 9 .peekJoinAfterLocality [] ⟨lexAt b!"GLOBAL ANY JOIN t" 1, [], b!"GLOBAL ANY JOIN t"⟩).truth = some true ∧
    (runFn fnTable 9 .peekJoinAfterLocality [] ⟨lexAt b!"LOCAL x" 1, [], b!"LOCAL x"⟩).truth = some false ∧
    (runFn fnTable 9 .canParseWindowNameInParens [] ⟨lexAt b!"(order x" 2, [], b!"(order x"⟩).truth = some true ∧
    (runFn fnTable 9 .canParseWindowNameInParens [] ⟨lexAt b!"(order by" 2, [], b!"(order by"⟩).truth = some false := by
  decide +kernel

/-- One of the expressions builds a struct or a list. -/
def builds (es : List Exp) : Bool := es.any fun
  | .mk _ _ => true
  | .appendAll _ _ => true
  | _ => false

theorem builds_evalL : ∀ (es : List Exp) (s : PS) (env : List V) (vs : List V), builds es = true → Exp.evalL s env es = some vs →
    ∃ v ∈ vs, v ≠ .nil
  | [], _, _, _, h, _ => by simp [builds] at h
  | e :: es, s, env, vs, h, hv => by
    simp only [Exp.evalL] at hv
    cases he : e.eval s env with
    | none => simp [he] at hv
    | some v =>
      cases hl : Exp.evalL s env es with
      | none => simp [he, hl] at hv
      | some ws =>
        simp only [he, hl, Option.bind_some, Option.map_some, Option.some.injEq] at hv
        subst hv
        simp only [builds, List.any_cons, Bool.or_eq_true] at h
        rcases h with h | h
        · refine ⟨v, by simp, ?_⟩
          rintro rfl
          split at h
          · rename_i t es; simp only [Exp.eval, Option.map_eq_some_iff] at he; obtain ⟨_, _, he⟩ := he; cases he
          · simp only [Exp.eval, Option.bind_eq_some_iff, Option.map_eq_some_iff] at he; obtain ⟨_, _, _, _, he⟩ := he; cases he
          · simp at h
        · obtain ⟨w, hw, hn⟩ := builds_evalL es s env ws h hl
          exact ⟨w, by simp [hw], hn⟩

theorem run_ite_skip {Fn : Type} {call : Fn → List V → PS → COut} {n : Nat} {fr : Frame} {s : PS} {ln : Nat} {c : Exp} {a rest : Stmt Fn}
    (hc : (c.eval s fr.env).bind V.toBool? = some false) : (Stmt.ite ln c a .skip ;; rest).run call n fr s = rest.run call n fr s := by
  simp only [Stmt.run, hc]

/-- **C23** for GLOBAL and LOCAL: if no JOIN follows, the state is that before the attempt. -/
theorem C23_join_modifiers (n : Nat) (args : List V) (s s' : PS) (hk : s.lx.matchOneOf [b!"GLOBAL", b!"LOCAL"] = true)
    (h : runFn fnTable n .parseJoinModifiers args s = .ret [.nil, .nil] s') : s' = s := by
  cases n with
  | zero => simp [runFn] at h
  | succ n =>
    simp only [runFn] at h
    obtain ⟨a, R, e, hR⟩ : ∃ a R, (fnTable .parseJoinModifiers).body =
        (Stmt.ite 20288 (.not (.matchOneOf (.strs [b!"GLOBAL", b!"LOCAL"]))) a .skip ;; R) ∧
        R.back builds joins (true, true) = some none := ⟨_, _, rfl, rfl⟩
    have hv : (V.list [.str b!"GLOBAL", .str b!"LOCAL"]).strs? = some [b!"GLOBAL", b!"LOCAL"] := rfl
    rw [e, run_ite_skip (by simp [Exp.eval, hv, hk, V.toBool?])] at h
    have := back_run (X := fun vs => ∃ v ∈ vs, v ≠ .nil) (fun es s env vs h1 h2 => builds_evalL es s env vs h1 h2) (s0 := s) (n := n)
      (joins_same n) _ _ _ hR
      ⟨args ++ List.replicate ((fnTable .parseJoinModifiers).locals - args.length) V.nil, s.lx⟩ s ⟨⟨rfl, rfl⟩, fun _ => rfl, fun _ => rfl⟩
    split at h <;> simp only [COut.ret.injEq, reduceCtorEq, List.nil_eq, List.cons_ne_nil, false_and] at h <;> rename_i hr <;> rw [hr] at this
    obtain ⟨rfl, rfl⟩ := h
    simpa [Out.Known] using this

/-- `GLOBAL x`: no join. -/
example : (lexAt b!"GLOBAL x" 1).matchOneOf [b!"GLOBAL", b!"LOCAL"] = true ∧
    ∃ s', runFn fnTable 9 .parseJoinModifiers [.nat 0] ⟨lexAt b!"GLOBAL x" 1, [], b!"GLOBAL x"⟩ = .ret [.nil, .nil] s' := by
  refine ⟨by decide +kernel, ?_⟩
  have h : (match runFn fnTable 9 .parseJoinModifiers [.nat 0] ⟨lexAt b!"GLOBAL x" 1, [], b!"GLOBAL x"⟩ with
    | .ret [.nil, .nil] _ => true
    | _ => false) = true := by decide +kernel
  split at h
  · exact ⟨_, by assumption⟩
  · simp at h

theorem passOn_ret {o : COut} {vs : List V} {s : PS} (h : passOn o = .ret vs s) : o = .ret vs s := by
  cases o <;> simp_all [passOn]

theorem run_ite_any {n : Nat} {fr : Frame} {s : PS} {b : Stmt Fn} (hl : 59 ≤ fr.env.length)
    (h2 : ∀ s vs s', runFn fnTable n .parseAnyKeyword [] s = .ret vs s' → vs.length = 2) :
    (Stmt.ite 30569 (.var 1) (.call 30572 .parseAnyKeyword [] [7, 8] ;; .ret 30572 [.var 7, .var 8]) .skip ;; b).run
      (runFn fnTable n) n fr s = match (fr.env[1]?).bind V.toBool? with
      | some true => passOn (runFn fnTable n .parseAnyKeyword [] s)
      | some false => b.run (runFn fnTable n) n fr s
      | none => .panic 30569 := by
  rw [Stmt.run.eq_2]
  simp only [Stmt.run.eq_5, Exp.eval]
  cases (fr.env[1]?).bind V.toBool? with
  | none => rfl
  | some x =>
    cases x with
    | false => rfl
    | true =>
      simp only [Stmt.run, Exp.evalL]
      cases hc : runFn fnTable n .parseAnyKeyword [] s with
      | panic l => rfl
      | fuel => rfl
      | ret vs s1 =>
        obtain ⟨a, b, rfl⟩ := two (h2 _ _ _ hc)
        simp only [storeAll, passOn, Exp.eval]
        have h7 : ((fr.env.set 7 a).set 8 b)[7]? = some a := by
          rw [List.getElem?_set_ne (by decide), List.getElem?_set_self]; omega
        have h8 : ((fr.env.set 7 a).set 8 b)[8]? = some b := by
          rw [List.getElem?_set_self]; simp; omega
        simp [h7, h8]

/-- **C23** for INTERVAL: where the current token is INTERVAL and the next token can be scanned, an
expression is either what the attempt to read an INTERVAL operator yields, if this succeeds, or what
reading the word INTERVAL as an identifier yields in the lexer state before the attempt. -/
theorem C23_interval (input : Str) (n : Nat) (args : List V) (s : PS) (hs : Fine input s) (hk : s.lx.matchKw b!"INTERVAL" = true)
    (hp : ∀ l, s.lx.peek ≠ .err l) (vs : List V) (s' : PS) (h : runFn fnTable (n + 1) .parseColumnExpr args s = .ret vs s') :
    (∃ v, runFn fnTable n .parseInterval [.bool true] s = .ret [v, .nil] s' ∧ vs = [v, .nil]) ∨
    (∃ memo, runFn fnTable n .parseAnyKeyword [] { s with memo := memo } = .ret vs s') := by
  have hl2 : vs.length = 2 := runFn_length rfl rfl h
  simp only [runFn] at h
  obtain ⟨A, B, C, r, e, hA, hB, hC, hA', hB', hC'⟩ : ∃ A B C r, (fnTable .parseColumnExpr).body =
      (A ;; B ;; C ;; Stmt.ite 30569 (.var 1) (.call 30572 .parseAnyKeyword [] [7, 8] ;; .ret 30572 [.var 7, .var 8]) .skip ;;
        .ite 30575 (.matchKw (.str b!"INTERVAL")) intervalCase r) ∧
      A.quiet looks = true ∧ B.quiet looks = true ∧ C.quiet looks = true ∧ A.flows = true ∧ B.flows = true ∧ C.flows = true :=
    ⟨_, _, _, _, rfl, rfl, rfl, rfl, rfl, rfl, rfl⟩
  rw [e] at h
  have hlen : 59 ≤ (args ++ List.replicate ((fnTable .parseColumnExpr).locals - args.length) V.nil).length := by
    have : (fnTable .parseColumnExpr).locals = 59 := rfl
    simp; omega
  have h' : ∃ fr, 59 ≤ fr.env.length ∧ (A ;; B ;; C ;; Stmt.ite 30569 (.var 1) (.call 30572 .parseAnyKeyword [] [7, 8] ;; .ret 30572 [.var 7, .var 8]) .skip ;;
        .ite 30575 (.matchKw (.str b!"INTERVAL")) intervalCase r).run (runFn fnTable n) n fr s = .ret vs s' := by
    refine ⟨⟨_, s.lx⟩, hlen, ?_⟩
    split at h <;> simp only [COut.ret.injEq, reduceCtorEq] at h <;> rename_i hr <;> obtain ⟨rfl, rfl⟩ := h
    · exact hr
    all_goals simp at hl2
  obtain ⟨fr, hl, h⟩ := h'
  obtain ⟨fr, hl1, h⟩ := look_seq hp hA hA' h
  obtain ⟨fr, hl2, h⟩ := look_seq hp hB hB' h
  obtain ⟨fr, hl3, h⟩ := look_seq hp hC hC' h
  have hl : 59 ≤ fr.env.length := by omega
  rw [run_ite_any hl (fun _ _ _ h => any_length h)] at h
  split at h
  · refine Or.inr ⟨s.memo, passOn_ret h⟩
  · simp only [Stmt.run.eq_5, Exp.eval, Option.bind_some, V.toStr?, Option.map_some, V.toBool?, hk] at h
    by_cases hm : s.memo.contains s.lx.curPos = true
    · rw [intervalCase_hit hl (fun _ _ _ h => any_length h) hm] at h
      exact Or.inr ⟨s.memo, passOn_ret h⟩
    · have hm : s.memo.contains s.lx.curPos = false := by simpa using hm
      rw [(intervalCase_miss hl (fun _ _ _ h => any_length h) (fun _ _ _ h => interval_length h) hm).1] at h
      have hi := call_sim n .parseInterval [.bool true] s hs
      cases hc : runFn fnTable n .parseInterval [.bool true] s with
      | fuel => simp [hc, afterInterval] at h
      | panic l => simp [hc, afterInterval] at h
      | ret ws s1 =>
        obtain ⟨v, e, rfl⟩ := two (interval_length hc)
        simp only [hc, afterInterval] at h
        split at h
        · rw [hc] at hi
          refine Or.inr ⟨s.lx.curPos :: s1.memo, ?_⟩
          have e : s1.input = s.input := hi.1.2.1.trans hs.2.1.symm
          rw [e] at h
          exact passOn_ret h
        · rename_i hn
          simp only [Out.ret.injEq] at h
          obtain ⟨rfl, rfl⟩ := h
          have : e = .nil := by cases e <;> simp_all [V.nonNil]
          subst this
          exact Or.inl ⟨v, rfl, rfl⟩
  · simp at h

/-- `INTERVAL x FROM`: the attempt fails, as `FROM` is no unit, and INTERVAL is read as an identifier;
the next token after it is then `x`.  `INTERVAL x DAY`: the attempt succeeds. -/
example : (lexAt b!"INTERVAL x FROM" 1).matchKw b!"INTERVAL" = true ∧ (∀ l, (lexAt b!"INTERVAL x FROM" 1).peek ≠ .err l) ∧
    (∃ s', (∃ vs, runFn fnTable 40 .parseColumnExpr [.nat 0] ⟨lexAt b!"INTERVAL x FROM" 1, [], b!"INTERVAL x FROM"⟩ = .ret vs s') ∧
      s'.lx = lexAt b!"INTERVAL x FROM" 2 ∧ s'.memo = [0]) ∧
    (∃ s', (∃ vs, runFn fnTable 40 .parseColumnExpr [.nat 0] ⟨lexAt b!"INTERVAL x DAY" 1, [], b!"INTERVAL x DAY"⟩ = .ret vs s') ∧
      s'.lx = lexAt b!"INTERVAL x DAY" 4 ∧ s'.memo = []) := by
  refine ⟨by decide +kernel, ?_, ?_, ?_⟩
  · intro l h
    have : (match (lexAt b!"INTERVAL x FROM" 1).peek with | .ok _ _ => true | .err _ => false) = true := by decide +kernel
    rw [h] at this; simp at this
  · have h : (match runFn fnTable 40 .parseColumnExpr [.nat 0] ⟨lexAt b!"INTERVAL x FROM" 1, [], b!"INTERVAL x FROM"⟩ with
      | .ret _ s' => decide (s'.lx = lexAt b!"INTERVAL x FROM" 2 ∧ s'.memo = [0])
      | _ => false) = true := by decide +kernel
    split at h
    · exact ⟨_, ⟨_, by assumption⟩, by simpa using h⟩
    · simp at h
  · have h : (match runFn fnTable 40 .parseColumnExpr [.nat 0] ⟨lexAt b!"INTERVAL x DAY" 1, [], b!"INTERVAL x DAY"⟩ with
      | .ret _ s' => decide (s'.lx = lexAt b!"INTERVAL x DAY" 4 ∧ s'.memo = [])
      | _ => false) = true := by decide +kernel
    split at h
    · exact ⟨_, ⟨_, by assumption⟩, by simpa using h⟩
    · simp at h

end Verif

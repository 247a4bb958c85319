/- Helper lemmas: the INTERVAL case of `parseColumnExpr` with and without the memo. -/
import Verif.Lemmas.Memo

namespace Verif
open Spec

/-! ### The position of a keyword determines the lexer state -/

/-- A reachable state with a keyword as current token is determined by the position and length of
the keyword. -/
theorem keyword_state {input : Str} {l : Lx} (h : Reach input l) {t : Token} (ht : l.cur = some t)
    (hk : t.kind = .keyword) :
    l = ⟨t.pos + t.str.length, input.drop (t.pos + t.str.length), some
      { pos := t.pos, endp := t.pos + t.str.length, kind := .keyword, str := (input.take (t.pos + t.str.length)).drop t.pos,
        base := 0, quote := 1 }⟩ := by
  have hi := reach_inv h
  cases h with
  | start => simp [Lx.new] at ht
  | err _ h => simp [(consume_err_shape h).1] at ht
  | ok _ h =>
    have := (consume_ok_iff _ _).1 h
    cases this with
    | eof => simp at ht
    | @token off g lex follow prev lead t' hg hl hp he =>
      simp only [Option.some.injEq] at ht
      subst ht
      obtain ⟨h1, h2, h3⟩ := hi
      obtain ⟨h4, h5, h6⟩ := h3 t' rfl
      simp only at h1 h2 h5
      cases hl with
      | @number n follow flt base p e hn _ => cases flt <;> simp at hk
      | @signed s n follow flt base p e _ _ hn _ => cases flt <;> simp at hk
      | backquoted => simp at hk
      | doublequoted => simp at hk
      | string => simp at hk
      | @op2 s follow p e h => simp only [twoByteKind] at hk; split at hk <;> simp at hk
      | op1 => simp at hk
      | @word c w follow p e hc hw hf =>
        simp only at hp he hk h6 ⊢
        subst hp
        subst he
        simp only [Nat.add_zero] at h6 h2 ⊢
        rw [hk, ← h2, ← h6]

theorem interval_state {input : Str} {l l' : Lx} (h : Reach input l) (h' : Reach input l') {k : Str}
    (hm : l.matchKw k = true) (hm' : l'.matchKw k = true) (hp : l.curPos = l'.curPos) : l = l' := by
  obtain ⟨t, ht, hk, hs⟩ := (matchKw_spec h _).1 hm
  obtain ⟨t', ht', hk', hs'⟩ := (matchKw_spec h' _).1 hm'
  have e : t.pos = t'.pos := by simpa [Lx.curPos, ht, ht'] using hp
  have el : t.str.length = t'.str.length := by
    have h1 := congrArg List.length ((upper_eq_iff _ _).2 hs)
    have h2 := congrArg List.length ((upper_eq_iff _ _).2 hs')
    simp only [An.upper_length] at h1 h2
    omega
  rw [keyword_state h ht hk, keyword_state h' ht' hk', e, el]

/-! ### The INTERVAL case -/

/-- The INTERVAL case of `parseColumnExpr`, parser/parser_column.go:587-604. -/
def intervalCase : Stmt Fn :=
  .set 30587 9 .pos ;;
  .set 30588 10 (.memoHas (.var 9)) ;;
  .ite 30588 (.var 10)
    (.call 30589 .parseAnyKeyword [] [11, 12] ;;
    .ret 30589 [(.var 11), (.var 12)])
    .skip ;;
  .save ;;
  .call 30593 .parseInterval [(.bool true)] [13, 14] ;;
  .ite 30594 (.not (.isNil (.var 14)))
    (.memoAdd 30598 (.var 9) ;;
    .restore ;;
    .call 30601 .parseAnyKeyword [] [15, 16] ;;
    .ret 30601 [(.var 15), (.var 16)])
    .skip ;;
  .ret 30604 [(.var 13), .nil]

/-- The outcome of a call whose results are returned. -/
def passOn : COut → Out
  | .ret vs s => .ret vs s
  | .panic l => .panic l
  | .fuel => .fuel

theorem two {vs : List V} (h : vs.length = 2) : ∃ a b, vs = [a, b] := by
  match vs, h with
  | [a, b], _ => exact ⟨a, b, rfl⟩

/-- The INTERVAL case with `add` what is recorded. -/
theorem intervalCase_hit {call : Fn → List V → PS → COut} {n : Nat} {fr : Frame} {s : PS} (hl : 59 ≤ fr.env.length)
    (h2 : ∀ s vs s', call .parseAnyKeyword [] s = .ret vs s' → vs.length = 2)
    (hm : s.memo.contains s.lx.curPos = true) :
    intervalCase.run call n fr s = passOn (call .parseAnyKeyword [] s) := by
  have e9 : (fr.env.set 9 (V.nat s.lx.curPos))[9]? = some (.nat s.lx.curPos) := by
    rw [List.getElem?_set_self]; omega
  have e10 : ((fr.env.set 9 (V.nat s.lx.curPos)).set 10 (.bool true))[10]? = some (.bool true) := by
    rw [List.getElem?_set_self]; simp; omega
  simp only [intervalCase, Stmt.run, Exp.eval, e9, Option.bind_some, V.toNat?, Option.map_some, hm, e10, V.toBool?, Exp.evalL]
  cases hc : call .parseAnyKeyword [] s with
  | panic l => rfl
  | fuel => rfl
  | ret vs s1 =>
    obtain ⟨a, b, rfl⟩ := two (h2 _ _ _ hc)
    simp only [storeAll, passOn]
    have h11 : ((((fr.env.set 9 (V.nat s.lx.curPos)).set 10 (V.bool true)).set 11 a).set 12 b)[11]? = some a := by
      rw [List.getElem?_set_ne (by decide), List.getElem?_set_self]; simp; omega
    have h12 : ((((fr.env.set 9 (V.nat s.lx.curPos)).set 10 (V.bool true)).set 11 a).set 12 b)[12]? = some b := by
      rw [List.getElem?_set_self]; simp; omega
    simp [h11, h12]

/-- What follows a failed attempt at INTERVAL. -/
def afterInterval (call : Fn → List V → PS → COut) (add : Nat → List Nat → List Nat) (s : PS) : COut → Out
  | .ret [v, e] s1 =>
    if e.nonNil then passOn (call .parseAnyKeyword [] ⟨s.lx, add s.lx.curPos s1.memo, s1.input⟩) else .ret [v, .nil] s1
  | .ret _ _ => .fuel
  | .panic l => .panic l
  | .fuel => .fuel

theorem intervalCase_miss {call : Fn → List V → PS → COut} {n : Nat} {fr : Frame} {s : PS} (hl : 59 ≤ fr.env.length)
    (h2 : ∀ s vs s', call .parseAnyKeyword [] s = .ret vs s' → vs.length = 2)
    (h2' : ∀ s vs s', call .parseInterval [.bool true] s = .ret vs s' → vs.length = 2)
    (hm : s.memo.contains s.lx.curPos = false) :
    intervalCase.run call n fr s = afterInterval call (· :: ·) s (call .parseInterval [.bool true] s) ∧
    intervalCase.noMemo.run call n fr s = afterInterval call (fun _ m => m) s (call .parseInterval [.bool true] s) := by
  have e9 : (fr.env.set 9 (V.nat s.lx.curPos))[9]? = some (.nat s.lx.curPos) := by
    rw [List.getElem?_set_self]; omega
  have e10 : ((fr.env.set 9 (V.nat s.lx.curPos)).set 10 (.bool false))[10]? = some (.bool false) := by
    rw [List.getElem?_set_self]; simp; omega
  simp only [intervalCase, Stmt.noMemo, Stmt.run, Exp.eval, e9, Option.bind_some, V.toNat?, Option.map_some, hm, e10, V.toBool?,
    Exp.evalL]
  cases hc : call .parseInterval [.bool true] s with
  | panic l => exact ⟨rfl, rfl⟩
  | fuel => exact ⟨rfl, rfl⟩
  | ret vs s1 =>
    obtain ⟨a, b, rfl⟩ := two (h2' _ _ _ hc)
    simp only [storeAll]
    generalize he : ((((fr.env.set 9 (V.nat s.lx.curPos)).set 10 (V.bool false)).set 13 a).set 14 b) = env
    have hlen : 59 ≤ env.length := by rw [← he]; simpa using hl
    have h9 : env[9]? = some (.nat s.lx.curPos) := by
      rw [← he, List.getElem?_set_ne (by decide), List.getElem?_set_ne (by decide), List.getElem?_set_ne (by decide), e9]
    have h13 : env[13]? = some a := by
      rw [← he, List.getElem?_set_ne (by decide), List.getElem?_set_self]; simp; omega
    have h14 : env[14]? = some b := by
      rw [← he, List.getElem?_set_self]; simp; omega
    simp only [h9, h13, h14, Option.bind_some, Option.map_some, Bool.not_not, afterInterval]
    cases hb : b.nonNil with
    | false => simp [V.toBool?, h13]
    | true =>
      simp only [V.toBool?, Bool.not_not, if_true, V.toNat?, Option.bind_some]
      constructor
      · cases hk : call .parseAnyKeyword [] ⟨s.lx, s.lx.curPos :: s1.memo, s1.input⟩ with
        | panic l => rfl
        | fuel => rfl
        | ret vs s2 =>
          obtain ⟨c, d, rfl⟩ := two (h2 _ _ _ hk)
          have h15 : ((env.set 15 c).set 16 d)[15]? = some c := by
            rw [List.getElem?_set_ne (by decide), List.getElem?_set_self]; omega
          have h16 : ((env.set 15 c).set 16 d)[16]? = some d := by
            rw [List.getElem?_set_self]; simp; omega
          simp [storeAll, h15, h16, passOn, V.toBool?]
      · cases hk : call .parseAnyKeyword [] ⟨s.lx, s1.memo, s1.input⟩ with
        | panic l => rfl
        | fuel => rfl
        | ret vs s2 =>
          obtain ⟨c, d, rfl⟩ := two (h2 _ _ _ hk)
          have h15 : ((env.set 15 c).set 16 d)[15]? = some c := by
            rw [List.getElem?_set_ne (by decide), List.getElem?_set_self]; omega
          have h16 : ((env.set 15 c).set 16 d)[16]? = some d := by
            rw [List.getElem?_set_self]; simp; omega
          simp [storeAll, h15, h16, passOn, V.toBool?]

theorem retry_any_length {n : Nat} {args : List V} {s : PS} {vs : List V} {s' : PS}
    (h : runFn retryTable n .parseAnyKeyword args s = .ret vs s') : vs.length = 2 := runFn_length rfl rfl h

theorem retry_interval_length {n : Nat} {args : List V} {s : PS} {vs : List V} {s' : PS}
    (h : runFn retryTable n .parseInterval args s = .ret vs s') : vs.length = 2 := runFn_length rfl rfl h

variable {input : Str}

theorem passOn_sim {K : Nat} {o : COut} {P : Nat → COut} (h : CSim input o P) : OSim input K (passOn o) (fun m => passOn (P m)) := by
  cases o with
  | ret vs s =>
    obtain ⟨h1, m, h2⟩ := h
    exact Or.inr ⟨h1, m, by simp only [h2]; rfl⟩
  | panic l =>
    obtain ⟨m, h2⟩ := h
    exact Or.inr ⟨trivial, m, by simp only [h2]; rfl⟩
  | fuel => exact Or.inl rfl

theorem runFn_le {table : Fn → Func Fn} {m m' : Nat} (h : m ≤ m') {f : Fn} {args : List V} {s : PS} {o : COut}
    (hr : runFn table m f args s = o) (ho : o ≠ .fuel) : runFn table m' f args s = o := by
  rw [runFn_mono table m m' h f args s (by rw [hr]; exact ho), hr]

theorem passOn_ne {o : COut} (h : passOn o ≠ .fuel) : o ≠ .fuel := by rintro rfl; exact h rfl

theorem interval_sim {n : Nat} (hcall : CallSim input (runFn fnTable n)) {fr : Frame} {s : PS} (hs : Fine input s)
    (hf : Reach input fr.saved ∧ 59 ≤ fr.env.length) (hk : s.lx.matchKw b!"INTERVAL" = true) :
    OSim input 59 (intervalCase.run (runFn fnTable n) n fr s)
      (fun m => intervalCase.noMemo.run (runFn retryTable m) m fr s.clear) := by
  have hmiss := fun m => (intervalCase_miss (call := runFn retryTable m) (n := m) (fr := fr) (s := s.clear) hf.2
    (fun _ _ _ h => retry_any_length h) (fun _ _ _ h => retry_interval_length h) rfl).2
  have hsame : ∀ {m v e s1}, runFn retryTable m .parseInterval [.bool true] s.clear = .ret [v, e] s1 →
      s1.memo = [] ∧ s1.input = input := by
    intro m v e s1 h
    have := retry_same _ _ _ _ _ _ h
    exact ⟨this.1, this.2.trans hs.2.1⟩
  -- after a failed attempt the identifier is read from the same state
  have hany : ∀ {o : Out} {P : Nat → COut} {m0 v e s1}, runFn retryTable m0 .parseInterval [.bool true] s.clear = .ret [v, e] s1 →
      e.nonNil = true → OSim input 59 o (fun m => passOn (runFn retryTable m .parseAnyKeyword [] s.clear)) →
      OSim input 59 o (fun m => intervalCase.noMemo.run (runFn retryTable m) m fr s.clear) := by
    intro o P m0 v e s1 h0 he h
    rcases h with h | ⟨h1, m, h2⟩
    · exact Or.inl h
    · by_cases ho : o = .fuel
      · exact Or.inl ho
      refine Or.inr ⟨h1, max m0 m, ?_⟩
      have ha : runFn retryTable m .parseAnyKeyword [] s.clear ≠ .fuel := by
        intro hfu; simp only [hfu, passOn] at h2; exact clear_ne_fuel ho h2.symm
      simp only [hmiss, runFn_le (Nat.le_max_left m0 m) h0 (by simp), afterInterval, he, if_true, (hsame h0).1, (hsame h0).2, clear_lx]
      rw [← h2]
      have es : (⟨s.lx, [], input⟩ : PS) = s.clear := by simp [PS.clear, hs.2.1]
      rw [es, runFn_le (Nat.le_max_right m0 m) rfl ha]
  by_cases hm : s.memo.contains s.lx.curPos = true
  · rw [intervalCase_hit hf.2 (fun _ _ _ h => any_length h) hm]
    obtain ⟨l, hl, hlk, hlp, m0, v, e, s1, h0, he⟩ := hs.2.2 _ (by simpa using hm)
    have : l = s.lx := interval_state hl hs.1 hlk hk hlp
    subst this
    have es : (⟨s.lx, [], input⟩ : PS) = s.clear := by simp [PS.clear, hs.2.1]
    rw [es] at h0
    exact hany (P := fun _ => .fuel) h0 he (passOn_sim (hcall _ _ _ hs))
  · have hm : s.memo.contains s.lx.curPos = false := by simpa using hm
    rw [(intervalCase_miss hf.2 (fun _ _ _ h => any_length h) (fun _ _ _ h => interval_length h) hm).1]
    have hi := hcall .parseInterval [.bool true] s hs
    cases hc : runFn fnTable n .parseInterval [.bool true] s with
    | fuel => exact Or.inl rfl
    | panic l =>
      rw [hc] at hi
      obtain ⟨m, hi⟩ := hi
      refine Or.inr ⟨trivial, m, ?_⟩
      simp only at hi
      simp only [hmiss, hi, afterInterval, Out.clear]
    | ret vs s1 =>
      obtain ⟨v, e, rfl⟩ := two (interval_length hc)
      rw [hc] at hi
      obtain ⟨h1, m, h2⟩ := hi
      simp only [COut.clear] at h2
      simp only [afterInterval]
      cases he : e.nonNil with
      | false =>
        refine Or.inr ⟨h1, m, ?_⟩
        simp only [hmiss, h2, afterInterval, he]
        rfl
      | true =>
        simp only [if_true]
        refine hany (P := fun _ => .fuel) h2 he ?_
        have hfine : Fine input ⟨s.lx, s.lx.curPos :: s1.memo, s1.input⟩ := by
          refine ⟨hs.1, h1.2.1, ?_⟩
          intro p hp
          simp only [List.mem_cons] at hp
          rcases hp with rfl | hp
          · refine ⟨s.lx, hs.1, hk, rfl, m, v, e, { s1 with memo := [] }, ?_, he⟩
            have es : (⟨s.lx, [], input⟩ : PS) = s.clear := by simp [PS.clear, hs.2.1]
            rw [es]; exact h2
          · exact h1.2.2 p hp
        have := hcall .parseAnyKeyword [] _ hfine
        have es : (⟨s.lx, s.lx.curPos :: s1.memo, s1.input⟩ : PS).clear = s.clear := by
          simp [PS.clear, hs.2.1, h1.2.1]
        rw [es] at this
        exact passOn_sim this

/-! ### All methods -/

theorem ssim_kw {K n : Nat} {call : Fn → List V → PS → COut} {ln : Nat} {k : Str} {a b : Stmt Fn}
    (ha : ∀ fr s, Fine input s → Reach input fr.saved ∧ K ≤ fr.env.length → s.lx.matchKw k = true →
      OSim input K (a.run call n fr s) (fun m => a.noMemo.run (runFn retryTable m) m fr s.clear))
    (hb : SSim input K call n b) : SSim input K call n (.ite ln (.matchKw (.str k)) a b) := by
  intro fr s hs hf
  simp only [Stmt.run, Stmt.noMemo, OSim, Exp.eval, Option.bind_some, V.toStr?, Option.map_some, V.toBool?, clear_lx]
  cases hk : s.lx.matchKw k with
  | true => exact ha fr s hs hf hk
  | false => exact hb fr s hs hf

theorem body_sim {n : Nat} (hcall : CallSim input (runFn fnTable n)) :
    SSim input 59 (runFn fnTable n) n (fnTable .parseColumnExpr).body := by
  have pl := fun st h => ssim_plain (input := input) (K := 59) (n := n) hcall st h
  exact ssim_seq (pl _ rfl) (ssim_seq (pl _ rfl) (ssim_seq (pl _ rfl) (ssim_seq (pl _ rfl)
    (ssim_kw (fun fr s hs hf hk => interval_sim hcall hs hf hk) (pl _ rfl)))))

theorem plain_methods (f : Fn) (h : f ≠ .parseColumnExpr) : (fnTable f).body.plain = true := by
  cases f <;> first | exact absurd rfl h | rfl

theorem call_sim : ∀ n, CallSim input (runFn fnTable n)
  | 0 => fun f args s _ => trivial
  | n + 1 => by
    have ih := call_sim n
    intro f args s hs
    have hb : SSim input (fnTable f).locals (runFn fnTable n) n (fnTable f).body := by
      by_cases hf : f = .parseColumnExpr
      · subst hf; exact body_sim ih
      · exact ssim_plain ih _ (plain_methods f hf)
    have := hb ⟨args ++ List.replicate ((fnTable f).locals - args.length) V.nil, s.lx⟩ s hs ⟨hs.1, by simp; omega⟩
    simp only [OSim] at this
    simp only [runFn]
    generalize ho : (fnTable f).body.run (runFn fnTable n) n
      ⟨args ++ List.replicate ((fnTable f).locals - args.length) V.nil, s.lx⟩ s = o at this ⊢
    rcases this with rfl | ⟨h1, m, h2⟩
    · trivial
    · have hr : runFn retryTable (m + 1) f args s.clear = (match o.clear with
          | .ret vs s' => .ret vs s'
          | .panic l => .panic l
          | .fuel => .fuel
          | .next _ s' => .ret [] s'
          | .brk _ s' => .ret [] s'
          | .cont _ s' => .ret [] s') := by
        simp only [runFn, ← h2]
        rfl
      cases o <;> first | exact ⟨h1, m + 1, hr⟩ | exact ⟨h1.1, m + 1, hr⟩ | exact ⟨m + 1, hr⟩ | trivial

end Verif

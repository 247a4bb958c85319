/-
The methods that read an operator and its right operand.
-/
import Verif.Group.Special

namespace Verif.Group
open Verif.Spec

/-! ### Trees -/

/-- A binary operator. -/
theorem binop_ok {e r g h : V} {op : Str} {p m : Nat} {s' : PS} (he : Good e) (hr : Good r) (hg : Good g) (hh : Good h) (hp : level op = p)
    (hm : (if op = b!"->" then 0 else level op) = m) (h1 : ∀ q, RightPower e q → p ≤ q) (h2 : ∀ q, LeftPower r q → m < q) (h3 : RightDone r s')
    (h4 : Below s' m) : InfixPost e p [.mk .BinaryOperation [e, .str op, r, g, h], .nil] s' := by
  have hl : leftOpen (.mk .BinaryOperation [e, .str op, r, g, h]) = some (p, e) := by rw [← hp]; rfl
  have hro : rightOpen (.mk .BinaryOperation [e, .str op, r, g, h]) = some (m, r) := by rw [← hm]; rfl
  refine .ok (good_mk.2 ⟨⟨fun p' l hl' => ?_, fun p' r' hr' => ?_, fun _ _ _ _ _ h => nomatch h⟩, ?_⟩) ⟨fun q hq => ?_, fun q hq => ?_⟩
  · rw [hl] at hl'; cases hl'; exact h1
  · rw [hro] at hr'; cases hr'; exact h2
  · simp [he, hr, hg, hh, good_str]
  · cases hq with
    | here h => rw [hro] at h; cases h; exact h4
    | down h hq => rw [hro] at h; cases h; exact h3 q hq
  · cases hq with
    | here h => rw [hl] at h; cases h; exact .inl rfl
    | down h hq => rw [hl] at h; cases h; exact .inr hq

/-- An operator without a right operand. -/
theorem postfix_ok {e v : V} {p : Nat} {s' : PS} (hv : ∃ t fs, v = .mk t fs ∧ t ≠ .BetweenClause ∧ ∀ u ∈ fs, Good u) (hro : rightOpen v = none)
    (hl : leftOpen v = some (p, e) ∨ leftOpen v = none)
    (h1 : ∀ q, RightPower e q → p ≤ q) : InfixPost e p [v, .nil] s' := by
  refine .ok ?_ ⟨fun q hq => absurd hq (noRight hro), fun q hq => ?_⟩
  · obtain ⟨t, fs, rfl, ht, hfs⟩ := hv
    refine good_mk.2 ⟨⟨fun p' l hl' => ?_, fun p' r' hr' => ?_, fun _ _ _ _ _ h => ?_⟩, hfs⟩
    · rcases hl with hl | hl
      · rw [hl] at hl'; cases hl'; exact h1
      · rw [hl] at hl'; cases hl'
    · rw [hro] at hr'; cases hr'
    · cases h; exact absurd rfl ht
  · rcases hl with hl | hl
    · cases hq with
      | here h => rw [hl] at h; cases h; exact .inl rfl
      | down h hq => rw [hl] at h; cases h; exact .inr hq
    · exact absurd hq (noLeft hl)

section
variable {input : Str} {n : Nat} (F : Facts input n)
include F

theorem between_step {e b : V} {s : PS} {vs : List V} {s' : PS} (hs : Reach input s.lx) (he : Good e) (hb : Good b) (hr : ∀ q, RightPower e q → 9 ≤ q)
    (h : runFn fnTable (n + 1) .parseBetweenClause [e, b] s = .ret vs s') : InfixPost e 9 vs s' := by
  refine ret_fn (fn := Body.parseBetweenClause) (env := [e, b, .nil, .nil, .nil, .nil, .nil, .nil]) rfl rfl ?_ h
  clear h
  dsimp only [Body.parseBetweenClause]
  refine ret_expectKw (by simp) (.error (sat_keywordErr _ _).1 (by simp [keywordErr, N.ParseError])) fun hm => ?_
  have hs1 := reach_advance hs
  refine ret_call (as := [.nat s.lx.advance.curPos, .nat 9]) rfl fun rs s2 hc => ?_
  obtain ⟨v, x, rfl, hv, hx, hp⟩ := F.sub _ _ _ _ _ sat_nat hs1 hc
  have hs2 := reach_runFn _ _ _ _ _ _ hs1 hc
  dsimp only [storeAll, List.set]
  refine ret_err (e := x) rfl (fun hne => .error hx hne) fun hn => ?_
  obtain ⟨hv1, hv2⟩ := hp hn
  obtain ⟨hv2, hv3⟩ := hv2 9 rfl
  refine ret_set fun w hw => ?_
  cases hw
  dsimp only [List.set]
  refine ret_expectKw (by simp) (.error (sat_keywordErr _ _).1 (by simp [keywordErr, N.ParseError])) fun hm => ?_
  have hv4 : ∀ q, RightPower v q → 4 ≤ q := fun q hq => below_and hm (hv1 q hq)
  have hs3 := reach_advance hs2
  refine ret_call (as := [.nat s2.lx.advance.curPos, .nat 9]) rfl fun rs s3 hc => ?_
  obtain ⟨r, y, rfl, hr', hy, hp⟩ := F.sub _ _ _ _ _ sat_nat hs3 hc
  dsimp only [storeAll, List.set]
  refine ret_err (e := y) rfl (fun hne => .error hy hne) fun hn => ?_
  obtain ⟨hr1, hr2⟩ := hp hn
  obtain ⟨hr2, hr3⟩ := hr2 9 rfl
  refine ret_ret (vs := [.mk .BetweenClause [e, b, v, .nat s2.lx.curPos, r], .nil]) rfl ?_
  have hl : leftOpen (.mk .BetweenClause [e, b, v, .nat s2.lx.curPos, r]) = if e.nonNil then some (9, e) else none := rfl
  have hro : rightOpen (.mk .BetweenClause [e, b, v, .nat s2.lx.curPos, r]) = if e.nonNil then some (9, r) else none := rfl
  refine .ok (good_mk.2 ⟨⟨fun p' l hl' => ?_, fun p' r' hr'' => ?_, fun _ _ _ _ _ h _ => ?_⟩, ?_⟩) ⟨fun q hq => ?_, fun q hq => ?_⟩
  · rw [hl] at hl'
    split at hl'
    · cases hl'; exact hr
    · cases hl'
  · rw [hro] at hr''
    split at hr''
    · cases hr''; exact hr3
    · cases hr''
  · cases h
    exact ⟨hv3, hv4⟩
  · simp [he, hb, hv, hr', good_nat]
  · cases hq with
    | here h =>
      rw [hro] at h
      split at h
      · cases h; exact hr2
      · cases h
    | down h hq =>
      rw [hro] at h
      split at h
      · cases h; exact hr1 q hq
      · cases h
  · cases hq with
    | here h =>
      rw [hl] at h
      split at h
      · cases h; exact .inl rfl
      · cases h
    | down h hq =>
      rw [hl] at h
      split at h
      · cases h; exact .inr hq
      · cases h

theorem ternary_step {e : V} {s : PS} {vs : List V} {s' : PS} (hs : Reach input s.lx) (he : Good e) (hr : ∀ q, RightPower e q → 2 ≤ q)
    (h : runFn fnTable (n + 1) .parseTernaryExpr [e] s = .ret vs s') : InfixPost e 2 vs s' := by
  refine ret_fn (fn := Body.parseTernaryExpr) (env := [e, .nil, .nil, .nil, .nil, .nil]) rfl rfl ?_ h
  clear h
  dsimp only [Body.parseTernaryExpr]
  refine ret_expectKind (by simp) (fun l => .error (sat_kindErr _ _).1 (by simp [kindErr, N.ParseError])) ?_
  have hs1 := reach_advance hs
  refine ret_call (as := [.nat s.lx.advance.curPos]) rfl fun rs s2 hc => ?_
  obtain ⟨v, x, rfl, hv, hx, -⟩ := F.expr _ _ _ _ sat_nat hs1 hc
  have hs2 := reach_runFn _ _ _ _ _ _ hs1 hc
  dsimp only [storeAll, List.set]
  refine ret_err (e := x) rfl (fun hne => .error hx hne) fun hn => ?_
  refine ret_expectKind (by simp) (fun l => .error (sat_kindErr _ _).1 (by simp [kindErr, N.ParseError])) ?_
  have hs3 := reach_advance hs2
  refine ret_call (as := [.nat s2.lx.advance.curPos]) rfl fun rs s3 hc => ?_
  obtain ⟨r, y, rfl, hr', hy, hp⟩ := F.expr _ _ _ _ sat_nat hs3 hc
  dsimp only [storeAll, List.set]
  refine ret_err (e := y) rfl (fun hne => .error hy hne) fun hn => ?_
  obtain ⟨hr1, hr2⟩ := hp hn
  obtain ⟨hr2, hr3⟩ := hr2 0 rfl
  refine ret_ret (vs := [.mk .TernaryOperation [e, v, r], .nil]) rfl ?_
  have hl : leftOpen (.mk .TernaryOperation [e, v, r]) = some (2, e) := rfl
  have hro : rightOpen (.mk .TernaryOperation [e, v, r]) = some (0, r) := rfl
  refine .ok (good_mk.2 ⟨⟨fun p' l hl' => ?_, fun p' r' hr'' => ?_, fun _ _ _ _ _ h _ => nomatch h⟩, ?_⟩) ⟨fun q hq => ?_, fun q hq => ?_⟩
  · rw [hl] at hl'; cases hl'; exact hr
  · rw [hro] at hr''; cases hr''; exact hr3
  · simp [he, hv, hr']
  · cases hq with
    | here h => rw [hro] at h; cases h; exact hr2
    | down h hq => rw [hro] at h; cases h; exact hr1 q hq
  · cases hq with
    | here h => rw [hl] at h; cases h; exact .inl rfl
    | down h hq => rw [hl] at h; cases h; exact .inr hq

omit F in
theorem good_plainErr (m : Str) : Good (plainErr m) := (sat_plainErr m).1

/-- Reading the right operand of a binary operator. -/
theorem operand {s : PS} {m : Nat} {vs : List V} {s' : PS} {a : V} (hs : Reach input s.lx) (ha : Cls.name.sat a)
    (h : runFn fnTable n .parseSubExpr [a, .nat m] s = .ret vs s') :
    ∃ r x, vs = [r, x] ∧ Good r ∧ Good x ∧ (x = .nil → RightDone r s' ∧ Below s' m ∧ ∀ q, LeftPower r q → m < q) := by
  obtain ⟨r, x, rfl, hr, hx, hp⟩ := F.sub _ _ _ _ _ ha hs h
  exact ⟨r, x, rfl, hr, hx, fun h => ⟨(hp h).1, (hp h).2 m rfl⟩⟩

omit F in
/-- The power of an operator is its level. -/
theorem tp_op {l : Lx} {p : Nat} {k : Str} (h : l.cur = none ∨ TP l p) (hk : tok l = .op k) : p = opPower k := by
  rcases h with h | h
  · rw [tok_none.2 h] at hk; cases hk
  · unfold TP at h; rw [hk] at h; exact h

omit F in
theorem tp_kw {l : Lx} {p : Nat} {w : Str} (h : l.cur = none ∨ TP l p) (hk : tok l = .kw w) : tokPower (.kw w) (tok l.advance) p := by
  rcases h with h | h
  · rw [tok_none.2 h] at hk; cases hk
  · unfold TP at h; rw [hk] at h; exact h

omit F in
theorem or_true {s : PS} {env : List V} {a b : Exp} (h : ((Exp.or a b).eval s env).bind V.toBool? = some true) :
    (a.eval s env).bind V.toBool? = some true ∨ (b.eval s env).bind V.toBool? = some true := by
  simp only [Exp.eval] at h
  cases ha : (a.eval s env).bind V.toBool? with
  | none => rw [ha] at h; simp at h
  | some x =>
    cases x
    · rw [ha] at h; exact .inr (by simpa using h)
    · exact .inl rfl

omit F in
theorem kind_true {s : PS} {env : List V} {k : Str} (h : (k != Kind.keyword.toStr && k != Kind.ident.toStr && k != Kind.eof.toStr) = true)
    (hx : ((Exp.matchKinds [.str k]).eval s env).bind V.toBool? = some true) : tok s.lx = .op k := by
  rw [ev_kind h] at hx
  simpa [V.toBool?] using hx

omit F in
theorem kw_true {s : PS} {env : List V} {k : Str} (h : upper k = k) (hx : ((Exp.matchKw (.str k)).eval s env).bind V.toBool? = some true) :
    tok s.lx = .kw k := by
  rw [ev_kw h] at hx
  simpa [V.toBool?] using hx

theorem infix_step {e : V} {p : Nat} {s : PS} {vs : List V} {s' : PS} (hi : InfixPre input e p s)
    (h : runFn fnTable (n + 1) .parseInfix [e, .nat p] s = .ret vs s') : InfixPost e p vs s' := by
  refine ret_fn (fn := Body.parseInfix) (env := [e, .nat p, .nil, .nil, .nil, .nil, .nil, .nil, .nil, .nil, .nil, .nil, .nil, .nil, .nil, .nil, .nil,
    .nil, .nil, .nil, .nil, .nil, .nil, .nil, .nil, .nil, .nil, .nil, .nil, .nil, .nil, .nil, .nil, .nil]) rfl rfl ?_ h
  clear h
  obtain ⟨hs, he, hp, hr, htp⟩ := hi
  have hs1 := reach_advance hs
  dsimp only [Body.parseInfix]
  refine ret_iteB (fun hx => ?_) (fun _ => ?_)
  · have hop : ∃ op, (∀ env, (Exp.tokText .cur).eval s env = some (.str op)) ∧ level op = p ∧ (if op = b!"->" then 0 else level op) = p := by
      repeat' (rcases or_true hx with hx | hx)
      all_goals first
        | have hy := kind_true (by decide) hx
          have hz := tp_op htp hy
          exact ⟨_, fun _ => tokText_op hs hy (by decide) (by decide) rfl, by rw [hz]; decide, by rw [hz]; decide⟩
        | have hy := kw_true (by decide) hx
          have hz := tp_kw htp hy
          exact ⟨_, fun _ => tokText_kw hy rfl, Eq.trans (by decide) hz.symm, Eq.trans (by decide) hz.symm⟩
    clear hx
    obtain ⟨op, hop, hl, hm⟩ := hop
    refine ret_set fun w hw => ?_
    rw [hop] at hw
    cases hw
    refine ret_consume (by simp) (ret_call (as := [.nat s.lx.advance.curPos, .nat p]) rfl fun rs s2 hc => ?_)
    obtain ⟨r, x, rfl, hr', hx, hp'⟩ := operand F hs1 sat_nat hc
    dsimp only [storeAll, List.set]
    refine ret_err (e := x) rfl (fun hne => .error hx hne) fun hn => ?_
    obtain ⟨hr1, hr2, hr3⟩ := hp' hn
    exact ret_ret (vs := [.mk .BinaryOperation [e, .str op, r, .bool false, .bool false], .nil]) rfl
      (binop_ok he hr' good_bool good_bool hl hm hr hr3 hr1 hr2)
  -- `->`
  refine ret_ite (ev_kind (by decide)) (fun hx => ?_) (fun _ => ?_)
  · have hp1 : p = 1 := tp_op htp (of_decide_eq_true hx)
    subst hp1
    refine ret_consume (by simp) (ret_call (as := [.nat s.lx.advance.curPos, .nat 0]) rfl fun rs s2 hc => ?_)
    obtain ⟨r, x, rfl, hr', hx, hp'⟩ := operand F hs1 sat_nat hc
    dsimp only [storeAll, List.set]
    refine ret_err (e := x) rfl (fun hne => .error hx hne) fun hn => ?_
    obtain ⟨hr1, hr2, hr3⟩ := hp' hn
    exact ret_ret (vs := [.mk .BinaryOperation [e, .str b!"->", r, .bool false, .bool false], .nil]) rfl
      (binop_ok he hr' good_bool good_bool (by decide) (by decide) hr hr3 hr1 hr2)
  -- `::`
  refine ret_ite (ev_kind (by decide)) (fun hx => ?_) (fun _ => ?_)
  · have hp1 : p = 16 := tp_op htp (of_decide_eq_true hx)
    subst hp1
    refine ret_consume (by simp) (ret_ifR (fun _ => ?_) (fun _ => ?_))
    · refine ret_call (as := []) rfl fun rs s2 hc => ?_
      obtain ⟨v, x, rfl, hv, hx⟩ := call_sat2 F (f := .parseIdent) (c := .name) (d := .plain) rfl rfl .nil hs1 hc
      have hs2 := reach_runFn _ _ _ _ _ _ hs1 hc
      dsimp only [storeAll, List.set]
      refine ret_err (e := x) rfl (fun hne => .error hx.1 hne) fun hn => ?_
      refine ret_expectKind (by simp) (fun l => .error (sat_kindErr _ _).1 (by simp [kindErr, N.ParseError])) ?_
      refine ret_call (as := [v, .nat s2.lx.advance.curPos]) rfl fun rs s3 hc => ?_
      obtain ⟨r, x, rfl, hr', hx⟩ := call_sat2 F (f := .parseNestedType) (c := .plain) (d := .plain) rfl rfl (.cons hv (.cons sat_nat .nil))
        (reach_advance hs2) hc
      dsimp only [storeAll, List.set]
      refine ret_err (e := x) rfl (fun hne => .error hx.1 hne) fun hn => ?_
      exact ret_ret (vs := [.mk .BinaryOperation [e, .str b!"::", r, .bool false, .bool false], .nil]) rfl
        (binop_ok he hr'.1 good_bool good_bool (by decide) (m := 16) (by decide) hr (fun q hq => absurd hq (noLeft (leftOpen_notOp hr'.2)))
          (fun q hq => absurd hq (noRight (rightOpen_notOp hr'.2))) (below_16 _ (by omega)))
    · refine ret_call (as := [.nat s.lx.advance.curPos, .nat 16]) rfl fun rs s2 hc => ?_
      obtain ⟨r, x, rfl, hr', hx, hp'⟩ := operand F hs1 sat_nat hc
      dsimp only [storeAll, List.set]
      refine ret_err (e := x) rfl (fun hne => .error hx hne) fun hn => ?_
      obtain ⟨hr1, hr2, hr3⟩ := hp' hn
      exact ret_ret (vs := [.mk .BinaryOperation [e, .str b!"::", r, .bool false, .bool false], .nil]) rfl
        (binop_ok he hr' good_bool good_bool (by decide) (by decide) hr hr3 hr1 hr2)
  -- `BETWEEN`
  refine ret_ite (ev_kw (by decide)) (fun hx => ?_) (fun _ => ?_)
  · have hp1 : p = 9 := tp_kw htp (of_decide_eq_true hx)
    subst hp1
    refine ret_call (as := [e, .bool false]) rfl fun rs s2 hc => ?_
    obtain ⟨r, x, rfl, h⟩ := F.between _ _ _ _ _ hs he good_bool hr hc
    exact ret_ret (vs := [r, x]) rfl ⟨r, x, rfl, h⟩
  -- `GLOBAL`
  refine ret_ite (ev_kw (by decide)) (fun hx => ?_) (fun _ => ?_)
  · have hp1 : p = 10 := by
      have : p = 0 ∨ p = 10 := tp_kw htp (of_decide_eq_true hx)
      omega
    subst hp1
    refine ret_consume (by simp) (ret_tryKws hs1 fun b l hl => ?_)
    dsimp only [List.set]
    refine ret_prim fun rs l' hr' => ?_
    have hl' := reach_prim (s := { s with lx := l }) hl hr'
    obtain ⟨y, rfl⟩ : ∃ y, rs = [y] := by
      simp only [Prim.run, Exp.eval, Option.bind_some, V.toStr?, Option.map_some, Option.some.injEq] at hr'
      split at hr' <;> cases hr' <;> exact ⟨_, rfl⟩
    dsimp only [storeAll, List.set]
    refine ret_ifR (fun _ => ?_) (fun _ => ?_)
    · exact ret_ret (vs := [.nil, plainErr _]) rfl (.error (good_plainErr _) (by simp [plainErr, N.PlainError]))
    · refine ret_call (as := [.nat l'.curPos, .nat 10]) rfl fun rs s2 hc => ?_
      obtain ⟨r, x, rfl, hr', hx, hp'⟩ := operand F hl' sat_nat hc
      dsimp only [storeAll, List.set]
      refine ret_err (e := x) rfl (fun hne => .error hx hne) fun hn => ?_
      obtain ⟨hr1, hr2, hr3⟩ := hp' hn
      exact ret_ret (vs := [.mk .BinaryOperation [e, .str b!"IN", r, .bool true, .bool b], .nil]) rfl
        (binop_ok he hr' good_bool good_bool (by decide) (by decide) hr hr3 hr1 hr2)
  -- `.`
  refine ret_ite (ev_kind (by decide)) (fun hx => ?_) (fun _ => ?_)
  · have hp1 : p = 15 := tp_op htp (of_decide_eq_true hx)
    subst hp1
    have hk : ∀ r s', Good r → InfixPost e 15 [.mk .IndexOperation [e, .str b!".", r], .nil] s' := fun r s' hg =>
      postfix_ok ⟨_, _, rfl, by decide, by simp [he, hg, good_str]⟩ rfl (by
        show (if isName e then none else some (15, e)) = some (15, e) ∨ (if isName e then none else some (15, e)) = none
        cases isName e <;> simp) hr
    refine ret_consume (by simp) (ret_set fun w hw => ?_)
    cases hw
    refine ret_set fun w hw => ?_
    cases hw
    dsimp only [List.set]
    refine ret_iteS (x := s.lx.advance.matchKinds [b!"<ident>", b!"<keyword>"]) rfl (fun _ => ?_) (fun _ => ?_)
    · refine ret_call (as := []) rfl fun rs s2 hc => ?_
      obtain ⟨r, x, rfl, hr', hx⟩ := call_sat2 F (f := .parseAnyKeyword) (c := .name) (d := .plain) rfl rfl .nil hs1 hc
      dsimp only [storeAll, List.set]
      refine ret_err (e := x) rfl (fun hne => .error hx.1 hne) fun hn => ?_
      exact ret_ret (vs := [.mk .IndexOperation [e, .str b!".", r], .nil]) rfl (hk r _ hr'.1)
    · refine ret_call (as := [.nat s.lx.advance.curPos]) rfl fun rs s2 hc => ?_
      obtain ⟨r, x, rfl, hr', hx⟩ := call_sat2 F (f := .parseDecimal) (c := .plain) (d := .plain) rfl rfl (.cons sat_nat .nil) hs1 hc
      dsimp only [storeAll, List.set]
      refine ret_err (e := x) rfl (fun hne => .error hx.1 hne) fun hn => ?_
      exact ret_ret (vs := [.mk .IndexOperation [e, .str b!".", r], .nil]) rfl (hk r _ hr'.1)
  -- `NOT`
  refine ret_ite (ev_kw (by decide)) (fun hx => ?_) (fun _ => ?_)
  · have hp1 : p = notPower (tok s.lx.advance) := tp_kw htp (of_decide_eq_true hx)
    refine ret_consume (by simp) (ret_ifR (fun hx => ?_) (fun _ => ?_))
    · have hp2 : p = 9 := by rw [hp1, kw_true (by decide) hx]; decide
      clear hp1
      subst hp2
      refine ret_call (as := [e, .bool true]) rfl fun rs s2 hc => ?_
      obtain ⟨r, x, rfl, h⟩ := F.between _ _ _ _ _ hs1 he good_bool hr hc
      exact ret_ret (vs := [r, x]) rfl ⟨r, x, rfl, h⟩
    · refine ret_guard (ev_kw (by decide)) (ev_kw (by decide)) (ev_kw (by decide)) (fun hx => ?_) (fun vs hvs => ?_)
      · obtain ⟨op, hop, hl, hm⟩ : ∃ op, tok s.lx.advance = .kw op ∧ level (b!"NOT " ++ op) = p ∧
            (if b!"NOT " ++ op = b!"->" then 0 else level (b!"NOT " ++ op)) = p := by
          simp only [decide_eq_true_eq] at hx
          rcases hx with hx | hx | hx <;>
            exact ⟨_, hx, by rw [hp1, hx]; decide, by rw [hp1, hx]; decide⟩
        clear hp1
        refine ret_set fun w hw => ?_
        rw [tokText_kw hop rfl] at hw
        cases hw
        dsimp only [List.set]
        refine ret_consume (by simp) (ret_call (as := [.nat s.lx.advance.advance.curPos, .nat p]) rfl fun rs s2 hc => ?_)
        obtain ⟨r, x, rfl, hr', hx, hp'⟩ := operand F (reach_advance hs1) sat_nat hc
        dsimp only [storeAll, List.set]
        refine ret_err (e := x) rfl (fun hne => .error hx hne) fun hn => ?_
        obtain ⟨hr1, hr2, hr3⟩ := hp' hn
        exact ret_ret (vs := [.mk .BinaryOperation [e, .str (b!"NOT " ++ op), r, .bool false, .bool false], .nil]) rfl
          (binop_ok he hr' good_bool good_bool hl hm hr hr3 hr1 hr2)
      · cases hvs
        exact .error (good_plainErr _) (by simp [plainErr, N.PlainError])
  -- `[`
  refine ret_ite (ev_kind (by decide)) (fun hx => ?_) (fun _ => ?_)
  · have hp1 : p = 14 := tp_op htp (of_decide_eq_true hx)
    subst hp1
    refine ret_call (as := [.nat s.lx.curPos]) rfl fun rs s2 hc => ?_
    obtain ⟨r, x, rfl, hr', hx⟩ := call_sat2 F (f := .parseArrayParams) (c := .plain) (d := .any) rfl rfl (.cons sat_nat .nil) hs hc
    dsimp only [storeAll, List.set]
    refine ret_err (e := x) rfl (fun hne => .error hx.1 hne) fun hn => ?_
    refine ret_ret (vs := [.mk .ObjectParams [e, r], .nil]) rfl (postfix_ok ⟨_, _, rfl, by decide, by simp [he, hr'.1]⟩ rfl ?_ hr)
    show (if isName e then none else some (14, e)) = some (14, e) ∨ (if isName e then none else some (14, e)) = none
    cases isName e <;> simp
  -- `?`
  refine ret_ite (ev_kind (by decide)) (fun hx => ?_) (fun _ => ?_)
  · have hp1 : p = 2 := tp_op htp (of_decide_eq_true hx)
    subst hp1
    refine ret_call (as := [e]) rfl fun rs s2 hc => ?_
    obtain ⟨r, x, rfl, h⟩ := F.ternary _ _ _ _ hs he hr hc
    exact ret_ret (vs := [r, x]) rfl ⟨r, x, rfl, h⟩
  -- `IS`
  refine ret_ite (ev_kw (by decide)) (fun hx => ?_) (fun _ => ?_)
  · have hp1 : p = 7 := tp_kw htp (of_decide_eq_true hx)
    subst hp1
    refine ret_set fun w hw => ?_
    cases hw
    refine ret_consume (by simp) (ret_tryKws hs1 fun b l hl => ?_)
    refine ret_set fun w hw => ?_
    cases hw
    dsimp only [List.set]
    refine ret_expectKw (by simp) (.error (sat_keywordErr _ _).1 (by simp [keywordErr, N.ParseError])) fun hm => ?_
    dsimp only [List.set]
    refine ret_ifR (fun _ => ?_) (fun _ => ?_)
    · exact ret_ret (vs := [.mk .IsNotNullExpr [.nat s.lx.curPos, .nat l.curEnd, e], .nil]) rfl
        (postfix_ok ⟨_, _, rfl, by decide, by simp [he, good_nat]⟩ rfl (.inl rfl) hr)
    · exact ret_ret (vs := [.mk .IsNullExpr [.nat s.lx.curPos, .nat l.curEnd, e], .nil]) rfl
        (postfix_ok ⟨_, _, rfl, by decide, by simp [he, good_nat]⟩ rfl (.inl rfl) hr)
  exact ret_ret (vs := [.nil, plainErr _]) rfl (.error (good_plainErr _) (by simp [plainErr, N.PlainError]))

end

end Verif.Group

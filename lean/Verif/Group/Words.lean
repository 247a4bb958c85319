/-
The methods that read operands separated by words inside a call, and the arguments of table functions.
-/
import Verif.Group.Infix

namespace Verif.Group
open Verif.Spec

/-- `peekTokenKind` restores the lexer unless the next token is malformed. -/
theorem peekTokenKind_state {n : Nat} {a : V} {s : PS} {vs : List V} {s' : PS} (h : runFn fnTable n .peekTokenKind [a] s = .ret vs s') :
    s'.lx.cur = none ∨ s' = s := by
  cases n with
  | zero => simp [runFn] at h
  | succ n =>
    refine ret_fn (R := fun _ s' => s'.lx.cur = none ∨ s' = s) (fn := Body.peekTokenKind) (env := [a, .nil, .nil]) rfl rfl ?_ h
    clear h
    dsimp only [Body.peekTokenKind]
    refine ret_ifR (fun _ => ret_ret' fun _ _ => .inr rfl) fun _ => ret_prim fun rs l hp => ?_
    simp only [Prim.run, Lx.peek, Option.some.injEq] at hp
    have hl : l.cur = none ∨ l = s.lx := by
      cases hc : s.lx.consume with
      | err l' => simp only [hc, Prod.mk.injEq] at hp; exact .inl (hp.2 ▸ (consume_err_shape hc).1)
      | ok l' => simp only [hc, Prod.mk.injEq] at hp; exact .inr hp.2.symm
    have hl' : l.cur = none ∨ ({ s with lx := l } : PS) = s := by
      rcases hl with h | rfl
      · exact .inl h
      · exact .inr rfl
    exact ret_ifR (fun _ => ret_ret' fun _ _ => hl') fun _ => ret_ret' fun _ _ => hl'

theorem and_true {s : PS} {env : List V} {a b : Exp} (h : ((Exp.and a b).eval s env).bind V.toBool? = some true) :
    (a.eval s env).bind V.toBool? = some true ∧ (b.eval s env).bind V.toBool? = some true := by
  simp only [Exp.eval] at h
  cases ha : (a.eval s env).bind V.toBool? with
  | none => rw [ha] at h; simp at h
  | some x =>
    cases x
    · rw [ha] at h; simp [V.toBool?] at h
    · rw [ha] at h; exact ⟨rfl, by simpa using h⟩

theorem or_false {s : PS} {env : List V} {a b : Exp} (h : ((Exp.or a b).eval s env).bind V.toBool? = some false) :
    (a.eval s env).bind V.toBool? = some false ∧ (b.eval s env).bind V.toBool? = some false := by
  simp only [Exp.eval] at h
  cases ha : (a.eval s env).bind V.toBool? with
  | none => rw [ha] at h; simp at h
  | some x =>
    cases x
    · rw [ha] at h; exact ⟨rfl, by simpa using h⟩
    · rw [ha] at h; simp [V.toBool?] at h

theorem not_false {s : PS} {env : List V} {a : Exp} (h : ((Exp.not a).eval s env).bind V.toBool? = some false) :
    (a.eval s env).bind V.toBool? = some true := by
  simp only [Exp.eval] at h
  cases ha : (a.eval s env).bind V.toBool? with
  | none => rw [ha] at h; simp at h
  | some x => rw [ha] at h; simpa [V.toBool?] using h

theorem mapM_mem {l : List V} {ks : List Str} (h : l.mapM V.toStr? = some ks) {k : Str} (hk : k ∈ ks) : V.str k ∈ l := by
  induction l generalizing ks with
  | nil => simp at h; subst h; simp at hk
  | cons v l ih =>
    simp only [List.mapM_cons, Option.pure_def, Option.bind_eq_bind, Option.bind_eq_some_iff, Option.some.injEq] at h
    obtain ⟨x, hx, xs, hxs, rfl⟩ := h
    rcases List.mem_cons.1 hk with rfl | hk
    · cases v <;> simp [V.toStr?] at hx
      subst hx; simp
    · exact List.mem_cons_of_mem _ (ih hxs hk)

/-- The words have no lower case letters. -/
theorem words_upper : ∀ k ∈ modWords ++ sepWords, upper k = k := by decide

theorem words_level : ∀ k ∈ sepWords, level k = 0 ∧ k ≠ b!"->" := by decide

theorem words_prefix : ∀ k ∈ modWords, prefixPower k = 0 := by decide

section
variable {input : Str} {n : Nat} (F : Facts input n)
include F

/-- The three results of `parseKeywordArgItem` and `parseKeywordArgModifier`. -/
def KwPost (vs : List V) (_ : PS) : Prop := List.Forall₂ Cls.sat [.any, .name, .any] vs

omit F in
theorem KwPost.mk {a b c : V} {s : PS} (h1 : Good a) (h2 : Cls.name.sat b) (h3 : Good c) : KwPost [a, b, c] s :=
  .cons ⟨h1, trivial⟩ (.cons h2 (.cons ⟨h3, trivial⟩ .nil))

theorem tableArg_step {a : V} {s : PS} {vs : List V} {s' : PS} (ha : Cls.name.sat a) (hs : Reach input s.lx)
    (h : runFn fnTable (n + 1) .parseTableArgExpr [a] s = .ret vs s') : List.Forall₂ Cls.sat [.any, .any] vs := by
  refine ret_fn (R := fun vs _ => List.Forall₂ Cls.sat [.any, .any] vs) (fn := Body.parseTableArgExpr) (env := [a, .nil, .nil, .nil, .nil]) rfl rfl ?_ h
  clear h
  dsimp only [Body.parseTableArgExpr]
  refine ret_call (as := [a]) rfl fun rs s1 hc => ?_
  obtain ⟨v, x, rfl, hv, hx⟩ := call_sat2 F (f := .parseTableArgPrimaryExpr) (c := .plain) (d := .any) rfl rfl (.cons ha .nil) hs hc
  have hs1 := reach_runFn _ _ _ _ _ _ hs hc
  dsimp only [storeAll, List.set]
  refine ret_err (e := x) rfl (fun hne => .cons ⟨good_nil, trivial⟩ (.cons hx .nil)) fun hn => ?_
  refine ret_call (as := [v, .nat 0]) rfl fun rs s2 hc => ?_
  have hl := leftOpen_notOp hv.2
  have hro := rightOpen_notOp hv.2
  obtain ⟨w, y, rfl, hw, hy, -⟩ := F.loop v (.nat 0) s1 rs s2 hs1 hv.1 (fun q hq => absurd hq (noRight hro)) (fun _ _ q hq => absurd hq (noLeft hl)) hc
  exact ret_ret (vs := [w, y]) rfl (.cons ⟨hw, trivial⟩ (.cons ⟨hy, trivial⟩ .nil))

theorem kwModifier_step {f a : V} {s : PS} {vs : List V} {s' : PS} (hf : Cls.form.sat f) (hs : Reach input s.lx)
    (h : runFn fnTable (n + 1) .parseKeywordArgModifier [f, a] s = .ret vs s') : KwPost vs s' := by
  refine ret_fn (fn := Body.parseKeywordArgModifier) (env := [f, a, .nil, .nil, .nil, .nil, .nil, .nil, .nil, .nil, .nil, .nil, .nil, .nil]) rfl rfl ?_ h
  clear h
  obtain ⟨hfg, ms, b1, ss, d1, e1, f1, rfl, hms, hss⟩ := hf
  dsimp only [Body.parseKeywordArgModifier]
  refine ret_ifR (fun _ => ?_) (fun hx => ?_)
  · refine ret_call (as := [.nat s.lx.curPos]) rfl fun rs s1 hc => ?_
    obtain ⟨v, x, rfl, hv, hx, -⟩ := F.expr _ _ _ _ sat_nat hs hc
    exact ret_ret (vs := [v, .bool false, x]) rfl (KwPost.mk hv sat_bool hx)
  · have hx := not_false (or_false hx).2
    obtain ⟨k, hk, hkm⟩ : ∃ k ∈ modWords, tok s.lx = .kw k := by
      simp only [Exp.eval, List.getElem?_cons_zero, Option.bind_some, V.field, V.strs?] at hx
      cases hm : ms.items.mapM V.toStr? with
      | none => rw [hm] at hx; simp at hx
      | some ks =>
        rw [hm] at hx
        simp only [Option.map_some, Option.bind_some, V.toBool?, Option.some.injEq, Lx.matchOneOf, List.any_eq_true] at hx
        obtain ⟨k, hk, hkm⟩ := hx
        have hk' := hms k (mapM_mem hm hk)
        rw [tok_matchKw] at hkm
        have := of_decide_eq_true hkm
        rw [words_upper k (by simp [hk'])] at this
        exact ⟨k, hk', this⟩
    -- the token is still there after the lookahead
    have tail : ∀ (s1 : PS) (env : List V), Reach input s1.lx → s1.lx.cur = none ∨ s1 = s →
        (∃ a4 a5 a6, env = [.mk .KeywordArgForm [ms, b1, ss, d1, e1, f1], a, .nil, .nil, a4, a5, a6, .nil, .nil, .nil, .nil, .nil, .nil, .nil]) →
        Ret ((Stmt.ite 30943 (.var 4)
          (.call 30944 .parseExpr [.pos] [7, 8] ;;
          .ret 30945 [(.var 7), (.bool false), (.var 8)])
          .skip ;;
        .set 30948 9 .pos ;;
        .set 30949 10 (.tokText .cur) ;;
        .prim 30950 .consume [11] ;;
        .ite 30950 (.not (.isNil (.var 11)))
          (.ret 30951 [.nil, (.bool false), (.var 11)])
          .skip ;;
        .call 30954 .parseExpr [.pos] [12, 13] ;;
        .ite 30955 (.not (.isNil (.var 13)))
          (.ret 30956 [.nil, (.bool false), (.var 13)])
          .skip ;;
        .ret 30959 [(.mk .UnaryExpr [(.var 9), (.var 10), (.var 12)]), (.bool true), .nil]).run (runFn fnTable n) n ⟨env, s.lx⟩ s1) KwPost := by
      rintro s1 env hs1 hor ⟨a4, a5, a6, rfl⟩
      refine ret_ifR (fun _ => ?_) (fun _ => ?_)
      · refine ret_call (as := [.nat s1.lx.curPos]) rfl fun rs s2 hc => ?_
        obtain ⟨v, x, rfl, hv, hx, -⟩ := F.expr _ _ _ _ sat_nat hs1 hc
        exact ret_ret (vs := [v, .bool false, x]) rfl (KwPost.mk hv sat_bool hx)
      · refine ret_set fun w hw => ?_
        cases hw
        refine ret_set fun w hw => ?_
        rcases hor with hor | rfl
        · simp [Exp.eval, hor, tokV, V.field] at hw
        · rw [tokText_kw hkm rfl] at hw
          cases hw
          dsimp only [List.set]
          refine ret_prim fun rs l hr => ?_
          have hl := reach_prim hs1 hr
          obtain ⟨y, rfl, hy⟩ : ∃ y, rs = [y] ∧ Good y := by
            simp only [Prim.run, Option.some.injEq] at hr
            split at hr <;> cases hr
            · exact ⟨_, rfl, good_nil⟩
            · exact ⟨_, rfl, good_plainErr _⟩
          dsimp only [storeAll, List.set]
          refine ret_ifR (fun _ => ret_ret (vs := [.nil, .bool false, y]) rfl (KwPost.mk good_nil sat_bool hy)) (fun _ => ?_)
          refine ret_call (as := [.nat l.curPos]) rfl fun rs s2 hc => ?_
          obtain ⟨v, x, rfl, hv, hx, hp⟩ := F.expr _ _ _ _ sat_nat hl hc
          dsimp only [storeAll, List.set]
          refine ret_errE (e := x) rfl (fun us hus => ?_) (fun hn => ?_)
          · cases hus
            exact KwPost.mk good_nil sat_bool hx
          · refine ret_ret (vs := [.mk .UnaryExpr [.nat s1.lx.curPos, .str k, v], .bool true, .nil]) rfl (KwPost.mk ?_ sat_bool good_nil)
            have hro : rightOpen (.mk .UnaryExpr [.nat s1.lx.curPos, .str k, v]) = some (prefixPower k, v) := rfl
            have hlo : leftOpen (.mk .UnaryExpr [.nat s1.lx.curPos, .str k, v]) = none := rfl
            refine good_mk.2 ⟨⟨fun p l h => (nomatch hlo.symm.trans h), fun p r' h => ?_, fun e n b p a h => nomatch h⟩, ?_⟩
            · rw [hro, words_prefix k hk] at h; cases h; exact ((hp hn).2 0 rfl).2
            · simp [hv, good_str, good_nat]
    refine ret_call (as := [.str b!","]) rfl fun rs s1 hc => ?_
    have hs1 := reach_runFn _ _ _ _ _ _ hs hc
    have hst := peekTokenKind_state hc
    have hr1 := call_sat F (f := .peekTokenKind) rfl (.cons sat_str .nil) hs hc
    obtain ⟨c, rfl⟩ : ∃ c, rs = [c] := by
      cases hr1 with | cons h1 h2 =>
      cases h2
      exact ⟨_, rfl⟩
    refine ret_set fun w hw => ?_
    dsimp only [storeAll, List.set]
    refine ret_iteU (ret_skip (tail s1 _ hs1 hst ⟨_, _, _, rfl⟩)) (ret_assoc ?_)
    refine ret_call (as := [.str b!")"]) rfl fun rs s2 hc => ?_
    have hs2 := reach_runFn _ _ _ _ _ _ hs1 hc
    have hst2 := peekTokenKind_state hc
    have hr1 := call_sat F (f := .peekTokenKind) rfl (.cons sat_str .nil) hs1 hc
    obtain ⟨c, rfl⟩ : ∃ c, rs = [c] := by
      cases hr1 with | cons h1 h2 =>
      cases h2
      exact ⟨_, rfl⟩
    refine ret_set fun w' hw' => ?_
    refine tail s2 _ hs2 ?_ ⟨_, _, _, rfl⟩
    rcases hst2 with h | rfl
    · exact .inl h
    · exact hst

theorem kwItem_step {f a b : V} {s : PS} {vs : List V} {s' : PS} (hf : Cls.form.sat f) (ha : Cls.name.sat a) (hs : Reach input s.lx)
    (h : runFn fnTable (n + 1) .parseKeywordArgItem [f, a, b] s = .ret vs s') : KwPost vs s' := by
  refine ret_fn (fn := Body.parseKeywordArgItem) (env := [f, a, b, .nil, .nil, .nil, .nil, .nil, .nil, .nil, .nil]) rfl rfl ?_ h
  clear h
  dsimp only [Body.parseKeywordArgItem]
  refine ret_call (as := [f, a]) rfl fun rs s1 hc => ?_
  have hs1 := reach_runFn _ _ _ _ _ _ hs hc
  have hr1 := call_sat F (f := .parseKeywordArgModifier) rfl (.cons hf (.cons ha .nil)) hs hc
  obtain ⟨v, m, x, rfl, hv, hx⟩ : ∃ v m x, rs = [v, m, x] ∧ Good v ∧ Good x := by
    cases hr1 with | cons h1 h2 =>
    cases h2 with | cons h2 h3 =>
    cases h3 with | cons h3 h4 =>
    cases h4
    exact ⟨_, _, _, rfl, h1.1, h3.1⟩
  dsimp only [storeAll, List.set]
  refine ret_errE (e := x) rfl (fun us hus => ?_) (fun hn => ?_)
  · cases hus
    exact KwPost.mk good_nil sat_nat hx
  refine ret_set fun w hw => ?_
  cases hw
  dsimp only [List.set]
  refine ret_loop (fun fr s => ∃ v c x7 x8 x9 x10, fr.env = [f, a, b, v, m, x, .nat c, x7, x8, x9, x10] ∧ Reach input s.lx ∧ Good v) ?_
    ⟨v, 0, _, _, _, _, rfl, hs1, hv⟩
  obtain ⟨hfg, ms, b1, ss, d1, e1, f1, rfl, hms, hss⟩ := hf
  clear hc hr1 hv hs1 hs
  rintro ⟨env, sv⟩ s ⟨v, c, x7, x8, x9, x10, rfl, hs, hv⟩
  refine ens_seq (ens_iteB (fun hx => ens_skip ?_) (fun _ => ens_brk ?_))
  · have hx := (and_true hx).2
    obtain ⟨k, hk, hkm⟩ : ∃ k ∈ sepWords, tok s.lx = .kw k := by
      have he : ∀ {s : PS} {env : List V} {e : Exp}, ((Exp.matchKw e).eval s env).bind V.toBool? = some true →
          ∃ k, e.eval s env = some (.str k) ∧ s.lx.matchKw k = true := by
        intro s env e h
        simp only [Exp.eval] at h
        cases he : e.eval s env with
        | none => rw [he] at h; simp at h
        | some v =>
          rw [he] at h
          cases v with
          | str k => exact ⟨k, rfl, by simpa [V.toStr?, V.toBool?] using h⟩
          | _ => simp [V.toStr?] at h
      obtain ⟨k, hk, hkm⟩ := he hx
      have hmem : V.str k ∈ ss.items := by
        simp only [Exp.eval, List.getElem?_cons_zero, Option.bind_some, V.field, List.getElem?_cons_succ] at hk
        rw [Option.bind_eq_some_iff] at hk
        obtain ⟨i, -, hi⟩ := hk
        exact List.mem_of_getElem? hi
      rw [tok_matchKw] at hkm
      have := of_decide_eq_true hkm
      rw [words_upper k (by simp [hss k hmem])] at this
      exact ⟨k, hss k hmem, this⟩
    refine ret_set fun w hw => ?_
    rw [tokText_kw hkm rfl] at hw
    cases hw
    dsimp only [List.set]
    refine ret_prim fun rs l hr => ?_
    have hl := reach_prim hs hr
    obtain ⟨y, rfl, hy⟩ : ∃ y, rs = [y] ∧ Good y := by
      simp only [Prim.run, Option.some.injEq] at hr
      split at hr <;> cases hr
      · exact ⟨_, rfl, good_nil⟩
      · exact ⟨_, rfl, good_plainErr _⟩
    dsimp only [storeAll, List.set]
    refine ret_errE (e := y) rfl (fun us hus => ?_) (fun hn => ?_)
    · cases hus
      exact KwPost.mk good_nil sat_nat hy
    refine ret_call (as := [.nat l.curPos]) rfl fun rs s2 hc => ?_
    have hs2 := reach_runFn _ _ _ _ _ _ hl hc
    obtain ⟨r, z, rfl, hr', hz, hp⟩ := F.expr _ _ _ _ sat_nat hl hc
    dsimp only [storeAll, List.set]
    refine ret_errE (e := z) rfl (fun us hus => ?_) (fun hn => ?_)
    · cases hus
      exact KwPost.mk good_nil sat_nat hz
    refine ret_set fun w hw => ?_
    cases hw
    refine ens_set fun w hw => ?_
    cases hw
    dsimp only [List.set]
    refine ⟨_, c + 1, _, _, _, _, rfl, hs2, ?_⟩
    have hlo : leftOpen (.mk .BinaryOperation [v, .str k, r, .bool false, .bool false]) = some (level k, v) := rfl
    have hro : rightOpen (.mk .BinaryOperation [v, .str k, r, .bool false, .bool false]) = some (if k = b!"->" then 0 else level k, r) := rfl
    rw [(words_level k hk).1] at hlo hro
    rw [ite_self] at hro
    refine good_mk.2 ⟨⟨fun p' l hl' => ?_, fun p' r' hr' => ?_, fun _ _ _ _ _ h => nomatch h⟩, ?_⟩
    · rw [hlo] at hl'; cases hl'; exact fun _ _ => Nat.zero_le _
    · rw [hro] at hr'; cases hr'; exact ((hp hn).2 0 rfl).2
    · simp [hv, hr', good_str, good_bool]
  · refine ret_ifR (fun _ => ret_ret (vs := [v, .nat 0, .nil]) rfl (KwPost.mk hv sat_nat good_nil)) fun _ => ?_
    have herr : ∀ {m : Str} {es : List Exp} {vs : List V} {s : PS} {env : List V}, Exp.evalL s env [.nil, .nat 0, .error m es] = some vs → KwPost vs s := by
      intro m es vs s env h
      simp only [Exp.evalL, Exp.eval, Option.bind_some] at h
      cases he : Exp.evalL s env es with
      | none => rw [he] at h; simp at h
      | some us =>
        rw [he] at h
        simp only [Option.map_some, Option.bind_some, Option.some.injEq] at h
        subst h
        exact KwPost.mk good_nil sat_nat (good_plainErr _)
    refine ret_ifR (fun _ => ret_ret' fun vs hvs => herr hvs) fun _ => ?_
    refine ret_ifR (fun _ => ret_ret' fun vs hvs => herr hvs) fun _ => ?_
    exact ret_ret (vs := [v, .nat c, .nil]) rfl (KwPost.mk hv sat_nat good_nil)

end

end Verif.Group

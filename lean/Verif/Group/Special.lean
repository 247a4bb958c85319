/-
The methods that read operators.
-/
import Verif.Group.Sig
import Verif.Group.Sound
import Verif.Group.Next

namespace Verif.Group
open Verif.Spec

/-! ### Rules -/

/-- The statement ends normally or by `continue` with `I`, by `break` with `B`, or returns values with the property `R`. -/
def RetL (o : Out) (I B : Frame → PS → Prop) (R : List V → PS → Prop) : Prop := o.Ens ⟨I, B, I, R⟩

/-- The statement returns values with the property `R`. -/
abbrev Ret (o : Out) (R : List V → PS → Prop) : Prop := RetL o (fun _ s => R [] s) (fun _ s => R [] s) R

section
variable {n : Nat} {env : List V} {sv : Lx} {s : PS} {R : List V → PS → Prop} {call : Fn → List V → PS → COut} {k : Stmt Fn} {I B : Frame → PS → Prop}

theorem ret_fn {f : Fn} {fn : Func Fn} {args env : List V} {vs : List V} {s' : PS} {R : List V → PS → Prop} (hb : fnTable f = fn)
    (he : args ++ List.replicate (fn.locals - args.length) V.nil = env)
    (h : Ret (fn.body.run (runFn fnTable n) n ⟨env, s.lx⟩ s) R)
    (hr : runFn fnTable (n + 1) f args s = .ret vs s') : R vs s' := by
  refine ens_runFn (n := n) ?_ hr
  rw [hb, he]
  exact h

theorem ret_ret {ln : Nat} {es : List Exp} {vs : List V} (he : Exp.evalL s env es = some vs) (h : R vs s) :
    RetL ((Stmt.ret (Fn := Fn) ln es).run call n ⟨env, sv⟩ s) I B R :=
  ens_ret fun ws hw => by rw [he] at hw; cases hw; exact h

theorem ret_ret' {ln : Nat} {es : List Exp} (h : ∀ vs, Exp.evalL s env es = some vs → R vs s) :
    RetL ((Stmt.ret (Fn := Fn) ln es).run call n ⟨env, sv⟩ s) I B R :=
  ens_ret fun ws hw => h ws hw

theorem ret_set {ln x : Nat} {e : Exp} (h : ∀ v, e.eval s env = some v → RetL (k.run call n ⟨env.set x v, sv⟩ s) I B R) :
    RetL ((.set ln x e ;; k).run call n ⟨env, sv⟩ s) I B R :=
  ens_seq (ens_set fun v hv => h v hv)

theorem ret_call {ln : Nat} {f : Fn} {es : List Exp} {dst : List Nat} {as : List V} (he : Exp.evalL s env es = some as)
    (h : ∀ rs s', call f as s = .ret rs s' → RetL (k.run call n ⟨storeAll env dst rs, sv⟩ s') I B R) :
    RetL ((.call ln f es dst ;; k).run call n ⟨env, sv⟩ s) I B R :=
  ens_seq (ens_call fun vs rs s' hv hr => by rw [he] at hv; cases hv; exact h rs s' hr)

theorem ret_prim {ln : Nat} {q : Prim} {dst : List Nat}
    (h : ∀ rs l, q.run s env = some (rs, l) → RetL (k.run call n ⟨storeAll env dst rs, sv⟩ { s with lx := l }) I B R) :
    RetL ((.prim ln q dst ;; k).run call n ⟨env, sv⟩ s) I B R :=
  ens_seq (ens_prim fun rs l hr => h rs l hr)

theorem ret_consume {ln : Nat} (hl : env.length ≤ 9999) (h : RetL (k.run call n ⟨env, sv⟩ { s with lx := s.lx.advance }) I B R) :
    RetL ((.prim ln .consume [9999] ;; k).run call n ⟨env, sv⟩ s) I B R :=
  ret_prim fun rs l hr => by
    simp only [Prim.run, Option.some.injEq] at hr
    simp only [Lx.advance] at h
    cases hc : s.lx.consume with
    | ok l' => simp only [hc, Prod.mk.injEq] at hr h; obtain ⟨rfl, rfl⟩ := hr; simpa [storeAll, List.set_eq_of_length_le hl] using h
    | err l' => simp only [hc, Prod.mk.injEq] at hr h; obtain ⟨rfl, rfl⟩ := hr; simpa [storeAll, List.set_eq_of_length_le hl] using h

theorem ret_ite {ln : Nat} {c : Exp} {a b : Stmt Fn} {x : Bool} (hc : c.eval s env = some (.bool x))
    (ht : x = true → RetL (a.run call n ⟨env, sv⟩ s) I B R) (hf : x = false → RetL (b.run call n ⟨env, sv⟩ s) I B R) :
    RetL ((Stmt.ite ln c a b).run call n ⟨env, sv⟩ s) I B R := ens_iteV hc ht hf

theorem ret_iteB {ln : Nat} {c : Exp} {a b : Stmt Fn}
    (ht : (c.eval s env).bind V.toBool? = some true → RetL (a.run call n ⟨env, sv⟩ s) I B R)
    (hf : (c.eval s env).bind V.toBool? = some false → RetL (b.run call n ⟨env, sv⟩ s) I B R) :
    RetL ((Stmt.ite ln c a b).run call n ⟨env, sv⟩ s) I B R := ens_iteB ht hf

/-- `if ... { return ... }` -/
theorem ret_if {ln : Nat} {c : Exp} {a : Stmt Fn} (ht : (c.eval s env).bind V.toBool? = some true → ∀ k', RetL ((a ;; k').run call n ⟨env, sv⟩ s) I B R)
    (hf : (c.eval s env).bind V.toBool? = some false → RetL (k.run call n ⟨env, sv⟩ s) I B R) :
    RetL ((.ite ln c a .skip ;; k).run call n ⟨env, sv⟩ s) I B R :=
  ens_seq (ens_iteB (fun h => by
    have := ht h k
    unfold RetL at this
    rw [run_seq] at this
    revert this
    cases a.run call n ⟨env, sv⟩ s <;> exact id) (fun h => ens_skip (hf h)))

theorem ret_assoc {a b : Stmt Fn} (h : RetL ((a ;; (b ;; k)).run call n ⟨env, sv⟩ s) I B R) : RetL (((a ;; b) ;; k).run call n ⟨env, sv⟩ s) I B R := by
  unfold RetL at h ⊢
  rw [run_seq] at h ⊢
  rw [run_seq]
  cases ha : a.run call n ⟨env, sv⟩ s with
  | next f s1 =>
    rw [ha] at h
    dsimp only [Out.andThen] at h ⊢
    rwa [run_seq] at h
  | _ => rw [ha] at h; exact h

/-- A branch that does not return. -/
theorem ret_iteS {ln : Nat} {c : Exp} {a b : Stmt Fn} {x : Bool} (hc : c.eval s env = some (.bool x))
    (ht : x = true → RetL ((a ;; k).run call n ⟨env, sv⟩ s) I B R) (hf : x = false → RetL ((b ;; k).run call n ⟨env, sv⟩ s) I B R) :
    RetL ((.ite ln c a b ;; k).run call n ⟨env, sv⟩ s) I B R := by
  refine ens_seq (ens_iteV hc (fun h => ?_) (fun h => ?_))
  · have := ht h
    unfold RetL at this
    rw [run_seq] at this
    revert this
    cases a.run call n ⟨env, sv⟩ s <;> exact id
  · have := hf h
    unfold RetL at this
    rw [run_seq] at this
    revert this
    cases b.run call n ⟨env, sv⟩ s <;> exact id

/-- A branch whose condition does not matter. -/
theorem ret_iteU {ln : Nat} {c : Exp} {a b : Stmt Fn} (ht : RetL ((a ;; k).run call n ⟨env, sv⟩ s) I B R) (hf : RetL ((b ;; k).run call n ⟨env, sv⟩ s) I B R) :
    RetL ((.ite ln c a b ;; k).run call n ⟨env, sv⟩ s) I B R := by
  refine ens_seq (ens_iteB (fun h => ?_) (fun h => ?_))
  · unfold RetL at ht
    rw [run_seq] at ht
    revert ht
    cases a.run call n ⟨env, sv⟩ s <;> exact id
  · unfold RetL at hf
    rw [run_seq] at hf
    revert hf
    cases b.run call n ⟨env, sv⟩ s <;> exact id

theorem ret_skip (h : RetL (k.run call n ⟨env, sv⟩ s) I B R) : RetL ((.skip ;; k).run call n ⟨env, sv⟩ s) I B R := ens_seq (ens_skip h)

/-- `if err != nil { return ... }` -/
theorem ret_errE {ln ln' j : Nat} {e : V} {es : List Exp} (he : env[j]? = some e) (h1 : ∀ vs, Exp.evalL s env es = some vs → R vs s)
    (h2 : e = .nil → RetL (k.run call n ⟨env, sv⟩ s) I B R) :
    RetL ((.ite ln (.not (.isNil (.var j))) (.ret ln' es) .skip ;; k).run call n ⟨env, sv⟩ s) I B R := by
  refine ens_seq (ens_iteV (x := e.nonNil) ?_ (fun hx => ens_ret h1) (fun hx => ens_skip (h2 ?_)))
  · simp only [Exp.eval, he, Option.map_some, Option.bind_some, V.toBool?, Bool.not_not]
  · cases e <;> simp [V.nonNil] at hx ⊢

/-- A branch that returns. -/
theorem ret_ifR {ln : Nat} {c : Exp} {a : Stmt Fn}
    (ht : (c.eval s env).bind V.toBool? = some true → RetL (a.run call n ⟨env, sv⟩ s) (fun _ _ => False) (fun _ _ => False) R)
    (hf : (c.eval s env).bind V.toBool? = some false → RetL (k.run call n ⟨env, sv⟩ s) I B R) :
    RetL ((.ite ln c a .skip ;; k).run call n ⟨env, sv⟩ s) I B R :=
  ens_seq (ens_iteB (fun h => (ht h).mono (fun _ _ h => h.elim) (fun _ _ h => h.elim) (fun _ _ h => h.elim) (fun _ _ h => h)) (fun h => ens_skip (hf h)))

/-- `switch { case a: case b: case c: default: return ... }` -/
theorem ret_guard {l1 l2 l3 l4 : Nat} {c1 c2 c3 : Exp} {es : List Exp} {x1 x2 x3 : Bool} (h1 : c1.eval s env = some (.bool x1))
    (h2 : c2.eval s env = some (.bool x2)) (h3 : c3.eval s env = some (.bool x3)) (h : x1 ∨ x2 ∨ x3 → RetL (k.run call n ⟨env, sv⟩ s) I B R)
    (hr : ∀ vs, Exp.evalL s env es = some vs → R vs s) :
    RetL ((.ite l1 c1 .skip (.ite l2 c2 .skip (.ite l3 c3 .skip (.ret l4 es))) ;; k).run call n ⟨env, sv⟩ s) I B R :=
  ens_seq (ens_iteV h1 (fun hx => ens_skip (h (.inl hx))) fun _ => ens_iteV h2 (fun hx => ens_skip (h (.inr (.inl hx)))) fun _ =>
    ens_iteV h3 (fun hx => ens_skip (h (.inr (.inr hx)))) fun _ => ens_ret hr)

/-- `b := p.tryConsumeKeywords(kw)` -/
theorem ret_tryKws {ln j : Nat} {ks : List Str} {input : Str} (hs : Reach input s.lx)
    (h : ∀ b l, Reach input l → RetL (k.run call n ⟨env.set j (.bool b), sv⟩ { s with lx := l }) I B R) :
    RetL ((.prim ln (.tryKws ks) [j] ;; k).run call n ⟨env, sv⟩ s) I B R :=
  ret_prim fun rs l hr => by
    have hl := reach_prim hs hr
    simp only [Prim.run, Option.some.injEq, Prod.mk.injEq] at hr
    obtain ⟨rfl, rfl⟩ := hr
    exact h _ _ hl

theorem ret_seq_ret {ln : Nat} {es : List Exp} (h : ∀ vs, Exp.evalL s env es = some vs → R vs s) :
    RetL ((.ret ln es ;; k).run call n ⟨env, sv⟩ s) I B R :=
  ens_seq (ens_ret fun ws hw => h ws hw)

/-- `if err != nil { return nil, err }` -/
theorem ret_err {ln ln' j : Nat} {e : V} (he : env[j]? = some e) (h1 : e ≠ .nil → R [.nil, e] s) (h2 : e = .nil → RetL (k.run call n ⟨env, sv⟩ s) I B R) :
    RetL ((.ite ln (.not (.isNil (.var j))) (.ret ln' [.nil, .var j]) .skip ;; k).run call n ⟨env, sv⟩ s) I B R := by
  refine ens_seq (ens_iteV (x := e.nonNil) ?_ (fun hx => ens_ret fun vs hvs => ?_) (fun hx => ens_skip (h2 ?_)))
  · simp only [Exp.eval, he, Option.map_some, Option.bind_some, V.toBool?, Bool.not_not]
  · simp only [Exp.evalL, Exp.eval, he, Option.bind_some, Option.map_some, Option.some.injEq] at hvs
    subst hvs
    exact h1 (by rintro rfl; simp [V.nonNil] at hx)
  · cases e <;> simp [V.nonNil] at hx ⊢

/-- `if err := p.expectKeyword(kw); err != nil { return nil, err }` -/
theorem ret_expectKw {ln ln1 ln2 j : Nat} {kw : Str} (hj : j < env.length) (h1 : R [.nil, keywordErr s.lx kw] s)
    (h2 : s.lx.matchKw kw = true → RetL (k.run call n ⟨env.set j .nil, sv⟩ { s with lx := s.lx.advance }) I B R) :
    RetL ((.prim ln (.expectKw (.str kw)) [j] ;; .ite ln1 (.not (.isNil (.var j))) (.ret ln2 [.nil, .var j]) .skip ;; k).run call n ⟨env, sv⟩ s) I B R := by
  refine ret_prim fun rs l hr => ?_
  simp only [Prim.run, Exp.eval, Option.bind_some, V.toStr?, Option.map_some, Option.some.injEq] at hr
  cases hm : s.lx.matchKw kw with
  | true =>
    simp only [hm, Bool.not_true, Bool.false_eq_true, if_false, Prod.mk.injEq] at hr
    obtain ⟨rfl, rfl⟩ := hr
    exact ret_err (e := .nil) (by simp [storeAll, hj]) (fun h => absurd rfl h) fun _ => h2 hm
  | false =>
    simp only [hm, Bool.not_false, if_true, Prod.mk.injEq] at hr
    obtain ⟨rfl, rfl⟩ := hr
    exact ret_err (e := keywordErr s.lx kw) (by simp [storeAll, hj]) (fun _ => h1) fun h => by simp [keywordErr, N.ParseError] at h

/-- `if err := p.expectTokenKind(kd); err != nil { return nil, err }` -/
theorem ret_expectKind {ln ln1 ln2 j : Nat} {kd : Str} (hj : j < env.length) (h1 : ∀ l, R [.nil, kindErr l kd] { s with lx := l })
    (h2 : RetL (k.run call n ⟨env.set j .nil, sv⟩ { s with lx := s.lx.advance }) I B R) :
    RetL ((.prim ln (.expectKind (.str kd)) [j] ;; .ite ln1 (.not (.isNil (.var j))) (.ret ln2 [.nil, .var j]) .skip ;; k).run call n ⟨env, sv⟩ s) I B R := by
  refine ret_prim fun rs l hr => ?_
  simp only [Prim.run, Exp.eval, Option.bind_some, V.toStr?, Option.map_some, Option.some.injEq] at hr
  split at hr
  · rename_i l' hk
    simp only [Prod.mk.injEq] at hr
    obtain ⟨rfl, rfl⟩ := hr
    exact ret_err (e := kindErr l' kd) (by simp [storeAll, hj]) (fun _ => h1 l') fun h => by simp [kindErr, N.ParseError] at h
  · rename_i v l' hne hk
    simp only [Prod.mk.injEq] at hr
    obtain ⟨rfl, rfl⟩ := hr
    refine ret_err (e := .nil) (by simp [storeAll, hj]) (fun h => absurd rfl h) fun _ => ?_
    have : l' = s.lx.advance := by
      unfold Lx.tryKind at hk
      split at hk
      · simp only [Prod.mk.injEq] at hk; exact hk.2.symm
      · simp only [Prod.mk.injEq] at hk; exact absurd hk.1.symm hne
    rw [this]
    exact h2

theorem retL_skip (h : I ⟨env, sv⟩ s) : RetL ((Stmt.skip (Fn := Fn)).run call n ⟨env, sv⟩ s) I B R := h

theorem ret_loop {body : Stmt Fn} {fr : Frame} (J : Frame → PS → Prop)
    (hb : ∀ fr s, J fr s → RetL (body.run call n fr s) J (fun fr s => RetL (k.run call n fr s) I B R) R) (h : J fr s) :
    RetL ((.loop body ;; k).run call n fr s) I B R :=
  ens_seq (ens_loop J hb h)

end

/-! ### What the methods guarantee -/

/-- An expression and an error were returned; if there is no error then `P` holds of the expression. -/
def ExprPost (P : V → PS → Prop) (vs : List V) (s' : PS) : Prop :=
  ∃ v x, vs = [v, x] ∧ Good v ∧ Good x ∧ (x = .nil → P v s')

/-- Operators at the right end of `v` hold what they have against the next operator. -/
def RightDone (v : V) (s : PS) : Prop := ∀ q, RightPower v q → Below s q

/-- After `parseSubExpr` with the power `b`. -/
def SubPost (b : V) : List V → PS → Prop := ExprPost fun v s' =>
  RightDone v s' ∧ ∀ m, b = .nat m → Below s' m ∧ ∀ q, LeftPower v q → m < q

/-- After `parseUnaryExpr`. -/
def UnaryPost : List V → PS → Prop := ExprPost fun v s' => RightDone v s' ∧ ∀ q, ¬ LeftPower v q

/-- After `parseInfix` with the left operand `e` and an operator of power `p`. -/
def InfixPost (e : V) (p : Nat) : List V → PS → Prop := ExprPost fun v s' =>
  RightDone v s' ∧ ∀ q, LeftPower v q → q = p ∨ LeftPower e q

/-- Before `parseInfix`. -/
structure InfixPre (input : Str) (e : V) (p : Nat) (s : PS) : Prop where
  reach : Reach input s.lx
  good : Good e
  pos : 0 < p
  right : ∀ q, RightPower e q → p ≤ q
  tp : s.lx.cur = none ∨ TP s.lx p

/-- What the methods called do. -/
structure Facts (input : Str) (n : Nat) : Prop where
  holds : Holds sig input (runFn fnTable n)
  sub : ∀ a b s vs s', Cls.name.sat a → Reach input s.lx → runFn fnTable n .parseSubExpr [a, b] s = .ret vs s' → SubPost b vs s'
  expr : ∀ a s vs s', Cls.name.sat a → Reach input s.lx → runFn fnTable n .parseExpr [a] s = .ret vs s' → SubPost (.nat 0) vs s'
  unary : ∀ a s vs s', Cls.name.sat a → Reach input s.lx → runFn fnTable n .parseUnaryExpr [a] s = .ret vs s' → UnaryPost vs s'
  loop : ∀ e b s vs s', Reach input s.lx → Good e → RightDone e s → (∀ m, b = .nat m → ∀ q, LeftPower e q → m < q) →
    runFn fnTable n .parseInfixLoop [e, b] s = .ret vs s' → SubPost b vs s'
  infix_ : ∀ e p s vs s', InfixPre input e p s → runFn fnTable n .parseInfix [e, .nat p] s = .ret vs s' → InfixPost e p vs s'
  between : ∀ e b s vs s', Reach input s.lx → Good e → Good b → (∀ q, RightPower e q → 9 ≤ q) → runFn fnTable n .parseBetweenClause [e, b] s = .ret vs s' →
    InfixPost e 9 vs s'
  ternary : ∀ e s vs s', Reach input s.lx → Good e → (∀ q, RightPower e q → 2 ≤ q) → runFn fnTable n .parseTernaryExpr [e] s = .ret vs s' →
    InfixPost e 2 vs s'

theorem ExprPost.error {P : V → PS → Prop} {x : V} {s' : PS} (h : Good x) (hx : x ≠ .nil) : ExprPost P [.nil, x] s' :=
  ⟨.nil, x, rfl, good_nil, h, fun e => absurd e hx⟩

theorem ExprPost.ok {P : V → PS → Prop} {v : V} {s' : PS} (h : Good v) (hp : P v s') : ExprPost P [v, .nil] s' :=
  ⟨v, .nil, rfl, h, good_nil, fun _ => hp⟩

section
variable {input : Str} {n : Nat} (F : Facts input n)
include F

theorem sub_step {a b : V} {s : PS} {vs : List V} {s' : PS} (ha : Cls.name.sat a) (hs : Reach input s.lx)
    (h : runFn fnTable (n + 1) .parseSubExpr [a, b] s = .ret vs s') : SubPost b vs s' := by
  refine ret_fn (fn := Body.parseSubExpr) (env := [a, b, .nil, .nil, .nil, .nil]) rfl rfl ?_ h
  dsimp only [Body.parseSubExpr]
  refine ret_call (as := [a]) rfl fun rs s1 hr => ?_
  obtain ⟨v, x, rfl, hv, hx, hp⟩ := F.unary a s rs s1 ha hs hr
  have hs1 := reach_runFn _ _ _ _ _ _ hs hr
  refine ret_err (e := x) rfl (fun hne => .error hx hne) fun he => ?_
  obtain ⟨h1, h2⟩ := hp he
  refine ret_call (as := [v, b]) rfl fun rs s2 hr => ?_
  have := F.loop v b s1 rs s2 hs1 hv h1 (fun m _ q hq => absurd hq (h2 q)) hr
  obtain ⟨w, y, rfl, hw⟩ := this
  exact ret_ret (vs := [w, y]) rfl ⟨w, y, rfl, hw⟩

theorem expr_step {a : V} {s : PS} {vs : List V} {s' : PS} (ha : Cls.name.sat a) (hs : Reach input s.lx)
    (h : runFn fnTable (n + 1) .parseExpr [a] s = .ret vs s') : SubPost (.nat 0) vs s' := by
  refine ret_fn (fn := Body.parseExpr) (env := [a, .nil, .nil]) rfl rfl ?_ h
  dsimp only [Body.parseExpr]
  refine ret_call (as := [a, .nat 0]) rfl fun rs s1 hr => ?_
  obtain ⟨w, y, rfl, hw⟩ := F.sub a _ s rs s1 ha hs hr
  exact ret_ret (vs := [w, y]) rfl ⟨w, y, rfl, hw⟩

theorem loop_step {e b : V} {s : PS} {vs : List V} {s' : PS} (hs : Reach input s.lx) (he : Good e) (hr : RightDone e s)
    (hl : ∀ m, b = .nat m → ∀ q, LeftPower e q → m < q)
    (h : runFn fnTable (n + 1) .parseInfixLoop [e, b] s = .ret vs s') : SubPost b vs s' := by
  refine ret_fn (fn := Body.parseInfixLoop) (env := [e, b, .nil, .nil]) rfl rfl ?_ h
  dsimp only [Body.parseInfixLoop]
  refine ret_loop (fun fr s => ∃ v c d, fr.env = [v, b, c, d] ∧ Reach input s.lx ∧ Good v ∧ RightDone v s ∧ ∀ m, b = .nat m → ∀ q, LeftPower v q → m < q)
    ?_ ⟨e, .nil, .nil, rfl, hs, he, hr, hl⟩
  clear h hl hr he hs
  rintro ⟨env, sv⟩ s ⟨v, c, d, rfl, hs, hv, hr, hl⟩
  refine ens_seq (ens_iteV (x := !s.lx.isEOF || s.lx.cur.isSome) ?_ (fun _ => ens_skip ?_) (fun hx => ens_brk ?_))
  · refine evalB_or rfl ?_
    simp only [Exp.eval, Option.map_some, Option.bind_some, V.toBool?, Bool.not_not]
    cases s.lx.cur <;> rfl
  · refine ret_call (as := []) rfl fun rs s1 hc => ?_
    obtain ⟨p, rfl, h16, h0, htp⟩ := getNextPrecedence_spec hc
    have hs1 := reach_runFn _ _ _ _ _ _ hs hc
    cases b with
    | nat m =>
      refine ens_seq (ens_iteV (x := !decide (m < p)) rfl (fun hx => ?_) (fun hx => ens_skip ?_))
      · refine ens_ret fun us hus => ?_
        cases hus
        show SubPost _ _ _
        refine .ok hv ⟨fun q hq => below_step hc (hr q hq), fun m' hm => ?_⟩
        cases hm
        refine ⟨below_next hc ?_, hl m rfl⟩
        simp only [Bool.not_eq_true', decide_eq_false_iff_not] at hx
        omega
      · simp only [Bool.not_eq_false', decide_eq_true_eq] at hx
        refine ret_set fun w hw => ?_
        cases hw
        refine ret_call (as := [v, .nat p]) rfl fun rs s2 hi => ?_
        have hpre : InfixPre input v p s1 := ⟨hs1, hv, by omega, fun q hq => hr q hq _ _ _ hc, by
          rcases htp with h | ⟨rfl, h⟩
          · exact .inl h
          · exact .inr h⟩
        obtain ⟨w, x, rfl, hw, hx', hp⟩ := F.infix_ v p s1 rs s2 hpre hi
        have hs2 := reach_runFn _ _ _ _ _ _ hs1 hi
        refine ens_iteV (x := x.nonNil) ?_ (fun hx => ens_ret fun us hus => ?_) (fun hx => ens_skip ?_)
        · simp [storeAll, Exp.eval, V.toBool?]
        · cases hus
          show SubPost _ _ _
          exact .error hx' (by rintro rfl; simp [V.nonNil] at hx)
        · have hn : x = .nil := by cases x <;> simp [V.nonNil] at hx ⊢
          obtain ⟨h1, h2⟩ := hp hn
          refine ⟨w, .nat p, x, rfl, hs2, hw, h1, fun m' hm q hq => ?_⟩
          cases hm
          rcases h2 q hq with rfl | hq
          · omega
          · exact hl m rfl q hq
    | _ => exact ens_seq (ens_iteB (fun h => by simp [storeAll, Exp.eval, V.toNat?] at h) (fun h => by simp [storeAll, Exp.eval, V.toNat?] at h))
  · simp only [Bool.or_eq_false_iff, Option.isSome_eq_false_iff, Option.isNone_iff_eq_none] at hx
    dsimp only
    refine ret_ret (vs := [v, .nil]) rfl ?_
    exact .ok hv ⟨hr, fun m hm => ⟨below_none hx.2 m, hl m hm⟩⟩

theorem sat_pos {s : PS} : Cls.name.sat (.nat s.lx.curPos) := sat_nat

/-- Calls of methods that pass the check. -/
theorem call_sat {f : Fn} {args : List V} {s : PS} {vs : List V} {s' : PS} (hf : guarded f = false) (ha : List.Forall₂ Cls.sat (sig f).args args)
    (hs : Reach input s.lx) (h : runFn fnTable n f args s = .ret vs s') : List.Forall₂ Cls.sat (sig f).res vs := (F.holds f args s vs s' hf ha hs h).1

theorem call_sat2 {f : Fn} {args : List V} {s : PS} {vs : List V} {s' : PS} {c d : Cls} (hf : guarded f = false) (hsig : (sig f).res = [c, d])
    (ha : List.Forall₂ Cls.sat (sig f).args args)
    (hs : Reach input s.lx) (h : runFn fnTable n f args s = .ret vs s') : ∃ v x, vs = [v, x] ∧ c.sat v ∧ d.sat x := by
  have := call_sat F hf ha hs h
  rw [hsig] at this
  cases this with | cons h1 h2 =>
  cases h2 with | cons h2 h3 =>
  cases h3
  exact ⟨_, _, rfl, h1, h2⟩

omit F in
theorem tokText_kw {s : PS} {l : Lx} {w : Str} (h : tok l = .kw w) {env : List V} {e : Exp} (he : e.eval s env = some (tokV l.cur)) :
    (Exp.tokText e).eval s env = some (.str w) := by
  unfold tok at h
  cases hc : l.cur with
  | none => rw [hc] at h; simp at h
  | some u =>
    rw [hc] at h
    simp only at h
    split at h
    · rename_i hk
      simp only [Tok.kw.injEq] at h
      simp only [Exp.eval, he, hc, tokV, Token.toV, N.Token, Option.bind_some, V.field, List.getElem?_cons_succ, List.getElem?_cons_zero, V.toStr?,
        Option.map_some, hk, beq_self_eq_true, if_true, h]
    · simp at h

omit F in
theorem tokText_op {s : PS} {l : Lx} {k : Str} (hl : Reach input l) (h : tok l = .op k) (h1 : k.length ≤ 2) (h2 : k ≠ b!"->") {env : List V} {e : Exp}
    (he : e.eval s env = some (tokV l.cur)) : (Exp.tokText e).eval s env = some (.str k) := by
  unfold tok at h
  cases hc : l.cur with
  | none => rw [hc] at h; simp at h
  | some u =>
    rw [hc] at h
    simp only at h
    split at h
    · simp at h
    · rename_i hk
      simp only [Tok.op.injEq] at h
      have hk' : (u.kind.toStr == Kind.keyword.toStr) = false := by simpa using hk
      have hu := op_str hl hc h h1 h2
      simp only [Exp.eval, he, hc, tokV, Token.toV, N.Token, Option.bind_some, V.field, List.getElem?_cons_succ, List.getElem?_cons_zero, V.toStr?,
        Option.map_some, hk', Bool.false_eq_true, if_false, hu]

omit F in
/-- A prefix operator. -/
theorem unary_ok {a r : V} {op : Str} {s' : PS} (ha : Good a) (hr : Good r) (h1 : RightDone r s') (h2 : ∀ q, LeftPower r q → prefixPower op < q)
    (h3 : Below s' (prefixPower op)) : UnaryPost [.mk .UnaryExpr [a, .str op, r], .nil] s' := by
  have hl : leftOpen (.mk .UnaryExpr [a, .str op, r]) = none := rfl
  have hro : rightOpen (.mk .UnaryExpr [a, .str op, r]) = some (prefixPower op, r) := rfl
  refine .ok ?_ ⟨?_, fun q => noLeft hl⟩
  · refine good_mk.2 ⟨⟨fun p l h => (nomatch hl.symm.trans h), fun p r' h => ?_, fun e n b p a h => nomatch h⟩, ?_⟩
    · rw [hro] at h; cases h; exact h2
    · simp [ha, hr, good_str]
  · intro q hq
    cases hq with
    | here h => rw [hro] at h; cases h; exact h3
    | down h hq => rw [hro] at h; cases h; exact h1 q hq

theorem unary_step {a : V} {s : PS} {vs : List V} {s' : PS} (ha : Cls.name.sat a) (hs : Reach input s.lx)
    (h : runFn fnTable (n + 1) .parseUnaryExpr [a] s = .ret vs s') : UnaryPost vs s' := by
  refine ret_fn (fn := Body.parseUnaryExpr) (env := [a, .nil, .nil, .nil, .nil, .nil]) rfl rfl ?_ h
  clear h
  dsimp only [Body.parseUnaryExpr]
  refine ret_set fun w hw => ?_
  cases hw
  refine ret_set fun w hw => ?_
  cases hw
  refine ret_set fun w hw => ?_
  cases hw
  dsimp only [List.set]
  have hs1 := reach_advance hs
  refine ret_iteS (evalB_or (ev_kind (by decide)) (ev_kind (by decide))) (fun hx => ?_)
    (fun hx => ret_iteS (ev_kw (by decide)) (fun hx => ?_) (fun hx => ?_))
  · refine ret_assoc (ret_consume (by simp) (ret_call (as := [.nat s.lx.advance.curPos]) rfl fun rs s2 hr => ?_))
    obtain ⟨v, x, rfl, hv, hxx⟩ := call_sat2 F (f := .parseColumnExpr) (c := .atom) (d := .any) rfl rfl (.cons sat_nat .nil) hs1 hr
    dsimp only [storeAll, List.set]
    refine ret_err (e := x) rfl (fun hne => .error hxx.1 hne) fun he => ?_
    obtain ⟨op, hop, hp⟩ : ∃ op, (Exp.tokText (.var 1)).eval s2 [a, tokV s.lx.cur, v, x, .nil, .nil] = some (.str op) ∧ prefixPower op = 16 := by
      simp only [Bool.or_eq_true, decide_eq_true_eq] at hx
      rcases hx with hx | hx
      · exact ⟨_, tokText_op hs hx (by decide) (by decide) rfl, by decide⟩
      · exact ⟨_, tokText_op hs hx (by decide) (by decide) rfl, by decide⟩
    refine ret_ret (vs := [.mk .UnaryExpr [a, .str op, v], .nil]) ?_ ?_
    · simp only [Exp.evalL, Exp.eval.eq_def s2 _ (.mk _ _), hop]
      rfl
    · refine unary_ok ha.1 hv.1 (fun q hq => absurd hq (noRight hv.2.2)) (fun q hq => absurd hq (noLeft hv.2.1)) ?_
      exact below_16 _ (by omega)
  · refine ret_assoc (ret_consume (by simp) (ret_call (as := [.nat s.lx.advance.curPos, .nat 5]) rfl fun rs s2 hr => ?_))
    obtain ⟨v, x, rfl, hv, hxx, hp⟩ := F.sub _ _ _ _ _ sat_nat hs1 hr
    dsimp only [storeAll, List.set]
    refine ret_err (e := x) rfl (fun hne => .error hxx hne) fun he => ?_
    have hop : (Exp.tokText (.var 1)).eval s2 [a, tokV s.lx.cur, v, x, .nil, .nil] = some (.str b!"NOT") := tokText_kw (of_decide_eq_true hx) rfl
    refine ret_ret (vs := [.mk .UnaryExpr [a, .str b!"NOT", v], .nil]) ?_ ?_
    · simp only [Exp.evalL, Exp.eval.eq_def s2 _ (.mk _ _), hop]
      rfl
    · obtain ⟨h1, h2⟩ := hp he
      obtain ⟨h2, h3⟩ := h2 5 rfl
      exact unary_ok ha.1 hv h1 h3 h2
  · refine ret_assoc (ret_call (as := [a]) rfl fun rs s2 hr => ?_)
    obtain ⟨v, x, rfl, hv, hxx⟩ := call_sat2 F (f := .parseColumnExpr) (c := .atom) (d := .any) rfl rfl (.cons ha .nil) hs hr
    refine ret_seq_ret fun us hus => ?_
    cases hus
    exact ⟨v, x, rfl, hv.1, hxx.1, fun _ => ⟨fun q hq => absurd hq (noRight hv.2.2), fun q => noLeft hv.2.1⟩⟩

end

end Verif.Group

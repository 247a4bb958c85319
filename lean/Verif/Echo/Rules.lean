/-
Rules for the symbolic execution of parser methods.  No definition here is part of the model.
-/
import Verif.Echo.Elems
import Verif.Group.Special
import Verif.Semi.Run

namespace Verif.Echo
open Verif.Spec Verif.Group

/-! ### Evaluation -/

section
variable {l : Lx} {m : List Nat} {i : Str} {s : PS} {env : List V}

theorem ev_nil : Exp.nil.eval s env = some .nil := by simp only [Exp.eval]
theorem ev_nat {n : Nat} : (Exp.nat n).eval s env = some (.nat n) := by simp only [Exp.eval]
theorem ev_bool {b : Bool} : (Exp.bool b).eval s env = some (.bool b) := by simp only [Exp.eval]
theorem ev_str {x : Str} : (Exp.str x).eval s env = some (.str x) := by simp only [Exp.eval]
theorem ev_strs {x : List Str} : (Exp.strs x).eval s env = some (.list (x.map V.str)) := by simp only [Exp.eval]
theorem ev_empty : Exp.empty.eval s env = some (.list []) := by simp only [Exp.eval]
theorem ev_var {j : Nat} {v : V} (h : env[j]? = some v) : (Exp.var j).eval s env = some v := by simp only [Exp.eval, h]
theorem ev_fld {e : Exp} {j : Nat} {t : Ty} {fs : List V} {v : V} (h : e.eval s env = some (.mk t fs)) (hj : fs[j]? = some v) :
    (Exp.fld e j).eval s env = some v := by simp only [Exp.eval, h, Option.bind_some, V.field, hj]
theorem ev_deref {e : Exp} {t : Ty} {fs : List V} (h : e.eval s env = some (.mk t fs)) :
    (Exp.deref e).eval s env = some (.mk t fs) := by simp only [Exp.eval, h, Option.bind_some, V.nonNil, if_true]
theorem ev_mk {t : Ty} {es : List Exp} {vs : List V} (h : Exp.evalL s env es = some vs) : (Exp.mk t es).eval s env = some (.mk t vs) := by
  simp only [Exp.eval, h, Option.map_some]
theorem ev_append {e a : Exp} {v x : V} (h : e.eval s env = some v) (ha : a.eval s env = some x) :
    (Exp.append e a).eval s env = some (.list (v.items ++ [x])) := by simp only [Exp.eval, h, ha, Option.map_some, Option.bind_some]
theorem ev_appendL {e a : Exp} {vs : List V} {x : V} (h : e.eval s env = some (.list vs)) (ha : a.eval s env = some x) :
    (Exp.append e a).eval s env = some (.list (vs ++ [x])) := ev_append h ha
theorem ev_isNil {e : Exp} {v : V} (h : e.eval s env = some v) : (Exp.isNil e).eval s env = some (.bool (!v.nonNil)) := by
  simp only [Exp.eval, h, Option.map_some]
theorem ev_not {e : Exp} {b : Bool} (h : e.eval s env = some (.bool b)) : (Exp.not e).eval s env = some (.bool (!b)) := by
  simp only [Exp.eval, h, Option.map_some, Option.bind_some, V.toBool?]
theorem ev_notNil {e : Exp} {v : V} (h : e.eval s env = some v) : (Exp.not (.isNil e)).eval s env = some (.bool v.nonNil) := by
  simp only [Exp.eval, h, Option.map_some, Option.bind_some, V.toBool?, Bool.not_not]
theorem ev_and {a b : Exp} {x y : Bool} (h : a.eval s env = some (.bool x)) (h' : b.eval s env = some (.bool y)) :
    (Exp.and a b).eval s env = some (.bool (x && y)) := by
  simp only [Exp.eval, h, h', Option.bind_some, V.toBool?]; cases x <;> rfl
theorem ev_and_false {a b : Exp} (h : a.eval s env = some (.bool false)) : (Exp.and a b).eval s env = some (.bool false) := by
  simp only [Exp.eval, h, Option.bind_some, V.toBool?]; rfl
theorem ev_and_true {a b : Exp} {v : V} (h : a.eval s env = some (.bool true)) (h' : b.eval s env = some v) : (Exp.and a b).eval s env = some v := by
  simp only [Exp.eval, h, h', Option.bind_some, V.toBool?, if_true]
theorem ev_or {a b : Exp} {x y : Bool} (h : a.eval s env = some (.bool x)) (h' : b.eval s env = some (.bool y)) :
    (Exp.or a b).eval s env = some (.bool (x || y)) := by
  simp only [Exp.eval, h, h', Option.bind_some, V.toBool?]; cases x <;> rfl
theorem ev_or_true {a b : Exp} (h : a.eval s env = some (.bool true)) : (Exp.or a b).eval s env = some (.bool true) := by
  simp only [Exp.eval, h, Option.bind_some, V.toBool?, if_true]
theorem ev_or_false {a b : Exp} {v : V} (h : a.eval s env = some (.bool false)) (h' : b.eval s env = some v) : (Exp.or a b).eval s env = some v := by
  simp only [Exp.eval, h, h', Option.bind_some, V.toBool?]; rfl
theorem ev_eqStr {a b : Exp} {x y : Str} (h : a.eval s env = some (.str x)) (h' : b.eval s env = some (.str y)) :
    (Exp.eqStr a b).eval s env = some (.bool (x == y)) := by simp only [Exp.eval, h, h', Option.bind_some, V.toStr?, Option.map_some]
theorem ev_eqNat {a b : Exp} {x y : Nat} (h : a.eval s env = some (.nat x)) (h' : b.eval s env = some (.nat y)) :
    (Exp.eqNat a b).eval s env = some (.bool (x == y)) := by simp only [Exp.eval, h, h', Option.bind_some, V.toNat?, Option.map_some]
theorem ev_lt {a b : Exp} {x y : Nat} (h : a.eval s env = some (.nat x)) (h' : b.eval s env = some (.nat y)) :
    (Exp.lt a b).eval s env = some (.bool (decide (x < y))) := by simp only [Exp.eval, h, h', Option.bind_some, V.toNat?, Option.map_some]
theorem ev_cat {a b : Exp} {x y : Str} (h : a.eval s env = some (.str x)) (h' : b.eval s env = some (.str y)) :
    (Exp.cat a b).eval s env = some (.str (x ++ y)) := by simp only [Exp.eval, h, h', Option.bind_some, V.toStr?, Option.map_some]
theorem ev_upper {a : Exp} {x : Str} (h : a.eval s env = some (.str x)) :
    (Exp.upper a).eval s env = some (.str (Verif.upper x)) := by simp only [Exp.eval, h, Option.bind_some, V.toStr?, Option.map_some]
theorem ev_equalFold {a b : Exp} {x y : Str} (h : a.eval s env = some (.str x)) (h' : b.eval s env = some (.str y)) :
    (Exp.equalFold a b).eval s env = some (.bool (Verif.equalFold x y)) := by simp only [Exp.eval, h, h', Option.bind_some, V.toStr?, Option.map_some]
theorem ev_isTy {a : Exp} {v : V} {t : Ty} (h : a.eval s env = some v) :
    (Exp.isTy a t).eval s env = some (.bool (decide (v.ty? = some t))) := by simp only [Exp.eval, h, Option.map_some]
theorem ev_len {a : Exp} {vs : List V} (h : a.eval s env = some (.list vs)) :
    (Exp.len a).eval s env = some (.nat vs.length) := by simp only [Exp.eval, h, Option.map_some, V.items]
theorem ev_error {x : Str} {es : List Exp} {vs : List V} (h : Exp.evalL s env es = some vs) :
    (Exp.error x es).eval s env = some (plainErr x) := by simp only [Exp.eval, h, Option.map_some]
theorem ev_cur : Exp.cur.eval ⟨l, m, i⟩ env = some (tokV l.cur) := by simp only [Exp.eval]
theorem ev_curKind : Exp.curKind.eval ⟨l, m, i⟩ env = some (.str l.curKind) := by simp only [Exp.eval]
theorem ev_curString : Exp.curString.eval ⟨l, m, i⟩ env = some (.str l.curString) := by simp only [Exp.eval]
theorem ev_pos : Exp.pos.eval ⟨l, m, i⟩ env = some (.nat l.curPos) := by simp only [Exp.eval]
theorem ev_end : Exp.end_.eval ⟨l, m, i⟩ env = some (.nat l.curEnd) := by simp only [Exp.eval]
theorem ev_isEOF : Exp.isEOF.eval ⟨l, m, i⟩ env = some (.bool l.isEOF) := by simp only [Exp.eval]
theorem ev_matchKinds {es : List Exp} {ks : List Str} (h : Exp.evalL ⟨l, m, i⟩ env es = some (ks.map V.str)) :
    (Exp.matchKinds es).eval ⟨l, m, i⟩ env = some (.bool (l.matchKinds ks)) := by
  have : ∀ ks : List Str, List.mapM V.toStr? (ks.map V.str) = some ks := by
    intro ks
    induction ks with
    | nil => rfl
    | cons k ks ih => simp only [List.map_cons, List.mapM_cons, ih, V.toStr?, Option.bind_eq_bind, Option.bind_some, Option.pure_def]
  simp only [Exp.eval, h, Option.bind_some, this, Option.map_some]
theorem ev_matchKw {e : Exp} {k : Str} (h : e.eval ⟨l, m, i⟩ env = some (.str k)) :
    (Exp.matchKw e).eval ⟨l, m, i⟩ env = some (.bool (l.matchKw k)) := by simp only [Exp.eval, h, Option.bind_some, V.toStr?, Option.map_some]
theorem ev_matchOneOf {ks : List Str} :
    (Exp.matchOneOf (.strs ks)).eval ⟨l, m, i⟩ env = some (.bool (l.matchOneOf ks)) := by
  have : ∀ ks : List Str, V.strs? (.list (ks.map V.str)) = some ks := by
    intro ks
    unfold V.strs?
    simp only [V.items]
    induction ks with
    | nil => rfl
    | cons k ks ih => simp only [List.map_cons, List.mapM_cons, ih, V.toStr?, Option.bind_eq_bind, Option.bind_some, Option.pure_def]
  simp only [Exp.eval, Option.bind_some, this, Option.map_some]
theorem ev_memoHas {e : Exp} {n : Nat} (h : e.eval ⟨l, m, i⟩ env = some (.nat n)) :
    (Exp.memoHas e).eval ⟨l, m, i⟩ env = some (.bool (m.contains n)) := by simp only [Exp.eval, h, Option.bind_some, V.toNat?, Option.map_some]
/-- A token as a value. -/
abbrev tokMk (t : Token) : V := .mk .Token [.nat t.pos, .nat t.endp, .str t.kind.toStr, .str t.str, .nat t.base, .nat t.quote]
theorem tokV_some {x : Option Token} {t : Token} (hx : x = some t) : tokV x = tokMk t := by rw [hx]; rfl
theorem ev_some {e : Exp} {x : Option Token} {t : Token} (h : e.eval s env = some (tokV x)) (hx : x = some t) :
    e.eval s env = some (tokMk t) := by rw [h, hx]; rfl
theorem ev_none {e : Exp} {x : Option Token} (h : e.eval s env = some (tokV x)) (hx : x = none) :
    e.eval s env = some .nil := by rw [h, hx]; rfl
/-- `(*Token).ToString` -/
def tokText (t : Token) : Str := if t.kind.toStr == Kind.keyword.toStr then upper t.str else t.str
theorem ev_tokText {e : Exp} {t : Token} (h : e.eval s env = some (tokMk t)) :
    (Exp.tokText e).eval s env = some (.str (tokText t)) := by
  simp only [Exp.eval, h, tokMk, Option.bind_some, V.field, List.getElem?_cons_succ, List.getElem?_cons_zero, V.toStr?, Option.map_some]
  rfl
theorem ev_lnil : Exp.evalL s env [] = some [] := by simp only [Exp.evalL]
theorem ev_lcons {e : Exp} {es : List Exp} {v : V} {vs : List V} (h : e.eval s env = some v) (h' : Exp.evalL s env es = some vs) :
    Exp.evalL s env (e :: es) = some (v :: vs) := by simp only [Exp.evalL, h, h', Option.bind_some, Option.map_some]

end

/-! ### Statements -/

section
variable {n : Nat} {env : List V} {sv l : Lx} {m : List Nat} {i : Str} {s : PS} {R : List V → PS → Prop} {call : Fn → List V → PS → COut}
  {k : Stmt Fn} {I B : Frame → PS → Prop}

theorem r_fn {f : Fn} {fn : Func Fn} {args env : List V} {vs : List V} {s' : PS} (hb : retryTable f = fn)
    (he : args ++ List.replicate (fn.locals - args.length) V.nil = env)
    (h : Ret (fn.body.run (runFn retryTable n) n ⟨env, l⟩ ⟨l, m, i⟩) R)
    (hr : runFn retryTable (n + 1) f args ⟨l, m, i⟩ = .ret vs s') : R vs s' := by
  refine ens_runFn (n := n) ?_ hr
  rw [hb, he]
  exact h

theorem r_single {a : Stmt Fn} (h : RetL ((a ;; .skip).run call n ⟨env, sv⟩ s) I B R) : RetL (a.run call n ⟨env, sv⟩ s) I B R := by
  unfold RetL at h ⊢
  rw [run_seq] at h
  cases ha : a.run call n ⟨env, sv⟩ s <;> rw [ha] at h <;> exact h

theorem r_skipEnd (h : I ⟨env, sv⟩ s) : RetL ((Stmt.skip (Fn := Fn)).run call n ⟨env, sv⟩ s) I B R := h
theorem r_brkEnd (h : B ⟨env, sv⟩ s) : RetL ((Stmt.brk (Fn := Fn)).run call n ⟨env, sv⟩ s) I B R := h
theorem r_contEnd (h : I ⟨env, sv⟩ s) : RetL ((Stmt.cont (Fn := Fn)).run call n ⟨env, sv⟩ s) I B R := h
theorem r_brk (h : B ⟨env, sv⟩ s) : RetL ((.brk ;; k).run call n ⟨env, sv⟩ s) I B R := ens_seq (ens_brk h)
theorem r_cont (h : I ⟨env, sv⟩ s) : RetL ((.cont ;; k).run call n ⟨env, sv⟩ s) I B R := ens_seq (ens_cont h)
theorem r_save (h : RetL (k.run call n ⟨env, l⟩ ⟨l, m, i⟩) I B R) : RetL ((.save ;; k).run call n ⟨env, sv⟩ ⟨l, m, i⟩) I B R := ens_seq (ens_save h)
theorem r_restore (h : RetL (k.run call n ⟨env, sv⟩ ⟨sv, m, i⟩) I B R) : RetL ((.restore ;; k).run call n ⟨env, sv⟩ ⟨l, m, i⟩) I B R :=
  ens_seq (ens_restore h)
theorem r_set {ln x : Nat} {e : Exp} {v : V} (he : e.eval s env = some v) (h : RetL (k.run call n ⟨env.set x v, sv⟩ s) I B R) :
    RetL ((.set ln x e ;; k).run call n ⟨env, sv⟩ s) I B R := ret_set fun w hw => by rw [he] at hw; cases hw; exact h
theorem r_setU {ln x : Nat} {e : Exp} (h : ∀ v, RetL (k.run call n ⟨env.set x v, sv⟩ s) I B R) :
    RetL ((.set ln x e ;; k).run call n ⟨env, sv⟩ s) I B R := ret_set fun w _ => h w
theorem r_setF {ln x : Nat} {path : List Nat} {e : Exp} {v u w : V} (he : e.eval s env = some v) (hu : env[x]? = some u) (hw : setPath u path v = some w)
    (h : RetL (k.run call n ⟨env.set x w, sv⟩ s) I B R) : RetL ((.setF ln x path e ;; k).run call n ⟨env, sv⟩ s) I B R :=
  ens_seq (ens_setF fun v' u' w' h1 h2 h3 => by
    rw [he] at h1; cases h1; rw [hu] at h2; cases h2; rw [hw] at h3; cases h3; exact h)
theorem r_ret {ln : Nat} {es : List Exp} {vs : List V} (he : Exp.evalL s env es = some vs) (h : R vs s) :
    RetL ((Stmt.ret (Fn := Fn) ln es).run call n ⟨env, sv⟩ s) I B R := ret_ret he h
theorem r_retU {ln : Nat} {es : List Exp} (h : ∀ vs, Exp.evalL s env es = some vs → R vs s) :
    RetL ((Stmt.ret (Fn := Fn) ln es).run call n ⟨env, sv⟩ s) I B R := ens_ret h
theorem r_retS {ln : Nat} {es : List Exp} (h : RetL ((Stmt.ret (Fn := Fn) ln es).run call n ⟨env, sv⟩ s) I B R) :
    RetL ((.ret ln es ;; k).run call n ⟨env, sv⟩ s) I B R := by
  unfold RetL at h ⊢
  rw [run_seq]
  rw [run_ret] at h ⊢
  cases he : Exp.evalL s env es with
  | none => trivial
  | some vs => simp only [he, onSome] at h; exact h
theorem r_call {ln : Nat} {f : Fn} {es : List Exp} {dst : List Nat} {as : List V} (he : Exp.evalL s env es = some as)
    (h : ∀ rs l' m' i', call f as s = .ret rs ⟨l', m', i'⟩ → RetL (k.run call n ⟨storeAll env dst rs, sv⟩ ⟨l', m', i'⟩) I B R) :
    RetL ((.call ln f es dst ;; k).run call n ⟨env, sv⟩ s) I B R := ret_call he fun rs s' hr => h rs s'.lx s'.memo s'.input hr
theorem r_ite {ln : Nat} {c : Exp} {a b : Stmt Fn} {x : Bool} (hc : c.eval s env = some (.bool x))
    (ht : x = true → RetL ((a ;; k).run call n ⟨env, sv⟩ s) I B R) (hf : x = false → RetL ((b ;; k).run call n ⟨env, sv⟩ s) I B R) :
    RetL ((.ite ln c a b ;; k).run call n ⟨env, sv⟩ s) I B R := ret_iteS hc ht hf
theorem r_iteT {ln : Nat} {c : Exp} {a b : Stmt Fn} (hc : c.eval s env = some (.bool true))
    (ht : RetL ((a ;; k).run call n ⟨env, sv⟩ s) I B R) :
    RetL ((.ite ln c a b ;; k).run call n ⟨env, sv⟩ s) I B R := ret_iteS hc (fun _ => ht) (fun h => nomatch h)
theorem r_iteF {ln : Nat} {c : Exp} {a b : Stmt Fn} (hc : c.eval s env = some (.bool false))
    (hf : RetL ((b ;; k).run call n ⟨env, sv⟩ s) I B R) :
    RetL ((.ite ln c a b ;; k).run call n ⟨env, sv⟩ s) I B R := ret_iteS hc (fun h => nomatch h) (fun _ => hf)
theorem r_iteU {ln : Nat} {c : Exp} {a b : Stmt Fn} (ht : RetL ((a ;; k).run call n ⟨env, sv⟩ s) I B R) (hf : RetL ((b ;; k).run call n ⟨env, sv⟩ s) I B R) :
    RetL ((.ite ln c a b ;; k).run call n ⟨env, sv⟩ s) I B R := ret_iteU ht hf
theorem r_iteH {ln : Nat} {c : Exp} {a b : Stmt Fn} (ht : c.eval s env = some (.bool true) → RetL ((a ;; k).run call n ⟨env, sv⟩ s) I B R)
    (hf : c.eval s env = some (.bool false) → RetL ((b ;; k).run call n ⟨env, sv⟩ s) I B R) :
    RetL ((.ite ln c a b ;; k).run call n ⟨env, sv⟩ s) I B R := by
  cases hc : c.eval s env with
  | none =>
    unfold RetL
    rw [run_seq, run_ite]
    simp only [hc, Option.bind_none, onSome]
    trivial
  | some v =>
    cases v with
    | bool x => exact ret_iteS hc (fun h => ht (by rw [hc, h])) (fun h => hf (by rw [hc, h]))
    | _ =>
      unfold RetL
      rw [run_seq, run_ite]
      simp only [hc, Option.bind_some, V.toBool?, onSome]
      trivial
/-- `if v != nil` -/
theorem r_iteN {ln : Nat} {c : Exp} {a b : Stmt Fn} {v : V} (hc : c.eval s env = some (.bool v.nonNil))
    (ht : v ≠ .nil → RetL ((a ;; k).run call n ⟨env, sv⟩ s) I B R) (hf : v = .nil → RetL ((b ;; k).run call n ⟨env, sv⟩ s) I B R) :
    RetL ((.ite ln c a b ;; k).run call n ⟨env, sv⟩ s) I B R :=
  ret_iteS hc (fun h => ht (by rintro rfl; simp [V.nonNil] at h)) (fun h => hf (by cases v <;> simp [V.nonNil] at h ⊢))
/-- `if v == nil` -/
theorem r_iteZ {ln : Nat} {c : Exp} {a b : Stmt Fn} {v : V} (hc : c.eval s env = some (.bool (!v.nonNil)))
    (ht : v = .nil → RetL ((a ;; k).run call n ⟨env, sv⟩ s) I B R) (hf : v ≠ .nil → RetL ((b ;; k).run call n ⟨env, sv⟩ s) I B R) :
    RetL ((.ite ln c a b ;; k).run call n ⟨env, sv⟩ s) I B R :=
  ret_iteS hc (fun h => ht (by cases v <;> simp [V.nonNil] at h ⊢)) (fun h => hf (by rintro rfl; simp [V.nonNil] at h))
theorem r_iteNT {ln : Nat} {c : Exp} {a b : Stmt Fn} {x : Option Token} (hc : c.eval s env = some (.bool (tokV x).nonNil))
    (ht : ∀ t, x = some t → RetL ((a ;; k).run call n ⟨env, sv⟩ s) I B R) (hf : x = none → RetL ((b ;; k).run call n ⟨env, sv⟩ s) I B R) :
    RetL ((.ite ln c a b ;; k).run call n ⟨env, sv⟩ s) I B R := by
  refine ret_iteS hc (fun h => ?_) (fun h => ?_)
  · cases x with
    | none => simp [tokV, V.nonNil] at h
    | some t => exact ht t rfl
  · cases x with
    | none => exact hf rfl
    | some t => simp [tokV, V.nonNil, Token.toV, N.Token] at h
theorem r_iteZT {ln : Nat} {c : Exp} {a b : Stmt Fn} {x : Option Token} (hc : c.eval s env = some (.bool (!(tokV x).nonNil)))
    (ht : x = none → RetL ((a ;; k).run call n ⟨env, sv⟩ s) I B R) (hf : ∀ t, x = some t → RetL ((b ;; k).run call n ⟨env, sv⟩ s) I B R) :
    RetL ((.ite ln c a b ;; k).run call n ⟨env, sv⟩ s) I B R := by
  refine ret_iteS hc (fun h => ?_) (fun h => ?_)
  · cases x with
    | none => exact ht rfl
    | some t => simp [tokV, V.nonNil, Token.toV, N.Token] at h
  · cases x with
    | none => simp [tokV, V.nonNil] at h
    | some t => exact hf t rfl
/-- `if a && b` -/
theorem r_iteAnd {ln : Nat} {c d : Exp} {a b : Stmt Fn}
    (h : RetL ((.ite ln c (.ite ln d a b) b ;; k).run call n ⟨env, sv⟩ s) I B R) :
    RetL ((.ite ln (.and c d) a b ;; k).run call n ⟨env, sv⟩ s) I B R := by
  unfold RetL at h ⊢
  rw [run_seq, run_ite] at h ⊢
  cases hc : (c.eval s env).bind V.toBool? with
  | none => simp only [Exp.eval, hc, Option.bind_none, onSome]; trivial
  | some x =>
    simp only [Exp.eval, hc, Option.bind_some, onSome] at h ⊢
    cases x
    · simpa [V.toBool?, onSome] using h
    · simp only [if_true] at h ⊢
      rw [run_ite] at h
      exact h
/-- `if a || b` -/
theorem r_iteOr {ln : Nat} {c d : Exp} {a b : Stmt Fn}
    (h : RetL ((.ite ln c a (.ite ln d a b) ;; k).run call n ⟨env, sv⟩ s) I B R) :
    RetL ((.ite ln (.or c d) a b ;; k).run call n ⟨env, sv⟩ s) I B R := by
  unfold RetL at h ⊢
  rw [run_seq, run_ite] at h ⊢
  cases hc : (c.eval s env).bind V.toBool? with
  | none => simp only [Exp.eval, hc, Option.bind_none, onSome]; trivial
  | some x =>
    simp only [Exp.eval, hc, Option.bind_some, onSome] at h ⊢
    cases x
    · simp only [Bool.false_eq_true, if_false] at h ⊢
      rw [run_ite] at h
      exact h
    · simpa [V.toBool?, onSome] using h

theorem r_consume {ln : Nat} {dst : List Nat} (hl : Clean l)
    (h : RetL (k.run call n ⟨storeAll env dst [.nil], sv⟩ ⟨l.advance, m, i⟩) I B R) :
    RetL ((.prim ln .consume dst ;; k).run call n ⟨env, sv⟩ ⟨l, m, i⟩) I B R :=
  ret_prim fun rs l' hr => by
    simp only [Prim.run, hl.consume.1, Option.some.injEq, Prod.mk.injEq] at hr
    obtain ⟨rfl, rfl⟩ := hr
    exact h

theorem r_peek {ln : Nat} {dst : List Nat} (hl : Clean l)
    (h : RetL (k.run call n ⟨storeAll env dst [tokV l.advance.cur, .nil], sv⟩ ⟨l, m, i⟩) I B R) :
    RetL ((.prim ln .peek dst ;; k).run call n ⟨env, sv⟩ ⟨l, m, i⟩) I B R :=
  ret_prim fun rs l' hr => by
    simp only [Prim.run, hl.peek, Option.some.injEq, Prod.mk.injEq] at hr
    obtain ⟨rfl, rfl⟩ := hr
    exact h

theorem cur_of_kinds {ks : List Str} (h : l.matchKinds ks = true) (he : ks.contains Kind.eof.toStr = false) : ∃ t, l.cur = some t := by
  cases hc : l.cur with
  | some t => exact ⟨t, rfl⟩
  | none =>
    exfalso
    simp only [Lx.matchKinds, Lx.curKind, hc, he] at h
    exact absurd h (by simp [Kind.toStr])

theorem r_tryKind {ln : Nat} {e : Exp} {k0 : Str} {dst : List Nat} (he : e.eval ⟨l, m, i⟩ env = some (.str k0)) (hk : [k0].contains Kind.eof.toStr = false)
    (h1 : ∀ t, l.matchKinds [k0] = true → l.cur = some t → RetL (k.run call n ⟨storeAll env dst [tokMk t], sv⟩ ⟨l.advance, m, i⟩) I B R)
    (h2 : l.matchKinds [k0] = false → RetL (k.run call n ⟨storeAll env dst [.nil], sv⟩ ⟨l, m, i⟩) I B R) :
    RetL ((.prim ln (.tryKind e) dst ;; k).run call n ⟨env, sv⟩ ⟨l, m, i⟩) I B R :=
  ret_prim fun rs l' hr => by
    simp only [Prim.run, he, Option.bind_some, V.toStr?, Option.map_some, Option.some.injEq, Lx.tryKind] at hr
    cases hm : l.matchKinds [k0] with
    | true =>
      obtain ⟨t, ht⟩ := cur_of_kinds hm hk
      simp only [hm, if_true, Prod.mk.injEq] at hr
      obtain ⟨rfl, rfl⟩ := hr
      have := h1 t hm ht
      rw [ht]
      exact this
    | false =>
      simp only [hm, Bool.false_eq_true, if_false, Prod.mk.injEq] at hr
      obtain ⟨rfl, rfl⟩ := hr
      exact h2 hm

theorem r_expectKind {ln : Nat} {e : Exp} {k0 : Str} {dst : List Nat} (he : e.eval ⟨l, m, i⟩ env = some (.str k0)) (hk : [k0].contains Kind.eof.toStr = false)
    (h1 : ∀ t, l.matchKinds [k0] = true → l.cur = some t → RetL (k.run call n ⟨storeAll env dst [.nil], sv⟩ ⟨l.advance, m, i⟩) I B R)
    (h2 : RetL (k.run call n ⟨storeAll env dst [kindErr l k0], sv⟩ ⟨l, m, i⟩) I B R) :
    RetL ((.prim ln (.expectKind e) dst ;; k).run call n ⟨env, sv⟩ ⟨l, m, i⟩) I B R :=
  ret_prim fun rs l' hr => by
    simp only [Prim.run, he, Option.bind_some, V.toStr?, Option.map_some, Option.some.injEq, Lx.tryKind] at hr
    cases hm : l.matchKinds [k0] with
    | true =>
      obtain ⟨t, ht⟩ := cur_of_kinds hm hk
      simp only [hm, if_true, ht, tokV, Token.toV, N.Token, Prod.mk.injEq] at hr
      obtain ⟨rfl, rfl⟩ := hr
      exact h1 t hm ht
    | false =>
      simp only [hm, Bool.false_eq_true, if_false, Prod.mk.injEq] at hr
      obtain ⟨rfl, rfl⟩ := hr
      exact h2

theorem r_expectKw {ln : Nat} {e : Exp} {k0 : Str} {dst : List Nat} (he : e.eval ⟨l, m, i⟩ env = some (.str k0))
    (h1 : l.matchKw k0 = true → RetL (k.run call n ⟨storeAll env dst [.nil], sv⟩ ⟨l.advance, m, i⟩) I B R)
    (h2 : RetL (k.run call n ⟨storeAll env dst [keywordErr l k0], sv⟩ ⟨l, m, i⟩) I B R) :
    RetL ((.prim ln (.expectKw e) dst ;; k).run call n ⟨env, sv⟩ ⟨l, m, i⟩) I B R :=
  ret_prim fun rs l' hr => by
    simp only [Prim.run, he, Option.bind_some, V.toStr?, Option.map_some, Option.some.injEq] at hr
    cases hm : l.matchKw k0 with
    | true =>
      simp only [hm, Bool.not_true, Bool.false_eq_true, if_false, Prod.mk.injEq] at hr
      obtain ⟨rfl, rfl⟩ := hr
      exact h1 hm
    | false =>
      simp only [hm, Bool.not_false, if_true, Prod.mk.injEq] at hr
      obtain ⟨rfl, rfl⟩ := hr
      exact h2

theorem r_tryKws1 {ln : Nat} {k1 : Str} {dst : List Nat}
    (h1 : l.matchKw k1 = true → RetL (k.run call n ⟨storeAll env dst [.bool true], sv⟩ ⟨l.advance, m, i⟩) I B R)
    (h2 : l.matchKw k1 = false → RetL (k.run call n ⟨storeAll env dst [.bool false], sv⟩ ⟨l, m, i⟩) I B R) :
    RetL ((.prim ln (.tryKws [k1]) dst ;; k).run call n ⟨env, sv⟩ ⟨l, m, i⟩) I B R :=
  ret_prim fun rs l' hr => by
    simp only [Prim.run, Lx.tryKws, Lx.takeKws, Option.some.injEq] at hr
    cases hm : l.matchKw k1 with
    | true =>
      simp only [hm, if_true, Prod.mk.injEq] at hr
      obtain ⟨rfl, rfl⟩ := hr
      exact h1 hm
    | false =>
      simp only [hm, Bool.false_eq_true, if_false, Prod.mk.injEq] at hr
      obtain ⟨rfl, rfl⟩ := hr
      exact h2 hm

theorem r_tryKws2 {ln : Nat} {k1 k2 : Str} {dst : List Nat}
    (h1 : l.matchKw k1 = true → l.advance.matchKw k2 = true → RetL (k.run call n ⟨storeAll env dst [.bool true], sv⟩ ⟨l.advance.advance, m, i⟩) I B R)
    (h2 : RetL (k.run call n ⟨storeAll env dst [.bool false], sv⟩ ⟨l, m, i⟩) I B R) :
    RetL ((.prim ln (.tryKws [k1, k2]) dst ;; k).run call n ⟨env, sv⟩ ⟨l, m, i⟩) I B R :=
  ret_prim fun rs l' hr => by
    simp only [Prim.run, Lx.tryKws, Lx.takeKws, Option.some.injEq] at hr
    cases hm : l.matchKw k1 with
    | true =>
      simp only [hm, if_true] at hr
      cases hm2 : l.advance.matchKw k2 with
      | true =>
        simp only [hm2, if_true, Prod.mk.injEq] at hr
        obtain ⟨rfl, rfl⟩ := hr
        exact h1 hm hm2
      | false =>
        simp only [hm2, Bool.false_eq_true, if_false, Prod.mk.injEq] at hr
        obtain ⟨rfl, rfl⟩ := hr
        exact h2
    | false =>
      simp only [hm, Bool.false_eq_true, if_false, Prod.mk.injEq] at hr
      obtain ⟨rfl, rfl⟩ := hr
      exact h2

theorem r_tryKws3 {ln : Nat} {k1 k2 k3 : Str} {dst : List Nat}
    (h1 : l.matchKw k1 = true → l.advance.matchKw k2 = true → l.advance.advance.matchKw k3 = true →
      RetL (k.run call n ⟨storeAll env dst [.bool true], sv⟩ ⟨l.advance.advance.advance, m, i⟩) I B R)
    (h2 : RetL (k.run call n ⟨storeAll env dst [.bool false], sv⟩ ⟨l, m, i⟩) I B R) :
    RetL ((.prim ln (.tryKws [k1, k2, k3]) dst ;; k).run call n ⟨env, sv⟩ ⟨l, m, i⟩) I B R :=
  ret_prim fun rs l' hr => by
    simp only [Prim.run, Lx.tryKws, Option.some.injEq] at hr
    cases ht : l.takeKws [k1, k2, k3] with
    | none =>
      simp only [ht, Prod.mk.injEq] at hr
      obtain ⟨rfl, rfl⟩ := hr
      exact h2
    | some l2 =>
      simp only [ht, Prod.mk.injEq] at hr
      obtain ⟨rfl, rfl⟩ := hr
      simp only [Lx.takeKws] at ht
      cases hm : l.matchKw k1 <;> simp only [hm, if_true, Bool.false_eq_true, if_false, reduceCtorEq] at ht
      cases hm2 : l.advance.matchKw k2 <;> simp only [hm2, if_true, Bool.false_eq_true, if_false, reduceCtorEq] at ht
      cases hm3 : l.advance.advance.matchKw k3 <;> simp only [hm3, if_true, Bool.false_eq_true, if_false, reduceCtorEq, Option.some.injEq] at ht
      subst ht
      exact h1 hm hm2 hm3

theorem r_loop {body : Stmt Fn} {fr : Frame} (J : Frame → PS → Prop)
    (hb : ∀ fr s, J fr s → RetL (body.run call n fr s) J (fun fr s => RetL (k.run call n fr s) I B R) R) (h : J fr s) :
    RetL ((.loop body ;; k).run call n fr s) I B R := ret_loop J hb h

end

/-! ### Expressions of unknown value -/

theorem no_mk {s : PS} {env : List V} {t : Ty} {es : List Exp} (h : Exp.evalL s env es = none) : (Exp.mk t es).eval s env = none := by
  simp only [Exp.eval, h, Option.map_none]
theorem no_head {s : PS} {env : List V} {e : Exp} {es : List Exp} (h : e.eval s env = none) : Exp.evalL s env (e :: es) = none := by
  simp only [Exp.evalL, h, Option.bind_none]
theorem no_tail {s : PS} {env : List V} {e : Exp} {es : List Exp} (h : Exp.evalL s env es = none) : Exp.evalL s env (e :: es) = none := by
  simp only [Exp.evalL, h, Option.map_none]; cases e.eval s env <;> rfl
theorem no_append {s : PS} {env : List V} {e a : Exp} (h : a.eval s env = none) : (Exp.append e a).eval s env = none := by
  simp only [Exp.eval, h, Option.map_none]; cases e.eval s env <;> rfl

section
variable {n : Nat} {env : List V} {sv : Lx} {s : PS} {R : List V → PS → Prop} {call : Fn → List V → PS → COut}
  {k : Stmt Fn} {I B : Frame → PS → Prop}

theorem r_setA {ln x : Nat} {e : Exp} (p : Exp) (hn : p.eval s env = none → e.eval s env = none)
    (h : ∀ w, p.eval s env = some w → RetL ((.set ln x e ;; k).run call n ⟨env, sv⟩ s) I B R) :
    RetL ((.set ln x e ;; k).run call n ⟨env, sv⟩ s) I B R := by
  cases hp : p.eval s env with
  | some w => exact h w hp
  | none => exact ret_set fun v hv => by rw [hn hp] at hv; cases hv
theorem r_retA {ln : Nat} {es : List Exp} (p : Exp) (hn : p.eval s env = none → Exp.evalL s env es = none)
    (h : ∀ w, p.eval s env = some w → RetL ((Stmt.ret (Fn := Fn) ln es).run call n ⟨env, sv⟩ s) I B R) :
    RetL ((Stmt.ret (Fn := Fn) ln es).run call n ⟨env, sv⟩ s) I B R := by
  cases hp : p.eval s env with
  | some w => exact h w hp
  | none => exact ens_ret fun v hv => by dsimp only at hv; rw [hn hp] at hv; cases hv
theorem r_callA {ln : Nat} {f : Fn} {es : List Exp} {dst : List Nat} (p : Exp) (hn : p.eval s env = none → Exp.evalL s env es = none)
    (h : ∀ w, p.eval s env = some w → RetL ((.call ln f es dst ;; k).run call n ⟨env, sv⟩ s) I B R) :
    RetL ((.call ln f es dst ;; k).run call n ⟨env, sv⟩ s) I B R := by
  cases hp : p.eval s env with
  | some w => exact h w hp
  | none => exact ens_seq (ens_call fun vs rs s' hv => by dsimp only at hv; rw [hn hp] at hv; cases hv)
theorem r_setFA {ln x : Nat} {path : List Nat} {e : Exp} (p : Exp) (hn : p.eval s env = none → e.eval s env = none)
    (h : ∀ w, p.eval s env = some w → RetL ((.setF ln x path e ;; k).run call n ⟨env, sv⟩ s) I B R) :
    RetL ((.setF ln x path e ;; k).run call n ⟨env, sv⟩ s) I B R := by
  cases hp : p.eval s env with
  | some w => exact h w hp
  | none => exact ens_seq (ens_setF fun v u w hv => by dsimp only at hv; rw [hn hp] at hv; cases hv)
theorem r_retErr {ln : Nat} {e : Exp} {x : Str} {es : List Exp} (h : ∀ v, R [v, plainErr x] s) :
    RetL ((Stmt.ret (Fn := Fn) ln [e, .error x es]).run call n ⟨env, sv⟩ s) I B R :=
  ens_ret fun vs hv => by
    simp only [Exp.evalL, Exp.eval, Option.bind_eq_some_iff, Option.map_eq_some_iff] at hv
    obtain ⟨a, _, _, ⟨b, ⟨_, _, rfl⟩, _, h0, rfl⟩, rfl⟩ := hv
    cases h0
    exact h a
theorem r_retErr3 {ln : Nat} {e e' : Exp} {x : Str} {es : List Exp} (h : ∀ v w, R [v, w, plainErr x] s) :
    RetL ((Stmt.ret (Fn := Fn) ln [e, e', .error x es]).run call n ⟨env, sv⟩ s) I B R :=
  ens_ret fun vs hv => by
    simp only [Exp.evalL, Exp.eval, Option.bind_eq_some_iff, Option.map_eq_some_iff] at hv
    obtain ⟨a, _, _, ⟨a', _, _, ⟨b, ⟨_, _, rfl⟩, _, h0, rfl⟩, rfl⟩, rfl⟩ := hv
    cases h0
    exact h a a'
/-- `if c { x = e }` where nothing need be known of the new value -/
theorem r_iteSet {ln ln' x : Nat} {c e : Exp} {v : V} (hx : env[x]? = some v) (h : ∀ w, RetL (k.run call n ⟨env.set x w, sv⟩ s) I B R) :
    RetL ((.ite ln c (.set ln' x e) .skip ;; k).run call n ⟨env, sv⟩ s) I B R := by
  refine ret_iteU (ret_set fun w _ => h w) (ret_skip ?_)
  have := h v
  obtain ⟨h1, rfl⟩ := List.getElem?_eq_some_iff.1 hx
  rwa [List.set_getElem_self] at this
theorem bool_eqStr {a b : Exp} {w : V} (h : (Exp.eqStr a b).eval s env = some w) : ∃ x : Bool, w = .bool x := by
  simp only [Exp.eval, Option.bind_eq_some_iff, Option.map_eq_some_iff] at h
  obtain ⟨_, _, _, _, rfl⟩ := h; exact ⟨_, rfl⟩
theorem bool_eqNat {a b : Exp} {w : V} (h : (Exp.eqNat a b).eval s env = some w) : ∃ x : Bool, w = .bool x := by
  simp only [Exp.eval, Option.bind_eq_some_iff, Option.map_eq_some_iff] at h
  obtain ⟨_, _, _, _, rfl⟩ := h; exact ⟨_, rfl⟩
theorem bool_lt {a b : Exp} {w : V} (h : (Exp.lt a b).eval s env = some w) : ∃ x : Bool, w = .bool x := by
  simp only [Exp.eval, Option.bind_eq_some_iff, Option.map_eq_some_iff] at h
  obtain ⟨_, _, _, _, rfl⟩ := h; exact ⟨_, rfl⟩
theorem bool_equalFold {a b : Exp} {w : V} (h : (Exp.equalFold a b).eval s env = some w) : ∃ x : Bool, w = .bool x := by
  simp only [Exp.eval, Option.bind_eq_some_iff, Option.map_eq_some_iff] at h
  obtain ⟨_, _, _, _, rfl⟩ := h; exact ⟨_, rfl⟩
theorem bool_isUnit {a : Exp} {w : V} (h : (Exp.isUnit a).eval s env = some w) : ∃ x : Bool, w = .bool x := by
  simp only [Exp.eval, Option.map_eq_some_iff] at h
  obtain ⟨_, _, rfl⟩ := h; exact ⟨_, rfl⟩
theorem bool_not {a : Exp} {w : V} (h : (Exp.not a).eval s env = some w) : ∃ x : Bool, w = .bool x := by
  simp only [Exp.eval, Option.map_eq_some_iff] at h
  obtain ⟨_, _, rfl⟩ := h; exact ⟨_, rfl⟩
theorem bool_contains {a b : Exp} {w : V} (h : (Exp.contains a b).eval s env = some w) : ∃ x : Bool, w = .bool x := by
  simp only [Exp.eval, Option.bind_eq_some_iff, Option.map_eq_some_iff] at h
  obtain ⟨_, _, _, _, rfl⟩ := h; exact ⟨_, rfl⟩
theorem bool_matchOneOf {a : Exp} {w : V} (h : (Exp.matchOneOf a).eval s env = some w) : ∃ x : Bool, w = .bool x := by
  simp only [Exp.eval, Option.map_eq_some_iff] at h
  obtain ⟨_, _, rfl⟩ := h; exact ⟨_, rfl⟩
theorem bool_matchKw {a : Exp} {w : V} (h : (Exp.matchKw a).eval s env = some w) : ∃ x : Bool, w = .bool x := by
  simp only [Exp.eval, Option.map_eq_some_iff] at h
  obtain ⟨_, _, rfl⟩ := h; exact ⟨_, rfl⟩
theorem bool_and {a b : Exp} {w : V} (hb : ∀ w, b.eval s env = some w → ∃ x : Bool, w = .bool x) (h : (Exp.and a b).eval s env = some w) :
    ∃ x : Bool, w = .bool x := by
  simp only [Exp.eval, Option.bind_eq_some_iff] at h
  obtain ⟨x, _, h⟩ := h
  split at h
  · exact hb _ h
  · cases h; exact ⟨_, rfl⟩
theorem bool_or {a b : Exp} {w : V} (hb : ∀ w, b.eval s env = some w → ∃ x : Bool, w = .bool x) (h : (Exp.or a b).eval s env = some w) :
    ∃ x : Bool, w = .bool x := by
  simp only [Exp.eval, Option.bind_eq_some_iff] at h
  obtain ⟨x, _, h⟩ := h
  split at h
  · cases h; exact ⟨_, rfl⟩
  · exact hb _ h
theorem bool_matchKinds {es : List Exp} {w : V} (h : (Exp.matchKinds es).eval s env = some w) : ∃ x : Bool, w = .bool x := by
  simp only [Exp.eval, Option.map_eq_some_iff] at h
  obtain ⟨_, _, rfl⟩ := h; exact ⟨_, rfl⟩
theorem bool_isNil {a : Exp} {w : V} (h : (Exp.isNil a).eval s env = some w) : ∃ x : Bool, w = .bool x := by
  simp only [Exp.eval, Option.map_eq_some_iff] at h
  obtain ⟨_, _, rfl⟩ := h; exact ⟨_, rfl⟩
theorem bool_isEOF {w : V} (h : Exp.isEOF.eval s env = some w) : ∃ x : Bool, w = .bool x := by
  simp only [Exp.eval, Option.some.injEq] at h
  subst h; exact ⟨_, rfl⟩
theorem tok_of_fld {e : Exp} {j : Nat} {x : Option Token} {w : V} (h : (Exp.fld e j).eval s env = some w) (he : e.eval s env = some (tokV x)) :
    ∃ t, x = some t := by
  cases x with
  | some t => exact ⟨t, rfl⟩
  | none => simp [Exp.eval, he, tokV, V.field] at h
theorem tok_of_text {e : Exp} {x : Option Token} {w : V} (h : (Exp.tokText e).eval s env = some w) (he : e.eval s env = some (tokV x)) :
    ∃ t, x = some t := by
  cases x with
  | some t => exact ⟨t, rfl⟩
  | none => simp [Exp.eval, he, tokV, V.field] at h
theorem ev_rw {e : Exp} {x b : Bool} (h : e.eval s env = some (.bool x)) (hx : x = b) : e.eval s env = some (.bool b) := hx ▸ h

end

/-! ### What methods return -/

theorem nonNil_ne {v : V} (h : v ≠ .nil) : v.nonNil = true := by cases v <;> simp [V.nonNil] at h ⊢

/-- A value and an error; without error `Q` holds. -/
def Ok2 (Q : V → Lx → Prop) (rs : List V) (l : Lx) : Prop := ∃ v e, rs = [v, e] ∧ (e = .nil → Q v l)

theorem Ok2.ok {Q : V → Lx → Prop} {v : V} {l : Lx} (h : Q v l) : Ok2 Q [v, .nil] l := ⟨v, .nil, rfl, fun _ => h⟩
theorem Ok2.err {Q : V → Lx → Prop} {v e : V} {l : Lx} (h : e ≠ .nil) : Ok2 Q [v, e] l := ⟨v, e, rfl, fun h' => absurd h' h⟩
theorem Ok2.mkErr {Q : V → Lx → Prop} {v : V} {t : Ty} {fs : List V} {l : Lx} : Ok2 Q [v, .mk t fs] l := .err (by simp)
theorem Ok2.kindErr {Q : V → Lx → Prop} {v : V} {l l' : Lx} {k : Str} : Ok2 Q [v, kindErr l' k] l := .err (by simp [Verif.kindErr, N.ParseError])
theorem Ok2.kwErr {Q : V → Lx → Prop} {v : V} {l l' : Lx} {k : Str} : Ok2 Q [v, keywordErr l' k] l := .err (by simp [Verif.keywordErr, N.ParseError])
theorem Ok2.plainErr {Q : V → Lx → Prop} {v : V} {l : Lx} {k : Str} : Ok2 Q [v, plainErr k] l := .err (by simp [Verif.plainErr, N.PlainError])
theorem Ok2.of {Q : V → Lx → Prop} {v e : V} {l : Lx} (h : e = .nil → Q v l) : Ok2 Q [v, e] l := ⟨v, e, rfl, h⟩

/-- Two values and an error; without error `Q` holds. -/
def Ok3 (Q : V → V → Lx → Prop) (rs : List V) (l : Lx) : Prop := ∃ v w e, rs = [v, w, e] ∧ (e = .nil → Q v w l)

theorem Ok3.of {Q : V → V → Lx → Prop} {v w e : V} {l : Lx} (h : e = .nil → Q v w l) : Ok3 Q [v, w, e] l := ⟨v, w, e, rfl, h⟩
theorem Ok3.ok {Q : V → V → Lx → Prop} {v w : V} {l : Lx} (h : Q v w l) : Ok3 Q [v, w, .nil] l := ⟨v, w, .nil, rfl, fun _ => h⟩
theorem Ok3.err {Q : V → V → Lx → Prop} {v w e : V} {l : Lx} (h : e ≠ .nil) : Ok3 Q [v, w, e] l := ⟨v, w, e, rfl, fun h' => absurd h' h⟩
theorem Ok3.mkErr {Q : V → V → Lx → Prop} {v w : V} {t : Ty} {fs : List V} {l : Lx} : Ok3 Q [v, w, .mk t fs] l := .err (by simp)

theorem Ok3.kindErr {Q : V → V → Lx → Prop} {v w : V} {l l' : Lx} {k : Str} : Ok3 Q [v, w, kindErr l' k] l := .err (by simp [Verif.kindErr, N.ParseError])
theorem Ok3.kwErr {Q : V → V → Lx → Prop} {v w : V} {l l' : Lx} {k : Str} : Ok3 Q [v, w, keywordErr l' k] l := .err (by simp [Verif.keywordErr, N.ParseError])
theorem Ok3.plainErr {Q : V → V → Lx → Prop} {v w : V} {l : Lx} {k : Str} : Ok3 Q [v, w, plainErr k] l := .err (by simp [Verif.plainErr, N.PlainError])

/-- An answer about the tokens ahead. -/
def Look (l : Lx) (rs : List V) (l' : Lx) : Prop := ∃ b, rs = [.bool b] ∧ l = l'
theorem Look.of {l : Lx} {b : Bool} : Look l [.bool b] l := ⟨b, rfl, rfl⟩

/-- The same; the answer yes means that a list ends here. -/
def LookC (l : Lx) (rs : List V) (l' : Lx) : Prop := ∃ b : Bool, rs = [.bool b] ∧ l = l' ∧ (b = true → Closes l)
theorem LookC.no {l : Lx} : LookC l [.bool false] l := ⟨false, rfl, rfl, fun h => nomatch h⟩
theorem LookC.of {l : Lx} {b : Bool} (h : b = true → Closes l) : LookC l [.bool b] l := ⟨b, rfl, rfl, h⟩

/-- A method with one result. -/
def Ret1 (Q : V → Lx → Prop) (rs : List V) (l : Lx) : Prop := ∃ v, rs = [v] ∧ Q v l
theorem Ret1.of {Q : V → Lx → Prop} {v : V} {l : Lx} (h : Q v l) : Ret1 Q [v] l := ⟨v, rfl, h⟩

/-- A number computed from the tokens ahead. -/
def LookN (l : Lx) (rs : List V) (l' : Lx) : Prop := ∃ b, rs = [.nat b] ∧ l = l'
theorem LookN.of {l : Lx} {b : Nat} : LookN l [.nat b] l := ⟨b, rfl, rfl⟩

/-- The error of a method without other results. -/
def Ok1 (Q : Lx → Prop) (rs : List V) (l : Lx) : Prop := ∃ e, rs = [e] ∧ (e = .nil → Q l)
theorem Ok1.ok {Q : Lx → Prop} {l : Lx} (h : Q l) : Ok1 Q [.nil] l := ⟨.nil, rfl, fun _ => h⟩
theorem Ok1.err {Q : Lx → Prop} {e : V} {l : Lx} (h : e ≠ .nil) : Ok1 Q [e] l := ⟨e, rfl, fun h' => absurd h' h⟩
theorem Ok1.mkErr {Q : Lx → Prop} {t : Ty} {fs : List V} {l : Lx} : Ok1 Q [.mk t fs] l := .err (by simp)
theorem Ok1.kindErr {Q : Lx → Prop} {l l' : Lx} {k : Str} : Ok1 Q [kindErr l' k] l := .err (by simp [Verif.kindErr, N.ParseError])
theorem Ok1.kwErr {Q : Lx → Prop} {l l' : Lx} {k : Str} : Ok1 Q [keywordErr l' k] l := .err (by simp [Verif.keywordErr, N.ParseError])
theorem Ok1.plainErr {Q : Lx → Prop} {l : Lx} {k : Str} : Ok1 Q [plainErr k] l := .err (by simp [Verif.plainErr, N.PlainError])
theorem Ok1.of {Q : Lx → Prop} {e : V} {l : Lx} (h : e = .nil → Q l) : Ok1 Q [e] l := ⟨e, rfl, h⟩

abbrev P0 := List V → Lx → List V → Lx → Prop
def A0 (Q : Lx → List V → Lx → Prop) : P0 := fun args l rs l' => args = [] → Q l rs l'
def A1 (Q : V → Lx → List V → Lx → Prop) : P0 := fun args l rs l' => ∀ a, args = [a] → Q a l rs l'
def A2 (Q : V → V → Lx → List V → Lx → Prop) : P0 := fun args l rs l' => ∀ a b, args = [a, b] → Q a b l rs l'
def A3 (Q : V → V → V → Lx → List V → Lx → Prop) : P0 := fun args l rs l' => ∀ a b c, args = [a, b, c] → Q a b c l rs l'

end Verif.Echo

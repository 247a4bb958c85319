/-
Rules to reason about the outcome of statements.
-/
import Verif.Relation.Sound
import Verif.Lemmas.Memo
import Verif.Parser.Entry

namespace Verif
open Spec

/-- What holds after a statement, depending on how it ends. -/
structure Post where
  next : Frame → PS → Prop
  brk : Frame → PS → Prop := fun _ _ => True
  cont : Frame → PS → Prop := fun _ _ => True
  ret : List V → PS → Prop

/-- The outcome is as described; nothing is said about panics. -/
def Out.Ens (o : Out) (Q : Post) : Prop := match o with
  | .next fr s => Q.next fr s
  | .brk fr s => Q.brk fr s
  | .cont fr s => Q.cont fr s
  | .ret vs s => Q.ret vs s
  | .panic _ => True
  | .fuel => True

section
variable {call : Fn → List V → PS → COut} {n : Nat} {fr : Frame} {s : PS} {Q : Post}

theorem Out.Ens.mono {o : Out} {Q' : Post} (h : o.Ens Q) (h1 : ∀ fr s, Q.next fr s → Q'.next fr s) (h2 : ∀ fr s, Q.brk fr s → Q'.brk fr s)
    (h3 : ∀ fr s, Q.cont fr s → Q'.cont fr s) (h4 : ∀ vs s, Q.ret vs s → Q'.ret vs s) : o.Ens Q' := by
  cases o <;> first | exact h1 _ _ h | exact h2 _ _ h | exact h3 _ _ h | exact h4 _ _ h | trivial

theorem ens_seq {a b : Stmt Fn} (h : (a.run call n fr s).Ens { Q with next := fun fr s => (b.run call n fr s).Ens Q }) :
    ((a ;; b).run call n fr s).Ens Q := by
  rw [run_seq]
  cases ha : a.run call n fr s <;> rw [ha] at h <;> exact h

theorem ens_skip (h : Q.next fr s) : ((Stmt.skip (Fn := Fn)).run call n fr s).Ens Q := h
theorem ens_brk (h : Q.brk fr s) : ((Stmt.brk (Fn := Fn)).run call n fr s).Ens Q := h
theorem ens_cont (h : Q.cont fr s) : ((Stmt.cont (Fn := Fn)).run call n fr s).Ens Q := h

theorem ens_set {ln x : Nat} {e : Exp} (h : ∀ v, e.eval s fr.env = some v → Q.next { fr with env := fr.env.set x v } s) :
    ((Stmt.set (Fn := Fn) ln x e).run call n fr s).Ens Q := by
  rw [run_set]
  cases he : e.eval s fr.env with
  | none => trivial
  | some v => exact h v he

theorem ens_setF {ln x : Nat} {path : List Nat} {e : Exp} (h : ∀ v u w, e.eval s fr.env = some v → fr.env[x]? = some u → setPath u path v = some w →
    Q.next { fr with env := fr.env.set x w } s) : ((Stmt.setF (Fn := Fn) ln x path e).run call n fr s).Ens Q := by
  rw [run_setF]
  cases he : e.eval s fr.env with
  | none => trivial
  | some v =>
    simp only [onSome]
    cases hu : fr.env[x]? with
    | none => trivial
    | some u =>
      cases hw : setPath u path v with
      | none => simp only [Option.bind_some, hw]; trivial
      | some w => simp only [Option.bind_some, hw]; exact h v u w he hu hw

theorem ens_ite {ln : Nat} {c : Exp} {a b : Stmt Fn} (h : ∀ x, (c.eval s fr.env).bind V.toBool? = some x →
    ((if x then a.run call n fr s else b.run call n fr s)).Ens Q) : ((Stmt.ite ln c a b).run call n fr s).Ens Q := by
  rw [run_ite]
  cases hc : (c.eval s fr.env).bind V.toBool? with
  | none => trivial
  | some x => exact h x hc

theorem ens_ret {ln : Nat} {es : List Exp} (h : ∀ vs, Exp.evalL s fr.env es = some vs → Q.ret vs s) :
    ((Stmt.ret (Fn := Fn) ln es).run call n fr s).Ens Q := by
  rw [run_ret]
  cases he : Exp.evalL s fr.env es with
  | none => trivial
  | some vs => exact h vs he

theorem ens_call {ln : Nat} {f : Fn} {es : List Exp} {dst : List Nat} (h : ∀ vs rs s', Exp.evalL s fr.env es = some vs → call f vs s = .ret rs s' →
    Q.next { fr with env := storeAll fr.env dst rs } s') : ((Stmt.call ln f es dst).run call n fr s).Ens Q := by
  rw [run_call]
  cases he : Exp.evalL s fr.env es with
  | none => trivial
  | some vs =>
    simp only [onSome]
    cases hc : call f vs s with
    | ret rs s' => exact h vs rs s' he hc
    | panic => trivial
    | fuel => trivial

theorem ens_prim {ln : Nat} {q : Prim} {dst : List Nat} (h : ∀ rs l, q.run s fr.env = some (rs, l) →
    Q.next { fr with env := storeAll fr.env dst rs } { s with lx := l }) : ((Stmt.prim (Fn := Fn) ln q dst).run call n fr s).Ens Q := by
  simp only [Stmt.run]
  cases he : q.run s fr.env with
  | none => trivial
  | some v => exact h v.1 v.2 he

theorem ens_save (h : Q.next { fr with saved := s.lx } s) : ((Stmt.save (Fn := Fn)).run call n fr s).Ens Q := h
theorem ens_restore (h : Q.next fr { s with lx := fr.saved }) : ((Stmt.restore (Fn := Fn)).run call n fr s).Ens Q := h
theorem ens_memoAdd {ln : Nat} {e : Exp} (h : ∀ m, (e.eval s fr.env).bind V.toNat? = some m → Q.next fr { s with memo := m :: s.memo }) :
    ((Stmt.memoAdd (Fn := Fn) ln e).run call n fr s).Ens Q := by
  simp only [Stmt.run]
  cases he : (e.eval s fr.env).bind V.toNat? with
  | none => trivial
  | some m => exact h m he

theorem ens_loop {body : Stmt Fn} (I : Frame → PS → Prop)
    (hb : ∀ fr s, I fr s → (body.run call n fr s).Ens { next := I, cont := I, brk := Q.next, ret := Q.ret }) (h : I fr s) :
    ((Stmt.loop body).run call n fr s).Ens Q := by
  have : ∀ k fr s, I fr s → (loopN (body.run call n) k fr s).Ens Q := by
    intro k
    induction k with
    | zero => intro fr s _; trivial
    | succ k ih =>
      intro fr s h
      have := hb fr s h
      unfold loopN
      cases hr : body.run call n fr s <;> rw [hr] at this
      · exact ih _ _ this
      · exact this
      · exact ih _ _ this
      · exact this
      · trivial
      · trivial
  exact this n fr s h

/-- A call of a method. -/
theorem ens_runFn {table : Fn → Func Fn} {f : Fn} {args : List V} {vs : List V} {s' : PS} {R : List V → PS → Prop}
    (h : ((table f).body.run (runFn table n) n ⟨args ++ List.replicate ((table f).locals - args.length) V.nil, s.lx⟩ s).Ens
      { next := fun _ s => R [] s, brk := fun _ s => R [] s, cont := fun _ s => R [] s, ret := R })
    (hr : runFn table (n + 1) f args s = .ret vs s') : R vs s' := by
  simp only [runFn] at hr
  revert hr h
  cases (table f).body.run (runFn table n) n ⟨args ++ List.replicate ((table f).locals - args.length) V.nil, s.lx⟩ s <;>
    intro h hr <;> simp only [COut.ret.injEq, reduceCtorEq] at hr <;> (obtain ⟨rfl, rfl⟩ := hr; exact h)

end

/-- The same however a statement ends, apart from `return`. -/
def Post.all (N : Frame → PS → Prop) (R : List V → PS → Prop) : Post := ⟨N, N, N, R⟩

/-- The lexer is always in a state that can be reached on the input. -/
theorem reach_stmt {call : Fn → List V → PS → COut} {n : Nat} {input : Str}
    (hcall : ∀ f args s vs s', Reach input s.lx → call f args s = .ret vs s' → Reach input s'.lx) :
    ∀ (st : Stmt Fn) (fr : Frame) (s : PS), Reach input s.lx → Reach input fr.saved →
      (st.run call n fr s).Ens (.all (fun fr s => Reach input s.lx ∧ Reach input fr.saved) (fun _ s => Reach input s.lx)) := by
  intro st
  induction st with
  | skip => exact fun fr s h1 h2 => ⟨h1, h2⟩
  | brk => exact fun fr s h1 h2 => ⟨h1, h2⟩
  | cont => exact fun fr s h1 h2 => ⟨h1, h2⟩
  | save => exact fun fr s h1 h2 => ⟨h1, h1⟩
  | restore => exact fun fr s h1 h2 => ⟨h2, h2⟩
  | memoAdd ln e => exact fun fr s h1 h2 => ens_memoAdd fun _ _ => ⟨h1, h2⟩
  | set ln x e => exact fun fr s h1 h2 => ens_set fun _ _ => ⟨h1, h2⟩
  | setF ln x p e => exact fun fr s h1 h2 => ens_setF fun _ _ _ _ _ _ => ⟨h1, h2⟩
  | ret ln es => exact fun fr s h1 h2 => ens_ret fun _ _ => h1
  | call ln f es dst => exact fun fr s h1 h2 => ens_call fun vs rs s' _ hr => ⟨hcall f vs s rs s' h1 hr, h2⟩
  | prim ln q dst => exact fun fr s h1 h2 => ens_prim fun rs l hr => ⟨reach_prim h1 hr, h2⟩
  | seq a b iha ihb =>
    exact fun fr s h1 h2 => ens_seq ((iha fr s h1 h2).mono (fun fr s h => ihb fr s h.1 h.2) (fun _ _ h => h) (fun _ _ h => h) (fun _ _ h => h))
  | ite ln c a b iha ihb =>
    intro fr s h1 h2
    refine ens_ite fun x _ => ?_
    cases x
    · exact ihb fr s h1 h2
    · exact iha fr s h1 h2
  | loop body ih =>
    intro fr s h1 h2
    exact ens_loop (fun fr s => Reach input s.lx ∧ Reach input fr.saved) (fun fr s h => ih fr s h.1 h.2) ⟨h1, h2⟩

theorem reach_runFn {input : Str} : ∀ (n : Nat) (f : Fn) (args : List V) (s : PS) (vs : List V) (s' : PS), Reach input s.lx →
    runFn fnTable n f args s = .ret vs s' → Reach input s'.lx := by
  intro n
  induction n with
  | zero => intro f args s vs s' _ h; simp [runFn] at h
  | succ n ih =>
    intro f args s vs s' hs h
    refine ens_runFn (n := n) (R := fun _ s' => Reach input s'.lx) ?_ h
    exact (reach_stmt ih _ _ s hs hs).mono (fun _ _ h => h.1) (fun _ _ h => h.1) (fun _ _ h => h.1) (fun _ _ h => h)

end Verif

/-
What the lookahead for the next operator returns.
-/
import Verif.Group.Hoare
import Verif.Lemmas.Token
import Verif.Lemmas.Retry
import Verif.Props.Memo
import Verif.Spec.Grouping

namespace Verif.Group
open Verif.Spec

/-! ### The current token -/

/-- The current token as far as operators go: nothing, a keyword, or a token of another kind. -/
inductive Tok where
  | none
  | kw (w : Str)
  | op (k : Str)
deriving DecidableEq

def tok (l : Lx) : Tok := match l.cur with
  | .none => .none
  | some t => if t.kind.toStr = Kind.keyword.toStr then .kw (upper t.str) else .op t.kind.toStr

theorem tok_none {l : Lx} : tok l = .none ↔ l.cur = .none := by
  unfold tok
  cases l.cur with
  | none => simp
  | some t => simp only [reduceCtorEq, iff_false]; split <;> simp

theorem tok_matchKw {l : Lx} {k : Str} : l.matchKw k = decide (tok l = .kw (upper k)) := by
  rw [Bool.eq_iff_iff, An.matchKw_iff, decide_eq_true_iff]
  unfold tok
  cases l.cur with
  | none => simp
  | some t =>
    simp only [Option.some.injEq, exists_eq_left', equalFold, beq_iff_eq]
    split
    · rename_i h; simp [h]
    · rename_i h; simp [h]

theorem tok_matchKinds {l : Lx} {k : Str} (h : (k != Kind.keyword.toStr && k != Kind.ident.toStr && k != Kind.eof.toStr) = true) :
    l.matchKinds [k] = decide (tok l = .op k) := by
  simp only [Bool.and_eq_true, bne_iff_ne, ne_eq] at h
  rw [Bool.eq_iff_iff, decide_eq_true_iff]
  unfold tok
  cases hc : l.cur with
  | none => rw [An.matchKinds_none hc]; simpa [eq_comm] using h.2
  | some t =>
    by_cases hk : t.kind.toStr = Kind.keyword.toStr
    · rw [An.matchKinds_kw hc hk]
      simp only [hk, if_true, reduceCtorEq, iff_false]
      have h1 : ¬ Kind.keyword.toStr = k := fun e => h.1.1 e.symm
      have h2 : ¬ Kind.ident.toStr = k := fun e => h.1.2 e.symm
      simp [h1, h2]
    · rw [An.matchKinds_kind hc hk]
      simp only [hk, if_false, Tok.op.injEq]
      simp

/-- The text of an operator. -/
theorem op_str {input : Str} {l : Lx} (h : Reach input l) {t : Token} (ht : l.cur = some t) {k : Str} (hk : t.kind.toStr = k) (h1 : k.length ≤ 2)
    (h2 : k ≠ b!"->") : t.str = k := by
  obtain ⟨_, _, _, hl⟩ := reach_lexeme h ht
  subst hk
  revert h1 h2
  cases hl with
  | @number n follow flt base p e hn _ => cases flt <;> simp [Kind.toStr]
  | @signed s n follow flt base p e _ _ hn _ => cases flt <;> simp [Kind.toStr]
  | word => simp only; split <;> simp [Kind.toStr]
  | backquoted => simp [Kind.toStr]
  | doublequoted => simp [Kind.toStr]
  | string => simp [Kind.toStr]
  | op2 => simp only [twoByteKind]; split <;> simp [Kind.toStr]
  | op1 => simp [Kind.toStr]

/-! ### Looking at the next token -/

theorem evalB_or {s : PS} {env : List V} {a b : Exp} {x y : Bool} (ha : a.eval s env = some (.bool x)) (hb : b.eval s env = some (.bool y)) :
    (Exp.or a b).eval s env = some (.bool (x || y)) := by
  simp only [Exp.eval, ha, hb, Option.bind_some, V.toBool?]
  cases x <;> rfl

theorem ens_iteB {call : Fn → List V → PS → COut} {n : Nat} {fr : Frame} {s : PS} {Q : Post} {ln : Nat} {c : Exp} {a b : Stmt Fn}
    (ht : (c.eval s fr.env).bind V.toBool? = some true → (a.run call n fr s).Ens Q)
    (hf : (c.eval s fr.env).bind V.toBool? = some false → (b.run call n fr s).Ens Q) : ((Stmt.ite ln c a b).run call n fr s).Ens Q :=
  ens_ite fun x hx => by
    cases x
    · exact hf hx
    · exact ht hx

theorem advance_eof {l : Lx} (h : l.isEOF = true) : l.advance.cur = none := by
  have hr : l.rest = [] := by simpa [Lx.isEOF] using h
  unfold Lx.advance Lx.consume
  simp [hr, skipCommentsLen, skipCommentsF, Lx.skipN]

/-- `peekKeyword`: whether the token after the current one is the keyword. -/
theorem peekKeyword_spec {n : Nat} {k : Str} {s : PS} {vs : List V} {s' : PS} (h : runFn fnTable n .peekKeyword [.str k] s = .ret vs s') :
    ∃ b, vs = [.bool b] ∧ (s'.lx.cur = none ∨ s' = s ∧ (b = true ↔ tok s.lx.advance = .kw (upper k))) := by
  cases n with
  | zero => simp [runFn] at h
  | succ n =>
    refine ens_runFn (n := n) (R := fun vs s' => ∃ b, vs = [.bool b] ∧ (s'.lx.cur = none ∨ s' = s ∧ (b = true ↔ tok s.lx.advance = .kw (upper k)))) ?_ h
    clear h
    have hb : (fnTable .peekKeyword) = Body.peekKeyword := rfl
    rw [hb]
    simp only [Body.peekKeyword]
    refine ens_seq (ens_iteB (fun hc => ens_ret fun vs hvs => ?_) (fun hc => ens_skip ?_))
    · simp only [Exp.evalL, Exp.eval, Option.bind_some, Option.map_some, Option.some.injEq, V.toBool?] at hvs hc
      subst hvs
      refine ⟨false, rfl, .inr ⟨rfl, ?_⟩⟩
      rw [tok_none.2 (advance_eof hc)]
      simp
    · dsimp only
      refine ens_seq (ens_prim fun rs l hp => ?_)
      simp only [Prim.run, Lx.peek, Option.some.injEq] at hp
      dsimp only
      cases hcons : s.lx.consume with
      | err l' =>
        simp only [hcons, Prod.mk.injEq] at hp
        obtain ⟨rfl, rfl⟩ := hp
        refine ens_seq (ens_iteB (fun hc => ens_ret fun vs hvs => ?_) (fun hc => ?_))
        · simp only [Exp.evalL, Exp.eval, Option.bind_some, Option.map_some, Option.some.injEq] at hvs
          subst hvs
          exact ⟨false, rfl, .inl (consume_err_shape hcons).1⟩
        · simp [storeAll, Exp.eval, lexErr, plainErr, N.PlainError, V.nonNil, V.toBool?] at hc
      | ok l' =>
        simp only [hcons, Prod.mk.injEq] at hp
        obtain ⟨rfl, rfl⟩ := hp
        have had : s.lx.advance = l' := by simp [Lx.advance, hcons]
        rw [had]
        refine ens_seq (ens_iteB (fun hc => ens_ret fun vs hvs => ?_) (fun hc => ens_skip (ens_ret fun vs hvs => ?_)))
        · simp only [Exp.evalL, Exp.eval, Option.bind_some, Option.map_some, Option.some.injEq] at hvs
          subst hvs
          refine ⟨false, rfl, .inr ⟨rfl, ?_⟩⟩
          cases ht : l'.cur with
          | none => rw [tok_none.2 ht]; simp
          | some t => simp [storeAll, Exp.eval, V.nonNil, V.toBool?, ht, tokV, Token.toV, N.Token] at hc
        · cases ht : l'.cur with
          | none => simp [storeAll, Exp.eval, V.nonNil, V.toBool?, ht, tokV] at hc
          | some t =>
            have hvs' : vs = [.bool ((t.kind.toStr == b!"<keyword>") && equalFold t.str k)] := by
              cases hx : t.kind.toStr == b!"<keyword>" <;>
              simpa [storeAll, Exp.evalL, Exp.eval, ht, tokV, Token.toV, N.Token, V.field, V.toStr?, V.toBool?, hx, eq_comm] using hvs
            rw [hvs']
            refine ⟨_, rfl, .inr ⟨rfl, ?_⟩⟩
            simp only [tok, ht, Bool.and_eq_true, beq_iff_eq, equalFold]
            by_cases hk : t.kind.toStr = Kind.keyword.toStr
            · simp only [hk, if_true, Tok.kw.injEq]
              simp [Kind.toStr]
            · have hk' : ¬ t.kind.toStr = b!"<keyword>" := hk
              simp only [hk, hk', if_false, false_and, reduceCtorEq]

/-! ### The next operator -/

/-- The power of a keyword. -/
def kwPower (w : Str) : Nat :=
  if w = b!"OR" then 3 else if w = b!"AND" then 4 else if w = b!"IS" then 7
  else if w = b!"BETWEEN" ∨ w = b!"LIKE" ∨ w = b!"ILIKE" ∨ w = b!"REGEXP" then 9 else if w = b!"IN" then 10 else 0

/-- The power of another token. -/
def opPower (k : Str) : Nat :=
  if k = b!"." then 15 else if k = b!"::" then 16
  else if k = b!"=" ∨ k = b!"<" ∨ k = b!"<=" ∨ k = b!">=" ∨ k = b!">" ∨ k = b!"==" ∨ k = b!"!=" ∨ k = b!"<>" then 8
  else if k = b!"||" then 11 else if k = b!"+" ∨ k = b!"-" then 12 else if k = b!"*" ∨ k = b!"/" ∨ k = b!"%" then 13
  else if k = b!"->" then 1 else if k = b!"(" ∨ k = b!"[" then 14 else if k = b!"?" then 2 else 0

/-- The power of `NOT` followed by another token. -/
def notPower (t : Tok) : Nat :=
  if t = .kw b!"IN" then 10 else if t = .kw b!"LIKE" ∨ t = .kw b!"ILIKE" ∨ t = .kw b!"BETWEEN" then 9 else 5

/-- `p` is the power of the token `t` followed by the token `t'`. -/
def tokPower (t t' : Tok) (p : Nat) : Prop := match t with
  | .none => p = 0
  | .kw w => if w = b!"NOT" then p = notPower t' else if w = b!"GLOBAL" then p = 0 ∨ p = 10 else p = kwPower w
  | .op k => p = opPower k

/-- `p` is the power of the current token. -/
def TP (l : Lx) (p : Nat) : Prop := tokPower (tok l) (tok l.advance) p

theorem ev_kw {s : PS} {env : List V} {k : Str} (hk : upper k = k) :
    (Exp.matchKw (.str k)).eval s env = some (.bool (decide (tok s.lx = .kw k))) := by
  simp only [Exp.eval, Option.bind_some, V.toStr?, Option.map_some, tok_matchKw, hk]

theorem ev_kind {s : PS} {env : List V} {k : Str} (h : (k != Kind.keyword.toStr && k != Kind.ident.toStr && k != Kind.eof.toStr) = true) :
    (Exp.matchKinds [.str k]).eval s env = some (.bool (decide (tok s.lx = .op k))) := by
  simp only [Exp.evalL, Exp.eval, Option.bind_some, List.mapM_cons, List.mapM_nil, V.toStr?, Option.map_some]
  simp [tok_matchKinds h]

theorem ens_iteV {call : Fn → List V → PS → COut} {n : Nat} {fr : Frame} {s : PS} {Q : Post} {ln : Nat} {c : Exp} {a b : Stmt Fn} {x : Bool}
    (hc : c.eval s fr.env = some (.bool x)) (ht : x = true → (a.run call n fr s).Ens Q)
    (hf : x = false → (b.run call n fr s).Ens Q) : ((Stmt.ite ln c a b).run call n fr s).Ens Q :=
  ens_ite fun y hy => by
    rw [hc] at hy
    simp only [Option.bind_some, V.toBool?, Option.some.injEq] at hy
    subst hy
    cases x
    · exact hf rfl
    · exact ht rfl

/-- The result of the lookahead. -/
def NextPost (s : PS) (vs : List V) (s' : PS) : Prop :=
  ∃ p, vs = [.nat p] ∧ p ≤ 16 ∧ (s.lx.cur = none → p = 0) ∧ (s'.lx.cur = none ∨ s' = s ∧ TP s.lx p)

theorem nextPost_tp {s : PS} {p : Nat} (hp : p ≤ 16) (h : TP s.lx p) : NextPost s [.nat p] s := by
  refine ⟨p, rfl, hp, fun hn => ?_, .inr ⟨rfl, h⟩⟩
  unfold TP at h
  rw [tok_none.2 hn] at h
  exact h

theorem nextPost_tok {s : PS} {p : Nat} {t : Tok} (hp : p ≤ 16) (h : decide (tok s.lx = t) = true)
    (ht : ∀ t', tokPower t t' p) : NextPost s [.nat p] s := by
  refine nextPost_tp hp ?_
  unfold TP
  rw [of_decide_eq_true h]
  exact ht _

theorem peek_again {n : Nat} {k : Str} {s s1 s2 : PS} {vs : List V} (hk : upper k = k) (h1 : s1.lx.cur = none ∨ s1 = s)
    (h : runFn fnTable n .peekKeyword [.str k] s1 = .ret vs s2) :
    ∃ b, vs = [.bool b] ∧ (s2.lx.cur = none ∨ s2 = s ∧ s1 = s ∧ (b = true ↔ tok s.lx.advance = .kw k)) := by
  obtain ⟨b, rfl, h2⟩ := peekKeyword_spec h
  rw [hk] at h2
  refine ⟨b, rfl, ?_⟩
  rcases h2 with h2 | ⟨rfl, h2⟩
  · exact .inl h2
  · rcases h1 with h1 | rfl
    · exact .inl h1
    · exact .inr ⟨rfl, rfl, h2⟩

theorem getNextPrecedence_spec {n : Nat} {s : PS} {vs : List V} {s' : PS} (h : runFn fnTable n .getNextPrecedence [] s = .ret vs s') :
    NextPost s vs s' := by
  cases n with
  | zero => simp [runFn] at h
  | succ n =>
    refine ens_runFn (n := n) (R := NextPost s) ?_ h
    clear h
    have hb : (fnTable .getNextPrecedence) = Body.getNextPrecedence := rfl
    rw [hb]
    simp only [Body.getNextPrecedence]
    refine ens_iteV (ev_kw (by decide)) (fun h => ?_) (fun n1 => ?_)
    · exact nextPost_tok (by decide) h (fun _ => by simp [tokPower, kwPower, opPower])
    refine ens_iteV (ev_kw (by decide)) (fun h => ?_) (fun n2 => ?_)
    · exact nextPost_tok (by decide) h (fun _ => by simp [tokPower, kwPower, opPower])
    refine ens_iteV (ev_kw (by decide)) (fun h => ?_) (fun n3 => ?_)
    · exact nextPost_tok (by decide) h (fun _ => by simp [tokPower, kwPower, opPower])
    refine ens_iteV (ev_kw (by decide)) (fun h => ?_) (fun n4 => ?_)
    · have ht := of_decide_eq_true h
      have hleaf : ∀ {p : Nat} {s' : PS}, p ≤ 16 → (s'.lx.cur = none ∨ s' = s ∧ p = notPower (tok s.lx.advance)) → NextPost s [.nat p] s' := by
        intro p s' hp hs
        refine ⟨p, rfl, hp, fun hn => absurd (tok_none.2 hn) (by rw [ht]; simp), hs.imp id fun hs => ⟨hs.1, ?_⟩⟩
        unfold TP
        rw [ht]
        exact hs.2
      refine ens_seq (ens_call fun as rs s1 has hr => ?_)
      simp only [Exp.evalL, Exp.eval, Option.bind_some, Option.map_some, Option.some.injEq] at has
      subst has
      obtain ⟨b1, rfl, h1⟩ := peek_again (s := s) (by decide) (.inr rfl) hr
      have h1' : s1.lx.cur = none ∨ s1 = s := h1.imp id (·.1)
      refine ens_iteV (x := b1) rfl (fun hb => ?_) (fun hb => ?_)
      · refine hleaf (by decide) (h1.imp id fun h1 => ⟨h1.1, ?_⟩)
        simp [notPower, h1.2.2.1 hb]
      refine ens_seq (ens_call fun as rs s2 has hr => ?_)
      simp only [Exp.evalL, Exp.eval, Option.bind_some, Option.map_some, Option.some.injEq] at has
      subst has
      obtain ⟨b2, rfl, h2⟩ := peek_again (by decide) h1' hr
      have h2' : s2.lx.cur = none ∨ s2 = s := h2.imp id (·.1)
      refine ens_seq (ens_set fun v hv => ?_)
      simp only [Exp.eval, storeAll, List.nil_append, List.length_nil, List.replicate, List.set, List.getElem?_cons_succ, List.getElem?_cons_zero,
        Option.some.injEq] at hv
      subst hv
      have tail2 : ∀ (v0 v2 v3 v4 v6 : V) (b : Bool) (s3 : PS) (sv : Lx),
          (s3.lx.cur = none ∨ s3 = s ∧ ((b1 = true ↔ tok s.lx.advance = .kw b!"IN") ∧
            (b = true ↔ tok s.lx.advance = .kw b!"LIKE" ∨ tok s.lx.advance = .kw b!"ILIKE"  ∨ tok s.lx.advance = .kw b!"BETWEEN"))) → ∀ v5 : V,
          (Stmt.run (runFn fnTable n) n (.ite 30054 (.var 1) (.ret 30055 [(.nat 9)]) (.ret 30057 [(.nat 5)])) ⟨[v0, .bool b, v2, v3, v4, v5, v6], sv⟩ s3).Ens
            { next := fun _ s' => NextPost s [] s', brk := fun _ s' => NextPost s [] s', cont := fun _ s' => NextPost s [] s', ret := NextPost s } := by
        intro v0 v2 v3 v4 v6 b s3 sv h3 v5
        refine ens_iteV (x := b) rfl (fun hb3 => ?_) (fun hb3 => ?_)
        · refine hleaf (by decide) (h3.imp id fun h3 => ⟨h3.1, ?_⟩)
          rcases h3.2.2.1 hb3 with h | h | h <;> simp [notPower, h]
        · refine hleaf (by decide) (h3.imp id fun h3 => ⟨h3.1, ?_⟩)
          have e1 := h3.2.1
          have e2 := h3.2.2
          simp only [hb, hb3, Bool.false_eq_true, false_iff, not_or] at e1 e2
          simp [notPower, e1, e2]
      have tail1 : ∀ (v0 v1 v3 v4 v6 : V) (b : Bool) (s3 : PS) (sv : Lx),
          (s3.lx.cur = none ∨ s3 = s ∧ ((b1 = true ↔ tok s.lx.advance = .kw b!"IN") ∧
            (b = true ↔ tok s.lx.advance = .kw b!"LIKE" ∨ tok s.lx.advance = .kw b!"ILIKE"))) →
          (Stmt.run (runFn fnTable n) n (.set 30054 1 (.var 2 /-cond-/) ;;
            .ite 30054 (.var 1 /-cond-/)
              .skip
              (.call 30054 .peekKeyword [(.str b!"BETWEEN")] [5] ;;
              .set 30054 1 (.var 5 /-tmp-/)) ;;
            .ite 30054 (.var 1) (.ret 30055 [(.nat 9)]) (.ret 30057 [(.nat 5)])) ⟨[v0, v1, .bool b, v3, v4, .nil, v6], sv⟩ s3).Ens
            { next := fun _ s' => NextPost s [] s', brk := fun _ s' => NextPost s [] s', cont := fun _ s' => NextPost s [] s', ret := NextPost s } := by
        intro v0 v1 v3 v4 v6 b s3 sv h3
        have h3' : s3.lx.cur = none ∨ s3 = s := h3.imp id (·.1)
        refine ens_seq (ens_set fun v hv => ?_)
        simp only [Exp.eval, List.getElem?_cons_succ, List.getElem?_cons_zero, Option.some.injEq] at hv
        subst hv
        refine ens_seq (ens_iteV (x := b) rfl (fun hb3 => ens_skip ?_) (fun hb3 => ens_seq (ens_call fun as rs s4 has hr => ?_)))
        · refine tail2 _ _ _ _ _ b s3 sv (h3.imp id fun h3 => ⟨h3.1, h3.2.1, ?_⟩) _
          have e2 := h3.2.2
          subst hb3
          simp only [true_iff] at e2
          rcases e2 with e2 | e2 <;> simp [e2]
        · simp only [Exp.evalL, Exp.eval, Option.bind_some, Option.map_some, Option.some.injEq] at has
          subst has
          obtain ⟨b4, rfl, h4⟩ := peek_again (by decide) h3' hr
          dsimp only
          refine ens_set fun v hv => ?_
          simp only [Exp.eval, storeAll, List.set, List.getElem?_cons_succ, List.getElem?_cons_zero, Option.some.injEq] at hv
          subst hv
          refine tail2 _ _ _ _ _ b4 s4 sv ?_ _
          rcases h4 with h4 | ⟨rfl, rfl, h4⟩
          · exact .inl h4
          · rcases h3 with h3 | ⟨-, h3, h5⟩
            · exact .inl h3
            · refine .inr ⟨rfl, h3, ?_⟩
              simp only [hb3, Bool.false_eq_true, false_iff, not_or] at h5
              simp [h5, h4]
      refine ens_seq (ens_iteV (x := b2) rfl (fun hb3 => ens_skip ?_) (fun hb3 => ens_seq (ens_call fun as rs s4 has hr => ?_)))
      · refine tail1 _ _ _ _ _ b2 s2 _ ?_
        rcases h2 with h2 | ⟨rfl, rfl, h2⟩
        · exact .inl h2
        · rcases h1 with h1 | ⟨-, -, h1⟩
          · exact .inl h1
          · refine .inr ⟨rfl, h1, ?_⟩
            simp [hb3, h2.1 hb3]
      · simp only [Exp.evalL, Exp.eval, Option.bind_some, Option.map_some, Option.some.injEq] at has
        subst has
        obtain ⟨b4, rfl, h4⟩ := peek_again (by decide) h2' hr
        dsimp only
        refine ens_set fun v hv => ?_
        simp only [Exp.eval, storeAll, List.set, List.nil_append, List.length_nil, List.replicate, List.getElem?_cons_succ, List.getElem?_cons_zero,
          Option.some.injEq] at hv
        subst hv
        refine tail1 _ _ _ _ _ b4 s4 _ ?_
        rcases h4 with h4 | ⟨rfl, rfl, h4⟩
        · exact .inl h4
        · rcases h2 with h2 | ⟨-, rfl, h2⟩
          · exact .inl h2
          · rcases h1 with h1 | ⟨-, -, h1⟩
            · exact .inl h1
            · refine .inr ⟨rfl, h1, ?_⟩
              simp only [hb3, Bool.false_eq_true, false_iff] at h2
              simp [h2, h4]
    refine ens_iteV (ev_kind (by decide)) (fun h => ?_) (fun n5 => ?_)
    · exact nextPost_tok (by decide) h (fun _ => by simp [tokPower, kwPower, opPower])
    refine ens_iteV (ev_kind (by decide)) (fun h => ?_) (fun n6 => ?_)
    · exact nextPost_tok (by decide) h (fun _ => by simp [tokPower, kwPower, opPower])
    refine ens_iteV (evalB_or (evalB_or (evalB_or (evalB_or (evalB_or (evalB_or (evalB_or (ev_kind (by decide)) (ev_kind (by decide))) (ev_kind (by decide)))
      (ev_kind (by decide))) (ev_kind (by decide))) (ev_kind (by decide))) (ev_kind (by decide))) (ev_kind (by decide))) (fun h => ?_) (fun n7 => ?_)
    · simp only [Bool.or_eq_true] at h
      rcases h with ((((((h | h) | h) | h) | h) | h) | h) | h <;> exact nextPost_tok (by decide) h (fun _ => by simp [tokPower, kwPower, opPower])
    refine ens_iteV (ev_kind (by decide)) (fun h => ?_) (fun n8 => ?_)
    · exact nextPost_tok (by decide) h (fun _ => by simp [tokPower, kwPower, opPower])
    refine ens_iteV (evalB_or (ev_kind (by decide)) (ev_kind (by decide))) (fun h => ?_) (fun n9 => ?_)
    · simp only [Bool.or_eq_true] at h
      rcases h with h | h <;> exact nextPost_tok (by decide) h (fun _ => by simp [tokPower, kwPower, opPower])
    refine ens_iteV (evalB_or (evalB_or (ev_kind (by decide)) (ev_kind (by decide))) (ev_kind (by decide))) (fun h => ?_) (fun n10 => ?_)
    · simp only [Bool.or_eq_true] at h
      rcases h with (h | h) | h <;> exact nextPost_tok (by decide) h (fun _ => by simp [tokPower, kwPower, opPower])
    refine ens_iteV (ev_kind (by decide)) (fun h => ?_) (fun n11 => ?_)
    · exact nextPost_tok (by decide) h (fun _ => by simp [tokPower, kwPower, opPower])
    refine ens_iteV (evalB_or (ev_kind (by decide)) (ev_kind (by decide))) (fun h => ?_) (fun n12 => ?_)
    · simp only [Bool.or_eq_true] at h
      rcases h with h | h <;> exact nextPost_tok (by decide) h (fun _ => by simp [tokPower, kwPower, opPower])
    refine ens_iteV (evalB_or (evalB_or (evalB_or (ev_kw (by decide)) (ev_kw (by decide))) (ev_kw (by decide))) (ev_kw (by decide))) (fun h => ?_) (fun n13 => ?_)
    · simp only [Bool.or_eq_true] at h
      rcases h with ((h | h) | h) | h <;> exact nextPost_tok (by decide) h (fun _ => by simp [tokPower, kwPower, opPower])
    refine ens_iteV (ev_kw (by decide)) (fun h => ?_) (fun n14 => ?_)
    · exact nextPost_tok (by decide) h (fun _ => by simp [tokPower, kwPower, opPower])
    refine ens_iteV (ev_kw (by decide)) (fun h => ?_) (fun n15 => ?_)
    · refine ens_seq (ens_call fun as rs s1 has hr => ?_)
      have : s1 = s := C23_lookahead n _ (.inl rfl) _ _ _ _ hr
      subst this
      refine ens_seq (ens_iteB (fun _ => ?_) (fun _ => ens_skip ?_))
      · exact nextPost_tok (by decide) h (fun _ => by simp [tokPower, kwPower, opPower])
      · exact nextPost_tok (by decide) h (fun _ => by simp [tokPower, kwPower, opPower])
    refine ens_iteV (ev_kind (by decide)) (fun h => ?_) (fun n16 => ?_)
    · exact nextPost_tok (by decide) h (fun _ => by simp [tokPower, kwPower, opPower])
    refine nextPost_tp (by decide) ?_
    unfold TP
    simp only [Bool.or_eq_false_iff, decide_eq_false_iff_not] at *
    cases ht : tok s.lx with
    | none => rfl
    | kw w => simp_all [tokPower, kwPower]
    | op k => simp_all [tokPower, opPower]

/-- The next operator has at most the power `q`. -/
def Below (s : PS) (q : Nat) : Prop := ∀ n p s', runFn fnTable n .getNextPrecedence [] s = .ret [.nat p] s' → p ≤ q

theorem below_none {s : PS} (h : s.lx.cur = none) (q : Nat) : Below s q := by
  intro n p s' hr
  obtain ⟨p', hp, -, h0, -⟩ := getNextPrecedence_spec hr
  simp only [List.cons.injEq, V.nat.injEq, and_true] at hp
  rw [hp, h0 h]
  exact Nat.zero_le _

theorem below_16 (s : PS) {q : Nat} (h : 16 ≤ q) : Below s q := by
  intro n p s' hr
  obtain ⟨p', hp, h16, -, -⟩ := getNextPrecedence_spec hr
  simp only [List.cons.injEq, V.nat.injEq, and_true] at hp
  omega

theorem below_mono {s : PS} {p q : Nat} (h : Below s p) (hpq : p ≤ q) : Below s q := fun n r s' hr => Nat.le_trans (h n r s' hr) hpq

/-- Two lookaheads in the same state have the same result. -/
theorem next_unique {n m : Nat} {s : PS} {vs ws : List V} {s1 s2 : PS} (h1 : runFn fnTable n .getNextPrecedence [] s = .ret vs s1)
    (h2 : runFn fnTable m .getNextPrecedence [] s = .ret ws s2) : vs = ws := by
  have e1 := runFn_le (Nat.le_max_left n m) h1 (by simp)
  have e2 := runFn_le (Nat.le_max_right n m) h2 (by simp)
  rw [e1] at e2
  cases e2; rfl

/-- What the lookahead returned is what `Below` speaks about, even though the lookahead may move the lexer
to the end of the tokens. -/
theorem below_next {n : Nat} {s s' : PS} {p q : Nat} (h : runFn fnTable n .getNextPrecedence [] s = .ret [.nat p] s') (hq : p ≤ q) : Below s' q := by
  obtain ⟨p', hp, -, -, hs⟩ := getNextPrecedence_spec h
  rcases hs with hs | ⟨rfl, -⟩
  · exact below_none hs q
  · intro m r s'' hr
    have := next_unique h hr
    simp only [List.cons.injEq, V.nat.injEq, and_true] at this
    omega

theorem below_step {n : Nat} {s s' : PS} {vs : List V} {q : Nat} (h : runFn fnTable n .getNextPrecedence [] s = .ret vs s') (hq : Below s q) : Below s' q := by
  obtain ⟨p, rfl, -, -, hs⟩ := getNextPrecedence_spec h
  exact below_next h (hq _ _ _ h)

theorem next_and {s : PS} (h : s.lx.matchKw b!"AND" = true) : runFn fnTable 1 .getNextPrecedence [] s = .ret [.nat 4] s := by
  have ht : tok s.lx = .kw b!"AND" := by rw [tok_matchKw] at h; exact of_decide_eq_true h
  have h' : s.lx.matchKw b!"OR" = false := by rw [tok_matchKw, ht]; decide
  have hb : (fnTable .getNextPrecedence) = Body.getNextPrecedence := rfl
  simp only [runFn, hb, Body.getNextPrecedence, Stmt.run, Exp.eval, Option.bind_some, V.toStr?, Option.map_some, h, h', V.toBool?, Exp.evalL]

theorem below_and {s : PS} (h : s.lx.matchKw b!"AND" = true) {q : Nat} (hq : Below s q) : 4 ≤ q := hq _ _ _ (next_and h)

end Verif.Group

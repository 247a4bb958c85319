/-
Statements before a `;` do not depend on the text behind it.
-/
import Verif.Semi.Stop

namespace Verif.Semi
open Verif Spec

/-- The two lexers are in step: they have read the same, and will read the same tokens until they arrive at
`p` and `q`. -/
inductive Ahead (p q : Lx) : Lx → Lx → Prop
  | stop : Ahead p q p q
  | step {l m l' m' : Lx} {t : Token} : l.cur = m.cur → l.off = m.off → l.consume = .ok l' → m.consume = .ok m' → l'.cur = some t →
      Ahead p q l' m' → Ahead p q l m

/-- Two lexers at the same `;` with different texts behind it. -/
structure Ends (p q : Lx) : Prop where
  cur : p.cur = q.cur
  off : p.off = q.off
  eof : p.isEOF = q.isEOF
  semi : ¬ NotSemi p

theorem notEOF {l l' : Lx} {t : Token} (h : l.consume = .ok l') (ht : l'.cur = some t) : l.isEOF = false := by
  have := (consume_ok_shape h).2.2 t ht
  cases hr : l.rest with
  | nil =>
    obtain ⟨n, hn, ho, _⟩ := (consume_ok_shape h).1
    rw [hr] at hn
    simp at hn
    omega
  | cons c r => simp [Lx.isEOF, hr]

section
variable {p q : Lx} (hpq : Ends p q)
include hpq

theorem Ahead.cur {l m : Lx} (h : Ahead p q l m) : l.cur = m.cur := by
  cases h with
  | stop => exact hpq.cur
  | step h => exact h

theorem Ahead.off {l m : Lx} (h : Ahead p q l m) : l.off = m.off := by
  cases h with
  | stop => exact hpq.off
  | step _ h => exact h

theorem Ahead.eof {l m : Lx} (h : Ahead p q l m) : l.isEOF = m.isEOF := by
  cases h with
  | stop => exact hpq.eof
  | step _ _ a b c d => rw [notEOF a c, notEOF b ((d.cur hpq).symm.trans c)]

theorem cur_some : ∃ t, p.cur = some t := by
  cases hc : p.cur with
  | none => exact absurd (show NotSemi p by simp only [NotSemi, Lx.curKind, hc]; decide) hpq.semi
  | some t => exact ⟨t, rfl⟩

/-- Behind the first token. -/
def Inner (p q l m : Lx) : Prop := Ahead p q l m ∧ l.cur ≠ none

theorem inner_lock : Lock (Inner p q) where
  cur h := h.1.cur hpq
  off h := h.1.off hpq
  eof h := h.1.eof hpq
  step := by
    rintro l m ⟨h, _⟩ hn
    cases h with
    | stop => exact absurd hn hpq.semi
    | step _ _ a b c d =>
      rw [a, b]
      exact ⟨d, by rw [c]; simp⟩

theorem inner_stmt {l m l' : Lx} {v : V} (h : Inner p q l m) (hs : Stmt1 l v l') : ∃ m', Stmt1 m v m' ∧ Inner p q l' m' := by
  obtain ⟨n, s, hs, rfl⟩ := hs
  have := runFn_twin (inner_lock hpq) all_checked n .parseStmt [.nat l.curPos] ⟨l, [], []⟩ ⟨m, [], []⟩ (by decide) ⟨h, rfl, rfl⟩ (by simp [sig_stmt])
  rw [hs] at this
  have hp : l.curPos = m.curPos := by unfold Lx.curPos; rw [h.1.cur hpq, h.1.off hpq]
  cases hr : runFn retryTable n .parseStmt [.nat l.curPos] ⟨m, [], []⟩ with
  | ret ws s' =>
    rw [hr] at this
    obtain ⟨rfl, h2, _⟩ := this
    exact ⟨s'.lx, ⟨n, s', hp ▸ hr, rfl⟩, h2.lx⟩
  | panic _ => rw [hr] at this; exact this.elim
  | fuel => rw [hr] at this; exact this.elim

theorem Ahead.running (hp : p.isEOF = false) {l m : Lx} (h : Ahead p q l m) : l.isEOF = false := by
  cases h with
  | stop => exact hp
  | step _ _ a _ c _ => exact notEOF a c

/-- The loop passes the `;`, and does the same before it in both texts. -/
theorem stmts_ahead (hp : p.isEOF = false) {l m : Lx} {us : List V} (hA : Ahead p q l m) (h : StmtsAll l us) :
    ∃ vs ws, us = vs ++ ws ∧ Stmts l vs p ∧ Stmts m vs q ∧ StmtsAll p ws := by
  obtain ⟨l1, l2, h, h1, h2⟩ := h
  induction h generalizing m with
  | done =>
    cases hA with
    | stop => exact ⟨[], [], rfl, .done, .done, _, _, .done, h1, h2⟩
    | step _ _ a _ _ d =>
      rw [h1] at a
      cases a
      rw [d.running hpq hp] at h2
      cases h2
  | semi a b c d ih =>
    cases hA with
    | stop => exact ⟨[], _, rfl, .done, .done, _, _, .semi a b c d, h1, h2⟩
    | step _ _ a' e _ f =>
      rw [a] at a'
      cases a'
      obtain ⟨vs, ws, i1, i2, i3, i4⟩ := ih f h1
      exact ⟨vs, ws, i1, .semi a b c i2, .semi e ((f.eof hpq).symm.trans b) (by unfold NotSemi Lx.curKind; rw [← f.cur hpq]; exact c) i3, i4⟩
  | stmt a b c d e ih =>
    cases hA with
    | stop => exact ⟨[], _, rfl, .done, .done, _, _, .stmt a b c d e, h1, h2⟩
    | step _ _ a' e hc f =>
      rw [a] at a'
      cases a'
      obtain ⟨m', j1, j2⟩ := inner_stmt hpq ⟨f, by rw [hc]; simp⟩ d
      obtain ⟨vs, ws, i1, i2, i3, i4⟩ := ih j2.1 h1
      exact ⟨_ :: vs, ws, by rw [i1]; rfl, .stmt a b c d i2,
        .stmt e ((f.eof hpq).symm.trans b) (by unfold NotSemi Lx.curKind; rw [← f.cur hpq]; exact c) j1 i3, i4⟩

end

/-! ### Changing the text behind a `;` -/

theorem semi_lexeme {prev : Option Token} {lex follow : Str} {lead : Nat} {t : Token} (h : Lexeme prev lex follow lead t) (hk : t.kind = .op b!";")
    (follow' : Str) : Lexeme prev lex follow' lead t := by
  cases h with
  | number _ _ => simp only at hk; split at hk <;> simp at hk
  | signed _ _ _ _ => simp only at hk; split at hk <;> simp at hk
  | word _ _ _ => simp only at hk; split at hk <;> simp at hk
  | backquoted _ => simp at hk
  | doublequoted _ => simp at hk
  | string _ _ => simp at hk
  | op2 h =>
    simp only [twoByteOps, List.mem_cons, List.not_mem_nil, or_false] at h
    rcases h with rfl | rfl | rfl | rfl | rfl | rfl | rfl | rfl | rfl <;> simp [twoByteKind] at hk
  | op1 h1 h2 h3 h4 h5 h6 h7 h8 h9 h10 =>
    simp only [Kind.op.injEq, List.cons.injEq, and_true] at hk
    subst hk
    refine .op1 h1 h2 h3 h4 h5 h6 h7 h8 (fun d t _ => ⟨?_, ?_, ?_⟩) ?_
    · simp [twoByteOps]
    · simp
    · simp
    · simp

theorem run_same {l l' : Lx} {ts : List Token} (h : Run l ts l') (he : l'.off = l.off) : l = l' := by
  cases h with
  | nil => rfl
  | tok a b c =>
    have h1 := (consume_ok_shape a).2.2 _ b
    obtain ⟨x, _, h2⟩ := run_shape c
    omega

/-- The text behind the `;` may be anything. -/
theorem ahead_swap {p l : Lx} {t : Token} {ts : List Token} (hc : p.cur = some t) (hk : t.kind = .op b!";") (c : Str) (h : Run l ts p) :
    ∀ x, l.rest = x ++ p.rest → Ahead p { p with rest := c } l { l with rest := x ++ c } := by
  induction h with
  | @nil l =>
    intro x hx
    have : x = [] := by simpa using hx
    subst this
    exact .stop
  | @tok l l1 u ts p a b r ih =>
    intro x hx
    obtain ⟨y, hy, ho⟩ := run_shape r
    have hi := ih hc y hy
    refine .step (l' := l1) (m' := { l1 with rest := y ++ c }) (t := u) rfl rfl a ?_ b hi
    rw [consume_ok_iff] at a ⊢
    cases a with
    | eof => simp at b
    | @token off g lex follow prev lead t' hg hl h1 h2 =>
      simp only [Option.some.injEq] at b
      subst b
      simp only at hy ho hx
      have hx' : x = g ++ (lex ++ y) := by
        rw [hy, ← List.append_assoc, ← List.append_assoc] at hx
        have := List.append_cancel_right hx
        rw [← this]; simp
      subst hx'
      simp only [List.append_assoc]
      refine .token hg ?_ h1 h2
      cases y with
      | nil =>
        have : (⟨off + g.length + lex.length, follow, some t'⟩ : Lx) = p := run_same r (by simpa using ho)
        rw [← this] at hc
        simp only [Option.some.injEq] at hc
        subst hc
        exact semi_lexeme hl hk _
      | cons d y => exact lexeme_follow hl (Or.inl (by rw [hy]; rfl))

theorem semi_not {p : Lx} {t : Token} (hc : p.cur = some t) (hk : t.kind = .op b!";") : ¬ NotSemi p := by
  simp [NotSemi, Lx.curKind, hc, hk, Kind.toStr]

/-- The loop only looks at what it reads. -/
theorem stmtsAll_consume {l m : Lx} (h : l.consume = m.consume) {vs : List V} : StmtsAll l vs ↔ StmtsAll m vs := by
  suffices H : ∀ {l m : Lx}, l.consume = m.consume → StmtsAll l vs → StmtsAll m vs from ⟨H h, H h.symm⟩
  rintro l m h ⟨l1, l2, h0, h1, h2⟩
  cases h0 with
  | done => exact ⟨m, l2, .done, h ▸ h1, h2⟩
  | semi a b c d => exact ⟨l1, l2, .semi (h ▸ a) b c d, h1, h2⟩
  | stmt a b c d e => exact ⟨l1, l2, .stmt (h ▸ a) b c d e, h1, h2⟩

end Verif.Semi

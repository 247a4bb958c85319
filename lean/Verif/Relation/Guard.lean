/-
A parser that makes explicit that some positions are not 0.

Of the positions in the trees three are compared with 0 (see `fieldTy`).  They are always those of a token
behind the first one.  `guardTable` takes the maximum of each with 1; this makes no difference.
-/
import Verif.Spec.Memo
import Verif.Lemmas.Memo

namespace Verif
open Spec

/-- `max(e, 1)` -/
def Exp.atLeast1 (e : Exp) : Exp := .add (.sub e (.nat 1)) (.nat 1)

/-- The positions of the keyword `INTERVAL` (parser/parser_column.go:785), of the parenthesis of a dictionary argument
(parser/parser_table.go:2343), of the end of a window frame (parser/parser_query.go:880) and of the right parenthesis
of a window (parser/parser_query.go:919) are at least 1. -/
def Stmt.guard {Fn : Type} : Stmt Fn → Stmt Fn
  | .seq a b => .seq a.guard b.guard
  | .set ln x e => .set ln x (if ln = 30785 ∨ ln = 42343 ∨ ln = 20880 ∨ ln = 20919 then e.atLeast1 else e)
  | .ite ln c a b => .ite ln c a.guard b.guard
  | s => s

/-- The methods with these changes (parser/parser_*.go). -/
def guardTable (f : Fn) : Func Fn := match f with
  | .parseInterval | .parseDictionaryArgExpr | .parseFrameDirectionWithEnd | .parseWindowCondition =>
    { retryTable f with body := (retryTable f).body.guard }
  | f => retryTable f

/-! ### Tokens behind the first one -/

/-- The keyword INTERVAL or a parenthesis. -/
def Lx.startsWrong (l : Lx) : Bool := l.matchKw b!"INTERVAL" || l.matchKinds [b!"("] || l.matchKinds [b!")"]

/-- A text does not begin with INTERVAL or a parenthesis. -/
def BeginsWell (input : Str) : Prop := ∀ l, (Lx.new input).consume = .ok l → l.startsWrong = false

theorem step_endp {l l' : Lx} (h : l.consume = .ok l') : ∀ t, l'.cur = some t → 0 < t.endp := by
  rw [consume_ok_iff] at h
  cases h with
  | eof => simp
  | @token off g lex follow prev lead t hg hl hp he =>
    intro t' ht; simp at ht; subst ht
    have h1 := lexeme_pos hl
    cases lexeme_covers hl with
    | plain => omega
    | quoted => omega

theorem reach_endp {input : Str} {l : Lx} (h : Reach input l) : 0 < l.curEnd := by
  cases h with
  | start => simp [Lx.curEnd, Lx.new]
  | @ok l0 _ _ h =>
    simp only [Lx.curEnd]
    cases hc : l.cur with
    | none => simp
    | some t => exact step_endp h t hc
  | err _ h => simp [Lx.curEnd, (consume_err_shape h).1]

theorem reach_zero {input : Str} {l : Lx} (h : Reach input l) : (l.off = 0 → l = Lx.new input ∨ l.rest = []) ∧
    (∀ t, l.cur = some t → t.pos = 0 → (Lx.new input).consume = .ok l) := by
  induction h with
  | start => exact ⟨fun _ => Or.inl rfl, by simp [Lx.new]⟩
  | @ok l l' _ h ih =>
    obtain ⟨⟨n, hn, h1, h2⟩, h3, h4⟩ := consume_ok_shape h
    constructor
    · intro h0
      cases hc : l'.cur with
      | none => exact Or.inr (h3 hc)
      | some t => have := h4 t hc; omega
    · intro t hc h0
      have := h4 t hc
      rcases ih.1 (by omega) with e | e
      · rw [← e]; exact h
      · have : n = 0 := by simpa [e] using hn
        omega
  | @err l l' _ h ih =>
    obtain ⟨h1, n, hn, h2, h3⟩ := consume_err_shape h
    constructor
    · intro h0
      obtain rfl : n = 0 := by omega
      rcases ih.1 (by omega) with e | e
      · left
        rw [e] at h2 h3
        obtain ⟨o, r, c⟩ := l'
        simp only at h1 h2 h3
        subst h1 h2 h3
        rfl
      · right; rw [h3, e]; rfl
    · intro t hc; rw [h1] at hc; cases hc

theorem startsWrong_cur {l : Lx} (h : l.startsWrong = true) : ∃ t, l.cur = some t := by
  cases hc : l.cur with
  | some t => exact ⟨t, rfl⟩
  | none =>
    have e : ∀ ks, l.matchKinds ks = ks.contains Kind.eof.toStr := by
      intro ks
      have hk : l.curKind = Kind.eof.toStr := by simp [Lx.curKind, hc]
      simp only [Lx.matchKinds, hk]
      have : (Kind.eof.toStr != Kind.keyword.toStr) = true := by decide
      simp only [this]
      split <;> simp_all
    simp only [Lx.startsWrong, Lx.matchKw, e, Bool.or_eq_true, Bool.and_eq_true] at h
    rcases h with (⟨h, _⟩ | h) | h <;> exact absurd h (by decide)

theorem reach_pos {input : Str} (hb : BeginsWell input) {l : Lx} (h : Reach input l) (hw : l.startsWrong = true) : 0 < l.curPos := by
  obtain ⟨t, hc⟩ := startsWrong_cur hw
  simp only [Lx.curPos, hc]
  refine Nat.pos_of_ne_zero fun h0 => ?_
  have := hb l ((reach_zero h).2 t hc h0)
  rw [hw] at this
  cases this

/-! ### The same runs -/

section
variable {input : Str} {call call' : Fn → List V → PS → COut} {n : Nat}

/-- The state belongs to the text. -/
def RFrame (input : Str) (fr : Frame) (s : PS) : Prop := Reach input fr.saved ∧ Reach input s.lx

/-- The states after a statement belong to the text. -/
def Out.Reached (input : Str) : Out → Prop
  | .next fr s | .brk fr s | .cont fr s => RFrame input fr s
  | .ret _ s => Reach input s.lx
  | _ => True

/-- The same for a call. -/
def COut.Reached (input : Str) : COut → Prop
  | .ret _ s => Reach input s.lx
  | _ => True

/-- The statements do the same. -/
def Eqv (input : Str) (call call' : Fn → List V → PS → COut) (n : Nat) (a b : Stmt Fn) : Prop :=
  ∀ fr s, RFrame input fr s → a.run call n fr s = b.run call' n fr s ∧ (a.run call n fr s).Reached input

theorem eqv_seq {a b c d : Stmt Fn} (h1 : Eqv input call call' n a b) (h2 : Eqv input call call' n c d) :
    Eqv input call call' n (.seq a c) (.seq b d) := by
  intro fr s h
  obtain ⟨e, hr⟩ := h1 fr s h
  simp only [Stmt.run]
  rw [← e]
  cases hc : a.run call n fr s with
  | next fr1 s1 => rw [hc] at hr; exact h2 fr1 s1 hr
  | _ => rw [hc] at hr; exact ⟨rfl, hr⟩

theorem eqv_ite {ln : Nat} {c : Exp} {a b a' b' : Stmt Fn}
    (h1 : ∀ fr s, RFrame input fr s → (c.eval s fr.env).bind V.toBool? = some true →
      a.run call n fr s = a'.run call' n fr s ∧ (a.run call n fr s).Reached input)
    (h2 : Eqv input call call' n b b') : Eqv input call call' n (.ite ln c a b) (.ite ln c a' b') := by
  intro fr s h
  simp only [Stmt.run]
  rcases hc : (c.eval s fr.env).bind V.toBool? with _ | _ | _
  · exact ⟨rfl, trivial⟩
  · exact h2 fr s h
  · exact h1 fr s h hc

theorem eqv_loopN {a b : Stmt Fn} (h : Eqv input call call' n a b) : ∀ k fr s, RFrame input fr s →
    loopN (a.run call n) k fr s = loopN (b.run call' n) k fr s ∧ (loopN (a.run call n) k fr s).Reached input
  | 0, _, _, _ => ⟨rfl, trivial⟩
  | k + 1, fr, s, hf => by
    obtain ⟨e, hr⟩ := h fr s hf
    simp only [loopN]
    rw [← e]
    cases hc : a.run call n fr s with
    | next fr1 s1 => rw [hc] at hr; exact eqv_loopN h k fr1 s1 hr
    | cont fr1 s1 => rw [hc] at hr; exact eqv_loopN h k fr1 s1 hr
    | _ => rw [hc] at hr; exact ⟨rfl, hr⟩

variable (hcall : ∀ f vs s, Reach input s.lx → call f vs s = call' f vs s ∧ (call f vs s).Reached input)
include hcall

theorem eqv_refl : ∀ a : Stmt Fn, Eqv input call call' n a a
  | .skip | .brk | .cont => fun _ _ h => ⟨rfl, h⟩
  | .seq a b => eqv_seq (eqv_refl a) (eqv_refl b)
  | .set ln x e => by
    intro fr s h
    simp only [Stmt.run]
    cases e.eval s fr.env with
    | none => exact ⟨trivial, trivial⟩
    | some v => exact ⟨trivial, h⟩
  | .setF ln x path e => by
    intro fr s h
    simp only [Stmt.run]
    cases e.eval s fr.env with
    | none => exact ⟨trivial, trivial⟩
    | some v =>
      simp only []
      cases fr.env[x]?.bind (fun w => setPath w path v) with
      | none => exact ⟨trivial, trivial⟩
      | some v => exact ⟨trivial, h⟩
  | .ite ln c a b => eqv_ite (fun fr s h _ => eqv_refl a fr s h) (eqv_refl b)
  | .loop b => fun fr s h => by
    simp only [Stmt.run]
    exact eqv_loopN (eqv_refl b) n fr s h
  | .ret ln es => by
    intro fr s h
    simp only [Stmt.run]
    cases Exp.evalL s fr.env es with
    | none => exact ⟨trivial, trivial⟩
    | some v => exact ⟨trivial, h.2⟩
  | .call ln f args dst => by
    intro fr s h
    simp only [Stmt.run]
    cases Exp.evalL s fr.env args with
    | none => exact ⟨rfl, trivial⟩
    | some vs =>
      simp only []
      obtain ⟨e, hr⟩ := hcall f vs s h.2
      rw [← e]
      cases hc : call f vs s with
      | ret rs s' => rw [hc] at hr; exact ⟨rfl, h.1, hr⟩
      | _ => exact ⟨rfl, trivial⟩
  | .prim ln p dst => by
    intro fr s h
    simp only [Stmt.run]
    cases hp : p.run s fr.env with
    | none => exact ⟨trivial, trivial⟩
    | some v => exact ⟨trivial, h.1, reach_prim h.2 hp⟩
  | .save => fun _ _ h => ⟨rfl, h.2, h.2⟩
  | .restore => fun _ _ h => ⟨rfl, h.1, h.1⟩
  | .memoAdd ln e => by
    intro fr s h
    simp only [Stmt.run]
    cases (e.eval s fr.env).bind V.toNat? with
    | none => exact ⟨trivial, trivial⟩
    | some m => exact ⟨trivial, h⟩

omit hcall in
theorem atLeast1_eval {e : Exp} {s : PS} {env : List V} {m : Nat} (h : e.eval s env = some (.nat m)) (hm : 0 < m) :
    e.atLeast1.eval s env = e.eval s env := by
  simp only [Exp.atLeast1, Exp.eval, h, Option.bind_some, V.toNat?, Option.map_some]
  rw [Nat.sub_add_cancel hm]

theorem eqv_at {a b : Stmt Fn} {fr : Frame} {s : PS} (hf : RFrame input fr s) (h : a.run call n fr s = b.run call n fr s) :
    a.run call n fr s = b.run call' n fr s ∧ (a.run call n fr s).Reached input := by
  rw [h]
  exact eqv_refl hcall (n := n) b fr s hf

omit hcall in
theorem set_eq {ln x : Nat} {e e' : Exp} {fr : Frame} {s : PS} (h : e'.eval s fr.env = e.eval s fr.env) :
    Stmt.run call n (.set ln x e) fr s = Stmt.run call n (.set ln x e') fr s := by
  simp only [Stmt.run, h]

omit hcall in
theorem seq_eq {a a' b : Stmt Fn} {fr : Frame} {s : PS} (h : a.run call n fr s = a'.run call n fr s) :
    Stmt.run call n (.seq a b) fr s = Stmt.run call n (.seq a' b) fr s := by
  simp only [Stmt.run, h]

/-- A statement that does the same as one that is put in its place. -/
theorem eqv_of {a b : Stmt Fn} (h : ∀ fr s, RFrame input fr s → a.run call n fr s = b.run call n fr s) : Eqv input call call' n a b := by
  intro fr s hf
  have := eqv_refl hcall (n := n) b fr s hf
  rw [h fr s hf]
  exact this

theorem interval_eqv (hb : BeginsWell input) : Eqv input call call' n (retryTable .parseInterval).body (guardTable .parseInterval).body := by
  refine eqv_seq (eqv_refl hcall _) (eqv_seq (eqv_ite ?_ (eqv_refl hcall _)) (eqv_refl hcall _))
  intro fr s hf _
  by_cases hm : s.lx.matchKw b!"INTERVAL" = true
  · exact eqv_at hcall hf (seq_eq (set_eq (atLeast1_eval (e := .pos) rfl (reach_pos hb hf.2 (by simp [Lx.startsWrong, hm])))))
  · refine eqv_at hcall hf ?_
    simp only [Stmt.run, Exp.eval, Prim.run, Stmt.guard, Exp.atLeast1, Option.bind_some, V.toNat?, Option.map_some, V.toStr?, Stmt.noMemo,
      hm, Bool.not_false, ite_true, storeAll, true_or, List.getElem?_set_self', Exp.evalL]
    by_cases hl : 2 < fr.env.length
    · simp [hl, V.nonNil, V.toBool?, keywordErr, N.ParseError]
    · simp [hl, storeAll]

theorem dictArg_eqv (hb : BeginsWell input) :
    Eqv input call call' n (retryTable .parseDictionaryArgExpr).body (guardTable .parseDictionaryArgExpr).body := by
  refine eqv_seq (eqv_refl hcall _) (eqv_seq (eqv_refl hcall _) (eqv_seq (eqv_ite ?_ (eqv_refl hcall _)) (eqv_refl hcall _)))
  intro fr s hf hc
  have hm : s.lx.matchKinds [b!"("] = true := by
    simpa [Exp.eval, Exp.evalL, V.toStr?, V.toBool?] using hc
  have hp : 0 < s.lx.curPos := reach_pos hb hf.2 (by simp [Lx.startsWrong, hm])
  exact eqv_at hcall hf (seq_eq (set_eq (atLeast1_eval (e := .pos) rfl hp)))

theorem frameEnd_eqv : Eqv input call call' n (retryTable .parseFrameDirectionWithEnd).body
    (guardTable .parseFrameDirectionWithEnd).body := by
  refine eqv_seq (eqv_refl hcall _) (eqv_seq (eqv_of hcall ?_) (eqv_refl hcall _))
  intro fr s hf
  exact set_eq (atLeast1_eval (e := .end_) rfl (reach_endp hf.2))

theorem window_eqv (hb : BeginsWell input) : Eqv input call call' n (retryTable .parseWindowCondition).body (guardTable .parseWindowCondition).body := by
  refine eqv_seq (eqv_refl hcall _) (eqv_seq (eqv_refl hcall _) (eqv_seq (eqv_refl hcall _) (eqv_seq (eqv_refl hcall _)
    (eqv_seq (eqv_refl hcall _) (eqv_seq (eqv_refl hcall _) (eqv_seq (eqv_refl hcall _) (eqv_seq (eqv_refl hcall _)
    (eqv_seq (eqv_refl hcall _) (eqv_seq (eqv_refl hcall _) (eqv_seq (eqv_refl hcall _) (eqv_of hcall ?_)))))))))))
  intro fr s hf
  by_cases hm : s.lx.matchKinds [b!")"] = true
  · exact seq_eq (set_eq (atLeast1_eval (e := .pos) rfl (reach_pos hb hf.2 (by simp [Lx.startsWrong, hm]))))
  · simp only [Stmt.run, Exp.eval, Prim.run, Stmt.guard, Exp.atLeast1, Option.bind_some, V.toNat?, Option.map_some, V.toStr?, Stmt.noMemo,
      Lx.tryKind, hm, or_true, ite_true, storeAll, List.getElem?_set_self']
    by_cases hl : 10 < fr.env.length
    · simp [hl, V.nonNil, V.toBool?, kindErr, N.ParseError, Exp.evalL, Exp.eval, storeAll]
    · simp [hl, storeAll]

end

/-- The changes make no difference. -/
theorem guard_runs {input : Str} (hb : BeginsWell input) : ∀ n f vs s, Reach input s.lx →
    runFn retryTable n f vs s = runFn guardTable n f vs s ∧ (runFn retryTable n f vs s).Reached input
  | 0, _, _, _, _ => ⟨rfl, trivial⟩
  | n + 1, f, vs, s, h => by
    have ih := guard_runs hb n
    have hbody : Eqv input (runFn retryTable n) (runFn guardTable n) n (retryTable f).body (guardTable f).body := by
      by_cases h1 : f = .parseInterval
      · subst h1; exact interval_eqv ih hb
      by_cases h2 : f = .parseDictionaryArgExpr
      · subst h2; exact dictArg_eqv ih hb
      by_cases h3 : f = .parseFrameDirectionWithEnd
      · subst h3; exact frameEnd_eqv ih
      by_cases h4 : f = .parseWindowCondition
      · subst h4; exact window_eqv ih hb
      have : guardTable f = retryTable f := by
        cases f <;> first | rfl | (exact absurd rfl ‹_›)
      rw [this]
      exact eqv_refl ih _
    have hl : (guardTable f).locals = (retryTable f).locals := by
      simp only [guardTable]
      split <;> rfl
    obtain ⟨e, hr⟩ := hbody { env := vs ++ List.replicate ((retryTable f).locals - vs.length) V.nil, saved := s.lx } s ⟨h, h⟩
    simp only [runFn]
    rw [hl, ← e]
    cases hc : Stmt.run (runFn retryTable n) n (retryTable f).body
        { env := vs ++ List.replicate ((retryTable f).locals - vs.length) V.nil, saved := s.lx } s with
    | ret v s' => rw [hc] at hr; exact ⟨rfl, hr⟩
    | next fr s' => rw [hc] at hr; exact ⟨rfl, hr.2⟩
    | brk fr s' => rw [hc] at hr; exact ⟨rfl, hr.2⟩
    | cont fr s' => rw [hc] at hr; exact ⟨rfl, hr.2⟩
    | _ => exact ⟨rfl, trivial⟩

end Verif

/-
What the analysis says about the lexer is true.
-/
import Verif.Analysis.Sound.Ends

namespace Verif.An
open List (Forall₂)
open Spec

/-- Every token of the lexer has these properties. -/
def TokOK (t : Token) : Prop :=
  t.kind.toStr ≠ Kind.eof.toStr ∧
  (t.kind.toStr = Kind.ident.toStr ∨ t.kind.toStr = Kind.string.toStr ∨ t.str ≠ [])

theorem number_ne {s : Str} {f : Bool} {b : Nat} (h : Number s f b) : s ≠ [] := by
  obtain ⟨c, t, rfl, _⟩ := number_starts h; simp

theorem lexeme_ok {prev : Option Token} {lex follow : Str} {lead : Nat} {t : Token}
    (h : Lexeme prev lex follow lead t) : TokOK t := by
  cases h with
  | @number n follow flt base p e hn _ =>
    refine ⟨?_, Or.inr (Or.inr (number_ne hn))⟩
    cases flt <;> simp [Kind.toStr]
  | @signed s n follow flt base p e _ _ hn _ =>
    refine ⟨?_, Or.inr (Or.inr (by simp))⟩
    cases flt <;> simp [Kind.toStr]
  | word => refine ⟨?_, Or.inr (Or.inr (by simp))⟩; simp only; split <;> simp [Kind.toStr]
  | backquoted => exact ⟨by simp [Kind.toStr], Or.inl rfl⟩
  | doublequoted => exact ⟨by simp [Kind.toStr], Or.inl rfl⟩
  | string => exact ⟨by simp [Kind.toStr], Or.inr (Or.inl rfl)⟩
  | @op2 s follow p e h =>
    obtain ⟨c, d, rfl⟩ := twoByteOps_len h
    refine ⟨?_, Or.inr (Or.inr (by simp))⟩
    simp only [twoByteKind]; split <;> simp [Kind.toStr]
  | op1 => exact ⟨by simp [Kind.toStr], Or.inr (Or.inr (by simp))⟩

/-- The invariant of the lexer. -/
def LInv (input : Str) (l : Lx) : Prop := l.Inv input ∧ ∀ t, l.cur = some t → TokOK t

variable {input : Str}

theorem linv_new : LInv input (Lx.new input) :=
  ⟨⟨by simp [Lx.new], by simp [Lx.new], by simp [Lx.new]⟩, by simp [Lx.new]⟩

theorem linv_step {l l' : Lx} (hi : LInv input l) (h : Step l l') : LInv input l' := by
  refine ⟨inv_step hi.1 h, ?_⟩
  cases h with
  | eof => simp
  | token _ hl => intro t ht; simp at ht; subst ht; exact lexeme_ok hl

theorem linv_ok {l l' : Lx} (hi : LInv input l) (h : l.consume = .ok l') : LInv input l' :=
  linv_step hi ((consume_ok_iff _ _).1 h)

theorem linv_err {l l' : Lx} (hi : LInv input l) (h : l.consume = .err l') : LInv input l' :=
  ⟨inv_err hi.1 h, by simp [(consume_err_shape h).1]⟩

theorem LInv.rest_len {l : Lx} (h : LInv input l) : l.rest.length + l.off = input.length := by
  have h1 := h.1.1
  have := congrArg List.length h.1.2.1
  simp at this; omega

theorem linv_advance {l : Lx} (hi : LInv input l) : LInv input l.advance := by
  unfold Lx.advance
  split
  · rename_i h; exact linv_ok hi h
  · rename_i h; exact linv_err hi h

theorem LInv.curPos_le {l : Lx} (h : LInv input l) : l.curPos ≤ input.length := by
  unfold Lx.curPos
  split
  · exact h.1.1
  · rename_i t ht
    have := h.1.2.2 t ht; have := h.1.1; omega

theorem LInv.endp_le {l : Lx} (h : LInv input l) {t : Token} (ht : l.cur = some t) : t.pos ≤ t.endp ∧ t.endp ≤ input.length := by
  have := h.1.2.2 t ht; have := h.1.1; omega

theorem LInv.str_len {l : Lx} (h : LInv input l) {t : Token} (ht : l.cur = some t) : t.pos + t.str.length ≤ input.length := by
  have h1 := h.1.2.2 t ht
  have := congrArg List.length h1.2.2
  simp at this
  have := h.1.1
  omega

/-! ### Progress -/

/-- How much is left: unread text, and whether there is a current token. -/
def mu (l : Lx) : Nat := 2 * l.rest.length + (if l.cur.isSome then 1 else 0)

theorem mu_le {l : Lx} (h : LInv input l) : mu l ≤ 2 * input.length + 1 := by
  have := h.rest_len
  unfold mu; split <;> omega

theorem mu_ok_tok {l l' : Lx} (hi : LInv input l) (h : l.consume = .ok l') {t : Token} (ht : l'.cur = some t) : mu l' < mu l := by
  have h1 := (consume_ok_shape h).2.2 t ht
  have h2 := hi.rest_len
  have h3 := (linv_ok hi h).rest_len
  unfold mu
  simp only [ht, Option.isSome_some, if_true]
  split <;> omega

theorem mu_ok_none {l l' : Lx} (h : l.consume = .ok l') (ht : l'.cur = none) : mu l' = 0 := by
  have := (consume_ok_shape h).2.1 ht
  simp [mu, ht, this]

theorem mu_err {l l' : Lx} (h : l.consume = .err l') : mu l' ≤ 2 * l.rest.length := by
  obtain ⟨h1, n, h2, _, h3⟩ := consume_err_shape h
  simp only [mu, h1, h3, List.length_drop]; simp; omega

theorem mu_some {l : Lx} {t : Token} (h : l.cur = some t) : mu l = 2 * l.rest.length + 1 := by simp [mu, h]

theorem mu_advance {l : Lx} (hi : LInv input l) : mu l.advance ≤ mu l := by
  unfold Lx.advance
  split
  · rename_i l' h
    cases ht : l'.cur with
    | none => rw [mu_ok_none h ht]; omega
    | some t => exact Nat.le_of_lt (mu_ok_tok hi h ht)
  · rename_i h
    have := mu_err h
    have h2 : 2 * l.rest.length ≤ mu l := by unfold mu; omega
    omega

theorem mu_advance_tok {l : Lx} (hi : LInv input l) {t : Token} (ht : l.cur = some t) : mu l.advance < mu l := by
  rw [mu_some ht]
  unfold Lx.advance
  split
  · rename_i l' h
    cases ht' : l'.cur with
    | none => rw [mu_ok_none h ht']; omega
    | some t' => have := mu_ok_tok hi h ht'; rw [mu_some ht] at this; exact this
  · rename_i h
    have := mu_err h; omega

/-! ### The current token -/

/-- What a `Tk` says about a token. -/
def Tk.sem (t : Token) : Tk → Prop
  | .any => True
  | .kw s => t.kind.toStr = Kind.keyword.toStr ∧ upper t.str = upper s
  | .kind s => t.kind.toStr = s ∧ s ≠ Kind.keyword.toStr

/-- What a `CurS` says about the lexer. -/
def CurS.sem (input : Str) (l : Lx) : CurS → Prop
  | .any => True
  | .tok m k => ∃ t, l.cur = some t ∧ t.pos + m ≤ input.length ∧ k.sem t
  | .none => l.cur = Option.none
  | .eof => l.cur = Option.none ∧ l.rest = []

theorem curS_le_sound {c d : CurS} (h : c.le d = true) {l : Lx} (hc : c.sem input l) : d.sem input l := by
  unfold CurS.le at h
  split at h
  · trivial
  · rw [Bool.and_eq_true] at h
    obtain ⟨t, h1, h2, h3⟩ := hc
    simp only [decide_eq_true_eq, Bool.or_eq_true, beq_iff_eq] at h
    refine ⟨t, h1, by omega, ?_⟩
    rcases h.2 with rfl | rfl
    · trivial
    · exact h3
  · exact hc
  · exact hc.1
  · exact hc
  · simp at h

theorem curS_lub_sound {c d : CurS} {l : Lx} (h : c.sem input l ∨ d.sem input l) : (c.lub d).sem input l := by
  unfold CurS.lub
  split
  · rename_i hl; exact h.elim (curS_le_sound hl) id
  split
  · rename_i hl; exact h.elim id (curS_le_sound hl)
  split
  · rename_i m k m' k' _ _
    rcases h with ⟨t, h1, h2, h3⟩ | ⟨t, h1, h2, h3⟩
    · refine ⟨t, h1, by omega, ?_⟩
      split
      · exact h3
      · trivial
    · refine ⟨t, h1, by omega, ?_⟩
      split
      · rename_i e; rw [e]; exact h3
      · trivial
  · trivial

/-- What a `Mv` says about the lexer, compared to `h`. -/
def Mv.sem (l h : Lx) : Mv → Prop
  | .eq => l = h
  | .lt => mu l < mu h
  | .le => mu l ≤ mu h
  | .un => True

theorem mv_cmp_sound {a b : Mv} (h : a.cmp b = true) {l g : Lx} (hm : a.sem l g) : b.sem l g := by
  unfold Mv.cmp at h
  split at h
  · trivial
  · exact hm
  · simp only [Mv.sem] at hm; subst hm; exact Nat.le_refl _
  · exact hm
  · exact Nat.le_of_lt hm
  · exact hm
  · simp at h

theorem mv_lub_sound {a b : Mv} {l g : Lx} (h : a.sem l g ∨ b.sem l g) : (a.lub b).sem l g := by
  unfold Mv.lub
  split
  · rename_i hl; exact h.elim (mv_cmp_sound hl) id
  split
  · rename_i hl; exact h.elim id (mv_cmp_sound hl)
  split
  · rcases h with h | h
    · simp only [Mv.sem] at h; subst h; exact Nat.le_refl _
    · exact Nat.le_of_lt h
  · rcases h with h | h
    · exact Nat.le_of_lt h
    · simp only [Mv.sem] at h; subst h; exact Nat.le_refl _
  · trivial

theorem mv_strict {a : Mv} {l g l' : Lx} (h : a.sem l g) (hs : mu l' < mu l) : a.strict.sem l' g := by
  cases a <;> simp only [Mv.strict, Mv.sem] at *
  · subst h; exact hs
  · omega
  · omega

theorem mv_weak {a : Mv} {l g l' : Lx} (h : a.sem l g) (hs : mu l' ≤ mu l) : a.weak.sem l' g := by
  cases a <;> simp only [Mv.weak, Mv.sem] at *
  · subst h; exact hs
  · omega
  · omega

theorem mv_after {a m : Mv} {l g l' : Lx} (h : a.sem l g) (hm : m.sem l' l) : (a.after m).sem l' g := by
  cases m with
  | eq => simp only [Mv.sem] at hm; subst hm; exact h
  | lt => exact mv_strict h hm
  | le => exact mv_weak h hm
  | un => trivial

/-! ### Tokens as values -/

/-- What the table has to say about tokens: at most that the positions are in the input. -/
def tokNeed (need : Ty → List PNeed) : Prop := ∀ nd ∈ need .Token, nd = .bound 0 0 ∨ nd = .bound 1 0

variable {need : Ty → List PNeed} {lx : Option Lx}

theorem tok_fields {l : Lx} (hi : LInv input l) {t : Token} (ht : l.cur = some t) {m : Nat} (hm : t.pos + m ≤ input.length) :
    FieldsSem need input [.nat (some (-(m : Int))), .nat (some 0), .str true, .str false, .nat none, .nat none]
      [.nat t.pos, .nat t.endp, .str t.kind.toStr, .str t.str, .nat t.base, .nat t.quote] := by
  have he := hi.endp_le ht
  refine .cons ⟨_, rfl, ?_⟩ (.cons ⟨_, rfl, ?_⟩ (.cons ⟨_, rfl, fun _ => (hi.2 t ht).1⟩ (.cons ⟨_, rfl, by simp⟩
    (.cons ⟨_, rfl, ?_⟩ (.cons ⟨_, rfl, ?_⟩ .nil)))))
  · intro j hj; simp at hj; omega
  · intro j hj; simp at hj; omega
  · intro j hj; simp at hj
  · intro j hj; simp at hj

theorem tok_good (hn : tokNeed need) {t : Token} (h1 : t.pos ≤ input.length) (h2 : t.endp ≤ input.length) :
    Good need input.length t.toV (.ptr .Token) := by
  refine good_ptr.2 (Or.inr ⟨_, rfl, ?_, ?_⟩)
  · simp [GoodF, Good, schema]
  · intro nd hm
    rcases hn nd hm with rfl | rfl
    · exact ⟨t.pos, rfl, by intro j hj; simp at hj; omega⟩
    · exact ⟨t.endp, rfl, by intro j hj; simp at hj; omega⟩

theorem tokV_good (hn : tokNeed need) {l : Lx} (hi : LInv input l) :
    (AV.ty (.ptr .Token) false .top .top).sem need input lx (tokV l.cur) := by
  cases ht : l.cur with
  | none => exact sem_nil_ty rfl
  | some t =>
    have := hi.endp_le ht
    exact ⟨tok_good hn (by omega) (by omega), by simp, allIn_top, allIn_top⟩

theorem resolve_av_sound (hn : tokNeed need) {c : CurS} {l : Lx} (hi : LInv input l) (hc : c.sem input l) {a : AV} {v : V}
    (hv : a.sem need input (some l) v) : (a.resolve c).sem need input none v := by
  cases a with
  | curTok =>
    obtain ⟨l', hl, rfl⟩ := hv
    simp at hl; subst hl
    simp only [AV.resolve]
    cases c with
    | any => exact tokV_good (lx := Option.none) hn hi
    | none => simp only [CurS.sem] at hc; rw [hc]; rfl
    | eof => rw [hc.1]; rfl
    | tok m k =>
      obtain ⟨t, ht, hm, _⟩ := hc
      rw [ht]
      exact ⟨_, rfl, tok_fields hi ht hm, PB.res_top, PB.res_top⟩
  | curPos =>
    obtain ⟨l', hl, rfl⟩ := hv
    simp at hl; subst hl
    have hp := hi.curPos_le
    simp only [AV.resolve]
    split
    · obtain ⟨t, ht, hm, _⟩ := hc
      refine ⟨_, rfl, ?_⟩
      intro j hj; simp at hj
      simp [Lx.curPos, ht]; omega
    · refine ⟨_, rfl, ?_⟩
      intro j hj; simp at hj; omega
  | curKind =>
    obtain ⟨l', hl, rfl⟩ := hv
    simp at hl; subst hl
    simp only [AV.resolve]
    split
    · obtain ⟨t, ht, hm, _⟩ := hc
      refine ⟨_, rfl, fun _ => ?_⟩
      simp [Lx.curKind, ht]; exact (hi.2 t ht).1
    · exact ⟨_, rfl, by simp⟩
  | _ => exact hv

theorem resolve_sound (hn : tokNeed need) {c : CurS} {l : Lx} (hi : LInv input l) (hc : c.sem input l) {x : XV} {v : V}
    (hv : x.sem need input (some l) v) : (x.resolve c).sem need input none v := by
  cases x with
  | v a => exact resolve_av_sound hn hi hc hv
  | obj => exact hv

/-! ### Tests of the current token -/

theorem curKind_eq {l : Lx} {t : Token} (h : l.cur = some t) : l.curKind = t.kind.toStr := by simp [Lx.curKind, h]
theorem curString_eq {l : Lx} {t : Token} (h : l.cur = some t) : l.curString = t.str := by simp [Lx.curString, h]
theorem curKind_none {l : Lx} (h : l.cur = none) : l.curKind = Kind.eof.toStr := by simp [Lx.curKind, h]

theorem matchKinds_none {l : Lx} (h : l.cur = none) (ks : List Str) : l.matchKinds ks = ks.contains Kind.eof.toStr := by
  simp only [Lx.matchKinds, curKind_none h]
  split
  · rename_i hc; exact hc.symm
  · rename_i hc
    have : (Kind.eof.toStr != Kind.keyword.toStr) = true := by decide
    rw [if_pos this]; simp only [Bool.not_eq_true] at hc; exact hc.symm

theorem matchKw_none {l : Lx} (h : l.cur = none) (k : Str) : l.matchKw k = false := by
  simp only [Lx.matchKw, matchKinds_none h]; rfl

theorem matchKinds_kind {l : Lx} {t : Token} (h : l.cur = some t) (hk : t.kind.toStr ≠ Kind.keyword.toStr) (ks : List Str) :
    l.matchKinds ks = ks.contains t.kind.toStr := by
  simp only [Lx.matchKinds, curKind_eq h]
  split
  · rename_i hc; exact hc.symm
  · rename_i hc
    have : (t.kind.toStr != Kind.keyword.toStr) = true := by simpa using hk
    rw [if_pos this]; simp only [Bool.not_eq_true] at hc; exact hc.symm

theorem matchKinds_kw {l : Lx} {t : Token} (h : l.cur = some t) (hk : t.kind.toStr = Kind.keyword.toStr) (ks : List Str) :
    l.matchKinds ks = (ks.contains Kind.keyword.toStr || (ks.contains Kind.ident.toStr && !isReserved (upper t.str))) := by
  simp only [Lx.matchKinds, curKind_eq h, hk, curString_eq h]
  split
  · rename_i hc; rw [hc]; rfl
  · rename_i hc
    simp only [Bool.not_eq_true] at hc
    rw [hc]
    simp

theorem matchKinds_eof {l : Lx} {ks : List Str} (h : l.matchKinds ks = true) (he : ks.contains Kind.eof.toStr = false) :
    ∃ t, l.cur = some t := by
  cases hc : l.cur with
  | none => rw [matchKinds_none hc, he] at h; simp at h
  | some t => exact ⟨t, rfl⟩

theorem matchKw_iff {l : Lx} {k : Str} : l.matchKw k = true ↔
    ∃ t, l.cur = some t ∧ t.kind.toStr = Kind.keyword.toStr ∧ upper t.str = upper k := by
  cases hc : l.cur with
  | none => rw [matchKw_none hc]; simp
  | some t =>
    simp only [Lx.matchKw, curString_eq hc, equalFold]
    by_cases hk : t.kind.toStr = Kind.keyword.toStr
    · rw [matchKinds_kw hc hk]; simp [hk]
    · rw [matchKinds_kind hc hk]
      have : [Kind.keyword.toStr].contains t.kind.toStr = false := by simp [hk]
      rw [this]
      simp [hk]

theorem upper_length (s : Str) : (upper s).length = s.length := by simp [upper]

theorem kinds_len {l : Lx} (hi : LInv input l) {t : Token} (ht : l.cur = some t) {ks : List Str} (h : l.matchKinds ks = true) :
    t.pos + kindsLen ks ≤ input.length := by
  have hl := hi.str_len ht
  unfold kindsLen
  split
  · omega
  · rename_i hc
    simp only [Bool.or_eq_true, not_or, Bool.not_eq_true] at hc
    have hne : t.str ≠ [] := by
      rcases (hi.2 t ht).2 with hk | hk | hk
      · rw [matchKinds_kind ht (by rw [hk]; decide), hk, hc.1] at h; simp at h
      · rw [matchKinds_kind ht (by rw [hk]; decide), hk, hc.2] at h; simp at h
      · exact hk
    have : 1 ≤ t.str.length := by cases hs : t.str with
      | nil => exact absurd hs hne
      | cons a b => simp
    omega

theorem kinds_tk {l : Lx} {t : Token} (ht : l.cur = some t) {ks : List Str} (h : l.matchKinds ks = true) :
    (kindsTk ks).sem t := by
  unfold kindsTk
  split
  · rename_i s
    split
    · trivial
    · rename_i hs
      simp only [Bool.or_eq_true, beq_iff_eq, not_or] at hs
      by_cases hk : t.kind.toStr = Kind.keyword.toStr
      · rw [matchKinds_kw ht hk] at h
        simp at h
        rcases h with h | h
        · exact absurd h.symm hs.2
        · exact absurd h.1.symm hs.1
      · rw [matchKinds_kind ht hk] at h
        simp at h
        exact ⟨h, hs.2⟩
  · trivial

theorem minLen_le {ks : List Str} {s : Str} (h : s ∈ ks) : minLen ks ≤ s.length := by
  induction ks with
  | nil => simp at h
  | cons a l ih =>
    cases l with
    | nil => simp at h; subst h; exact Nat.le_refl _
    | cons b l =>
      simp only [minLen]
      rcases List.mem_cons.1 h with rfl | h
      · exact Nat.min_le_left _ _
      · exact Nat.le_trans (Nat.min_le_right _ _) (ih h)

end Verif.An

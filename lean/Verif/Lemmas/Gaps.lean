/- Helper lemmas: white space and comments. -/
import Verif.Spec.Lexical

namespace Verif
open Spec

theorem isSpace1_iff (c : Nat) : isSpace1 c = true ↔ (9 ≤ c ∧ c ≤ 13) ∨ c = 32 := by
  simp [isSpace1]

theorem white_isSpace1 {c : Nat} (h : isSpace1 c = true) : White [c] := by
  rw [isSpace1_iff] at h
  have : c = 9 ∨ c = 10 ∨ c = 11 ∨ c = 12 ∨ c = 13 ∨ c = 32 := by omega
  refine ⟨c, ?_, ?_⟩
  · simp [spaceCodePoints]; omega
  · simp [utf8]; omega

theorem white_isSpace2 {c d : Nat} (h : isSpace2 c d = true) : White [c, d] := by
  simp [isSpace2] at h
  obtain ⟨rfl, rfl | rfl⟩ := h
  · exact ⟨0x85, by decide, by decide⟩
  · exact ⟨0xA0, by decide, by decide⟩

theorem white_isSpace3 {c d e : Nat} (h : isSpace3 c d e = true) : White [c, d, e] := by
  simp [isSpace3] at h
  rcases h with ((⟨⟨rfl, rfl⟩, rfl⟩ | ⟨⟨rfl, rfl⟩, h⟩) | ⟨⟨rfl, rfl⟩, rfl⟩) | ⟨⟨rfl, rfl⟩, rfl⟩
  · exact ⟨0x1680, by decide, by decide⟩
  · have : e = 0x80 ∨ e = 0x81 ∨ e = 0x82 ∨ e = 0x83 ∨ e = 0x84 ∨ e = 0x85 ∨ e = 0x86 ∨ e = 0x87 ∨
      e = 0x88 ∨ e = 0x89 ∨ e = 0x8A ∨ e = 0xA8 ∨ e = 0xA9 ∨ e = 0xAF := by omega
    rcases this with rfl | rfl | rfl | rfl | rfl | rfl | rfl | rfl | rfl | rfl | rfl | rfl | rfl | rfl
    · exact ⟨0x2000, by decide, by decide⟩
    · exact ⟨0x2001, by decide, by decide⟩
    · exact ⟨0x2002, by decide, by decide⟩
    · exact ⟨0x2003, by decide, by decide⟩
    · exact ⟨0x2004, by decide, by decide⟩
    · exact ⟨0x2005, by decide, by decide⟩
    · exact ⟨0x2006, by decide, by decide⟩
    · exact ⟨0x2007, by decide, by decide⟩
    · exact ⟨0x2008, by decide, by decide⟩
    · exact ⟨0x2009, by decide, by decide⟩
    · exact ⟨0x200A, by decide, by decide⟩
    · exact ⟨0x2028, by decide, by decide⟩
    · exact ⟨0x2029, by decide, by decide⟩
    · exact ⟨0x202F, by decide, by decide⟩
  · exact ⟨0x205F, by decide, by decide⟩
  · exact ⟨0x3000, by decide, by decide⟩

theorem spaceLen_1 {c : Nat} {t : Str} (h : isSpace1 c = true) :
    spaceLen (c :: t) = 1 + spaceLen t := by
  rw [spaceLen.eq_def]; simp [h]

theorem spaceLen_2 {c d : Nat} {t : Str} (h : isSpace1 c = false) (h' : isSpace2 c d = true) :
    spaceLen (c :: d :: t) = 2 + spaceLen t := by
  rw [spaceLen.eq_def]; simp [h, h']

theorem spaceLen_3 {c d e : Nat} {t : Str} (h : isSpace1 c = false) (h' : isSpace2 c d = false)
    (h'' : isSpace3 c d e = true) : spaceLen (c :: d :: e :: t) = 3 + spaceLen t := by
  rw [spaceLen.eq_def]; simp [h, h', h'']

/-- Every white-space character is skipped as a whole, whatever follows. -/
theorem spaceLen_white {w : Str} (hw : White w) (r : Str) :
    spaceLen (w ++ r) = w.length + spaceLen r := by
  obtain ⟨cp, hcp, rfl⟩ := hw
  simp only [spaceCodePoints, List.mem_cons, List.not_mem_nil, or_false] at hcp
  rcases hcp with rfl | rfl | rfl | rfl | rfl | rfl | rfl | rfl | rfl | rfl | rfl | rfl | rfl | rfl |
    rfl | rfl | rfl | rfl | rfl | rfl | rfl | rfl | rfl | rfl | rfl <;>
  first
  | exact spaceLen_1 (by decide)
  | exact spaceLen_2 (by decide) (by decide)
  | exact spaceLen_3 (by decide) (by decide) (by decide)

theorem white_ne_nil {w : Str} (hw : White w) : 1 ≤ w.length := by
  obtain ⟨cp, _, rfl⟩ := hw
  unfold utf8; split
  · simp
  · split <;> simp

/-- What `skipSpace` skips is a sequence of white-space characters. -/
theorem spaceLen_spec (r : Str) :
    spaceLen r ≤ r.length ∧ (∀ g, Gap g → Gap (r.take (spaceLen r) ++ g)) ∧
      spaceLen (r.drop (spaceLen r)) = 0 := by
  induction r using spaceLen.induct with
  | case1 => simp [spaceLen]
  | case2 c t h ih =>
    obtain ⟨h1, h2, h3⟩ := ih
    rw [spaceLen_1 h]
    refine ⟨by simp; omega, fun g hg => ?_, ?_⟩
    · rw [Nat.add_comm, List.take_succ_cons]
      simpa using Gap.white (white_isSpace1 h) (h2 g hg)
    · rw [Nat.add_comm, List.drop_succ_cons]; exact h3
  | case3 c h => simp [spaceLen, h]
  | case4 c h d t2 h' ih =>
    obtain ⟨h1, h2, h3⟩ := ih
    rw [spaceLen_2 (by simpa using h) h']
    refine ⟨by simp; omega, fun g hg => ?_, ?_⟩
    · rw [Nat.add_comm, List.take_succ_cons, List.take_succ_cons]
      simpa using Gap.white (white_isSpace2 h') (h2 g hg)
    · rw [Nat.add_comm, List.drop_succ_cons, List.drop_succ_cons]; exact h3
  | case5 c h d h' => simp [spaceLen, h, h']
  | case6 c h d h' e t3 h'' ih =>
    obtain ⟨h1, h2, h3⟩ := ih
    rw [spaceLen_3 (by simpa using h) (by simpa using h') h'']
    refine ⟨by simp; omega, fun g hg => ?_, ?_⟩
    · rw [Nat.add_comm, List.take_succ_cons, List.take_succ_cons, List.take_succ_cons]
      simpa using Gap.white (white_isSpace3 h'') (h2 g hg)
    · rw [Nat.add_comm, List.drop_succ_cons, List.drop_succ_cons, List.drop_succ_cons]; exact h3
  | case7 c h d h' e t3 h'' => simp [spaceLen, h, h', h'']

theorem spaceLen_le (r : Str) : spaceLen r ≤ r.length := (spaceLen_spec r).1

/-! comments -/

theorem lineCommentLen_oneLine {b : Str} (hb : OneLine b) (nl : Nat) (r : Str)
    (hnl : nl = 10 ∨ nl = 13) : lineCommentLen (b ++ nl :: r) = b.length + 1 := by
  induction b with
  | nil => rcases hnl with rfl | rfl <;> simp [lineCommentLen]
  | cons c t ih =>
    have hc := hb c (by simp)
    simp only [List.cons_append, lineCommentLen, List.length_cons]
    rw [if_neg (by simp; omega), ih (fun d hd => hb d (by simp [hd]))]; omega

theorem lineCommentLen_end {b : Str} (hb : OneLine b) : lineCommentLen b = b.length := by
  induction b with
  | nil => simp [lineCommentLen]
  | cons c t ih =>
    have hc := hb c (by simp)
    simp only [lineCommentLen, List.length_cons]
    rw [if_neg (by simp; omega), ih (fun d hd => hb d (by simp [hd]))]; omega

theorem lineCommentLen_spec (r : Str) :
    (∃ b nl r', OneLine b ∧ (nl = 10 ∨ nl = 13) ∧ r = b ++ nl :: r' ∧
      lineCommentLen r = b.length + 1) ∨
    (OneLine r ∧ lineCommentLen r = r.length) := by
  induction r with
  | nil => right; simp [OneLine, lineCommentLen]
  | cons c t ih =>
    by_cases hc : c = 13 ∨ c = 10
    · left
      exact ⟨[], c, t, by simp [OneLine], by omega, by simp, by
        simp only [lineCommentLen]; rw [if_pos (by simp; omega)]; rfl⟩
    · have hc' : (c == 13 || c == 10) = false := by simp; omega
      rcases ih with ⟨b, nl, r', hb, hnl, rfl, hl⟩ | ⟨ho, hl⟩
      · left
        refine ⟨c :: b, nl, r', ?_, hnl, by simp, ?_⟩
        · intro d hd; rcases List.mem_cons.1 hd with rfl | hd
          · omega
          · exact hb d hd
        · simp only [lineCommentLen, hc', List.length_cons, hl]; simp; omega
      · right
        refine ⟨?_, ?_⟩
        · intro d hd; rcases List.mem_cons.1 hd with rfl | hd
          · omega
          · exact ho d hd
        · simp only [lineCommentLen, hc', List.length_cons, hl]; simp; omega

theorem lineCommentLen_le (r : Str) : lineCommentLen r ≤ r.length := by
  rcases lineCommentLen_spec r with ⟨b, nl, r', _, _, rfl, h⟩ | ⟨_, h⟩
  · rw [h]; simp
  · omega

theorem infix_cons_iff (c : Nat) (t : Str) :
    b!"*/" <:+: (c :: t) ↔ (c = 42 ∧ t.head? = some 47) ∨ b!"*/" <:+: t := by
  rw [List.infix_cons_iff]
  constructor
  · rintro (h | h)
    · left
      obtain ⟨r, hr⟩ := h
      cases t with
      | nil => simp at hr
      | cons d t => simp at hr; simp [← hr.1, ← hr.2.1]
    · exact Or.inr h
  · rintro (⟨rfl, h⟩ | h)
    · left
      cases t with
      | nil => simp at h
      | cons d t => simp at h; subst h; exact ⟨t, rfl⟩
    · exact Or.inr h

theorem blockCommentLen_of {b : Str} (hb : ¬ b!"*/" <:+: b) (r : Str) :
    blockCommentLen (b ++ (b!"*/" ++ r)) = some (b.length + 2) := by
  induction b with
  | nil => simp [blockCommentLen]
  | cons c t ih =>
    rw [infix_cons_iff] at hb
    have h1 : ¬ (c = 42 ∧ t.head? = some 47) := fun h => hb (Or.inl h)
    have h2 := ih (fun h => hb (Or.inr h))
    have h3 : ¬ ((c == 42 && (t ++ (b!"*/" ++ r)).head? == some 47) = true) := by
      simp only [Bool.and_eq_true, beq_iff_eq]
      rintro ⟨rfl, h⟩
      cases t with
      | nil => simp at h
      | cons d t => simp at h; exact h1 ⟨rfl, by simp [h]⟩
    rw [List.cons_append, blockCommentLen, if_neg h3, h2]; simp

theorem blockCommentLen_some {r : Str} {n : Nat} (h : blockCommentLen r = some n) :
    ∃ b r', ¬ b!"*/" <:+: b ∧ r = b ++ (b!"*/" ++ r') ∧ n = b.length + 2 := by
  induction r generalizing n with
  | nil => simp [blockCommentLen] at h
  | cons c t ih =>
    simp only [blockCommentLen] at h
    split at h
    · next hc =>
      simp at hc
      obtain ⟨rfl, hd⟩ := hc
      cases t with
      | nil => simp at hd
      | cons d t =>
        simp at hd h; subst hd; subst h
        exact ⟨[], t, by simp, by simp, by simp⟩
    · next hc =>
      simp at hc
      cases hb : blockCommentLen t with
      | none => simp [hb] at h
      | some m =>
        simp [hb] at h
        obtain ⟨b, r', h1, h2, h3⟩ := ih hb
        subst h2
        refine ⟨c :: b, r', ?_, by simp, by simp; omega⟩
        rw [infix_cons_iff]
        rintro (⟨rfl, hh⟩ | hh)
        · apply hc rfl
          cases b with
          | nil => simp at hh
          | cons d b => simpa using hh
        · exact h1 hh

theorem blockCommentLen_none {r : Str} (h : blockCommentLen r = none) : ¬ b!"*/" <:+: r := by
  induction r with
  | nil => simp
  | cons c t ih =>
    simp only [blockCommentLen] at h
    split at h
    · simp at h
    · next hc =>
      simp at hc h
      rw [infix_cons_iff]
      rintro (⟨rfl, hh⟩ | hh)
      · exact hc rfl hh
      · exact ih h hh

/-- No white space and no comment starts here. -/
def NoGap (x : Str) : Prop :=
  spaceLen x = 0 ∧ ¬ b!"--" <+: x ∧ ¬ b!"/*" <+: x

theorem prefix2_iff (a b : Nat) (c : Nat) (t : Str) :
    [a, b] <+: (c :: t) ↔ c = a ∧ t.head? = some b := by
  constructor
  · rintro ⟨r, hr⟩
    simp at hr
    obtain ⟨rfl, rfl⟩ := hr
    simp
  · rintro ⟨rfl, h⟩
    cases t with
    | nil => simp at h
    | cons d t => simp at h; subst h; exact ⟨t, rfl⟩

/-- One unfolding of the comment skipper. -/
theorem skipCommentsF_white (f : Nat) {w : Str} (hw : White w) (y : Str) :
    skipCommentsF (f + 1) (w ++ y) =
      (w.length + (skipCommentsF (f + 1) y).1, (skipCommentsF (f + 1) y).2) := by
  have h0 := spaceLen_white hw y
  have hd : ∀ k, (w ++ y).drop (w.length + k) = y.drop k := by
    intro k; rw [List.drop_append]; simp [Nat.add_sub_cancel_left]
  simp only [skipCommentsF, h0, hd]
  cases hy : y.drop (spaceLen y) with
  | nil => rfl
  | cons c t =>
    simp only []
    split
    · split
      · have e1 : w.length + spaceLen y + 2 + lineCommentLen (t.drop 1) =
            w.length + (spaceLen y + 2 + lineCommentLen (t.drop 1)) := by omega
        rw [e1, hd]; simp; omega
      · rfl
    · split
      · split
        · cases blockCommentLen (t.drop 1) with
          | none => simp
          | some b =>
            have e1 : w.length + spaceLen y + 2 + b = w.length + (spaceLen y + 2 + b) := by omega
            simp only [e1, hd]; simp; omega
        · rfl
      · split
        · have e1 : w.length + spaceLen y + 1 = w.length + (spaceLen y + 1) := by omega
          rw [e1, hd]; simp; omega
        · rfl

theorem skipCommentsF_fuel (f : Nat) : ∀ (f' : Nat) (r : Str), r.length < f → r.length < f' →
    skipCommentsF f r = skipCommentsF f' r := by
  induction f with
  | zero => intro f' r h; omega
  | succ f ih =>
    intro f' r h h'
    obtain ⟨g, rfl⟩ : ∃ g, f' = g + 1 := ⟨f' - 1, by omega⟩
    simp only [skipCommentsF]
    have key : ∀ k, 1 ≤ k → k ≤ r.length → skipCommentsF f (r.drop k) = skipCommentsF g (r.drop k) := by
      intro k hk hk'
      apply ih <;> simp <;> omega
    have hsp := spaceLen_le r
    cases hy : r.drop (spaceLen r) with
    | nil => rfl
    | cons c t =>
      have hlen : r.length = spaceLen r + (t.length + 1) := by
        have := congrArg List.length hy; simp at this; omega
      simp only []
      split
      · split
        · next hh =>
          have h1 : 1 ≤ t.length := by cases t <;> simp at hh ⊢
          have h2 := lineCommentLen_le (t.drop 1)
          rw [List.length_drop] at h2
          rw [key _ (by omega) (by omega)]
        · rfl
      · split
        · split
          · next hh =>
            have h1 : 1 ≤ t.length := by cases t <;> simp at hh ⊢
            cases hb : blockCommentLen (t.drop 1) with
            | none => rfl
            | some b =>
              obtain ⟨bb, r', _, h3, h4⟩ := blockCommentLen_some hb
              have := congrArg List.length h3
              simp at this
              simp only []
              rw [key _ (by omega) (by omega)]
          · rfl
        · split
          · rw [key _ (by omega) (by omega)]
          · rfl

theorem skipCommentsLen_fuel (f : Nat) (r : Str) (h : r.length < f) :
    skipCommentsF f r = skipCommentsLen r := skipCommentsF_fuel f _ r h (by omega)

/-- A complete gap is skipped entirely, whatever follows. -/
theorem skipCommentsLen_gap {g : Str} (hg : Gap g) (r : Str) :
    skipCommentsLen (g ++ r) =
      (g.length + (skipCommentsLen r).1, (skipCommentsLen r).2) := by
  induction hg with
  | nil => simp
  | @white w g hw _ ih =>
    rw [List.append_assoc]
    show skipCommentsF _ _ = _
    rw [skipCommentsF_white _ hw, skipCommentsLen_fuel _ (g ++ r) (by simp; omega), ih]
    simp; omega
  | @line b nl g hb hnl _ ih =>
    have hs : ∀ t, spaceLen (45 :: 45 :: t) = 0 := by
      intro t; cases t <;> simp [spaceLen, isSpace1, isSpace2, isSpace3]
    simp only [List.cons_append, List.nil_append, List.append_assoc]
    show skipCommentsF (_ + 1) _ = _
    simp only [skipCommentsF, hs, List.drop_zero, List.head?_cons, List.drop_succ_cons]
    rw [lineCommentLen_oneLine hb _ _ hnl]
    have e : 0 + 2 + (b.length + 1) = b.length + 1 + 2 := by omega
    have hd : (45 :: 45 :: (b ++ nl :: (g ++ r))).drop (b.length + 1 + 2) = g ++ r := by
      simp [List.drop_append]
    simp only [e, hd]
    rw [skipCommentsLen_fuel _ (g ++ r) (by simp; omega), ih]
    simp; omega
  | @block b g hb _ ih =>
    have hs : ∀ t, spaceLen (47 :: 42 :: t) = 0 := by
      intro t; cases t <;> simp [spaceLen, isSpace1, isSpace2, isSpace3]
    have hbl := blockCommentLen_of hb (g ++ r)
    simp only [List.cons_append, List.nil_append, List.append_assoc] at hbl ⊢
    show skipCommentsF (_ + 1) _ = _
    simp only [skipCommentsF, hs, List.drop_zero, List.head?_cons, List.drop_succ_cons]
    rw [hbl]
    have e : 0 + 2 + (b.length + 2) = b.length + 2 + 2 := by omega
    have hd : (47 :: 42 :: (b ++ 42 :: 47 :: (g ++ r))).drop (b.length + 2 + 2) = g ++ r := by
      simp [List.drop_append]
    simp only [e, hd]
    rw [skipCommentsLen_fuel _ (g ++ r) (by simp; omega), ih]
    simp; omega

theorem skipCommentsLen_noGap {x : Str} (hx : NoGap x) : skipCommentsLen x = (0, false) := by
  obtain ⟨h1, h2, h3⟩ := hx
  show skipCommentsF (_ + 1) _ = _
  simp only [skipCommentsF, h1, List.drop_zero]
  cases x with
  | nil => rfl
  | cons c t =>
    rw [prefix2_iff] at h2 h3
    simp only []
    split
    · next hc => simp at hc; rw [if_neg (by simpa using fun h => h2 ⟨hc, h⟩)]
    · split
      · next hc => simp at hc; rw [if_neg (by simpa using fun h => h3 ⟨hc, h⟩)]
      · split
        · next hc =>
          have : isSpace1 c = true := by
            simp at hc; simp [isSpace1]; omega
          rw [spaceLen_1 this] at h1; omega
        · rfl

theorem skipCommentsLen_endGap {g : Str} (hg : EndGap g) :
    ∃ n, skipCommentsLen g = (n, false) ∧ n + spaceLen (g.drop n) = g.length := by
  cases hg with
  | gap hg =>
    have := skipCommentsLen_gap hg []
    simp only [List.append_nil] at this
    exact ⟨g.length, by rw [this]; rfl, by simp [spaceLen]⟩
  | @line g b hg hb =>
    refine ⟨(g ++ (b!"--" ++ b)).length, ?_, by simp [spaceLen]⟩
    rw [skipCommentsLen_gap hg]
    have hs : ∀ t, spaceLen (45 :: 45 :: t) = 0 := by
      intro t; cases t <;> simp [spaceLen, isSpace1, isSpace2, isSpace3]
    have : skipCommentsLen (b!"--" ++ b) = (b.length + 2, false) := by
      show skipCommentsF (_ + 1) _ = _
      simp only [List.cons_append, List.nil_append, skipCommentsF, hs, List.drop_zero,
        List.head?_cons, List.drop_succ_cons, lineCommentLen_end hb]
      have e : 0 + 2 + b.length = b.length + 2 := by omega
      have hd : (45 :: 45 :: b).drop (b.length + 2) = [] := by simp
      simp only [e, hd]
      simp [skipCommentsF, spaceLen]
    rw [this]; simp

theorem gap_append {g g' : Str} (h : Gap g) (h' : Gap g') : Gap (g ++ g') := by
  induction h with
  | nil => simpa
  | white hw _ ih => rw [List.append_assoc]; exact Gap.white hw ih
  | line hb hnl _ ih => simpa using Gap.line hb hnl ih
  | block hb _ ih => simpa using Gap.block hb ih

theorem endGap_prepend {g g' : Str} (h : Gap g) (h' : EndGap g') : EndGap (g ++ g') := by
  cases h' with
  | gap h' => exact .gap (gap_append h h')
  | line h' hb => rw [← List.append_assoc]; exact .line (gap_append h h') hb

/-- Without an error, the skipper stops behind a gap, at a place where no gap starts. -/
theorem skipCommentsF_sound (f : Nat) : ∀ (r : Str) (n : Nat), r.length < f →
    skipCommentsF f r = (n, false) →
    n ≤ r.length ∧ NoGap (r.drop n) ∧
      (Gap (r.take n) ∨ (r.drop n = [] ∧ EndGap r)) := by
  induction f with
  | zero => intro r n h; omega
  | succ f ih =>
    intro r n hf h
    obtain ⟨hle, hgap, hsp⟩ := spaceLen_spec r
    simp only [skipCommentsF] at h
    have hgap0 : Gap (r.take (spaceLen r)) := by simpa using hgap [] .nil
    have hr : r = r.take (spaceLen r) ++ r.drop (spaceLen r) := (List.take_append_drop _ _).symm
    cases hy : r.drop (spaceLen r) with
    | nil =>
      rw [hy] at h; simp at h; subst h
      rw [hy]
      refine ⟨hle, ⟨by simp [spaceLen], by simp, by simp⟩, Or.inl hgap0⟩
    | cons c t =>
      rw [hy] at h hsp
      simp only [] at h
      have stop : n = spaceLen r → ¬ b!"--" <+: (c :: t) → ¬ b!"/*" <+: (c :: t) →
          n ≤ r.length ∧ NoGap (r.drop n) ∧ (Gap (r.take n) ∨ (r.drop n = [] ∧ EndGap r)) := by
        rintro rfl h2 h3
        rw [hy]
        exact ⟨hle, ⟨hsp, h2, h3⟩, Or.inl hgap0⟩
      -- a step: the first `k` bytes are a gap, the rest is handled by induction
      have step : ∀ k m, 1 ≤ k → k ≤ r.length → Gap (r.take k) →
          skipCommentsF f (r.drop k) = (m, false) → n = k + m →
          n ≤ r.length ∧ NoGap (r.drop n) ∧ (Gap (r.take n) ∨ (r.drop n = [] ∧ EndGap r)) := by
        intro k m h1 hk hgk hm hn
        obtain ⟨i1, i2, i3⟩ := ih (r.drop k) m (by simp; omega) hm
        have hdd : (r.drop k).drop m = r.drop n := by rw [List.drop_drop, hn]
        rw [hdd] at i2 i3
        simp at i1
        refine ⟨by omega, i2, ?_⟩
        rcases i3 with i3 | ⟨i3, i4⟩
        · left
          have : r.take n = r.take k ++ (r.drop k).take m := by
            rw [hn, List.take_add]
          rw [this]; exact gap_append hgk i3
        · right
          refine ⟨i3, ?_⟩
          have := endGap_prepend hgk i4
          rwa [List.take_append_drop] at this
      split at h
      · next hc =>
        simp at hc; subst hc
        split at h
        · next hd =>
          cases t with
          | nil => simp at hd
          | cons d t =>
            simp at hd; subst hd
            simp only [List.drop_succ_cons, List.drop_zero] at h
            rcases lineCommentLen_spec t with ⟨b, nl, r', hb, hnl, rfl, hl⟩ | ⟨ho, hl⟩
            · rw [hl] at h
              have hlen : r.length = spaceLen r + (2 + (b.length + (1 + r'.length))) := by
                have := congrArg List.length hy; simp at this; omega
              have htk : r.take (spaceLen r + 2 + (b.length + 1)) =
                  r.take (spaceLen r) ++ (b!"--" ++ (b ++ nl :: [])) := by
                have e : spaceLen r + 2 + (b.length + 1) = spaceLen r + (b.length + 3) := by omega
                rw [e, List.take_add, hy]
                simp [List.take_append, List.take_of_length_le]
              simp only [Prod.mk.injEq] at h
              refine step _ _ (by omega) (by omega) ?_ (Prod.ext rfl h.2) h.1.symm
              rw [htk]; exact hgap _ (.line hb hnl .nil)
            · rw [hl] at h
              have hlen : r.length = spaceLen r + (2 + t.length) := by
                have := congrArg List.length hy; simp at this; omega
              have e : spaceLen r + 2 + t.length = r.length := by omega
              rw [e] at h
              have hf1 : 1 ≤ f := by omega
              obtain ⟨f, rfl⟩ : ∃ f', f = f' + 1 := ⟨f - 1, by omega⟩
              simp [skipCommentsF, spaceLen] at h
              subst h
              refine ⟨by omega, ⟨by simp [spaceLen], by simp, by simp⟩, Or.inr ⟨by simp, ?_⟩⟩
              rw [hr, hy]
              exact .line hgap0 ho
        · next hd =>
          simp only [Prod.mk.injEq] at h
          refine stop h.1.symm ?_ ?_
          · rw [prefix2_iff]; rintro ⟨_, h'⟩; exact hd (by simp [h'])
          · rw [prefix2_iff]; simp
      · next hc =>
        split at h
        · next hc2 =>
          simp at hc2; subst hc2
          split at h
          · next hd =>
            cases t with
            | nil => simp at hd
            | cons d t =>
              simp at hd; subst hd
              simp only [List.drop_succ_cons, List.drop_zero] at h
              cases hb : blockCommentLen t with
              | none => rw [hb] at h; simp at h
              | some bl =>
                rw [hb] at h
                obtain ⟨b, r', h1, rfl, rfl⟩ := blockCommentLen_some hb
                have hlen : r.length = spaceLen r + (2 + (b.length + (2 + r'.length))) := by
                  have := congrArg List.length hy; simp at this; omega
                have htk : r.take (spaceLen r + 2 + (b.length + 2)) =
                    r.take (spaceLen r) ++ (b!"/*" ++ (b ++ (b!"*/" ++ []))) := by
                  have e : spaceLen r + 2 + (b.length + 2) = spaceLen r + (b.length + 4) := by omega
                  rw [e, List.take_add, hy]
                  simp [List.take_append, List.take_of_length_le]
                simp only [Prod.mk.injEq] at h
                refine step _ _ (by omega) (by omega) ?_ (Prod.ext rfl h.2) h.1.symm
                rw [htk]; exact hgap _ (.block h1 .nil)
          · next hd =>
            simp only [Prod.mk.injEq] at h
            refine stop h.1.symm ?_ ?_
            · rw [prefix2_iff]; simp
            · rw [prefix2_iff]; rintro ⟨_, h'⟩; exact hd (by simp [h'])
        · next hc2 =>
          split at h
          · next hc3 =>
            have : isSpace1 c = true := by
              simp at hc3; simp [isSpace1]; omega
            rw [spaceLen_1 this] at hsp; omega
          · simp only [Prod.mk.injEq] at h
            refine stop h.1.symm ?_ ?_
            · rw [prefix2_iff]; rintro ⟨rfl, _⟩; simp at hc
            · rw [prefix2_iff]; rintro ⟨rfl, _⟩; simp at hc2

/-- With an error, an unclosed block comment follows a gap. -/
theorem skipCommentsF_err (f : Nat) : ∀ (r : Str) (n : Nat), r.length < f →
    skipCommentsF f r = (n, true) →
    n = r.length ∧ ∃ g b, Gap g ∧ r = g ++ (b!"/*" ++ b) ∧ ¬ b!"*/" <:+: b := by
  induction f with
  | zero => intro r n h; omega
  | succ f ih =>
    intro r n hf h
    obtain ⟨hle, hgap, hsp⟩ := spaceLen_spec r
    simp only [skipCommentsF] at h
    have hgap0 : Gap (r.take (spaceLen r)) := by simpa using hgap [] .nil
    have hr : r = r.take (spaceLen r) ++ r.drop (spaceLen r) := (List.take_append_drop _ _).symm
    cases hy : r.drop (spaceLen r) with
    | nil => rw [hy] at h; simp at h
    | cons c t =>
      rw [hy] at h hsp
      simp only [] at h
      have step : ∀ k m, 1 ≤ k → k ≤ r.length → Gap (r.take k) →
          skipCommentsF f (r.drop k) = (m, true) → n = k + m →
          n = r.length ∧ ∃ g b, Gap g ∧ r = g ++ (b!"/*" ++ b) ∧ ¬ b!"*/" <:+: b := by
        intro k m h1 hk hgk hm hn
        obtain ⟨i1, g, b, i2, i3, i4⟩ := ih (r.drop k) m (by simp; omega) hm
        simp at i1
        refine ⟨by omega, r.take k ++ g, b, gap_append hgk i2, ?_, i4⟩
        rw [List.append_assoc, ← i3, List.take_append_drop]
      split at h
      · next hc =>
        simp at hc; subst hc
        split at h
        · next hd =>
          cases t with
          | nil => simp at hd
          | cons d t =>
            simp at hd; subst hd
            simp only [List.drop_succ_cons, List.drop_zero] at h
            rcases lineCommentLen_spec t with ⟨b, nl, r', hb, hnl, rfl, hl⟩ | ⟨ho, hl⟩
            · rw [hl] at h
              have hlen : r.length = spaceLen r + (2 + (b.length + (1 + r'.length))) := by
                have := congrArg List.length hy; simp at this; omega
              have htk : r.take (spaceLen r + 2 + (b.length + 1)) =
                  r.take (spaceLen r) ++ (b!"--" ++ (b ++ nl :: [])) := by
                have e : spaceLen r + 2 + (b.length + 1) = spaceLen r + (b.length + 3) := by omega
                rw [e, List.take_add, hy]
                simp [List.take_append, List.take_of_length_le]
              simp only [Prod.mk.injEq] at h
              refine step _ _ (by omega) (by omega) ?_ (Prod.ext rfl h.2) h.1.symm
              rw [htk]; exact hgap _ (.line hb hnl .nil)
            · rw [hl] at h
              have hlen : r.length = spaceLen r + (2 + t.length) := by
                have := congrArg List.length hy; simp at this; omega
              have e : spaceLen r + 2 + t.length = r.length := by omega
              rw [e] at h
              have hf1 : 1 ≤ f := by omega
              obtain ⟨f, rfl⟩ : ∃ f', f = f' + 1 := ⟨f - 1, by omega⟩
              simp [skipCommentsF, spaceLen] at h
        · simp at h
      · next hc =>
        split at h
        · next hc2 =>
          simp at hc2; subst hc2
          split at h
          · next hd =>
            cases t with
            | nil => simp at hd
            | cons d t =>
              simp at hd; subst hd
              simp only [List.drop_succ_cons, List.drop_zero] at h
              cases hb : blockCommentLen t with
              | none =>
                rw [hb] at h; simp at h
                refine ⟨h.symm, _, t, hgap0, ?_, blockCommentLen_none hb⟩
                conv => lhs; rw [hr, hy]
                rfl
              | some bl =>
                rw [hb] at h
                obtain ⟨b, r', h1, rfl, rfl⟩ := blockCommentLen_some hb
                have hlen : r.length = spaceLen r + (2 + (b.length + (2 + r'.length))) := by
                  have := congrArg List.length hy; simp at this; omega
                have htk : r.take (spaceLen r + 2 + (b.length + 2)) =
                    r.take (spaceLen r) ++ (b!"/*" ++ (b ++ (b!"*/" ++ []))) := by
                  have e : spaceLen r + 2 + (b.length + 2) = spaceLen r + (b.length + 4) := by omega
                  rw [e, List.take_add, hy]
                  simp [List.take_append, List.take_of_length_le]
                simp only [Prod.mk.injEq] at h
                refine step _ _ (by omega) (by omega) ?_ (Prod.ext rfl h.2) h.1.symm
                rw [htk]; exact hgap _ (.block h1 .nil)
          · simp at h
        · next hc2 =>
          split at h
          · next hc3 =>
            have : isSpace1 c = true := by
              simp at hc3; simp [isSpace1]; omega
            rw [spaceLen_1 this] at hsp; omega
          · simp at h

end Verif

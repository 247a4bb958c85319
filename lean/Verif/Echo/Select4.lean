/-
What the method for one query does with the tokens.  No definition here is part of the model.
-/
import Verif.Echo.Select

namespace Verif.Echo
open Verif.Spec Verif.Echo.Sym

set_option linter.unusedTactic false
set_option linter.unreachableTactic false
set_option linter.unusedSimpArgs false

theorem val_select {l l1 l2 l3 l4 l5 l6 l7 l8 l9 l10 l11 l12 l13 l14 l15 l16 : Lx} {d : Bool}
    {p q w top don its fr wi pw wh gb hv ob lb lm st fm : V}
    (h0 : Opt [] l w l1) (hs : l1.matchKw b!"SELECT" = true)
    (hd : d = true ∧ l1.advance.matchKw b!"DISTINCT" = true ∧ l2 = l1.advance.advance ∨ d = false ∧ l2 = l1.advance)
    (h1 : Opt [.sp] l2 don l3) (h2 : Opt [.sp] l3 top l4) (h3 : Listed l4 its l5) (h4 : Opt [.sp] l5 fr l6) (h5 : Opt [.sp] l6 pw l7)
    (h6 : Opt [.sp] l7 wh l8) (h7 : Opt [.sp] l8 gb l9) (h8 : Opt [.sp] l9 hv l10) (hw : wi = .nil → l11 = l10) (h9 : Opt [.sp] l11 ob l12)
    (h10 : Opt [.sp] l12 lb l13) (h11 : Opt [.sp] l13 lm l14) (h12 : Opt [.sp] l14 st l15) (h13 : Opt [.sp] l15 fm l16) :
    Val l (.mk .SelectQuery [p, q, w, top, .bool d, don, its, fr, wi, pw, wh, gb, .bool false, hv, ob, lb, lm, st, fm, .nil, .nil, .nil, .nil]) l16 := by
  refine ⟨by simp, fun hg => ?_⟩
  obtain ⟨vs, rfl, h3⟩ := h3
  cases vs with
  | nil => simp [V.plain, plainNode] at hg
  | cons x vs =>
  have hwi : wi = .nil ∨ wi.nonNil = true := by cases wi <;> simp [V.nonNil]
  rcases hwi with rfl | hwi
  swap
  · simp [V.plain, plainNode, hwi] at hg
  have := hw rfl
  subst this
  simp only [V.plain, V.plainL, plainNode, Bool.and_eq_true, Bool.not_false, Bool.and_true, V.nonNil] at hg
  obtain ⟨hdon, ⟨-, -, g0, g2, -, g1, g3, g4, -, g5, g6, g7, -, g8, g9, g10, g11, g12, g13⟩⟩ := hg
  obtain ⟨u0, r0, e0⟩ := h0.open g0
  obtain ⟨u1, r1, e1⟩ := h1.open g1
  obtain ⟨u2, r2, e2⟩ := h2.open g2
  obtain ⟨u3, r3, e3⟩ := h3.open (v := .list (x :: vs)) (by rw [V.plain, V.plainL]; simp only [Bool.and_eq_true]; exact g3)
  obtain ⟨u4, r4, e4⟩ := h4.open g4
  obtain ⟨u5, r5, e5⟩ := h5.open g5
  obtain ⟨u6, r6, e6⟩ := h6.open g6
  obtain ⟨u7, r7, e7⟩ := h7.open g7
  obtain ⟨u8, r8, e8⟩ := h8.open g8
  obtain ⟨u9, r9, e9⟩ := h9.open g9
  obtain ⟨u10, r10, e10⟩ := h10.open g10
  obtain ⟨u11, r11, e11⟩ := h11.open g11
  obtain ⟨u12, r12, e12⟩ := h12.open g12
  obtain ⟨u13, r13, e13⟩ := h13.open g13
  refine ⟨_, ?_, Echo.select e0 e1 ?_ e2 e3 (by simp) e4 e5 e6 e7 e8 e9 e10 e11 e12 e13 .onil .onil .onil .onil (by simp) (by simp) (by simp)⟩
  · simp only [List.append_assoc, List.append_nil]
    refine r0.trans (.blank ?_)
    refine .kw' hs ?_
    have rr : Reads l2 (u1 ++ (u2 ++ ([.sp] ++ (u3 ++ (u4 ++ (u5 ++ (u6 ++ (u7 ++ (u8 ++ (u9 ++ (u10 ++ (u11 ++ (u12 ++ u13))))))))))))) l16 :=
      r1.trans (r2.trans (.sp (r3.trans (r4.trans (r5.trans (r6.trans (r7.trans (r8.trans (r9.trans (r10.trans (r11.trans (r12.trans r13))))))))))))
    rcases hd with ⟨rfl, hd, rfl⟩ | ⟨rfl, rfl⟩
    · exact .sp (.kw' hd rr)
    · exact rr
  · intro hn
    cases don <;> simp_all [V.nonNil]

theorem not_totals {p q w top d don its fr wi pw wh gb hv ob lb lm st fm : V} {l l' : Lx} :
    Val l (.mk .SelectQuery [p, q, w, top, d, don, its, fr, wi, pw, wh, gb, .bool true, hv, ob, lb, lm, st, fm, .nil, .nil, .nil, .nil]) l' := by
  refine ⟨by simp, fun hg => ?_⟩
  rw [V.plain, Bool.and_eq_true] at hg
  have := hg.1
  unfold plainNode at this
  split at this <;> simp_all

theorem Opt.limit {l l' : Lx} {v : V} {P : Prop} (h : v = .nil ∧ l' = l ∨ P ∧ Val l v l') : Opt [.sp] l v l' := by
  rcases h with ⟨rfl, rfl⟩ | h
  · exact .none
  · exact h.2.opt1

theorem m_parseSelectStmt : Meth .parseSelectStmt := by
  method
  enter hr
  sym
  all_goals refine ⟨_, _, _, _, _, _, _, _, _, _, _, _, _, _, _, _, _, _, _, rfl, ?_, ?_⟩
  all_goals first
    | exact not_totals
    | (rcases hv1b with rfl | h; exacts [.inl c3, .inr h])
    | skip
  · exact val_select hv1 c3 (.inl ⟨rfl, c4, rfl⟩) hv5 hv7 hv9 hv12 hv15 hv18 hv21 hv25 hv28 hv31 (.limit hv34) hv39 hv42 hv45
  · exact val_select hv1 c3 (.inl ⟨rfl, c4, rfl⟩) hv5 hv7 hv9 hv12 hv15 hv18 hv21 hv25 hv28 hv31 .none (.limit hv34) (by assumption) (by assumption)
  · rcases hv34 with h | h
    · exact absurd h.1 ne36
    · rcases h.1 with h | h <;> simp_all
  · have := hv34.resolve_right (fun h => by have := h.2.ne; simp_all)
    obtain ⟨-, rfl⟩ := this
    exact val_select hv1 c3 (.inl ⟨rfl, c4, rfl⟩) hv5 hv7 hv9 hv12 hv15 hv18 hv21 hv25 hv28 hv31 .none (by assumption) (by assumption) (by assumption)
  · exact val_select hv1 c3 (.inr ⟨rfl, rfl⟩) hv5 hv7 hv9 hv12 hv15 hv18 hv21 hv25 hv28 hv31 (.limit hv34) hv39 hv42 hv45
  · exact val_select hv1 c3 (.inr ⟨rfl, rfl⟩) hv5 hv7 hv9 hv12 hv15 hv18 hv21 hv25 hv28 hv31 .none (.limit hv34) (by assumption) (by assumption)
  · rcases hv34 with h | h
    · exact absurd h.1 ne36
    · rcases h.1 with h | h <;> simp_all
  · have := hv34.resolve_right (fun h => by have := h.2.ne; simp_all)
    obtain ⟨-, rfl⟩ := this
    exact val_select hv1 c3 (.inr ⟨rfl, rfl⟩) hv5 hv7 hv9 hv12 hv15 hv18 hv21 hv25 hv28 hv31 .none (by assumption) (by assumption) (by assumption)

end Verif.Echo

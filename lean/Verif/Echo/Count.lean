/-
If no token is added or dropped, the formatted text has the tokens of the source.  No definition here is part of the model.
-/
import Verif.Spec.Rewrite
import Mathlib.Data.List.Forall2

namespace Verif.Echo
open Verif.Spec

theorem upper2 (s : Str) : upper (upper s) = upper s := by
  simp only [upper, List.map_map]
  apply List.map_congr_left
  intro c _
  simp only [Function.comp, upperByte]
  split
  · rename_i h
    simp only [Bool.and_eq_true, decide_eq_true_eq] at h
    rw [if_neg (by simp only [Bool.and_eq_true, decide_eq_true_eq]; omega)]
  · rfl

theorem printed_sort {t u : Token} (h : Printed t u) : sort u = sort t := by
  rcases h with h | ⟨h1, h⟩ <;> simp only [Token.content, Prod.mk.injEq] at h <;> simp [sort, h.1, h.2.1]
  rw [upper2]

theorem tally_nil (k : Kind × Str) : tally k [] = 0 := rfl
theorem tally_cons (k : Kind × Str) (t : Token) (ts : List Token) : tally k (t :: ts) = tally k ts + if sort t = k then 1 else 0 := by
  simp [tally, List.countP_cons]
theorem tally_append (k : Kind × Str) (ts us : List Token) : tally k (ts ++ us) = tally k ts + tally k us := by
  simp [tally, List.countP_append]

theorem content_sort {u : Token} {k : Kind} {s : Str} {b q : Nat} (h : u.content = (k, s, b, q)) : sort u = (k, if k = .keyword then upper s else []) := by
  simp only [Token.content, Prod.mk.injEq] at h
  simp [sort, h.1, h.2.1]

theorem kind_sort {t : Token} {s : Str} (h : t.kind = .op s) : sort t = (.op s, []) := by simp [sort, h]
theorem num_sort {t : Token} {k : Kind} (hk : k = .int ∨ k = .float) (h : t.kind = k) : sort t = (k, []) := by
  rcases hk with rfl | rfl <;> simp [sort, h]
theorem spells_sort {t : Token} {s : Str} (h : Spells t s) : sort t = (.keyword, s) := by simp [sort, h.1, h.2]

/-- Not added. -/
def lost : List (Kind × Str) := [(.keyword, b!"FORMAT"), (.op b!",", []), (.op b!"(", []), (.op b!";", [])]
/-- Not dropped. -/
def new : List (Kind × Str) := [(.keyword, b!"AS"), (.op b!"+", []), (.op b!"-", [])]

theorem lost_le {ts us rest : List Token} (h : Rewritten ts us rest) : ∀ k ∈ lost, tally k us + tally k rest ≤ tally k ts := by
  intro k hk
  induction h with
  | done => simp [tally_nil]
  | keep hp _ ih => simp only [tally_cons, printed_sort hp]; omega
  | sign hs hn _ hu hu' _ ih =>
    have h1 := content_sort hu
    have h2 := content_sort hu'
    rw [tally_cons, tally_cons, tally_cons, h1, h2]
    simp only [lost, List.mem_cons, List.not_mem_nil, or_false] at hk
    rcases hn with hn | hn <;> rcases hs with rfl | rfl <;> rcases hk with rfl | rfl | rfl | rfl <;> simp [hn, sort] <;> omega
  | addAs _ hu _ ih =>
    have h1 := content_sort hu
    rw [tally_cons, h1]
    simp only [lost, List.mem_cons, List.not_mem_nil, or_false] at hk
    rcases hk with rfl | rfl | rfl | rfl <;> simp [upper, upperByte] <;> omega
  | dropComma _ _ _ ih => rw [tally_cons]; omega
  | @dropParens t q t' ts ms us ws rest _ _ _ _ _ ih1 ih2 => rw [tally_cons, tally_append]; rw [tally_cons k t' ms] at ih1; omega
  | dropUsing _ hp _ _ _ _ ih1 ih2 =>
    simp only [List.cons_append, tally_cons, tally_append, printed_sort hp] at ih1 ⊢
    omega
  | swapLimit _ hp _ _ _ ho _ ih1 ih2 ih3 =>
    have h1 := content_sort ho
    simp only [List.cons_append, tally_cons, tally_append, printed_sort hp, h1] at ih1 ⊢
    simp only [lost, List.mem_cons, List.not_mem_nil, or_false] at hk
    rcases hk with rfl | rfl | rfl | rfl <;> simp [upper, upperByte] at * <;> omega

theorem new_ge {ts us rest : List Token} (h : Rewritten ts us rest) : ∀ k ∈ new, tally k ts ≤ tally k us + tally k rest := by
  intro k hk
  induction h with
  | done => simp [tally_nil]
  | keep hp _ ih => simp only [tally_cons, printed_sort hp]; omega
  | sign hs hn _ hu hu' _ ih =>
    rw [tally_cons, tally_cons, tally_cons]
    simp only [new, List.mem_cons, List.not_mem_nil, or_false] at hk
    rcases hn with hn | hn <;> rcases hk with rfl | rfl | rfl <;> simp [hn, sort] <;> omega
  | @addAs t u ts us rest _ hu _ ih => rw [tally_cons k u us]; omega
  | dropComma ht _ _ ih =>
    rw [tally_cons, kind_sort ht]
    simp only [new, List.mem_cons, List.not_mem_nil, or_false] at hk
    rcases hk with rfl | rfl | rfl <;> simp <;> omega
  | @dropParens t q t' ts ms us ws rest ht _ _ ht' _ ih1 ih2 =>
    rw [tally_cons, tally_append, kind_sort ht]
    rw [tally_cons k t' ms, kind_sort ht'] at ih1
    simp only [new, List.mem_cons, List.not_mem_nil, or_false] at hk
    rcases hk with rfl | rfl | rfl <;> simp at * <;> omega
  | dropUsing _ hp ht _ ht' _ ih1 ih2 =>
    simp only [List.cons_append, tally_cons, tally_append, printed_sort hp, kind_sort ht, kind_sort ht'] at ih1 ⊢
    simp only [new, List.mem_cons, List.not_mem_nil, or_false] at hk
    rcases hk with rfl | rfl | rfl <;> simp at * <;> omega
  | swapLimit _ hp _ ht _ ho _ ih1 ih2 ih3 =>
    simp only [List.cons_append, tally_cons, tally_append, printed_sort hp, kind_sort ht] at ih1 ⊢
    simp only [new, List.mem_cons, List.not_mem_nil, or_false] at hk
    rcases hk with rfl | rfl | rfl <;> simp at * <;> omega

/-- Nothing is added or dropped. -/
theorem unchanged {ts us rest : List Token} (h : Rewritten ts us rest) : (∀ k ∈ lost ++ new, tally k us + tally k rest = tally k ts) →
    ∃ ts', ts = ts' ++ rest ∧ List.Forall₂ Printed ts' us := by
  induction h with
  | done => exact fun _ => ⟨[], rfl, .nil⟩
  | keep hp _ ih =>
    intro hk
    obtain ⟨ts', rfl, h⟩ := ih (fun k h => by have := hk k h; simp only [tally_cons, printed_sort hp] at this; omega)
    exact ⟨_ :: ts', rfl, .cons hp h⟩
  | @sign t u u' s n ts us rest hs hn _ hu hu' hr ih =>
    intro hk
    exfalso
    have hk := hk (.op [s], []) (by rcases hs with rfl | rfl <;> simp [lost, new])
    have := new_ge hr (.op [s], []) (by rcases hs with rfl | rfl <;> simp [new])
    have h1 := content_sort hu
    simp only [tally_cons, h1] at hk
    rcases hn with hn | hn <;> simp [sort, hn] at hk <;> omega
  | @addAs t u ts us rest _ hu hr ih =>
    intro hk
    exfalso
    have hk := hk (.keyword, b!"AS") (by simp [lost, new])
    have := new_ge hr (.keyword, b!"AS") (by simp [new])
    have h1 := content_sort hu
    rw [tally_cons, h1, if_pos (by decide)] at hk
    omega
  | @dropComma t ts us rest ht _ hr ih =>
    intro hk
    exfalso
    have hk := hk (.op b!",", []) (by simp [lost, new])
    have := lost_le hr (.op b!",", []) (by simp [lost])
    rw [tally_cons, kind_sort ht, if_pos rfl] at hk
    omega
  | @dropParens t q t' ts ms us ws rest ht _ h1 ht' h2 =>
    intro hk
    exfalso
    have hk := hk (.op b!"(", []) (by simp [lost, new])
    have a := lost_le h1 (.op b!"(", []) (by simp [lost])
    have b := lost_le h2 (.op b!"(", []) (by simp [lost])
    rw [tally_append, tally_cons, kind_sort ht, if_pos rfl] at hk
    rw [tally_cons _ t'] at a
    omega
  | @dropUsing q u t t' ts ms us ws rest hq hp ht h1 ht' h2 =>
    intro hk
    exfalso
    have hk := hk (.op b!"(", []) (by simp [lost, new])
    have a := lost_le h1 (.op b!"(", []) (by simp [lost])
    have b := lost_le h2 (.op b!"(", []) (by simp [lost])
    simp only [List.cons_append, tally_append, tally_cons, kind_sort ht, printed_sort hp] at hk
    rw [if_pos trivial] at hk
    rw [tally_cons _ t'] at a
    omega
  | @swapLimit q u t o ts ms ks us ws xs rest hq hp h1 ht h2 ho h3 =>
    intro hk
    exfalso
    have hk := hk (.op b!",", []) (by simp [lost, new])
    have a := lost_le h1 (.op b!",", []) (by simp [lost])
    have b := lost_le h2 (.op b!",", []) (by simp [lost])
    have c := lost_le h3 (.op b!",", []) (by simp [lost])
    simp only [List.cons_append, tally_append, tally_cons, printed_sort hp, content_sort ho] at hk
    rw [tally_cons _ t, kind_sort ht, if_pos rfl] at a
    simp at hk
    omega

theorem tally_pos {k : Kind × Str} {t : Token} {ts : List Token} (h : t ∈ ts) (hs : sort t = k) : 0 < tally k ts :=
  List.countP_pos_iff.2 ⟨t, h, by simp [hs]⟩

/-- The whole source. -/
theorem printed_all {ts pre src us rest : List Token} (hq : Query ts pre src) (h : Rewritten src us rest) (hl : Left rest) (hm : SameMarks ts us) :
    pre = [] ∧ rest = [] ∧ List.Forall₂ Printed ts us := by
  obtain ⟨rfl, hp, _⟩ := hq
  have e : ∀ k ∈ lost, tally k rest = 0 ∧ tally k pre = 0 := by
    intro k hk
    have h1 := hm k (by simp only [lost, List.mem_cons, List.not_mem_nil, or_false] at hk; rcases hk with rfl | rfl | rfl | rfl <;> simp [marks])
    have h2 := lost_le h k hk
    rw [tally_append] at h1
    omega
  have hpre : pre = [] := by
    cases pre with
    | nil => rfl
    | cons t pre =>
      have := tally_pos (ts := t :: pre) List.mem_cons_self (kind_sort (hp t (by simp)))
      have := (e (.op b!";", []) (by simp [lost])).2
      omega
  have hrest : rest = [] := by
    obtain ⟨fmt, ss, last, rfl, h1, h2, _, h3⟩ := hl
    have hf : fmt = [] := by
      rcases h1 with rfl | ⟨f, n, rfl, hf, _⟩
      · rfl
      · have := tally_pos (ts := [f, n] ++ ss ++ last) (t := f) (by simp) (spells_sort hf)
        have := (e (.keyword, b!"FORMAT") (by simp [lost])).1
        omega
    have hs : ss = [] := by
      cases ss with
      | nil => rfl
      | cons s ss =>
        have := tally_pos (ts := fmt ++ s :: ss ++ last) (t := s) (by simp) (kind_sort (h2 s (by simp)))
        have := (e (.op b!";", []) (by simp [lost])).1
        omega
    rw [hf, hs, h3 hs]
    rfl
  subst hpre hrest
  obtain ⟨ts', h1, h2⟩ := unchanged h (fun k hk => by
    rw [tally_nil]
    have := hm k (by simp only [lost, new, List.mem_append, List.mem_cons, List.not_mem_nil, or_false] at hk; rcases hk with (rfl | rfl | rfl | rfl) | rfl | rfl | rfl <;> simp [marks])
    simpa using this.symm)
  rw [List.append_nil] at h1
  subst h1
  exact ⟨rfl, rfl, h2⟩

end Verif.Echo

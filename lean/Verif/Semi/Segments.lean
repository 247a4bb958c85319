/-
Every statement of a text without lexical errors is read as a whole.
-/
import Verif.Semi.Ahead
import Verif.Spec.Stmts

namespace Verif.Semi
open Verif Spec

theorem semi_iff {l : Lx} {t : Token} (hc : l.cur = some t) : t.semi = true ↔ ¬ NotSemi l := by
  simp only [Token.semi, beq_iff_eq, NotSemi, Lx.curKind, hc, ne_eq, Classical.not_not]
  constructor
  · intro h; rw [h]; rfl
  · intro h
    cases hk : t.kind <;> rw [hk] at h <;> simp [Kind.toStr] at h ⊢
    exact h

theorem cut_clean : ∀ (seg : List Token) (acc : List Token), (∀ t ∈ seg, t.semi = false) → cut acc seg = if acc ++ seg = [] then [] else [acc ++ seg]
  | [], acc, _ => by simp [cut]
  | t :: seg, acc, h => by
    rw [cut, h t (by simp)]
    simp only [Bool.false_eq_true, if_false]
    rw [cut_clean seg _ (fun x hx => h x (by simp [hx]))]
    simp

theorem cut_semi : ∀ (seg : List Token) (acc : List Token) (u : Token) (ts : List Token), (∀ t ∈ seg, t.semi = false) → u.semi = true →
    acc ++ seg ≠ [] → cut acc (seg ++ u :: ts) = (acc ++ seg) :: cut [] ts
  | [], acc, u, ts, _, hu, hne => by
    rw [List.nil_append, cut, if_pos hu, if_neg (by simpa using hne)]
    simp
  | t :: seg, acc, u, ts, h, hu, hne => by
    rw [List.cons_append, cut, h t (by simp)]
    simp only [Bool.false_eq_true, if_false]
    rw [cut_semi seg _ u ts (fun x hx => h x (by simp [hx])) hu (by simp)]
    simp

theorem run_cur {l l' : Lx} {ts : List Token} (h : Run l ts l') : l'.cur = match ts.getLast? with
    | some t => some t
    | none => l.cur := by
  induction h with
  | nil => rfl
  | @tok l l1 t ts l' a b c ih =>
    rw [ih]
    cases ts with
    | nil => simpa using b
    | cons x xs =>
      rw [List.getLast?_cons_cons]
      cases hx : (x :: xs).getLast? with
      | none => simp at hx
      | some u => rfl

theorem run_append {l l' l'' : Lx} {ts us : List Token} (h : Run l ts l') (h' : Run l' us l'') : Run l (ts ++ us) l'' := by
  induction h with
  | nil => exact h'
  | tok a b _ ih => exact .tok a b (ih h')

theorem end_scan {l : Lx} (h : l.rest = []) : Scan l [] true := by
  have : l.consume = .ok ⟨l.off, [], none⟩ := by
    rw [consume_ok_iff]
    obtain ⟨o, r, c⟩ := l
    simp only at h
    subst h
    exact .eof (off := o) (.gap .nil)
  exact .eof this rfl

/-- Where `parseStmt` can be when it started at `l1` with the tokens `ts` ahead. -/
def At (l1 : Lx) (ts : List Token) (l : Lx) : Prop :=
  (∃ mid todo, Run l1 mid l ∧ ts = mid ++ todo ∧ Scan l todo true ∧ ∀ x ∈ mid.dropLast, x.semi = false) ∨
  (l.cur = none ∧ l.rest = [] ∧ ∀ x ∈ ts, x.semi = false)

theorem at_mid {l1 l : Lx} {t : Token} (h1 : l1.cur = some t) {mid : List Token} (hr : Run l1 mid l)
    (hd : ∀ x ∈ mid.dropLast, x.semi = false) (hn : NotSemi l) : ∀ x ∈ mid, x.semi = false := by
  intro x hx
  have hc := run_cur hr
  cases hl : mid.getLast? with
  | none => rw [List.getLast?_eq_none_iff] at hl; subst hl; simp at hx
  | some u =>
    rw [hl] at hc
    obtain ⟨pre, rfl⟩ := List.getLast?_eq_some_iff.1 hl
    rw [List.dropLast_concat] at hd
    rcases List.mem_append.1 hx with hx | hx
    · exact hd x hx
    · simp only [List.mem_singleton] at hx
      subst hx
      cases hs : x.semi with
      | false => rfl
      | true => exact absurd hn ((semi_iff hc).1 hs)

theorem at_lock {l1 : Lx} {t : Token} (h1 : l1.cur = some t) (ts : List Token) : Lock (fun l m => l = m ∧ At l1 ts l) where
  cur h := h.1 ▸ rfl
  off h := h.1 ▸ rfl
  eof h := h.1 ▸ rfl
  step := by
    rintro l _ ⟨rfl, h⟩ hn
    rcases h with ⟨mid, todo, hr, hts, hs, hd⟩ | ⟨hc, hr, hts⟩
    · have hm := at_mid h1 hr hd hn
      cases hs with
      | eof a b =>
        rw [a]
        refine ⟨rfl, Or.inr ⟨b, (consume_ok_shape a).2.1 b, ?_⟩⟩
        rw [hts]; simpa using hm
      | @tok _ l' u todo _ a b c =>
        rw [a]
        refine ⟨rfl, Or.inl ⟨mid ++ [u], todo, run_append hr (.tok a b .nil), by simp [hts], c, ?_⟩⟩
        rw [List.dropLast_concat]; exact hm
    · have := end_scan hr
      cases this with
      | eof a b =>
        rw [a]
        exact ⟨rfl, Or.inr ⟨b, (consume_ok_shape a).2.1 b, hts⟩⟩

/-- A statement is read up to the next `;` or the end of the text. -/
theorem stmt1_reads {l1 l2 : Lx} {t : Token} {ts : List Token} {v : V} (h1 : l1.cur = some t) (hs : NotSemi l1) (ht : Scan l1 ts true)
    (h : Stmt1 l1 v l2) :
    (∃ rest u ts', ts = rest ++ u :: ts' ∧ (∀ x ∈ rest, x.semi = false) ∧ u.semi = true ∧ Run l1 (rest ++ [u]) l2 ∧ Scan l2 ts' true) ∨
    ((∀ x ∈ ts, x.semi = false) ∧ l2.cur = none ∧ l2.rest = []) := by
  have hstop := stmt1_stop h
  obtain ⟨n, s, h, rfl⟩ := h
  have := runFn_twin (at_lock h1 ts) all_checked n .parseStmt [.nat l1.curPos] ⟨l1, [], []⟩ ⟨l1, [], []⟩ (by decide)
    ⟨⟨rfl, Or.inl ⟨[], ts, .nil, rfl, ht, by simp⟩⟩, rfl, rfl⟩ (by simp [sig_stmt])
  rw [h] at this
  obtain ⟨_, ⟨⟨_, hat⟩, _, _⟩, _⟩ := this
  rcases hat with ⟨mid, todo, hr, hts, hsc, hd⟩ | ⟨hc, hr, hts⟩
  · left
    have hc := run_cur hr
    cases hl : mid.getLast? with
    | none =>
      rw [hl] at hc
      rw [List.getLast?_eq_none_iff] at hl
      subst hl
      cases hr
      rcases hstop with hst | hst
      · rw [h1] at hst; cases hst
      · exact absurd hs hst
    | some u =>
      rw [hl] at hc
      obtain ⟨pre, rfl⟩ := List.getLast?_eq_some_iff.1 hl
      rw [List.dropLast_concat] at hd
      rcases hstop with hst | hst
      · rw [hc] at hst; cases hst
      · exact ⟨pre, u, todo, by rw [hts]; simp, hd, (semi_iff hc).2 hst, hr, hsc⟩
  · exact Or.inr ⟨hts, hc, hr⟩

theorem reach_run {input : Str} {l l' : Lx} {ts : List Token} (hl : Reach input l) (h : Run l ts l') : Reach input l' := by
  induction h with
  | nil => exact hl
  | tok a _ _ ih => exact ih (.ok hl a)

theorem end_stmts {l l' : Lx} {vs : List V} (h : l.rest = []) (hs : Stmts l vs l') : vs = [] := by
  obtain ⟨o, r, c⟩ := l
  simp only at h
  subst h
  have e : (⟨o, [], c⟩ : Lx).consume = .ok ⟨o, [], none⟩ := by
    rw [consume_ok_iff]
    exact .eof (off := o) (.gap .nil)
  cases hs with
  | done => rfl
  | semi a b => rw [e] at a; cases a; simp [Lx.isEOF] at b
  | stmt a b => rw [e] at a; cases a; simp [Lx.isEOF] at b

/-- All tokens are accounted for, except a last one that ends the text. -/
theorem stmts_segments {input : Str} {l l1 l2 : Lx} {vs : List V} (h : Stmts l vs l1) (h1 : l1.consume = .ok l2) (h2 : l2.isEOF = true) :
    ∀ {ts : List Token}, Scan l ts true → Reach input l →
    List.Forall₂ (ReadAs input) (segments ts) vs ∨
    ∃ segs t l', segments ts = segs ++ [[t]] ∧ List.Forall₂ (ReadAs input) segs vs ∧ Run l ts l' ∧ l'.cur = some t ∧ l'.rest = [] := by
  induction h with
  | @done l =>
    intro ts hs hl
    cases hs with
    | eof a b => exact Or.inl (by simp [segments, cut])
    | @tok _ l' t ts' _ a b c =>
      rw [h1] at a
      cases a
      have hr : l2.rest = [] := by simpa [Lx.isEOF] using h2
      obtain ⟨rfl, -⟩ := scan_unique c (end_scan hr)
      cases ht : t.semi with
      | true => exact Or.inl (by simp [segments, cut, ht])
      | false => exact Or.inr ⟨[], t, l2, by simp [segments, cut, ht], by simp, .tok h1 b .nil, b, hr⟩
  | @semi l la l' vs a b c d ih =>
    intro ts hs hl
    cases hs with
    | eof a' b' =>
      rw [a] at a'
      cases a'
      exact absurd (show NotSemi la by simp only [NotSemi, Lx.curKind, b']; decide) c
    | @tok _ l' t ts' _ a' b' c' =>
      rw [a] at a'
      cases a'
      have ht := (semi_iff b').2 c
      have e : segments (t :: ts') = segments ts' := by simp [segments, cut, ht]
      rw [e]
      rcases ih h1 c' (.ok hl a) with h | ⟨segs, u, l'', i1, i2, i3, i4⟩
      · exact Or.inl h
      · exact Or.inr ⟨segs, u, l'', i1, i2, .tok a b' i3, i4⟩
  | @stmt l la lb l' v vs a b c d e ih =>
    intro ts hs hl
    cases hs with
    | eof a' b' =>
      rw [a] at a'
      cases a'
      rw [Lx.isEOF, (consume_ok_shape a).2.1 b'] at b
      simp at b
    | @tok _ l' t ts' _ a' b' c' =>
      rw [a] at a'
      cases a'
      have htf : t.semi = false := by
        cases ht : t.semi with
        | false => rfl
        | true => exact absurd c ((semi_iff b').1 ht)
      have hla : Reach input la := .ok hl a
      have hpos : la.curPos = t.pos := by simp [Lx.curPos, b']
      obtain ⟨n, s, hrun, hlx, hmemo⟩ := of_stmt1 input d
      rw [hpos] at hrun
      rcases stmt1_reads b' c c' d with ⟨rest, u, ts'', rfl, hns, hu, hr, hsc⟩ | ⟨hns, hcn, hrn⟩
      · have hcut : segments (t :: (rest ++ u :: ts'')) = (t :: rest) :: segments ts'' := by
          have := cut_semi (t :: rest) [] u ts'' (by simpa [htf] using hns) hu (by simp)
          simpa [segments] using this
        have hra : ReadAs input (t :: rest) v := ⟨t, rest, la, n, s, rfl, hla, b', hrun, Or.inl ⟨u, hu, hlx ▸ hr⟩⟩
        rw [hcut]
        rcases ih h1 hsc (reach_run hla hr) with h | ⟨segs, w, l'', i1, i2, i3, i4⟩
        · exact Or.inl (.cons hra h)
        · refine Or.inr ⟨(t :: rest) :: segs, w, l'', by rw [i1]; rfl, .cons hra i2, ?_, i4⟩
          have := Run.tok a b' (run_append hr i3)
          simpa using this
      · have hcut : segments (t :: ts') = [t :: ts'] := by
          have := cut_clean (t :: ts') [] (by simpa [htf] using hns)
          simpa [segments] using this
        have hra : ReadAs input (t :: ts') v := ⟨t, ts', la, n, s, rfl, hla, b', hrun, Or.inr ⟨c', hlx ▸ hcn, hlx ▸ hrn⟩⟩
        rw [hcut]
        cases end_stmts hrn e
        exact Or.inl (.cons hra .nil)

end Verif.Semi

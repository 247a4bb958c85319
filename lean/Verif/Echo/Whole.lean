/-
From the text of a SELECT statement to its formatted text.  No definition here is part of the model.
-/
import Verif.Echo.Stmt
import Verif.Echo.Glue2
import Verif.Analysis.Result

namespace Verif.Echo
open Verif.Spec

theorem reach_kind {a : Str} {l : Lx} (h : Reach a l) {t : Token} (ht : l.cur = some t) {k : Kind} (hk : k ≠ .eof ∧ ∀ s, k = .op s → s.length ≤ 2 ∧ s ≠ [])
    (hi : isKind t k) : t.kind = k := src_kind (src_of h ht) hk hi

theorem semi_cur {a : Str} {l : Lx} (hr : Reach a l) (h : ¬ Semi.NotSemi l) : ∃ t, l.cur = some t ∧ t.kind = .op b!";" := by
  have h : l.curKind = b!";" := by unfold Semi.NotSemi at h; exact Classical.not_not.1 h
  cases hc : l.cur with
  | none => simp only [Lx.curKind, hc] at h; exact absurd h (by decide)
  | some t =>
    simp only [Lx.curKind, hc] at h
    exact ⟨t, rfl, reach_kind hr hc (by simp) h⟩

/-- After the statement. -/
theorem semis {a : Str} {l l1 l2 : Lx} {vs : List V} (h : Semi.Stmts l vs l1) : vs = [] → l1.consume = .ok l2 → l2.isEOF = true → Reach a l →
    ∀ {ts}, Scan l ts true → ∃ ss last, ts = ss ++ last ∧ (∀ t ∈ ss, t.kind = .op b!";") ∧ last.length ≤ 1 := by
  induction h with
  | done =>
    intro _ hc he _ ts hs
    refine ⟨[], ts, rfl, by simp, ?_⟩
    cases hs with
    | eof => simp
    | tok h1 h2 h3 =>
      rw [hc] at h1
      cases h1
      have : l2.rest = [] := by simpa [Lx.isEOF] using he
      cases h3 with
      | eof => simp
      | tok h4 h5 _ =>
        obtain ⟨o, r, c⟩ := l2
        simp only at this
        subst this
        have h6 : Lx.consume ⟨o, [], c⟩ = .ok ⟨o, [], none⟩ := rfl
        rw [h6] at h4
        cases h4
        cases h5
  | semi h1 h2 h3 _ ih =>
    intro hv hc he hr ts hs
    obtain ⟨t, ht, hk⟩ := semi_cur (.ok hr h1) h3
    cases hs with
    | eof h4 h5 => rw [h1] at h4; cases h4; rw [ht] at h5; cases h5
    | tok h4 h5 h6 =>
      rw [h1] at h4
      cases h4
      rw [ht] at h5
      cases h5
      obtain ⟨ss, last, rfl, h7, h8⟩ := ih hv hc he (.ok hr h1) h6
      exact ⟨t :: ss, last, rfl, by simpa using ⟨hk, h7⟩, h8⟩
  | stmt => intro hv; cases hv

/-- To the first token of the statement. -/
theorem starts {a : Str} {l l1 : Lx} {vs : List V} (h : Semi.Stmts l vs l1) : ∀ {v}, vs = [v] → Reach a l → ∀ {pre q src}, Scan l (pre ++ q :: src) true →
    (∀ t ∈ pre, t.kind = .op b!";") → q.kind = .keyword → ∃ la lb, la.cur = some q ∧ Scan la src true ∧ Reach a la ∧ Semi.Stmt1 la v lb ∧ Semi.Stmts lb [] l1 := by
  induction h with
  | done => intro v hv; cases hv
  | semi h1 h2 h3 _ ih =>
    intro v hv hr pre q src hs hp hq
    obtain ⟨t, ht, hk⟩ := semi_cur (.ok hr h1) h3
    cases pre with
    | nil =>
      cases hs with
      | tok h4 h5 h6 =>
        rw [h1] at h4
        cases h4
        rw [ht] at h5
        cases h5
        rw [hk] at hq
        cases hq
    | cons p pre =>
      cases hs with
      | tok h4 h5 h6 =>
        rw [h1] at h4
        cases h4
        exact ih hv (.ok hr h1) h6 (fun t ht => hp t (List.mem_cons_of_mem _ ht)) hq
  | stmt h1 h2 h3 h7 h8 _ =>
    intro v hv hr pre q src hs hp hq
    cases hv
    cases pre with
    | nil =>
      cases hs with
      | tok h4 h5 h6 =>
        rw [h1] at h4
        cases h4
        exact ⟨_, _, h5, h6, .ok hr h1, h7, h8⟩
    | cons p pre =>
      exfalso
      cases hs with
      | tok h4 h5 h6 =>
        rw [h1] at h4
        cases h4
        have := hp p (by simp)
        apply h3
        simp [Lx.curKind, h5, this, Kind.toStr]

/-- The settings of the formatter. -/
def initial (m : Bool) (ind : Str) : Fmt := if m then { beautify := true, indent := ind } else {}

theorem writes {m : Bool} {ind : Str} {v : V} {us : List E} {f : Fmt} (hi : ind.all isBlank = true) (hp : PK m .n v us) (ht : v.hasTy noReq (.iface .Expr) = true)
    (hn : m = true → nl us) (hf : (initial m ind).writeExpr v = some f) : Rend m us f.out := by
  obtain ⟨⟨⟨t, fs, rfl⟩, hc⟩, _⟩ := hp
  have hs : Set m (initial m ind) := by
    cases m
    · exact ⟨rfl, rfl⟩
    · exact ⟨rfl, hi⟩
  simp only [Fmt.writeExpr, V.ty?, Option.bind_some] at hf
  obtain ⟨⟨T, h1, h2⟩, _⟩ := hc t _ rfl ht _ _ _ hs hn hf
  have : (initial m ind).out = [] := by cases m <;> rfl
  rw [h1, this]
  simpa using h2

/-! ### Line ends -/

/-- No token from here on has a line end. -/
def Lines (l : Lx) : Prop := ∃ P : Lx → Prop, P l ∧ ∀ m, P m → (∀ t, m.cur = some t → 10 ∉ t.str) ∧ P m.advance

theorem Lines.adv {l : Lx} (h : Lines l) : Lines l.advance := by
  obtain ⟨P, h1, h2⟩ := h
  exact ⟨P, (h2 l h1).2, h2⟩
theorem Lines.cur {l : Lx} (h : Lines l) {t : Token} (ht : l.cur = some t) : 10 ∉ t.str := by
  obtain ⟨P, h1, h2⟩ := h
  exact (h2 l h1).1 t ht

theorem lines_toks {l : Lx} {ts : List Token} (h : Toks l ts) (hn : ∀ t ∈ ts, 10 ∉ t.str) (hs : Scan l ts.tail true) : Lines l := by
  refine ⟨fun m => ∃ ts, Toks m ts ∧ Scan m ts.tail true ∧ ∀ t ∈ ts, 10 ∉ t.str, ⟨ts, h, hs, hn⟩, ?_⟩
  rintro m ⟨ts, h, hs, hn⟩
  constructor
  · intro t ht
    obtain ⟨rest, rfl, _⟩ := h.adv ht
    exact hn t (by simp)
  · generalize hr : ts.tail = rest at hs
    have hsub : ∀ t ∈ rest, 10 ∉ t.str := fun t ht => hn t (List.mem_of_mem_tail (hr ▸ ht))
    refine ⟨rest, ?_⟩
    cases hs with
    | eof a b =>
      unfold Lx.advance
      rw [a]
      exact ⟨.inl ⟨b, rfl⟩, scan_end a b, hsub⟩
    | tok a b c =>
      unfold Lx.advance
      rw [a]
      exact ⟨.inr ⟨_, _, b, rfl, c⟩, c, hsub⟩

theorem upper_nl {s : Str} (h : 10 ∉ s) : 10 ∉ upper s := by
  simp only [upper, List.mem_map, not_exists, not_and]
  intro c hc he
  have : c = 10 := by
    unfold upperByte at he
    split at he
    · rename_i hl
      simp only [Bool.and_eq_true, decide_eq_true_eq] at hl
      omega
    · exact he
  exact h (this ▸ hc)

theorem ok_nl {a : Str} {l : Lx} {t : Token} {u : E} (hr : Reach a l) (hc : Clean l) (hl : 10 ∉ t.str) (ht : l.cur = some t) (hu : u.ok t) (ho : opOk u = true) :
    10 ∉ u.text := by
  cases u with
  | sp => exact hu.elim
  | kw s => exact hu.2 ▸ upper_nl hl
  | op k =>
    simp only [opOk, decide_eq_true_eq] at ho
    have h1 := reach_kind hr ht (k := .op k) (by simpa using ho) hu
    have := (hc.reg ht).op _ h1
    exact this ▸ hl
  | word n q =>
    obtain ⟨_, rfl, rfl⟩ := hu
    simp only [E.text]
    split
    · simpa using hl
    · split
      · simpa using hl
      · split
        · simpa using hl
        · exact hl
  | num s => exact hu.2 ▸ hl
  | str s => obtain ⟨_, rfl⟩ := hu; simpa [E.text] using hl
  | as_ => decide
  | raw s => exact hu.2 ▸ hl

theorem reads_nl {a : Str} {l l' : Lx} {us : List E} (h : Reads l us l') : Reach a l → Clean l → Lines l → us.all opOk = true → Lines l' ∧ nl us := by
  have adv : ∀ {l}, Reach a l → Reach a l.advance := fun h => reach_next h (next_advance _)
  have cons : ∀ {u : E} {us : List E}, 10 ∉ u.text → nl us → nl (u :: us) := by
    intro u us h1 h2 w hw
    rcases List.mem_cons.1 hw with rfl | hw
    · exact h1
    · exact h2 w hw
  induction h with
  | nil => exact fun _ _ hc _ => ⟨hc, fun u hu => absurd hu (by simp)⟩
  | sp _ ih =>
    intro hr hc hl ho
    simp only [List.all_cons, Bool.and_eq_true] at ho
    obtain ⟨h1, h2⟩ := ih hr hc hl ho.2
    exact ⟨h1, cons (by decide) h2⟩
  | tok ht hu _ ih =>
    intro hr hc hl ho
    simp only [List.all_cons, Bool.and_eq_true] at ho
    obtain ⟨h1, h2⟩ := ih (adv hr) hc.adv hl.adv ho.2
    exact ⟨h1, cons (ok_nl hr hc (hl.cur ht) ht hu ho.1) h2⟩
  | noAs ht _ _ ih =>
    intro hr hc hl ho
    simp only [List.all_cons, Bool.and_eq_true] at ho
    obtain ⟨h1, h2⟩ := ih hr hc hl ho.2
    exact ⟨h1, cons (by decide) h2⟩
  | comma _ _ _ _ ih => exact fun hr hc hl ho => ih (adv hr) hc.adv hl.adv ho
  | paren _ _ _ hr1 _ _ _ ih1 ih2 =>
    intro hr hc hl ho
    simp only [List.all_append, Bool.and_eq_true] at ho
    obtain ⟨h1, h2⟩ := ih1 (adv hr) hc.adv hl.adv ho.1
    obtain ⟨h3, h4⟩ := ih2 (adv (reads_reach hr1 (adv hr))) (reads_fits hr1 (adv hr) hc.adv ho.1).1.adv h1.adv ho.2
    exact ⟨h3, nl_append.2 ⟨h2, h4⟩⟩
  | using_ _ _ _ hr1 _ _ _ ih1 ih2 =>
    intro hr hc hl ho
    simp only [List.all_append, Bool.and_eq_true] at ho
    obtain ⟨h1, h2⟩ := ih1 (adv (adv hr)) hc.adv.adv hl.adv.adv ho.1.2
    obtain ⟨h3, h4⟩ := ih2 (adv (reads_reach hr1 (adv (adv hr)))) (reads_fits hr1 (adv (adv hr)) hc.adv.adv ho.1.2).1.adv h1.adv ho.2
    exact ⟨h3, nl_append.2 ⟨nl_append.2 ⟨cons (by decide) (cons (by decide) (by simp [nl])), h2⟩, h4⟩⟩
  | limit _ hr1 _ _ hr2 _ ih1 ih2 ih3 =>
    intro hr hc hl ho
    simp only [List.all_append, Bool.and_eq_true] at ho
    have c1 := (reads_fits hr1 (adv hr) hc.adv ho.1.2).1
    have c2 := (reads_fits hr2 (adv (reads_reach hr1 (adv hr))) c1.adv ho.1.1.1.2).1
    obtain ⟨h1, h2⟩ := ih1 (adv hr) hc.adv hl.adv ho.1.2
    obtain ⟨h3, h4⟩ := ih2 (adv (reads_reach hr1 (adv hr))) c1.adv h1.adv ho.1.1.1.2
    obtain ⟨h5, h6⟩ := ih3 (reads_reach hr2 (adv (reads_reach hr1 (adv hr)))) c2 h3 ho.2
    refine ⟨h5, ?_⟩
    simp only [nl_append]
    exact ⟨⟨⟨⟨cons (by decide) (cons (by decide) (by simp [nl])), h4⟩, cons (by decide) (cons (by decide) (cons (by decide) (by simp [nl])))⟩, h2⟩, h6⟩

/-! ### The whole -/

theorem left_of {a : Str} {m lb l1 l2 : Lx} {rest : List Token} (hr : Reach a m) (ht : Toks m rest) (hf : Form m lb) (he : lb.cur = none ∨ lb.matchKinds [b!";"] = true)
    (hs : Semi.Stmts lb [] l1) (hc : l1.consume = .ok l2) (hl : l2.isEOF = true) : Left rest := by
  have adv : ∀ {l}, Reach a l → Reach a l.advance := fun h => reach_next h (next_advance _)
  have tail : ∀ {ts}, Reach a lb → Toks lb ts → ∃ ss last, ts = ss ++ last ∧ (∀ t ∈ ss, t.kind = .op b!";") ∧ last.length ≤ 1 ∧ (ss = [] → last = []) := by
    intro ts hr ht
    rcases he with he | he
    · rcases ht with ⟨_, rfl⟩ | ⟨t, _, h1, _⟩
      · exact ⟨[], [], rfl, by simp, by simp, fun _ => rfl⟩
      · rw [he] at h1; cases h1
    · obtain ⟨t, h1, h2⟩ := semi_cur hr (Semi.semi_match.1 he)
      rcases ht with ⟨h3, _⟩ | ⟨t', rest, h3, rfl, h4⟩
      · rw [h1] at h3; cases h3
      · rw [h1] at h3
        cases h3
        obtain ⟨ss, last, rfl, h5, h6⟩ := semis hs rfl hc hl hr h4
        exact ⟨t :: ss, last, rfl, by simpa using ⟨h2, h5⟩, h6, by simp⟩
  rcases hf with rfl | ⟨h1, t, h2, h3, rfl⟩
  · obtain ⟨ss, last, rfl, h⟩ := tail hr ht
    exact ⟨[], ss, last, rfl, .inl rfl, h⟩
  · obtain ⟨f, hfc, hfs⟩ := match_spells hr rfl h1
    obtain ⟨r1, rfl, ht1⟩ := ht.adv hfc
    obtain ⟨r2, rfl, ht2⟩ := ht1.adv h2
    obtain ⟨ss, last, rfl, h⟩ := tail (adv (adv hr)) ht2
    refine ⟨[f, t], ss, last, rfl, .inr ⟨f, t, rfl, hfs, ?_⟩, h⟩
    rcases h3 with h3 | h3
    · exact .inl (reach_kind (adv hr) h2 (by simp) h3)
    · exact .inr (reach_kind (adv hr) h2 (by simp) h3)

theorem scan_src {a : Str} {l : Lx} {ts : List Token} {fin : Bool} (h : Scan l ts fin) : Reach a l → ∀ t ∈ ts, Src t := by
  induction h with
  | eof => simp
  | err => simp
  | tok h1 h2 _ ih =>
    intro hr t ht
    rcases List.mem_cons.1 ht with rfl | ht
    · exact src_of (.ok hr h1) h2
    · exact ih (.ok hr h1) t ht

theorem whole {a : Str} {v : V} {ts pre src : List Token} {m : Bool} {ind : Str} {f : Fmt} (hp : Parses a [v]) (hs : Scan (Lx.new a) ts true)
    (hq : Query ts pre src) (hc : ∀ t ∈ ts, Canonical t) (hv : v.plain = true) (hi : ind.all isBlank = true) (hn : m = true → ∀ t ∈ src, 10 ∉ t.str)
    (hf : (initial m ind).writeExpr v = some f) :
    ∃ us rest, ScanT (Lx.new f.out) us ∧ Rewritten src us rest ∧ Left rest := by
  obtain ⟨rfl, hpre, q, hh, hqs⟩ := hq
  obtain ⟨src, rfl⟩ : ∃ s, src = q :: s := by
    cases src with
    | nil => cases hh
    | cons x s => cases hh; exact ⟨s, rfl⟩
  obtain ⟨l1, l2, hst, hc2, heof⟩ := Semi.parses_iff.1 hp
  obtain ⟨la, lb, hcur, hsc, hr, ⟨n, s, hrun, rfl⟩, hrest⟩ := starts hst rfl .start hs hpre (by rcases hqs with h | h <;> exact h.1)
  have reg : ∀ t, Canonical t → Src t → Regular t := fun t h hsrc => ⟨h.1, fun hk => h.2 (src_kind hsrc (by simp) hk)⟩
  have hcl : Clean la := by
    refine clean_scan hsc (fun t ht => reg t (hc t (by simp [ht])) (scan_src hsc hr t ht)) (fun t ht => ?_)
    rw [hcur] at ht
    cases ht
    exact reg q (hc q (by simp)) (src_of hr hcur)
  have hkw : la.matchKw b!"SELECT" = true ∨ la.matchKw b!"WITH" = true := by
    rcases hqs with h | h
    · exact .inl (An.matchKw_iff.2 ⟨q, hcur, by rw [h.1], h.2⟩)
    · exact .inr (An.matchKw_iff.2 ⟨q, hcur, by rw [h.1], h.2⟩)
  obtain ⟨lb, mb, ib⟩ := s
  have := calls2 n .parseStmt _ la [] [] _ lb mb ib hcl hrun _ rfl hkw
  obtain ⟨v', e', h1, h2⟩ := this
  cases h1
  obtain ⟨m1, ⟨_, hval⟩, hform, hend⟩ := h2 rfl
  obtain ⟨us, hreads, hecho⟩ := hval hv
  have hops := echo_ops hecho rfl
  have htree := (An.parses_isTree_noReq hp (v := v) (by simp)).2
  have hchain : us.IsChain (fun a b => adj a b = true) := (glue hecho (glued_of v _ htree hv)).chain
  have htoks : Toks la (q :: src) := .inr ⟨q, src, hcur, rfl, hsc⟩
  have hnl : m = true → nl us := fun hm => (reads_nl hreads hr hcl (lines_toks htoks (hn hm) hsc) hops).2
  have hrend := writes hi (print m hecho) htree hnl hf
  obtain ⟨os, hos, hlex⟩ := lex hrend hchain (reads_fits hreads hr hcl hops).2 0 none
  obtain ⟨rest, h3, h4⟩ := reads_rewritten hreads hr hcl hops htoks hlex
  exact ⟨os, rest, hos, h4, left_of (reads_reach hreads hr) h3 hform hend hrest hc2 heof⟩

end Verif.Echo

/-
Statements are separated by `;` (properties C20, C21, C39).
-/
import Verif.Semi.Lexical
import Verif.Props.Same

namespace Verif
open Spec Semi

/-! ### C20 -/

/-- **C20**, except for a last token at the very end of the text.  If a text without lexical errors is accepted,
its tokens cut at the `;`s are read as the returned statements, one piece for each statement, in order, without
empty pieces.  Only if the last piece is a single token that ends the text it may be missing
(`C20_last_token_ignored`). -/
theorem C20_whole_input_partial (input : Str) (ts : List Token) (vs : List V) (ht : Scan (Lx.new input) ts true) (h : Parses input vs) :
    List.Forall₂ (ReadAs input) (segments ts) vs ∨
    ∃ segs t l, segments ts = segs ++ [[t]] ∧ List.Forall₂ (ReadAs input) segs vs ∧ Run (Lx.new input) ts l ∧ l.cur = some t ∧ l.rest = [] := by
  rw [parses_iff] at h
  obtain ⟨l1, l2, h0, h1, h2⟩ := h
  exact stmts_segments h0 h1 h2 ht .start

/-- Two statements, and an empty one. -/
example : ∃ vs, Scan (Lx.new b!"SELECT a;; USE t") (scanText b!"SELECT a;; USE t").1 true ∧ Parses b!"SELECT a;; USE t" vs ∧
    (segments (scanText b!"SELECT a;; USE t").1).map (·.map (·.str)) = [[b!"SELECT", b!"a"], [b!"USE", b!"t"]] :=
  ⟨_, scan_clean (by decide +kernel), (acceptsWith_iff (p := fun _ => true) (by decide +kernel)).choose_spec.1, by decide +kernel⟩

/-- **C20** with white space or a comment at the end of the text: nothing is missing. -/
theorem C20_loose_end (input : Str) (ts : List Token) (vs : List V) (ht : Scan (Lx.new input) ts true) (h : Parses input vs)
    (he : ¬ Tight input) : List.Forall₂ (ReadAs input) (segments ts) vs := by
  rcases C20_whole_input_partial input ts vs ht h with h | ⟨_, _, l, _, _, h1, _, h2⟩
  · exact h
  · exact absurd ⟨ts, l, h1, h2⟩ he

/-- Texts whose last token is followed by a blank are not tight. -/
theorem blank_not_tight {a : Str} {ts : List Token} {l : Lx} (h : Run (Lx.new a) ts l) (hl : l.rest = b!" ") : ¬ Tight a := by
  rintro ⟨us, m, hm, he⟩
  have key : ∀ {k l : Lx} {ts us : List Token}, l.rest = b!" " → Run k ts l → Run k us m → False := by
    intro k l ts us hl h hm
    clear * - hl h hm he
    induction h generalizing us with
    | @nil l =>
      have e : l.consume = .ok ⟨l.off + 1, [], none⟩ := by
        obtain ⟨o, r, c⟩ := l
        simp only at hl
        subst hl
        exact blank_end o c
      cases hm with
      | nil => rw [hl] at he; simp at he
      | tok a b _ => rw [e] at a; cases a; simp at b
    | tok a b c ih =>
      cases hm with
      | nil =>
        have := end_scan he
        cases this with
        | eof a' b' => rw [a] at a'; cases a'; rw [b] at b'; cases b'
      | tok a' b' c' => rw [a] at a'; cases a'; exact ih hl c'
  exact key hl h hm

/-- To exhibit a run over all the tokens of a concrete text. -/
def runAll : Nat → Lx → Lx
  | 0, l => l
  | n + 1, l => match l.consume with
    | .ok l' => if l'.cur.isSome then runAll n l' else l
    | .err _ => l

theorem runAll_run : ∀ (n : Nat) (l : Lx), ∃ ts, Run l ts (runAll n l)
  | 0, l => ⟨[], .nil⟩
  | n + 1, l => by
    rw [runAll]
    cases hc : l.consume with
    | err _ => exact ⟨[], .nil⟩
    | ok l' =>
      simp only
      split
      · rename_i hs
        obtain ⟨t, ht⟩ := Option.isSome_iff_exists.1 hs
        obtain ⟨ts, h⟩ := runAll_run n l'
        exact ⟨t :: ts, .tok hc ht h⟩
      · exact ⟨[], .nil⟩

example : ∃ vs, Scan (Lx.new b!"SELECT a;; USE t ") (scanText b!"SELECT a;; USE t ").1 true ∧ Parses b!"SELECT a;; USE t " vs ∧
    ¬ Tight b!"SELECT a;; USE t " :=
  ⟨_, scan_clean (by decide +kernel), (acceptsWith_iff (p := fun _ => true) (by decide +kernel)).choose_spec.1,
    blank_not_tight (runAll_run 20 (Lx.new b!"SELECT a;; USE t ")).choose_spec (by decide +kernel)⟩

theorem accepts_length {input : Str} (n : Nat) (h : acceptsWith input (fun vs => vs.length == n) = true) :
    ∃ vs, Parses input vs ∧ vs.length = n := by
  obtain ⟨vs, h1, h2⟩ := acceptsWith_iff h
  exact ⟨vs, h1, by simpa using h2⟩

theorem accepts_nil {input : Str} (h : acceptsWith input (fun vs => vs.length == 0) = true) : Parses input [] := by
  obtain ⟨vs, h1, h2⟩ := accepts_length 0 h
  rw [List.length_eq_zero_iff] at h2
  exact h2 ▸ h1

theorem fails_not_parses {input : Str} {e : V} {vs : List V} (h : Fails input e) : ¬ Parses input vs := by
  rintro ⟨w, s, h1, _⟩
  obtain ⟨w', s', h2, h3⟩ := h
  rw [h1] at h2
  cases h2
  simp [V.nonNil] at h3

theorem rejects_not {input : Str} (h : rejectsWith input (fun _ => true) = true) (vs : List V) : ¬ Parses input vs := by
  obtain ⟨e, h, _⟩ := rejectsWith_iff h
  exact fails_not_parses h

/-- C20 is false in general: a text of one token is accepted with no statement, whatever the token, and a last
token behind a `;` is dropped; with a blank behind it, it is an error. -/
theorem C20_last_token_ignored : Parses b!"foo" [] ∧ Parses b!"SELECT" [] ∧
    (∃ vs, Parses b!"SELECT 1;)" vs ∧ vs.length = 1) ∧ ∀ vs, ¬ Parses b!"SELECT 1;) " vs := by
  have h1 := accepts_nil (input := b!"foo") (by decide +kernel)
  have h2 := accepts_nil (input := b!"SELECT") (by decide +kernel)
  have h3 := accepts_length (input := b!"SELECT 1;)") 1 (by decide +kernel)
  have h4 := rejects_not (input := b!"SELECT 1;) ") (by decide +kernel)
  exact ⟨h1, h2, h3, h4⟩

/-! ### C21 -/

variable {input : Str} {ts : List Token} {l l' : Lx}

/-- **C21** for all lexical errors but unterminated comments and unclosed quoted identifiers: a text with a
malformed number, an unclosed string or a character outside ASCII is not accepted, wherever it stands. -/
theorem C21_lexical_error_partial (h : Run (Lx.new input) ts l) (he : l.consume = .err l') (ho : ¬ OpenEnd l.rest) (vs : List V) :
    ¬ Parses input vs := by
  rw [parses_iff]
  rcases err_again he with h1 | h1
  · exact absurd h1 ho
  · exact doomed_stmts he h1 (Or.inl ⟨ts, h⟩)

/-- **C21** for all lexical errors at the start of a text or behind a `;`. -/
theorem C21_at_statement_start_partial (h : Run (Lx.new input) ts l) (he : l.consume = .err l')
    (hs : ts = [] ∨ ∃ t, l.cur = some t ∧ t.semi = true) (vs : List V) : ¬ Parses input vs := by
  rw [parses_iff]
  intro hp
  rcases hs with rfl | ⟨t, hc, ht⟩
  · cases h
    exact err_stmts he hp
  · have hE : Ends l l := ⟨rfl, rfl, rfl, semi_not hc (semi_kind ht)⟩
    have hA : ∀ {k : Lx} {ts : List Token}, Run k ts l → Ahead l l k k := by
      intro k ts h
      clear * - h
      induction h with
      | nil => exact .stop
      | tok a b _ ih => exact .step rfl rfl a a b ih
    have hl : l.isEOF = false := by
      cases hr : l.rest with
      | nil =>
        have := end_scan hr
        cases this with
        | eof a _ => rw [he] at a; cases a
      | cons => simp [Lx.isEOF, hr]
    obtain ⟨_, _, _, _, _, h3⟩ := stmts_ahead hE hl (hA h) hp
    exact err_stmts he h3

/-- `SELECT a FROM t WHERE b = 'x`. -/
example : ∃ ts l l', Run (Lx.new b!"SELECT a FROM t WHERE b = 'x") ts l ∧ l.consume = .err l' ∧ ¬ OpenEnd l.rest := by
  obtain ⟨ts, h⟩ := runAll_run 20 (Lx.new b!"SELECT a FROM t WHERE b = 'x")
  refine ⟨ts, _, _, h, show _ = LRes.err ⟨26, b!"'x", none⟩ by decide +kernel, ?_⟩
  have e : (runAll 20 (Lx.new b!"SELECT a FROM t WHERE b = 'x")).rest = b!" 'x" := by decide +kernel
  rw [e]
  intro ho
  have hg : ∀ g : Str, Gap g → ∀ y, b!" 'x" = g ++ y → y = b!" 'x" ∨ y = b!"'x" := by
    intro g hg y hy
    have w1 : ∀ w : Str, White w → ∀ z : Str, b!" 'x" = w ++ z → w = b!" " := by
      rintro w ⟨cp, hcp, rfl⟩ z hz
      simp only [spaceCodePoints, List.mem_cons, List.not_mem_nil, or_false] at hcp
      rcases hcp with rfl | rfl | rfl | rfl | rfl | rfl | rfl | rfl | rfl | rfl | rfl | rfl | rfl | rfl |
        rfl | rfl | rfl | rfl | rfl | rfl | rfl | rfl | rfl | rfl | rfl <;> simp [utf8] at hz ⊢
    have w2 : ∀ w : Str, White w → ∀ z : Str, b!"'x" ≠ w ++ z := by
      rintro w ⟨cp, hcp, rfl⟩ z hz
      simp only [spaceCodePoints, List.mem_cons, List.not_mem_nil, or_false] at hcp
      rcases hcp with rfl | rfl | rfl | rfl | rfl | rfl | rfl | rfl | rfl | rfl | rfl | rfl | rfl | rfl |
        rfl | rfl | rfl | rfl | rfl | rfl | rfl | rfl | rfl | rfl | rfl <;> simp [utf8] at hz
    cases hg with
    | nil => exact Or.inl (by simpa using hy.symm)
    | white hw hg =>
      rw [List.append_assoc] at hy
      have := w1 _ hw _ hy
      subst this
      simp only [List.cons_append, List.nil_append, List.cons.injEq, true_and] at hy
      cases hg with
      | nil => exact Or.inr (by simpa using hy.symm)
      | white hw2 _ => rw [List.append_assoc] at hy; exact absurd hy (w2 _ hw2 _)
      | line => simp at hy
      | block => simp at hy
    | line => simp at hy
    | block => simp at hy
  generalize hx : b!" 'x" = x at ho
  cases ho with
  | comment h _ => rcases hg _ h _ hx with h | h <;> simp at h
  | quoted h hq _ => rcases hg _ h _ hx with h | h <;> simp at h <;> omega

/-- `USE t; "x`. -/
example : ∃ ts l l' t, Run (Lx.new b!"USE t; \"x") ts l ∧ l.consume = .err l' ∧ l.cur = some t ∧ t.semi = true := by
  obtain ⟨ts, h⟩ := runAll_run 20 (Lx.new b!"USE t; \"x")
  exact ⟨ts, _, ⟨8, b!"x", none⟩, ⟨5, 6, .op b!";", b!";", 0, 0⟩, h, by decide +kernel, by decide +kernel, rfl⟩

/-- C21 is false in general: behind a complete statement, an unterminated comment is ignored together with all
that follows, and an unclosed quoted identifier is ignored or only its quote is. -/
theorem C21_lexical_errors_ignored : (∃ vs, Parses b!"SELECT 1 /* ; DROP TABLE x" vs ∧ vs.length = 1) ∧
    (∃ vs, Parses b!"SELECT 1 `abc" vs ∧ vs.length = 1) ∧ (∃ vs, Parses b!"SELECT 1 \"; DROP TABLE x" vs ∧ vs.length = 2) := by
  have h1 := accepts_length (input := b!"SELECT 1 /* ; DROP TABLE x") 1 (by decide +kernel)
  have h2 := accepts_length (input := b!"SELECT 1 `abc") 1 (by decide +kernel)
  have h3 := accepts_length (input := b!"SELECT 1 \"; DROP TABLE x") 2 (by decide +kernel)
  exact ⟨h1, h2, h3⟩

/-- The three texts do have lexical errors. -/
theorem C21_have_errors : ∃ t1 t2 t3, Scan (Lx.new b!"SELECT 1 /* ; DROP TABLE x") t1 false ∧ Scan (Lx.new b!"SELECT 1 `abc") t2 false ∧
    Scan (Lx.new b!"SELECT 1 \"; DROP TABLE x") t3 false := by
  have sc : ∀ s, (scanText s).2 = false → Scan (Lx.new s) (scanText s).1 false := fun s h => h ▸ scanText_scan s
  exact ⟨_, _, _, sc _ (by decide +kernel), sc _ (by decide +kernel), sc _ (by decide +kernel)⟩

/-! ### C39 -/

/-- **C39** for texts `a` in which the `;` behind `a` is a token, with blanks in place of the text before the `;`:
parsing `a;b` yields what parsing `a; ` yields followed by what parsing `b` yields at the same place. -/
theorem C39_statements_partial (a b : Str) (ha : Closed a) (hb : b ≠ []) (us : List V) :
    Parses (a ++ (b!";" ++ b)) us ↔
    ∃ vs ws, us = vs ++ ws ∧ Parses (a ++ b!"; ") vs ∧ Parses (blanks (a.length + 1) ++ b) ws :=
  parses_split ha hb

/-- To show of a concrete text that it is closed. -/
theorem closed_of {a : Str} (n : Nat) (h : (match runAll n (Lx.new (a ++ b!";")) with
    | ⟨o, [], some t⟩ => o == a.length + 1 && t.semi
    | _ => false) = true) : Closed a := by
  obtain ⟨ts, hr⟩ := runAll_run n (Lx.new (a ++ b!";"))
  split at h
  · rename_i o t e
    rw [e] at hr
    simp only [Bool.and_eq_true, beq_iff_eq] at h
    exact ⟨ts, t, h.1 ▸ hr, h.2⟩
  · simp at h

example : ∃ a b us, Closed a ∧ b ≠ [] ∧ Parses (a ++ (b!";" ++ b)) us ∧ us.length = 3 :=
  ⟨b!"USE t; SELECT ';'", b!" SELECT 2", (accepts_length (input := b!"USE t; SELECT ';'; SELECT 2") 3 (by decide +kernel)).imp fun us h =>
    ⟨closed_of 20 (by decide +kernel), by decide, h.1, h.2⟩⟩

theorem sim_symm {t u : Token} (h : t.Sim Eq u) : u.Sim Eq t := by
  obtain ⟨h1, h2, h3, h4, h5⟩ := h
  exact ⟨h1.symm, h2.symm, fun _ => h2.symm, h4.symm, h5.symm⟩

theorem sameText_symm {a b : Str} (h : SameText Eq a b) : SameText Eq b a := by
  obtain ⟨S, hS, h⟩ := h
  refine ⟨fun l m => S m l, ⟨fun {l m} h => ?_, fun h => (hS.eof h).symm, fun {l m} h => ?_⟩, h⟩
  · have := hS.cur h
    cases hl : m.cur <;> cases hm : l.cur <;> rw [hl, hm] at this <;> cases this
    · exact .none
    · rename_i h; exact .some (sim_symm h)
  · have := hS.step h
    cases hl : m.consume <;> cases hm : l.consume <;> rw [hl, hm] at this
    · exact this
    · exact this.elim
    · exact this.elim
    · exact this

theorem sameText_blanks {b : Str} (hb : b ≠ []) (n : Nat) : SameText Eq b (blanks (n + 1) ++ b) := by
  have := sameText_gap (a := []) (b := b) (w := b!" ") (g := blanks n) (cur := none) (ts := []) .nil hb ⟨32, by decide, rfl⟩ (blanks_gap n)
  exact this

/-- **C39** with the positions left out: parsing `a;b` yields what parsing `a; ` yields followed by what parsing `b`
yields. -/
theorem C39_concat_partial (a b : Str) (ha : Closed a) (hb : b ≠ []) :
    (∀ vs ws, Parses (a ++ b!"; ") vs → Parses b ws → ∃ ws', Parses (a ++ (b!";" ++ b)) (vs ++ ws') ∧ SameTrees ws ws') ∧
    (∀ us, Parses (a ++ (b!";" ++ b)) us → ∃ vs ws ws', us = vs ++ ws ∧ Parses (a ++ b!"; ") vs ∧ Parses b ws' ∧ SameTrees ws ws') := by
  constructor
  · intro vs ws h1 h2
    obtain ⟨ws', h3, h4⟩ := same_trees (sameText_blanks hb a.length) h2
    exact ⟨ws', (parses_split ha hb).2 ⟨vs, ws', rfl, h1, h3⟩, h4⟩
  · intro us h
    obtain ⟨vs, ws, rfl, h1, h2⟩ := (parses_split ha hb).1 h
    obtain ⟨ws', h3, h4⟩ := same_trees (sameText_symm (sameText_blanks hb a.length)) h2
    exact ⟨vs, ws, ws', rfl, h1, h3, h4⟩

example : ∃ a b vs ws, Closed a ∧ b ≠ [] ∧ Parses (a ++ b!"; ") vs ∧ Parses b ws ∧ vs.length = 2 ∧ ws.length = 1 := by
  obtain ⟨vs, h1, h2⟩ := accepts_length (input := b!"USE t; SELECT ';'; ") 2 (by decide +kernel)
  obtain ⟨ws, h3, h4⟩ := accepts_length (input := b!" SELECT 2") 1 (by decide +kernel)
  exact ⟨b!"USE t; SELECT ';'", b!" SELECT 2", vs, ws, closed_of 20 (by decide +kernel), by decide, h1, h3, h2, h4⟩

/-- C39 is false for `a` in place of `a; `: the end of the text is not like a `;`. -/
theorem C39_end_is_not_semicolon :
    (Parses b!"foo" [] ∧ (∃ ws, Parses b!"SELECT 1" ws) ∧ ∀ us, ¬ Parses b!"foo;SELECT 1" us) ∧
    ((∃ vs, Parses b!"ALTER TABLE t DROP COLUMN a," vs) ∧ ∀ us, ¬ Parses b!"ALTER TABLE t DROP COLUMN a,;SELECT 1" us) := by
  have h1 := accepts_nil (input := b!"foo") (by decide +kernel)
  have h2 := accepts_length (input := b!"SELECT 1") 1 (by decide +kernel)
  have h3 := rejects_not (input := b!"foo;SELECT 1") (by decide +kernel)
  have h4 := accepts_length (input := b!"ALTER TABLE t DROP COLUMN a,") 1 (by decide +kernel)
  have h5 := rejects_not (input := b!"ALTER TABLE t DROP COLUMN a,;SELECT 1") (by decide +kernel)
  exact ⟨⟨h1, h2.imp fun _ h => h.1, h3⟩, h4.imp fun _ h => h.1, h5⟩

end Verif

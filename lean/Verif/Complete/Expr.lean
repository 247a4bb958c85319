/-
The loop over operators, on known tokens.  No definition here is part of the model.
-/
import Verif.Complete.Prec

namespace Verif.Complete
open Verif.Spec Verif.Echo Verif.Echo.Sym Verif.Complete.Tac Verif.Group

/-- The body of a loop at the start of a method, and what comes after it. -/
def splitLoop : Stmt Fn → Stmt Fn × Stmt Fn
  | .seq (.loop b) k => (b, k)
  | s => (s, .skip)

/-- The loop over the operators, at a place, with what has been read. -/
def IL (p : Nat) (u : V) (l : Lx) (P : List V → Lx → Prop) : Prop :=
  ∀ n m i sv x y, Loops (splitLoop (retryTable .parseInfixLoop).body).1 (splitLoop (retryTable .parseInfixLoop).body).2 (runFn retryTable n) n
    ⟨[u, .nat p, x, y], sv⟩ ⟨l, m, i⟩ (fun _ s => P [] s.lx) (fun _ s => P [] s.lx) (fun rs s => P rs s.lx)

variable {p q : Nat} {u v : V} {l l' : Lx} {P : List V → Lx → Prop}

set_option linter.unusedVariables false

theorem il_start (h : IL p u l P) : Fw .parseInfixLoop [u, .nat p] l P := by
  start
  exact f_loop (h _ _ _ _ _ _)

theorem il_stop (hq : Prec l q) (hpq : q ≤ p) (h : P [u, .nil] l) : IL p u l P := by
  intro n m i sv x y
  apply f_unroll
  unfold Prec at hq
  fw []
  all_goals exact h

theorem il_step (ht : l.cur = some t) (hq : Prec l q) (hpq : p < q) (hi : Fw .parseInfix [u, .nat q] l (Got v l')) (h : ∀ w, Is v w → IL p w l' P) : IL p u l P := by
  intro n m i sv x y
  apply f_unroll
  unfold Prec at hq
  fw []
  exact h _ (by assumption) _ _ _ _ _ _

/-- Nothing that would belong to a unit follows. -/
structure Cl (l : Lx) : Prop where
  paren : l.matchKinds [b!"("] = false
  bracket : l.matchKinds [b!"["] = false
  dot : l.matchKinds [b!"."] = false
  over : l.matchKw b!"OVER" = false

/-- What may follow an expression of level `p`. -/
def Fol (p : Nat) (l : Lx) : Prop := Cl l ∧ ∃ q, Prec l q ∧ q ≤ 16 ∧ q ≤ p + 1 ∧ q ≠ 6 ∧ (p = 0 → q = 0)

/-- The tokens are a unit. -/
def MA (ts : List Token) (v : V) : Prop := ∀ l l', Ahead l ts l' → NoErr l → Cl l' → ∀ a, Fw .parseColumnExpr [a] l (Got v l')

/-- The tokens are an expression of level `p`. -/
def ME (p : Nat) (ts : List Token) (v : V) : Prop :=
  ∀ l l', Ahead l ts l' → NoErr l → Fol p l' → ∀ p' ≤ p, ∀ P, (∀ w, Is v w → IL p' w l' P) → ∀ a,
    Fw .parseUnaryExpr [a] l (fun rs l1 => ∃ u, rs = [u, .nil] ∧ IL p' u l1 P)

theorem Fol.mono {p' : Nat} (h : Fol p l) (hp : p ≤ p') : Fol p' l := by
  obtain ⟨h1, q, h2, h3, h4, h5, h6⟩ := h
  exact ⟨h1, q, h2, h3, by omega, h5, by omega⟩
theorem cl_of {os ws : List Str} (h : Starts os ws l)
    (hc : (os.all (fun s => ![b!"(", b!"[", b!"."].contains s && s != Kind.keyword.toStr) && ws.all (fun w => w != b!"OVER")) = true) : Cl l := by
  simp only [Bool.and_eq_true, Bool.not_eq_true', List.all_eq_true, bne_iff_ne, ne_eq] at hc
  obtain ⟨h1, h2⟩ := hc
  have hk : ∀ s ∈ [b!"(", b!"[", b!"."], l.matchKinds [s] = false := by
    intro s hs
    refine st_kinds h ?_
    simp only [List.mem_cons, List.not_mem_nil, or_false] at hs
    have : os.all (fun x => ![s].contains x && x != Kind.keyword.toStr) = true := by
      simp only [List.all_eq_true, Bool.and_eq_true, Bool.not_eq_true', bne_iff_ne, ne_eq]
      intro x hx
      obtain ⟨h3, h4⟩ := h1 x hx
      refine ⟨?_, h4⟩
      simp only [List.contains_eq_mem, List.mem_cons, List.not_mem_nil, or_false, decide_eq_false_iff_not, not_or] at h3 ⊢
      rcases hs with rfl | rfl | rfl
      · exact h3.1
      · exact h3.2.1
      · exact h3.2.2
    rw [this]
    rcases hs with rfl | rfl | rfl <;> rfl
  refine ⟨hk _ (by simp), hk _ (by simp), hk _ (by simp), st_kw h ?_⟩
  simp only [Bool.and_eq_true, List.all_eq_true, bne_iff_ne, ne_eq]
  exact ⟨fun x hx => (h1 x hx).2, h2⟩
theorem fol_end (h : Starts endKinds endWords l) : Fol p l :=
  ⟨cl_of h (by decide), 0, prec_end h, by omega, by omega, by omega, fun _ => rfl⟩

theorem tt_op {t : Token} {s : Str} (hk : t.kind = .op s) (h : (s != Kind.keyword.toStr) = true) : tokText t = t.str := by
  unfold tokText
  rw [hk]
  simp only [bne_iff_ne, ne_eq] at h
  simp [Kind.toStr]
  exact fun h' => absurd h' h
theorem tt_kw {t : Token} (hk : t.kind = .keyword) : tokText t = upper t.str := by unfold tokText; rw [hk]; simp
theorem tt_infix {t : Token} {q : Nat} (h : isInfix t q) : tokText t = spelling t := by
  obtain ⟨ws, ss, h1, ⟨h2, h3⟩ | ⟨s, h2, h3⟩⟩ := h
  · rw [tt_kw h2]; simp [spelling, h2]
  · rw [tt_op h3, spelling, h3]
    have : ∀ x ∈ infixLevels, ∀ s ∈ x.2.2, (s != Kind.keyword.toStr) = true := by decide
    exact this _ h1 _ h2

theorem sub {ts : List Token} (h : ME p ts v) (ha : Ahead l ts l') (hn : NoErr l) (hf : Fol p l') (hq : Prec l' q) (hle : q ≤ p) (a : V) :
    Fw .parseSubExpr [a, .nat p] l (Got v l') := by
  have h1 := h l l' ha hn hf p (Nat.le_refl _) (Got v l') (fun w hw => il_stop hq hle ⟨w, rfl, rfl, hw⟩)
  start
  fw []
  obtain ⟨u, rfl, h2⟩ := hp1
  have h3 := il_start h2
  fw []
  exact ⟨_, rfl, rfl, by assumption⟩
theorem expr0 {ts : List Token} (h : ME 0 ts v) (ha : Ahead l ts l') (hn : NoErr l) (hf : Starts endKinds endWords l') (a : V) :
    Fw .parseExpr [a] l (Got v l') := by
  have h1 := sub h ha hn (fol_end hf) (prec_end hf) (Nat.le_refl _)
  start
  fw []
  exact ⟨_, rfl, rfl, by assumption⟩

theorem e_atom {ts : List Token} (hb : Begins atomKinds [b!"CASE"] ts) (h : MA ts v) : ME p ts v := by
  intro l l' ha hn hf p' hp P hP a
  obtain ⟨hs, t, ht⟩ := hb.starts ha
  have h1 := h l l' ha hn hf.1
  start
  fw []
  exact ⟨_, rfl, hP _ (by assumption)⟩
theorem e_sign {t : Token} {ts : List Token} (hk : isSign t b!"+" ∨ isSign t b!"-") (h : MA ts v) : ME p (t :: ts) (N.UnaryExpr (kind := t.str) (expr := v)) := by
  intro l l' ha hn hf p' hp P hP a
  cases ha with
  | cons ht ha =>
    have h1 := h _ _ ha hn.adv hf.1
    unfold isSign at hk
    rcases hk with hk | hk
    all_goals
      have htt := tt_op hk rfl
      start
      fw []
      refine ⟨_, rfl, hP _ ?_⟩
      is_tree
theorem e_not {t : Token} {ts : List Token} (hp5 : p ≤ 5) (hk : isWord t b!"NOT") (h : ME 5 ts v) : ME p (t :: ts) (N.UnaryExpr (kind := b!"NOT") (expr := v)) := by
  intro l l' ha hn hf p' hp P hP a
  cases ha with
  | cons ht ha =>
    obtain ⟨hk, hs⟩ := hk
    have htt := (tt_kw hk).trans hs
    have hf5 := hf.mono hp5
    obtain ⟨h1, q, h2, h3, h4, h5, h6⟩ := hf
    have h1 := sub h ha hn.adv hf5 h2 (by omega)
    start
    fw []
    refine ⟨_, rfl, hP _ ?_⟩
    is_tree

/-! ### Operators -/

theorem cl_tok {t : Token} (ht : l.cur = some t) (h : t.kind.toStr ∉ [b!"(", b!"[", b!"."]) (hw : t.kind.toStr = b!"<keyword>" → t.kind = .keyword ∧ upper t.str ≠ b!"OVER") : Cl l := by
  refine cl_of (os := if t.kind.toStr = b!"<keyword>" then [] else [t.kind.toStr]) (ws := if t.kind.toStr = b!"<keyword>" then [upper t.str] else []) (.inr ⟨t, ht, ?_⟩) ?_
  · by_cases hc : t.kind.toStr = b!"<keyword>"
    · rw [if_pos hc, if_pos hc]; exact .inr ⟨(hw hc).1, by simp⟩
    · rw [if_neg hc]; exact .inl (by simp)
  · by_cases hc : t.kind.toStr = b!"<keyword>"
    · simpa [hc] using (hw hc).2
    · have hc' : ¬ t.kind.toStr = Kind.keyword.toStr := hc
      simpa [hc, hc'] using h

theorem infix_prec {o : Token} (ht : l.cur = some o) (h : isInfix o q) : Prec l q ∧ 3 ≤ q ∧ q ≤ 13 ∧ q ≠ 6 ∧ q ≠ 7 ∧ Cl l := by
  obtain ⟨ws, ss, h1, ⟨h2, h3⟩ | ⟨s, h2, h3⟩⟩ := h
  · have : ∀ x ∈ infixLevels, ∀ w ∈ x.2.1, (w, x.1) ∈ [(b!"OR", 3), (b!"AND", 4), (b!"IS", 7), (b!"LIKE", 9), (b!"ILIKE", 9), (b!"REGEXP", 9), (b!"BETWEEN", 9), (b!"IN", 10)] ∧
        3 ≤ x.1 ∧ x.1 ≤ 13 ∧ x.1 ≠ 6 ∧ x.1 ≠ 7 ∧ w ≠ b!"OVER" := by decide
    obtain ⟨a, b, c, d, e, f⟩ := this _ h1 _ h3
    exact ⟨prec_word ht h2 rfl a, b, c, d, e, cl_tok ht (by rw [h2]; decide) fun _ => ⟨h2, f⟩⟩
  · have : ∀ x ∈ infixLevels, ∀ s ∈ x.2.2, (s, x.1) ∈ [(b!"=", 8), (b!"==", 8), (b!"!=", 8), (b!"<>", 8), (b!"<", 8), (b!"<=", 8), (b!">", 8), (b!">=", 8), (b!"||", 11),
        (b!"+", 12), (b!"-", 12), (b!"*", 13), (b!"/", 13), (b!"%", 13), (b!"->", 1), (b!"?", 2), (b!"::", 16)] ∧ 3 ≤ x.1 ∧ x.1 ≤ 13 ∧ x.1 ≠ 6 ∧ x.1 ≠ 7 ∧
        s ∉ [b!"(", b!"[", b!"."] ∧ s ≠ b!"<keyword>" := by decide
    obtain ⟨a, b, c, d, e, f, g⟩ := this _ h1 _ h2
    refine ⟨prec_op ht h3 a, b, c, d, e, cl_tok ht (by rw [h3]; exact f) fun hc => ?_⟩
    rw [h3] at hc
    exact absurd hc g

/-- An expression, an operator that is looked at with the level `q`, and the rest that the operator needs. -/
theorem e_op {o : Token} {ts us : List Token} {v' : V} (hpq : p < q) (h : ME k ts v) (hk : k = q ∨ k + 1 = q)
    (hf : ∀ l l', Ahead l (o :: us) l' → NoErr l → Fol p l' → Fol k l ∧ Prec l q ∧ ∀ w, Is v w → Fw .parseInfix [w, .nat q] l (Got v' l')) :
    ME p (ts ++ o :: us) v' := by
  intro l l' ha hn hfo p' hp P hP a
  obtain ⟨m, h1, h2⟩ := ha.append
  have hm := h1.noErr hn
  obtain ⟨h3, h4, h5⟩ := hf m l' h2 hm hfo
  refine h l m h1 hn h3 p' (by omega) P (fun w hw => ?_) a
  have ht : ∃ t, m.cur = some t := by cases h2 with | cons h _ => exact ⟨_, h⟩
  obtain ⟨t, ht⟩ := ht
  exact il_step ht h4 (by omega) (h5 w hw) hP

theorem e_infix {o : Token} {ts us : List Token} {v w : V} (hpq : p < q) (ho : isInfix o q) (h : ME (q - 1) ts v) (h' : ME q us w) :
    ME p (ts ++ o :: us) (N.BinaryOperation (leftExpr := v) (operation := spelling o) (rightExpr := w)) := by
  have htt := tt_infix ho
  refine e_op hpq h (by omega) ?_
  intro l l' ha hn hf
  cases ha with
  | cons ht ha =>
    obtain ⟨h1, h2, h3, h4, h5, h6⟩ := infix_prec ht ho
    refine ⟨⟨h6, q, h1, by omega, by omega, h4, by omega⟩, h1, fun x hx => ?_⟩
    have hfq := hf.mono (p' := q) (by omega)
    obtain ⟨_, r, h7, h8, h9, h10, h11⟩ := hf
    have hr := sub h' ha hn.adv hfq h7 (by omega)
    have hm : ∀ x ∈ infixLevels, (∀ w ∈ x.2.1, w ∈ [b!"OR", b!"AND", b!"LIKE", b!"ILIKE", b!"REGEXP", b!"IN"]) ∧
        ∀ s ∈ x.2.2, s ∈ [b!"=", b!"==", b!"!=", b!"<>", b!"<", b!"<=", b!">", b!">=", b!"||", b!"+", b!"-", b!"*", b!"/", b!"%"] := by decide
    obtain ⟨ws, ss, ho, ⟨hk, hs⟩ | ⟨s, hs, hk⟩⟩ := ho
    · have := (hm _ ho).1 _ hs
      simp only [List.mem_cons, List.not_mem_nil, or_false] at this
      rcases this with hs | hs | hs | hs | hs | hs
      all_goals
        start
        fw []
        got
    · have := (hm _ ho).2 _ hs
      simp only [List.mem_cons, List.not_mem_nil, or_false] at this
      rcases this with rfl | rfl | rfl | rfl | rfl | rfl | rfl | rfl | rfl | rfl | rfl | rfl | rfl | rfl
      all_goals
        start
        fw []
        got

theorem e_notInfix {n o : Token} {ts us : List Token} {v w : V} (hpq : p < q) (hnt : isWord n b!"NOT") (ho : (upper o.str, q) ∈ negatable) (hk : o.kind = .keyword)
    (h : ME (q - 1) ts v) (h' : ME q us w) :
    ME p (ts ++ n :: o :: us) (N.BinaryOperation (leftExpr := v) (operation := b!"NOT " ++ spelling o) (rightExpr := w)) := by
  have htt : tokText o = spelling o := by rw [tt_kw hk]; simp [spelling, hk]
  obtain ⟨hk', hs'⟩ := hnt
  refine e_op hpq h (by omega) ?_
  intro l l' ha hn hf
  cases ha with
  | cons ht ha =>
    cases ha with
    | cons ht2 ha =>
      have hm : ∀ x ∈ negatable, x ∈ [(b!"IN", 10), (b!"LIKE", 9), (b!"ILIKE", 9), (b!"BETWEEN", 9)] ∧ (x.2 = 9 ∨ x.2 = 10) ∧ x.1 ∈ [b!"IN", b!"LIKE", b!"ILIKE"] := by decide
      obtain ⟨h1, h2, h3⟩ := hm _ ho
      have hpr := prec_not hn ht hk' hs' ht2 hk rfl h1
      dsimp only at h2 h3
      refine ⟨⟨cl_tok ht (by rw [hk']; decide) fun _ => ⟨hk', by rw [hs']; decide⟩, q, hpr, by omega, by omega, by omega, by omega⟩, hpr, fun x hx => ?_⟩
      have hfq := hf.mono (p' := q) (by omega)
      obtain ⟨_, r, h7, h8, h9, h10, h11⟩ := hf
      have hr := sub h' ha hn.adv.adv hfq h7 (by omega)
      simp only [List.mem_cons, List.not_mem_nil, or_false] at h3
      rcases h3 with hs | hs | hs
      all_goals
        start
        fw []
        got

/-- A word after an expression. -/
theorem fol_word {o : Token} {w : Str} (ht : l.cur = some o) (hk : isWord o w) (hw : (w != b!"OVER") = true) (hp : Prec l q) (h13 : q ≤ 16) (hle : q ≤ p + 1) (h6 : q ≠ 6) (h0 : 0 < p) : Fol p l :=
  ⟨cl_tok ht (by rw [hk.1]; decide) fun _ => ⟨hk.1, by rw [hk.2]; simpa using hw⟩, q, hp, h13, hle, h6, by omega⟩

theorem c_between {o a : Token} {us xs : List Token} {v w x u : V} {b : Bool} (ho : isWord o b!"BETWEEN") (hand : isWord a b!"AND") (h' : ME 9 us w) (h'' : ME 9 xs x)
    (ha : Ahead l (o :: (us ++ a :: xs)) l') (hn : NoErr l) (hf : Fol 9 l') (hq : Prec l' q) (hle : q ≤ 9) (hu : Is v u) :
    Fw .parseBetweenClause [u, .bool b] l (Got (N.BetweenClause (expr := v) (not := b) (between := w) (and := x)) l') := by
  cases ha with
  | cons ht ha =>
    obtain ⟨m, h1, h2⟩ := ha.append
    have hm := h1.noErr hn.adv
    cases h2 with
    | cons ht2 h2 =>
      have hpa := prec_word ht2 hand.1 hand.2 (q := 4) (by decide)
      have e1 := sub h' h1 hn.adv (fol_word ht2 hand rfl hpa (by omega) (by omega) (by omega) (by omega)) hpa (by omega)
      have e2 := sub h'' h2 hm.adv hf hq hle
      obtain ⟨hk, hs⟩ := ho
      obtain ⟨hk2, hs2⟩ := hand
      start
      fw []
      got

theorem e_between {o a : Token} {ts us xs : List Token} {v w x : V} (hp : p < 9) (ho : isWord o b!"BETWEEN") (hand : isWord a b!"AND")
    (h : ME 8 ts v) (h' : ME 9 us w) (h'' : ME 9 xs x) :
    ME p (ts ++ o :: (us ++ a :: xs)) (N.BetweenClause (expr := v) (between := w) (and := x)) := by
  refine e_op hp h (by omega) ?_
  intro l l' ha hn hf
  have ht : l.cur = some o := by cases ha; assumption
  have hpo := prec_word ht ho.1 ho.2 (q := 9) (by decide)
  refine ⟨fol_word ht ho rfl hpo (by omega) (by omega) (by omega) (by omega), hpo, fun u hu => ?_⟩
  have hf9 := hf.mono (p' := 9) (by omega)
  obtain ⟨_, r, h7, h8, h9, h10, h11⟩ := hf
  have hb := c_between (b := false) ho hand h' h'' ha hn hf9 h7 (by omega) hu
  obtain ⟨hk, hs⟩ := ho
  start
  fw []
  exact ⟨_, rfl, rfl, by assumption⟩

theorem e_notBetween {n o a : Token} {ts us xs : List Token} {v w x : V} (hp : p < 9) (hnt : isWord n b!"NOT") (ho : isWord o b!"BETWEEN") (hand : isWord a b!"AND")
    (h : ME 8 ts v) (h' : ME 9 us w) (h'' : ME 9 xs x) :
    ME p (ts ++ n :: o :: (us ++ a :: xs)) (N.BetweenClause (expr := v) (not := true) (between := w) (and := x)) := by
  refine e_op hp h (by omega) ?_
  intro l l' ha hn hf
  cases ha with
  | cons ht0 ha =>
  have ht : l.advance.cur = some o := by cases ha; assumption
  have hpo := prec_not (q := 9) hn ht0 hnt.1 hnt.2 ht ho.1 ho.2 (by decide)
  refine ⟨fol_word ht0 hnt rfl hpo (by omega) (by omega) (by omega) (by omega), hpo, fun u hu => ?_⟩
  have hf9 := hf.mono (p' := 9) (by omega)
  obtain ⟨_, r, h7, h8, h9, h10, h11⟩ := hf
  have hb := c_between (b := true) ho hand h' h'' ha hn.adv hf9 h7 (by omega) hu
  obtain ⟨hk, hs⟩ := ho
  obtain ⟨hkn, hsn⟩ := hnt
  start
  fw []
  exact ⟨_, rfl, rfl, by assumption⟩

theorem e_isNull {i n : Token} {ts : List Token} {v : V} (hp : p < 7) (hi : isWord i b!"IS") (hnu : isWord n b!"NULL") (h : ME 6 ts v) :
    ME p (ts ++ [i, n]) (N.IsNullExpr (expr := v)) := by
  refine e_op hp h (by omega) ?_
  intro l l' ha hn hf
  cases ha with
  | cons ht ha =>
  cases ha with
  | cons ht2 ha =>
  cases ha
  have hpo := prec_word ht hi.1 hi.2 (q := 7) (by decide)
  refine ⟨fol_word ht hi rfl hpo (by omega) (by omega) (by omega) (by omega), hpo, fun u hu => ?_⟩
  obtain ⟨hk, hs⟩ := hi
  obtain ⟨hk2, hs2⟩ := hnu
  start
  fw []
  got
theorem e_isNotNull {i o n : Token} {ts : List Token} {v : V} (hp : p < 7) (hi : isWord i b!"IS") (ho : isWord o b!"NOT") (hnu : isWord n b!"NULL") (h : ME 6 ts v) :
    ME p (ts ++ [i, o, n]) (N.IsNotNullExpr (expr := v)) := by
  refine e_op hp h (by omega) ?_
  intro l l' ha hn hf
  cases ha with
  | cons ht ha =>
  cases ha with
  | cons ht2 ha =>
  cases ha with
  | cons ht3 ha =>
  cases ha
  have hpo := prec_word ht hi.1 hi.2 (q := 7) (by decide)
  refine ⟨fol_word ht hi rfl hpo (by omega) (by omega) (by omega) (by omega), hpo, fun u hu => ?_⟩
  obtain ⟨hk, hs⟩ := hi
  obtain ⟨hk2, hs2⟩ := hnu
  obtain ⟨hk3, hs3⟩ := ho
  start
  fw []
  got

theorem fol_sign {o : Token} {s : Str} (ht : l.cur = some o) (hk : isSign o s) (hw : s ∉ [b!"(", b!"[", b!".", b!"<keyword>"]) (hp : Prec l q) (h13 : q ≤ 16) (hle : q ≤ p + 1) (h6 : q ≠ 6) (h0 : 0 < p) : Fol p l := by
  unfold isSign at hk
  simp only [List.mem_cons, List.not_mem_nil, or_false, not_or] at hw
  refine ⟨cl_tok ht (by rw [hk]; simpa [Kind.toStr] using ⟨hw.1, hw.2.1, hw.2.2.1⟩) fun hc => ?_, q, hp, h13, hle, h6, by omega⟩
  rw [hk] at hc
  exact absurd hc hw.2.2.2

theorem fol0 (hf : Fol 0 l) : Prec l 0 := by
  obtain ⟨_, r, h7, _, _, _, h11⟩ := hf
  rw [h11 rfl] at h7
  exact h7
theorem expr0' {ts : List Token} (h : ME 0 ts v) (ha : Ahead l ts l') (hn : NoErr l) (hf : Fol 0 l') (a : V) :
    Fw .parseExpr [a] l (Got v l') := by
  have h1 := sub h ha hn hf (fol0 hf) (Nat.le_refl _)
  start
  fw []
  exact ⟨_, rfl, rfl, by assumption⟩

theorem e_lambda {o : Token} {ts us : List Token} {v w : V} (ho : isSign o b!"->") (h : ME 1 ts v) (h' : ME 0 us w) :
    ME 0 (ts ++ o :: us) (N.BinaryOperation (leftExpr := v) (operation := b!"->") (rightExpr := w)) := by
  refine e_op (q := 1) (by omega) h (by omega) ?_
  intro l l' ha hn hf
  cases ha with
  | cons ht ha =>
  have hpo := prec_op ht ho (q := 1) (by decide)
  refine ⟨fol_sign ht ho (by decide) hpo (by omega) (by omega) (by omega) (by omega), hpo, fun u hu => ?_⟩
  have e := sub h' ha hn.adv hf (fol0 hf) (Nat.le_refl _)
  unfold isSign at ho
  start
  fw []
  refine r_call (as := [.nat l.advance.curPos, .nat 0]) (by simp [Exp.evalL, Exp.eval, V.toNat?]) (e _) fun rs l2 m2 i2 hr => ?_
  obtain ⟨x, rfl, rfl, hx⟩ := hr
  fw []
  got

theorem c_ternary {o c : Token} {us xs : List Token} {v w x u : V} (ho : isSign o b!"?") (hc : isSign c b!":") (h' : ME 0 us w) (h'' : ME 0 xs x)
    (ha : Ahead l (o :: (us ++ c :: xs)) l') (hn : NoErr l) (hf : Fol 0 l') (hu : Is v u) :
    Fw .parseTernaryExpr [u] l (Got (N.TernaryOperation (condition := v) (trueExpr := w) (falseExpr := x)) l') := by
  cases ha with
  | cons ht ha =>
  obtain ⟨m, h1, h2⟩ := ha.append
  have hm := h1.noErr hn.adv
  cases h2 with
  | cons ht2 h2 =>
  have hs : Starts endKinds endWords m := .inr ⟨c, ht2, .inl (by rw [show c.kind = _ from hc]; decide)⟩
  have e1 := expr0 h' h1 hn.adv hs
  have e2 := expr0' h'' h2 hm.adv hf
  unfold isSign at ho hc
  clear hs
  start
  fw []
  got

theorem e_ternary {o c : Token} {ts us xs : List Token} {v w x : V} (ho : isSign o b!"?") (hc : isSign c b!":") (h : ME 2 ts v) (h' : ME 0 us w) (h'' : ME 0 xs x) :
    ME 0 (ts ++ o :: (us ++ c :: xs)) (N.TernaryOperation (condition := v) (trueExpr := w) (falseExpr := x)) := by
  refine e_op (q := 2) (by omega) h (by omega) ?_
  intro l l' ha hn hf
  have ht : l.cur = some o := by cases ha; assumption
  have hpo := prec_op ht ho (q := 2) (by decide)
  refine ⟨fol_sign ht ho (by decide) hpo (by omega) (by omega) (by omega) (by omega), hpo, fun u hu => ?_⟩
  have e := c_ternary ho hc h' h'' ha hn hf hu
  unfold isSign at ho
  start
  fw []
  exact ⟨_, rfl, rfl, by assumption⟩

theorem e_global {g o : Token} {ts us : List Token} {v w : V} (hp : p < 10) (hg : isWord g b!"GLOBAL") (ho : isWord o b!"IN") (h : ME 9 ts v) (h' : ME 10 us w) :
    ME p (ts ++ g :: o :: us) (N.BinaryOperation (leftExpr := v) (operation := b!"IN") (rightExpr := w) (hasGlobal := true)) := by
  obtain ⟨hk', hs'⟩ := hg
  obtain ⟨hk, hs⟩ := ho
  refine e_op hp h (by omega) ?_
  intro l l' ha hn hf
  cases ha with
  | cons ht ha =>
  cases ha with
  | cons ht2 ha =>
  have hpr := prec_global hn ht hk' hs' ht2 hk (.inl hs)
  refine ⟨fol_word ht ⟨hk', hs'⟩ rfl hpr (by omega) (by omega) (by omega) (by omega), hpr, fun x hx => ?_⟩
  have hfq := hf.mono (p' := 10) (by omega)
  obtain ⟨_, r, h7, h8, h9, h10, h11⟩ := hf
  have hr := sub h' ha hn.adv.adv hfq h7 (by omega)
  start
  fw []
  got
theorem e_globalNot {g n o : Token} {ts us : List Token} {v w : V} (hp : p < 10) (hg : isWord g b!"GLOBAL") (hnt : isWord n b!"NOT") (ho : isWord o b!"IN")
    (h : ME 9 ts v) (h' : ME 10 us w) :
    ME p (ts ++ g :: n :: o :: us) (N.BinaryOperation (leftExpr := v) (operation := b!"IN") (rightExpr := w) (hasGlobal := true) (hasNot := true)) := by
  obtain ⟨hk', hs'⟩ := hg
  obtain ⟨hk, hs⟩ := ho
  obtain ⟨hk2, hs2⟩ := hnt
  refine e_op hp h (by omega) ?_
  intro l l' ha hn hf
  cases ha with
  | cons ht ha =>
  cases ha with
  | cons ht2 ha =>
  cases ha with
  | cons ht3 ha =>
  have hpr := prec_global hn ht hk' hs' ht2 hk2 (.inr hs2)
  refine ⟨fol_word ht ⟨hk', hs'⟩ rfl hpr (by omega) (by omega) (by omega) (by omega), hpr, fun x hx => ?_⟩
  have hfq := hf.mono (p' := 10) (by omega)
  obtain ⟨_, r, h7, h8, h9, h10, h11⟩ := hf
  have hr := sub h' ha hn.adv.adv.adv hfq h7 (by omega)
  start
  fw []
  got
theorem e_cast {o t : Token} {ts : List Token} {v : V} (hp : p < 16) (ho : isSign o b!"::") (ht : isPlainName t) (hne : t.str ≠ b!"Tuple") (h : ME 15 ts v)
    (h' : ME 16 [t] (name t)) :
    ME p (ts ++ [o, t]) (N.BinaryOperation (leftExpr := v) (operation := b!"::") (rightExpr := name t)) := by
  refine e_op hp h (by omega) ?_
  intro l l' ha hn hf
  cases ha with
  | cons hto ha =>
  have htt : l.advance.cur = some t := by cases ha; assumption
  have hpr := prec_op hto ho (q := 16) (by decide)
  refine ⟨fol_sign hto ho (by decide) hpr (by omega) (by omega) (by omega) (by omega), hpr, fun x hx => ?_⟩
  have hfq := hf.mono (p' := 16) (by omega)
  obtain ⟨_, r, h7, h8, h9, h10, h11⟩ := hf
  have hr := sub h' ha hn.adv hfq h7 (by omega)
  unfold isPlainName at ht
  unfold isSign at ho
  rw [← beq_eq_false_iff_ne] at hne
  start
  fw []
  got

end Verif.Complete

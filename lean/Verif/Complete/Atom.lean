/-
Units on known tokens: names, calls, lists in parentheses, `CASE`.  No definition here is part of the model.
-/
import Verif.Complete.Lists

namespace Verif.Complete
open Verif.Spec Verif.Echo Verif.Echo.Sym Verif.Complete.Tac Verif.Group

variable {p q : Nat} {u v : V} {l l' : Lx} {t : Token} {ts us : List Token} {vs : List V} {b : Bool}

set_option linter.unusedVariables false

/-! ### Looking at the next token -/

theorem c_peekKindS {os ws : List Str} {k : Str} (hn : NoErr l) (hs : Starts os ws l.advance) (hc : (!os.contains k && k != b!"<keyword>") = true) :
    Fw .peekTokenKind [.str k] l (Res [.bool false] l) := by
  simp only [Bool.and_eq_true, Bool.not_eq_true', bne_iff_ne, ne_eq] at hc
  rcases hs with h | ⟨t, ht, h⟩
  · exact c_peekKind0 hn h
  · refine (c_peekKind hn ht).mono fun rs l' hr => ?_
    have : (t.kind.toStr == k) = false := by
      rcases h with h | ⟨h, _⟩
      · have h2 := hc.1
        simp only [List.contains_eq_mem, decide_eq_false_iff_not] at h2
        simp only [beq_eq_false_iff_ne, ne_eq]
        rintro rfl
        exact h2 h
      · rw [h]
        simp only [beq_eq_false_iff_ne, ne_eq]
        exact fun h' => hc.2 h'.symm
    rw [this] at hr
    exact hr
theorem c_peekKwS {os ws : List Str} {k : Str} (hn : NoErr l) (hs : Starts os ws l.advance)
    (hc : (!os.contains b!"<keyword>" && ws.all (fun w => w != upper k)) = true) : Fw .peekKeyword [.str k] l (Res [.bool false] l) := by
  simp only [Bool.and_eq_true, Bool.not_eq_true', List.all_eq_true, bne_iff_ne, ne_eq] at hc
  rcases hs with h | ⟨t, ht, h⟩
  · exact c_peekKw0 hn h
  · refine (c_peekKw hn ht).mono fun rs l' hr => ?_
    have : (t.kind.toStr == Kind.keyword.toStr && equalFold t.str k) = false := by
      rcases h with h | ⟨_, h⟩
      · have h2 := hc.1
        simp only [List.contains_eq_mem, decide_eq_false_iff_not] at h2
        refine and_f1 ?_
        simp only [beq_eq_false_iff_ne, ne_eq]
        intro h'
        rw [h'] at h
        exact h2 h
      · refine and_f2 ?_
        have := hc.2 _ h
        simpa [equalFold] using this
    rw [this] at hr
    exact hr

/-- The tokens that do not make `CASE` a name. -/
def afterCase : List Str := [b!"<ident>", b!"<int>", b!"<float>", b!"<string>", b!"(", b!"["]

theorem c_startS (hn : NoErr l) (hs : Starts afterCase [b!"WHEN", b!"CASE"] l.advance) : Fw .peekIsClauseStarterKeyword [] l (Res [.bool false] l) := by
  start; fw [c_peekKwS]
  exact ⟨rfl, rfl⟩
theorem c_contS (hn : NoErr l) (hs : Starts afterCase [b!"WHEN", b!"CASE"] l.advance) : Fw .peekIsExpressionContinuation [] l (Res [.bool false] l) := by
  start; fw [c_peekKindS, c_peekKwS]
  exact ⟨rfl, rfl⟩
theorem c_itemIdS (hn : NoErr l) (hs : Starts afterCase [b!"WHEN", b!"CASE"] l.advance) : Fw .keywordIsSelectItemIdentifier [] l (Res [.bool false] l) := by
  start; fw [c_peekKindS, c_peekKwS, c_startS, c_contS]
  all_goals exact ⟨rfl, rfl⟩
theorem c_stmtEnd {t' : Token} (hn : NoErr l) (ht : l.advance.cur = some t') (hs : Starts afterCase [b!"WHEN", b!"CASE"] l.advance) : Fw .peekIsEndOfStatement [] l (Res [.bool false] l) := by
  have : (t'.kind.toStr == b!";") = false := by
    rcases hs with h | ⟨t, h, h2⟩
    · rw [h] at ht; cases ht
    · rw [ht] at h
      cases h
      rcases h2 with h2 | ⟨h2, _⟩
      · simp only [beq_eq_false_iff_ne, ne_eq]
        intro h'
        rw [h'] at h2
        exact absurd h2 (by decide)
      · rw [h2]; rfl
  start; fw []
  exact ⟨rfl, rfl⟩

/-! ### Units of one token -/

theorem a_number (h : t.kind = .int ∨ t.kind = .float) : MA [t] (N.NumberLiteral (literal := t.str) (base := t.base)) := by
  intro l l' ha hn hc a
  have ht := ha.cur
  cases ha.rest
  rcases h with hk | hk
  · start; fw [c_itemId0, c_int]
    exact ⟨_, rfl, rfl, by assumption⟩
  · start; fw [c_itemId0, c_float]
    exact ⟨_, rfl, rfl, by assumption⟩
theorem a_string (hk : t.kind = .string) : MA [t] (N.StringLiteral (literal := t.str)) := by
  intro l l' ha hn hc a
  have ht := ha.cur
  cases ha.rest
  start; fw [c_itemId0, c_string]
  exact ⟨_, rfl, rfl, by assumption⟩
theorem a_star (hk : isSign t b!"*") : MA [t] (N.Ident (name := b!"*")) := by
  intro l l' ha hn hc a
  have ht := ha.cur
  cases ha.rest
  unfold isSign at hk
  start; fw [c_itemId0, c_star]
  exact ⟨_, rfl, rfl, by assumption⟩

/-! ### Names and what may follow them -/

theorem c_identX (ht : l.cur = some t) (hk : t.kind = .ident) :
    Fw .parseIdent [] l (Res [.mk Ty.Ident [.str t.str, .nat t.quote, .nat t.pos, .nat t.endp], .nil] l.advance) := by
  start; fw []
  exact ⟨rfl, rfl⟩

theorem a_name (hk : isPlainName t) : MA [t] (name t) := by
  intro l l' ha hn hc a
  have ht := ha.cur
  cases ha.rest
  obtain ⟨h1, h2, h3, h4⟩ := hc
  unfold isPlainName at hk
  have e : ∀ a, Fw .parseIdentOrFunction [a] l (Got (name t) l.advance) := by
    intro a
    start; fw [c_identX]
    got
  start; fw [c_itemId0]
  exact ⟨_, rfl, rfl, by assumption⟩
theorem a_tableStar {d s : Token} (hk : isPlainName t) (hd : isSign d b!".") (hs : isSign s b!"*") :
    MA [t, d, s] (N.NestedIdentifier (ident := name t) (dotIdent := N.Ident (name := b!"*"))) := by
  intro l l' ha hn hc a
  have ht := ha.cur
  have ht2 := ha.rest.cur
  have ht3 := ha.rest.rest.cur
  cases ha.rest.rest.rest
  unfold isPlainName at hk
  unfold isSign at hd hs
  have e : ∀ a, Fw .parseIdentOrFunction [a] l (Got (N.NestedIdentifier (ident := name t) (dotIdent := N.Ident (name := b!"*"))) l.advance.advance.advance) := by
    intro a
    start; fw [c_identX, c_star]
    got
  start; fw [c_itemId0]
  exact ⟨_, rfl, rfl, by assumption⟩

/-- Names with dots between them. -/
inductive Names : List Token → List V → Prop
  | one {t : Token} : isAnyName t → Names [t] [name t]
  | more {t d : Token} {ts : List Token} {vs : List V} : isAnyName t → isSign d b!"." → Names ts vs → Names (t :: d :: ts) (name t :: vs)

theorem anyName_kinds (ht : l.cur = some t) (h : isAnyName t) : l.matchKinds [b!"<ident>", b!"<keyword>"] = true := by
  rcases h with h | h
  · exact mk_some ht h rfl
  · exact mk_kw0 ht h rfl

theorem a_path {d : Token} (hk : isPlainName t) (hd : isSign d b!".") (h : Names ts vs) :
    MA (t :: d :: ts) (N.Path (fields := .list (name t :: vs))) := by
  intro l l' ha hn hc a
  have ht := ha.cur
  have ht2 := ha.rest.cur
  have ha3 := ha.rest.rest
  obtain ⟨h1, h2, h3, h4⟩ := hc
  have hm : l.advance.advance.matchKinds [b!"<ident>", b!"<keyword>"] = true := by
    cases h with
    | one h => exact anyName_kinds ha3.cur h
    | more h _ _ => exact anyName_kinds ha3.cur h
  unfold isPlainName at hk
  unfold isSign at hd
  have e : ∀ a, Fw .parseIdentOrFunction [a] l (Got (N.Path (fields := .list (name t :: vs))) l') := by
    intro a
    start; fw [c_identX]
    refine f_loopL fun L hL => ?_
    have key : ∀ us ws, Names us ws → ∀ k acc as e0 e1 e2 e3 e4 e5 e6 e7 e8 e9 e10 e11 e12 e13 e14 e16 e17 e18 e19 e20 e21 e22 m i sv, Ahead k us l' → NoErr k → V.normL id acc = as → as ++ ws = name t :: vs →
        L ⟨[e0, e1, e2, e3, e4, e5, e6, e7, e8, e9, e10, e11, e12, e13, e14, .list acc, e16, e17, e18, e19, e20, e21, e22], sv⟩ ⟨k, m, i⟩ := by
      intro us ws hs
      induction hs with
      | one hx =>
        intro k acc as e0 e1 e2 e3 e4 e5 e6 e7 e8 e9 e10 e11 e12 e13 e14 e16 e17 e18 e19 e20 e21 e22 m i sv ha hn hacc hvs
        have e := c_any hn ha.cur hx
        cases ha.rest
        apply hL
        fw []
        have hl := normL_snoc hacc (by assumption)
        rw [hvs] at hl
        got
      | more hx hd hs ih =>
        intro k acc as e0 e1 e2 e3 e4 e5 e6 e7 e8 e9 e10 e11 e12 e13 e14 e16 e17 e18 e19 e20 e21 e22 m i sv ha hn hacc hvs
        have e := c_any hn ha.cur hx
        have ht2 := ha.rest.cur
        have hd' := hd
        unfold isSign at hd
        apply hL
        fw []
        refine ih _ _ _ _ _ _ _ _ _ _ _ _ _ _ _ _ _ _  _ _ _ _ _ _ _  _ _ _ ha.rest.rest hn.adv.adv (normL_snoc hacc (by assumption)) (by simpa using hvs)
    exact key _ _ h _ _ [name t] _ _ _ _ _ _ _ _ _ _ _ _ _ _ _  _ _ _ _ _ _ _  _ _ _ ha3 hn.adv.adv rfl rfl
  start; fw [c_itemId0]
  exact ⟨_, rfl, rfl, by assumption⟩

/-! ### Lists in parentheses and brackets -/

theorem c_lparen {ds : List Token} {c : Token} (hd : MDis ds b) (h : MArgs ts vs) (hc : isSign c b!")") (ha : Ahead l (ds ++ ts) l') (hn : NoErr l) (hl : l'.cur = some c) (a : V) :
    Fw .parseColumnExprListWithLParen [a] l (Got (columns b vs) l') := by
  have e := c_list (.inr (.inl rfl)) hd h ha hn (starts_sign hl hc (by decide)) (fun _ => ⟨⟨c, hl, hc⟩, by decide⟩)
  start; fw []
  exact ⟨_, rfl, rfl, by assumption⟩
theorem c_bracket {ds : List Token} {c : Token} (hd : MDis ds b) (h : MArgs ts vs) (hc : isSign c b!"]") (ha : Ahead l (ds ++ ts) l') (hn : NoErr l) (hl : l'.cur = some c) (a : V) :
    Fw .parseColumnExprListWithSquareBracket [a] l (Got (columns b vs) l') := by
  have e := c_list (.inr (.inr rfl)) hd h ha hn (starts_sign hl hc (by decide)) (fun _ => ⟨⟨c, hl, hc⟩, by decide⟩)
  start; fw []
  exact ⟨_, rfl, rfl, by assumption⟩

theorem c_params {o c : Token} {ds : List Token} (ho : isSign o b!"(") (hd : MDis ds b) (h : MArgs ts vs) (hc : isSign c b!")")
    (ha : Ahead l (o :: (ds ++ (ts ++ [c]))) l') (hn : NoErr l) (hcl : l'.matchKinds [b!"("] = false) (a : V) :
    Fw .parseFunctionParams [a] l (Got (N.ParamExprList (items := columns b vs)) l') := by
  have ht := ha.cur
  have ha2 := ha.rest
  rw [← List.append_assoc] at ha2
  obtain ⟨m, h1, h2⟩ := ha2.append
  have hm := h1.noErr hn.adv
  have e := c_lparen hd h hc h1 hn.adv h2.cur
  have ht2 := h2.cur
  cases h2.rest
  unfold isSign at ho hc
  start; fw []
  got
theorem c_array {o c : Token} {ds : List Token} (ho : isSign o b!"[") (hd : MDis ds b) (h : MArgs ts vs) (hc : isSign c b!"]")
    (ha : Ahead l (o :: (ds ++ (ts ++ [c]))) l') (hn : NoErr l) (a : V) :
    Fw .parseArrayParams [a] l (Got (N.ArrayParamList (items := columns b vs)) l') := by
  have ht := ha.cur
  have ha2 := ha.rest
  rw [← List.append_assoc] at ha2
  obtain ⟨m, h1, h2⟩ := ha2.append
  have hm := h1.noErr hn.adv
  have e := c_bracket hd h hc h1 hn.adv h2.cur
  have ht2 := h2.cur
  cases h2.rest
  unfold isSign at ho hc
  start; fw []
  got

theorem a_array {o c : Token} {ds : List Token} (ho : isSign o b!"[") (hd : MDis ds b) (h : MArgs ts vs) (hc : isSign c b!"]") :
    MA (o :: (ds ++ (ts ++ [c]))) (N.ArrayParamList (items := columns b vs)) := by
  intro l l' ha hn hcl a
  have e := c_array ho hd h hc ha hn
  have ht := ha.cur
  unfold isSign at ho
  start; fw [c_itemId0]
  exact ⟨_, rfl, rfl, by assumption⟩

/-- A list that may be empty begins neither with a keyword that means something here. -/
theorem dis_args_starts {c : Token} {s : Str} {ds : List Token} (hd : MDis ds b) (h : MArgs ts vs) (hc : isSign c s) (ha : Ahead l (ds ++ (ts ++ [c])) l') :
    (∃ t, l.cur = some t) ∧ Starts (s :: exprKinds) (b!"DISTINCT" :: exprWords) l := by
  rcases hd with ⟨rfl, rfl⟩ | ⟨rfl, t, rfl, ht⟩
  · rcases h with ⟨rfl, rfl⟩ | h
    · exact ⟨⟨c, ha.cur⟩, starts_sign ha.cur hc (by simp)⟩
    · have : Begins exprKinds exprWords ts := by
        cases h with
        | one h => exact h.1
        | more h _ _ => exact h.1.append
      obtain ⟨t, us, rfl, hx⟩ := this
      refine ⟨⟨_, ha.cur⟩, .inr ⟨_, ha.cur, hx.imp ?_ ?_⟩⟩
      · exact List.mem_cons_of_mem _
      · exact And.imp_right (List.mem_cons_of_mem _)
  · exact ⟨⟨_, ha.cur⟩, starts_word ha.cur ht (by simp)⟩

theorem a_list {o c : Token} {ds : List Token} (ho : isSign o b!"(") (hd : MDis ds b) (h : MArgs ts vs) (hc : isSign c b!")") :
    MA (o :: (ds ++ (ts ++ [c]))) (N.ParamExprList (items := columns b vs)) := by
  intro l l' ha hn hcl a
  have e := c_params ho hd h hc ha hn hcl.paren
  have ht := ha.cur
  obtain ⟨⟨t, ht2⟩, hs⟩ := dis_args_starts hd h hc ha.rest
  have hx : (t.kind.toStr == b!"<keyword>" && equalFold t.str b!"SELECT") = false := by
    rcases hs with h | ⟨t', ht', h | ⟨h1, h2⟩⟩
    · rw [h] at ht2; cases ht2
    · rw [ht2] at ht'; cases ht'
      refine and_f1 ?_
      simp only [beq_eq_false_iff_ne, ne_eq]
      intro h'
      rw [h'] at h
      exact absurd h (by decide)
    · rw [ht2] at ht'; cases ht'
      refine and_f2 ?_
      have : ∀ x ∈ b!"DISTINCT" :: exprWords, x ≠ upper b!"SELECT" := by decide
      simpa [equalFold] using this _ h2
  unfold isSign at ho
  start; fw [c_itemId0]
  exact ⟨_, rfl, rfl, by assumption⟩

/-- The tokens are a call. -/
def MC (ts : List Token) (v : V) : Prop :=
  ∃ f o c b ds us vs, ts = f :: o :: (ds ++ (us ++ [c])) ∧ v = N.FunctionExpr (name := name f) (params := N.ParamExprList (items := columns b vs)) ∧
    isPlainName f ∧ upper f.str ∉ keywordCalls ∧ isSign o b!"(" ∧ MDis ds b ∧ MArgs us vs ∧ isSign c b!")"

theorem a_call (h : MC ts v) : MA ts v := by
  obtain ⟨f, o, c, b, ds, us, vs, rfl, rfl, hf, hw, ho, hd, h, hc⟩ := h
  intro l l' ha hn hcl a
  have e := c_params ho hd h hc ha.rest hn.adv hcl.paren
  have ht := ha.cur
  have ht2 := ha.rest.cur
  unfold isSign at ho
  unfold isPlainName at hf
  simp only [keywordCalls, List.mem_cons, List.not_mem_nil, or_false, not_or] at hw
  obtain ⟨w1, w2, w3, w4⟩ := hw
  rw [← ne_eq, ← beq_eq_false_iff_ne] at w1 w2 w3 w4
  have ho := hcl.over
  have e : ∀ a, Fw .parseIdentOrFunction [a] l (Got (N.FunctionExpr (name := name f) (params := N.ParamExprList (items := columns b vs))) l') := by
    intro a
    start; fw [c_identX]
    got
  start; fw [c_itemId0]
  exact ⟨_, rfl, rfl, by assumption⟩

theorem a_overName {k : Token} (h : MC ts v) (hk : isWord k b!"OVER") (ht : isAnyName t) :
    MA (ts ++ [k, t]) (N.WindowFunctionExpr (function := v) (overExpr := name t)) := by
  obtain ⟨f, o, c, b, ds, us, vs, rfl, rfl, hf, hw, ho, hd, h, hc⟩ := h
  intro l l' ha hn hcl a
  obtain ⟨m, h1, h2⟩ := ha.append
  have hm := h1.noErr hn
  have hto := h2.cur
  have htt := h2.rest.cur
  obtain ⟨hk, hks⟩ := hk
  have e := c_params ho hd h hc h1.rest hn.adv (mk_kw0 hto hk rfl)
  have e2 := c_any hm.adv htt ht
  have e3 := anyName_kinds htt ht
  cases h2.rest.rest
  have ht := h1.cur
  have ht2 := h1.rest.cur
  unfold isSign at ho
  unfold isPlainName at hf
  simp only [keywordCalls, List.mem_cons, List.not_mem_nil, or_false, not_or] at hw
  obtain ⟨w1, w2, w3, w4⟩ := hw
  rw [← ne_eq, ← beq_eq_false_iff_ne] at w1 w2 w3 w4
  have e : ∀ a, Fw .parseIdentOrFunction [a] l (Got (N.WindowFunctionExpr (function := N.FunctionExpr (name := name f) (params := N.ParamExprList (items := columns b vs)))
      (overExpr := name t)) m.advance.advance) := by
    intro a
    start; fw [c_identX]
    got
  start; fw [c_itemId0]
  exact ⟨_, rfl, rfl, by assumption⟩

/-- The tokens are a query. -/
def MQ (ts : List Token) (v : V) : Prop :=
  Begins [] [b!"SELECT", b!"WITH"] ts ∧
  (∀ l l', Ahead l ts l' → NoErr l → Starts [b!")", b!";"] [] l' → ∀ a, Fw .parseSelectQuery [a] l (Got v l')) ∧
  ∀ o c l l', isSign o b!"(" → isSign c b!")" → Ahead l (o :: (ts ++ [c])) l' → NoErr l → ∀ a, Fw .parseSelectQuery [a] l (Got v l')

theorem MQ.word (h : MQ ts v) (hw : ∀ t ∈ ts.head?, ¬ isWord t b!"WITH") (ha : Ahead l ts l') : ∃ t, l.cur = some t ∧ t.kind = .keyword ∧ upper t.str = b!"SELECT" := by
  obtain ⟨⟨t, us, rfl, h | h⟩, _⟩ := h
  · exact absurd h (by simp)
  · have := hw t rfl
    refine ⟨t, ha.cur, h.1, ?_⟩
    have h2 := h.2
    simp only [List.mem_cons, List.not_mem_nil, or_false] at h2
    exact h2.resolve_right fun h3 => this ⟨h.1, h3⟩

theorem c_subquery {o c : Token} (ho : isSign o b!"(") (h : MQ ts v) (hc : isSign c b!")") (ha : Ahead l (o :: (ts ++ [c])) l') (hn : NoErr l) (a : V) :
    Fw .parseSubQuery [a] l (GotT .SubQuery (N.SubQuery (hasParen := true) (select := v)) l') := by
  have ht := ha.cur
  obtain ⟨m, h1, h2⟩ := ha.rest.append
  have hm := h1.noErr hn.adv
  have ht2 := h2.cur
  have e := h.2.1 _ _ h1 hn.adv (starts_sign ht2 hc (by decide))
  cases h2.rest
  unfold isSign at ho hc
  start; fw []
  got
theorem a_subquery {o c : Token} (ho : isSign o b!"(") (h : MQ ts v) (hw : ∀ t ∈ ts.head?, ¬ isWord t b!"WITH") (hc : isSign c b!")") :
    MA (o :: (ts ++ [c])) (N.SubQuery (hasParen := true) (select := v)) := by
  intro l l' ha hn hcl a
  have ht := ha.cur
  have e := c_subquery ho h hc ha hn
  obtain ⟨m, h1, h2⟩ := ha.rest.append
  obtain ⟨t, ht2, hk, hs⟩ := h.word hw h1
  unfold isSign at ho
  start; fw [c_itemId0]
  exact ⟨_, rfl, rfl, by assumption⟩

/-! ### `CASE` -/

/-- The branches. -/
inductive Whens : List Token → List V → Prop
  | one {w t : Token} {ts us : List Token} {v x : V} : isWord w b!"WHEN" → ME 0 ts v → isWord t b!"THEN" → ME 0 us x →
      Whens (w :: (ts ++ t :: us)) [N.WhenClause (when := v) (then_ := x)]
  | more {w t : Token} {ts us xs : List Token} {v x : V} {vs : List V} : isWord w b!"WHEN" → ME 0 ts v → isWord t b!"THEN" → ME 0 us x →
      Whens xs vs → Whens (w :: (ts ++ t :: (us ++ xs))) (N.WhenClause (when := v) (then_ := x) :: vs)

theorem Whens.word (h : Whens ts vs) (ha : Ahead l ts l') : ∃ t, l.cur = some t ∧ isWord t b!"WHEN" := by
  cases h with
  | one h _ _ _ => exact ⟨_, ha.cur, h⟩
  | more h _ _ _ _ => exact ⟨_, ha.cur, h⟩

/-- The last branch. -/
def MElse (ts : List Token) (v : V) : Prop := (ts = [] ∧ v = .nil) ∨ ∃ e us, ts = e :: us ∧ isWord e b!"ELSE" ∧ ME 0 us v

theorem MElse.starts (h : MElse ts v) {e : Token} (ha : Ahead l ts l') (hl : l'.cur = some e) (he : isWord e b!"END") : Starts [] [b!"ELSE", b!"END"] l := by
  rcases h with ⟨rfl, rfl⟩ | ⟨e, us, rfl, he, _⟩
  · cases ha
    exact starts_word hl he (by simp)
  · exact starts_word ha.cur he (by simp)

/-- No expression, or one that does not make `CASE` a name. -/
def MOf (ts : List Token) (v : V) : Prop := (ts = [] ∧ v = .nil) ∨ (ME 0 ts v ∧ Begins afterCase [b!"CASE"] ts)

theorem c_case {k e : Token} {xs : List Token} {x : V} (hk : isWord k b!"CASE") (hx : MOf xs x) (hw : Whens ts vs) (hv : MElse us v) (he : isWord e b!"END")
    (ha : Ahead l (k :: (xs ++ (ts ++ (us ++ [e])))) l') (hn : NoErr l) (a : V) :
    Fw .parseColumnCaseExpr [a] l (Got (N.CaseExpr (expr := x) (whens := .list vs) (else_ := v)) l') := by
  have ht := ha.cur
  obtain ⟨m1, a1, a2⟩ := ha.rest.append
  obtain ⟨m2, a3, a4⟩ := a2.append
  obtain ⟨m3, a5, a6⟩ := a4.append
  have n1 := a1.noErr hn.adv
  have n2 := a3.noErr n1
  have n3 := a5.noErr n2
  obtain ⟨w, hw1, hw2, hw3⟩ := hw.word a3
  have hend := a6.cur
  have hst := hv.starts a5 hend he
  cases a6.rest
  obtain ⟨hk1, hk2⟩ := hk
  rcases hx with ⟨rfl, hx0⟩ | ⟨hx, hb⟩
  case' inl => cases a1
  case' inr =>
    have e := expr0 hx a1 hn.adv (starts_word hw1 ⟨hw2, hw3⟩ (by decide))
    have hs1 := (hb.starts a1).1
  all_goals
    start
    fw []
    refine f_loopL fun L hL => ?_
    have key : ∀ us ws, Whens us ws → ∀ k w acc as e2 e3 e4 e6 e7 e8 e9 e10 e11 e12 e13 e14 e15 e16 m i sv, w.norm id = x → Ahead k us m2 → NoErr k → V.normL id acc = as → as ++ ws = vs →
        L ⟨[a, .mk Ty.CaseExpr [a, .nat 0, w, .nil, .nat 0, .nil], e2, e3, e4, .list acc, e6, e7, e8, e9, e10, e11, e12, e13, e14, e15, e16], sv⟩ ⟨k, m, i⟩ := by
      intro us ws hs
      induction hs with
      | one h1 h2 h3 h4 =>
        intro k w acc as e2 e3 e4 e6 e7 e8 e9 e10 e11 e12 e13 e14 e15 e16 m i sv hw ha hn hacc hvs
        have t1 := ha.cur
        obtain ⟨k2, b1, b2⟩ := ha.rest.append
        have n4 := b1.noErr hn.adv
        have t2 := b2.cur
        have x1 := expr0 h2 b1 hn.adv (starts_word t2 h3 (by decide))
        have x2 := expr0 h4 b2.rest n4.adv (hst.mono (by decide))
        obtain ⟨h1, h1'⟩ := h1
        obtain ⟨h3, h3'⟩ := h3
        apply hL
        fw []
        apply hL
        have hl := normL_snoc (v := N.WhenClause (when := _) (then_ := _)) hacc (w := .mk Ty.WhenClause [.nat k.curPos, .nat k2.curPos, v1, v2, .nat 0, .nil]) (by is_tree)
        rw [hvs] at hl
        rcases hv with ⟨rfl, rfl⟩ | ⟨e, us, rfl, he2, he3⟩
        · cases a5
          clear hst
          obtain ⟨he, he'⟩ := he
          fw []
          got
        · have t5 := a5.cur
          have x3 := expr0 he3 a5.rest n2.adv (starts_word hend he (by decide))
          obtain ⟨he, he'⟩ := he
          obtain ⟨he2, he2'⟩ := he2
          clear hst
          fw []
          got
      | more h1 h2 h3 h4 hs ih =>
        intro k w acc as e2 e3 e4 e6 e7 e8 e9 e10 e11 e12 e13 e14 e15 e16 m i sv hw ha hn hacc hvs
        have t1 := ha.cur
        obtain ⟨k2, b1, b2⟩ := ha.rest.append
        have n4 := b1.noErr hn.adv
        have t2 := b2.cur
        obtain ⟨k3, b3, b4⟩ := b2.rest.append
        have n5 := b3.noErr n4.adv
        obtain ⟨t3, t4, h5⟩ := hs.word b4
        have x1 := expr0 h2 b1 hn.adv (starts_word t2 h3 (by decide))
        have x2 := expr0 h4 b3 n4.adv (starts_word t4 h5 (by decide))
        obtain ⟨h1, h1'⟩ := h1
        obtain ⟨h3, h3'⟩ := h3
        apply hL
        fw []
        refine ih _ _ _ _ _ _ _ _ _ _ _ _ _ _ _ _ _ _  _ _ _ hw b4 n5 (normL_snoc hacc ?_) (by simpa using hvs)
        is_tree
    exact key _ _ hw _ _ _ [] _ _ _ _ _ _ _ _ _ _ _ _ _ _  _ _ _ (by first | exact hx0.symm | exact (by assumption : Is x _).2) (by assumption) (by assumption) rfl rfl

theorem a_case {k e : Token} {xs : List Token} {x : V} (hk : isWord k b!"CASE") (hx : MOf xs x) (hw : Whens ts vs) (hv : MElse us v) (he : isWord e b!"END") :
    MA (k :: (xs ++ (ts ++ (us ++ [e])))) (N.CaseExpr (expr := x) (whens := .list vs) (else_ := v)) := by
  intro l l' ha hn hc a
  have h := c_case hk hx hw hv he ha hn
  have ht := ha.cur
  have hs : Starts afterCase [b!"WHEN", b!"CASE"] l.advance ∧ ∃ t, l.advance.cur = some t := by
    obtain ⟨m1, a1, a2⟩ := ha.rest.append
    obtain ⟨m2, a3, a4⟩ := a2.append
    rcases hx with ⟨rfl, hx0⟩ | ⟨hx, hb⟩
    · cases a1
      obtain ⟨w, hw1, hw2⟩ := hw.word a3
      exact ⟨starts_word hw1 hw2 (by decide), w, hw1⟩
    · exact ⟨(hb.starts a1).1.mono (by decide), (hb.starts a1).2⟩
  obtain ⟨hs, t', ht'⟩ := hs
  obtain ⟨hk, hks⟩ := hk
  start; fw [c_itemIdS, c_stmtEnd, c_contS]
  exact ⟨_, rfl, rfl, by assumption⟩

end Verif.Complete

/-
What the methods of the parser do with the tokens: postconditions, and tactics to prove them.
No definition here is part of the model.
-/
import Verif.Echo.Grammar
import Verif.Echo.Sym

namespace Verif.Echo
open Verif.Spec

/-! ### Reading tokens -/

theorem tok_of_kind {l : Lx} {k : Kind} (h : l.matchKinds [k.toStr] = true) (hk : k.toStr ≠ Kind.ident.toStr := by decide)
    (he : k.toStr ≠ Kind.eof.toStr := by decide) : ∃ t, l.cur = some t ∧ isKind t k := by
  obtain ⟨t, ht⟩ := cur_of_kinds h (by simpa using he.symm)
  refine ⟨t, ht, ?_⟩
  have hid : [k.toStr].contains Kind.ident.toStr = false := by simpa using hk.symm
  simp only [Lx.matchKinds, hid, Lx.curKind, ht] at h
  by_cases hc : t.kind.toStr = k.toStr
  · exact hc
  · simp [hc] at h

theorem tok_of_op {l : Lx} {k : Str} (h : l.matchKinds [k] = true) (hk : k ≠ Kind.ident.toStr := by decide)
    (he : k ≠ Kind.eof.toStr := by decide) : ∃ t, l.cur = some t ∧ isKind t (.op k) := tok_of_kind (k := .op k) h hk he

theorem Reads.op' {l l' : Lx} {k : Str} {us : List E} (h : l.matchKinds [k] = true) (hr : Reads l.advance us l')
    (hk : k ≠ Kind.ident.toStr := by decide) (he : k ≠ Kind.eof.toStr := by decide) : Reads l (.op k :: us) l' := by
  obtain ⟨t, ht, h1⟩ := tok_of_op h hk he
  exact .tok ht h1 hr

theorem Reads.kw' {l l' : Lx} {k : Str} {us : List E} (h : l.matchKw k = true) (hr : Reads l.advance us l') (hk : upper k = k := by decide) :
    Reads l (.kw k :: us) l' := by
  obtain ⟨t, ht, h1, h2⟩ := An.matchKw_iff.1 h
  exact .tok ht ⟨h1, h2.trans hk⟩ hr

theorem Reads.word' {l l' : Lx} {t : Token} {us : List E} {ks : List Str} (ht : l.cur = some t) (h : l.matchKinds ks = true) (hr : Reads l.advance us l')
    (hk : ∀ k ∈ ks, k = Kind.ident.toStr ∨ k = Kind.keyword.toStr := by decide) : Reads l (.word t.str t.quote :: us) l' := by
  refine .tok ht ⟨?_, rfl, rfl⟩ hr
  simp only [Lx.matchKinds, Lx.curKind, ht, List.contains_iff_mem] at h
  by_cases hc : t.kind.toStr ∈ ks
  · exact hk _ hc
  · by_cases h2 : t.kind.toStr = Kind.keyword.toStr
    · exact .inr h2
    · simp [hc, h2] at h

theorem closes_op {l : Lx} {k : Str} (h : l.matchKinds [k] = true) (hk : k = b!")" ∨ k = b!"]" := by decide) : Closes l := by
  intro t ht
  obtain ⟨t', ht', h1⟩ := tok_of_op h (by rcases hk with rfl | rfl <;> decide) (by rcases hk with rfl | rfl <;> decide)
  rw [ht] at ht'
  cases ht'
  rcases hk with rfl | rfl
  · exact .inl h1
  · exact .inr (.inl h1)

theorem closes_kw {l : Lx} {k : Str} (h : l.matchKw k = true) : Closes l := by
  intro t ht
  obtain ⟨t', ht', h1, _⟩ := An.matchKw_iff.1 h
  rw [ht] at ht'
  cases ht'
  exact .inr (.inr h1)
theorem closes_end {l : Lx} (h : l.cur = none) : Closes l := fun t ht => by rw [h] at ht; cases ht

/-! ### Postconditions -/

/-- From `l` to `l'` the tokens of `v` are read. -/
def Val (l : Lx) (v : V) (l' : Lx) : Prop := v ≠ .nil ∧ (v.plain = true → ∃ us, Reads l us l' ∧ Echo .n v us)

/-- The same for something that may be missing. -/
def Opt (pre : List E) (l : Lx) (v : V) (l' : Lx) : Prop := (v = .nil → l' = l) ∧ (v.plain = true → ∃ us, Reads l us l' ∧ Echo (.o pre) v us)

/-- From `l` to `l'` the tokens of `v` after those of its first part `e` are read. -/
def Ext (e : V) (l : Lx) (v : V) (l' : Lx) : Prop :=
  (e ≠ .nil → v ≠ .nil) ∧ (v.plain = true → e.plain = true ∧ ∀ us, Echo .n e us → ∃ ws, Reads l ws l' ∧ Echo .n v (us ++ ws))

/-- From `l` to `l'` the tokens of the list are read. -/
def ItemsDone (l : Lx) (v : V) (l' : Lx) : Prop := v.plain = true → ∃ us, Reads l us l' ∧ Echo (.l comma) v us

/-- The same, and the comma for the next element, if the list is not empty. -/
def Items (l : Lx) (v : V) (l' : Lx) : Prop :=
  (v = .nil ∨ v = .list []) ∧ l' = l ∨ ∃ vs, v = .list vs ∧ vs ≠ [] ∧ ∃ m, ItemsDone l v m ∧ m.matchKinds [b!","] = true ∧ l' = m.advance

theorem plainL_append (vs ws : List V) : V.plainL (vs ++ ws) = (V.plainL vs && V.plainL ws) := by
  induction vs with
  | nil => simp [V.plainL]
  | cons v vs ih => simp [V.plainL, ih, Bool.and_assoc]

theorem Items.start {l : Lx} : Items l .nil l := .inl ⟨.inl rfl, rfl⟩
theorem Items.start0 {l : Lx} : Items l (.list []) l := .inl ⟨.inr rfl, rfl⟩

theorem Items.item {l l1 l2 : Lx} {v x : V} (h : Items l v l1) (hv : Val l1 x l2) : ItemsDone l (.list (v.items ++ [x])) l2 := by
  intro hp
  rw [V.plain, plainL_append, Bool.and_eq_true] at hp
  obtain ⟨ws, hr, he⟩ := hv.2 (by simpa [V.plainL] using hp.2)
  rcases h with ⟨h, rfl⟩ | ⟨vs, rfl, hne, m, hd, hc, rfl⟩
  · have : v.items = [] := by rcases h with rfl | rfl <;> rfl
    rw [this]
    exact ⟨ws, hr, .lone he⟩
  · obtain ⟨us, hr', he'⟩ := hd (by rw [V.plain]; exact hp.1)
    refine ⟨_, ?_, Echo.snoc he hne he'⟩
    rw [List.append_assoc]
    exact hr'.trans (.op' hc (.sp hr))

theorem Items.next {l l' : Lx} {vs : List V} {x : V} (h : ItemsDone l (.list (vs ++ [x])) l') (hc : l'.matchKinds [b!","] = true) :
    Items l (.list (vs ++ [x])) l'.advance :=
  .inr ⟨_, rfl, by simp, l', h, hc, rfl⟩

theorem Items.done {l l' : Lx} {v : V} (h : Items l v l') (hc : Closes l') : ItemsDone l v l' := by
  rcases h with ⟨h, rfl⟩ | ⟨vs, rfl, hne, m, hd, hm, rfl⟩
  · rcases h with rfl | rfl
    · exact fun _ => ⟨[], .nil, .lnil0⟩
    · exact fun _ => ⟨[], .nil, .lnil⟩
  · intro hp
    obtain ⟨us, hr, he⟩ := hd hp
    obtain ⟨t, ht, hk⟩ := tok_of_op hm
    refine ⟨us, ?_, he⟩
    have := hr.trans (.comma ht hk hc .nil)
    rwa [List.append_nil] at this

/-- The tokens of a list that is not empty. -/
def Some1 (l : Lx) (v : V) (l' : Lx) : Prop := ∃ vs, v = .list vs ∧ vs ≠ [] ∧ ItemsDone l v l'

/-- The tokens of a list that may be empty. -/
def Listed (l : Lx) (v : V) (l' : Lx) : Prop := ∃ vs, v = .list vs ∧ ItemsDone l v l'
theorem Listed.of {l l' : Lx} {vs : List V} (h : ItemsDone l (.list vs) l') : Listed l (.list vs) l' := ⟨_, rfl, h⟩
theorem Items.listed {l l' : Lx} {v : V} (h : Items l v l') (hn : v ≠ .nil) (hc : Closes l') : Listed l v l' := by
  refine ⟨v.items, ?_, h.done hc⟩
  rcases h with ⟨rfl | rfl, _⟩ | ⟨vs, rfl, _⟩
  · exact absurd rfl hn
  · rfl
  · rfl
theorem Some1.one {l l' : Lx} {x : V} (h : Val l x l') : Some1 l (.list ([] ++ [x])) l' :=
  ⟨_, rfl, by simp, Items.item Items.start0 h⟩
theorem Some1.add {l m l' : Lx} {v x : V} (h : Some1 l v m) (hc : m.matchKinds [b!","] = true) (hx : Val m.advance x l') :
    Some1 l (.list (v.items ++ [x])) l' := by
  obtain ⟨vs, rfl, hne, hd⟩ := h
  exact ⟨_, rfl, by simp, Items.item (.inr ⟨_, rfl, hne, m, hd, hc, rfl⟩) hx⟩
theorem Items.some {l l1 l2 : Lx} {v x : V} (h : Items l v l1) (hv : Val l1 x l2) : Some1 l (.list (v.items ++ [x])) l2 :=
  ⟨_, rfl, by simp, h.item hv⟩

/-- From `l` to `l'` the tokens of the list with dots are read. -/
def DotsDone (l : Lx) (v : V) (l' : Lx) : Prop := v.plain = true → ∃ us, Reads l us l' ∧ Echo (.l [.op b!"."]) v us

/-- The same, and the dot for the next element. -/
def Dots (l : Lx) (v : V) (l' : Lx) : Prop := ∃ vs m, v = .list vs ∧ vs ≠ [] ∧ DotsDone l v m ∧ m.matchKinds [b!"."] = true ∧ l' = m.advance

theorem Dots.start {l l' : Lx} {x : V} (h : Val l x l') (hd : l'.matchKinds [b!"."] = true) : Dots l (.list ([] ++ [x])) l'.advance := by
  refine ⟨_, l', rfl, by simp, fun hp => ?_, hd, rfl⟩
  obtain ⟨ws, hr, he⟩ := h.2 (by simpa [V.plain, V.plainL] using hp)
  exact ⟨ws, hr, .lone he⟩

theorem Dots.item {l l1 l2 : Lx} {v x : V} (h : Dots l v l1) (hv : Val l1 x l2) : DotsDone l (.list (v.items ++ [x])) l2 := by
  intro hp
  rw [V.plain, plainL_append, Bool.and_eq_true] at hp
  obtain ⟨ws, hr, he⟩ := hv.2 (by simpa [V.plainL] using hp.2)
  obtain ⟨vs, m, rfl, hne, hd, hc, rfl⟩ := h
  obtain ⟨us, hr', he'⟩ := hd (by rw [V.plain]; exact hp.1)
  refine ⟨_, ?_, Echo.snoc he hne he'⟩
  rw [List.append_assoc]
  exact hr'.trans (.op' hc hr)

theorem Dots.next {l l' : Lx} {vs : List V} {x : V} (h : DotsDone l (.list (vs ++ [x])) l') (hc : l'.matchKinds [b!"."] = true) :
    Dots l (.list (vs ++ [x])) l'.advance := ⟨_, l', rfl, by simp, h, hc, rfl⟩

/-- From `l` to `l'` the tokens of the list are read, each element behind `pre`. -/
def Pre (pre : List E) (l : Lx) (v : V) (l' : Lx) : Prop := ∃ vs, v = .list vs ∧ (v.plain = true → ∃ us, Reads l us l' ∧ Echo (.p pre) v us)

theorem Pre.start {pre : List E} {l : Lx} : Pre pre l (.list []) l := ⟨_, rfl, fun _ => ⟨[], .nil, .pnil⟩⟩
theorem Pre.item {l l1 l2 : Lx} {v x : V} (h : Pre [.sp] l v l1) (hv : Val l1 x l2) : Pre [.sp] l (.list (v.items ++ [x])) l2 := by
  obtain ⟨vs, rfl, h⟩ := h
  refine ⟨_, rfl, fun hp => ?_⟩
  simp only [V.items] at *
  rw [V.plain, plainL_append, Bool.and_eq_true] at hp
  obtain ⟨ws, hr, he⟩ := hv.2 (by simpa [V.plainL] using hp.2)
  obtain ⟨us, hr', he'⟩ := h (by rw [V.plain]; exact hp.1)
  refine ⟨_, ?_, Echo.psnoc he' he⟩
  rw [List.append_assoc]
  exact hr'.trans (.sp hr)

/-- The same, behind elements that are read before. -/
def Tail (pre : List E) (l : Lx) (v : V) (l' : Lx) : Prop := v ≠ .nil ∧ (v.plain = true → ∃ us, Reads l us l' ∧ Echo .n v (pre ++ us))

/-- The rest of a join. -/
def Rest (l : Lx) (v : V) (l' : Lx) : Prop := (v = .nil → l' = l) ∧ (v.plain = true → ∃ us, Reads l us l' ∧ Echo .j v us)

/-- Words before `JOIN`. -/
def Mods (l : Lx) (v : V) (l' : Lx) : Prop := v.items = [] ∧ l' = l ∨ ∃ vs us, v = .list vs ∧ vs ≠ [] ∧ Reads l us l' ∧ Echo .m v us

theorem Mods.start {l : Lx} : Mods l .nil l := .inl ⟨rfl, rfl⟩
theorem Mods.start0 {l : Lx} : Mods l (.list []) l := .inl ⟨rfl, rfl⟩
theorem Mods.word {l l1 : Lx} {v : V} {t : Token} {k : Str} (h : Mods l v l1) (ht : l1.cur = some t) (hk : l1.matchKw k = true) :
    Mods l (.list (v.items ++ [.str t.str])) l1.advance := by
  obtain ⟨t', ht', h1, _⟩ := An.matchKw_iff.1 hk
  rw [ht] at ht'
  cases ht'
  rcases h with ⟨h, rfl⟩ | ⟨vs, us, rfl, hne, hr, he⟩
  · rw [h]
    exact .inr ⟨_, _, rfl, by simp, .tok (u := .raw t.str) ht ⟨h1, rfl⟩ .nil, .mone⟩
  · exact .inr ⟨_, _, rfl, by simp, hr.trans (.sp (.tok (u := .raw t.str) ht ⟨h1, rfl⟩ .nil)), .msnoc hne he⟩
theorem Mods.kw {l l1 : Lx} {v : V} {k : Str} (h : Mods l v l1) (hk : l1.matchKw k = true) (hu : upper k = k := by decide) :
    Mods l (.list (v.items ++ [.str k])) l1.advance := by
  rcases h with ⟨h, rfl⟩ | ⟨vs, us, rfl, hne, hr, he⟩
  · rw [h]
    exact .inr ⟨_, _, rfl, by simp, .kw' hk .nil hu, .mkw⟩
  · exact .inr ⟨_, _, rfl, by simp, hr.trans (.sp (.kw' hk .nil hu)), .mkws hne he⟩

/-- The strings of the list are among these. -/
def strsIn (ks : List Str) (v : V) : Bool := v.items.all fun x => match x with | .str s => ks.contains s | _ => false

/-- The description of a function whose arguments are separated by keywords. -/
def isForm : V → Bool
  | .mk .KeywordArgForm [m, _, s, _, _, _] => strsIn [b!"NOT", b!"BOTH", b!"LEADING", b!"TRAILING"] m && strsIn kwOps s
  | _ => false

/-- The results of the methods. -/
def Post : Fn → P0
  | .getNextPrecedence => A0 fun l => LookN l
  | .peekTokenKind => A1 fun _ l => Look l
  | .peekKeyword => A1 fun _ l => Look l
  | .peekJoinAfterLocality => A0 fun l => Look l
  | .keywordIsSelectItemIdentifier => A0 fun l => Look l
  | .peekIsClauseStarterKeyword => A0 fun l => Look l
  | .peekIsEndOfStatement => A0 fun l => Look l
  | .peekIsExpressionContinuation => A0 fun l => Look l
  | .parseIdent => A0 fun l => Ok2 (fun v l' => Val l v l' ∧ v.ty? = some .Ident)
  | .parseAnyKeyword => A0 fun l => Ok2 (fun v l' => Val l v l' ∧ v.ty? = some .Ident)
  | .parseIdentOrStar => A0 fun l => Ok2 (Val l)
  | .parseNumber => A1 fun _ l => Ok2 (fun v l' => Val l v l' ∧ v.ty? = some .NumberLiteral)
  | .parseDecimal => A1 fun _ l => Ok2 (Val l)
  | .parseString => A1 fun _ l => Ok2 (Val l)
  | .parseExpr => A1 fun _ l => Ok2 (Val l)
  | .parseSubExpr => A2 fun _ _ l => Ok2 (Val l)
  | .parseUnaryExpr => A1 fun _ l => Ok2 (Val l)
  | .parseColumnExpr => A1 fun _ l => Ok2 (Val l)
  | .parseInfixLoop => A2 fun e _ l => Ok2 (Ext e l)
  | .parseInfix => A2 fun e _ l => Ok2 (Ext e l)
  | .parseTernaryExpr => A1 fun e l => Ok2 (Ext e l)
  | .parseBetweenClause => A2 fun e b l => Ok2 (fun v l' => v ≠ .nil ∧ (v.plain = true → e.plain = true ∧ (∀ us, Echo .n e us → ∃ ws, Reads l ws l' ∧
      (b = .bool false → Echo .n v (us ++ [.sp] ++ ws)) ∧ (b = .bool true → Echo .n v (us ++ [.sp, .kw b!"NOT", .sp] ++ ws)))))
  | .parseArrayParams => A1 fun _ l => Ok2 (Val l)
  | .parseFunctionParams => A1 fun _ l => Ok2 (Val l)
  | .parseColumnArgList => A1 fun _ l => Ok2 (Val l)
  | .parseColumnExprListWithTerm => A2 fun k _ l rs l' => k = .str b!")" ∨ k = .str b!"]" ∨ k = .str b!"" → Ok2 (Val l) rs l'
  | .parseColumnExprListWithLParen => A1 fun _ l => Ok2 (Val l)
  | .parseColumnExprListWithSquareBracket => A1 fun _ l => Ok2 (Val l)
  | .parseColumnExprList => A1 fun _ l => Ok2 (Val l)
  | .parseColumnsExpr => A1 fun _ l => Ok2 (Val l)
  | .parseColumnStar => A1 fun _ l => Ok2 (Val l)
  | .parseIdentOrFunction => A1 fun _ l => Ok2 (Val l)
  | .parseKeywordArgFunctionParams => A2 fun _ f l rs l' => isForm f = true → Ok2 (Val l) rs l'
  | .parseKeywordArgItem => A3 fun f _ _ l rs l' => isForm f = true → Ok3 (fun v _ l' => Val l v l') rs l'
  | .parseKeywordArgModifier => A2 fun f _ l rs l' => isForm f = true → Ok3 (fun v _ l' => Val l v l') rs l'
  | .parseInterval => A1 fun _ l => Ok2 (Val l)
  | .parseColumnCastExpr => A1 fun _ l => Ok2 (Val l)
  | .parseColumnCaseExpr => A1 fun _ l => Ok2 (Val l)
  | .parseColumnExtractExpr => A1 fun _ l => Ok2 (Val l)
  | .parseSelectQuery => A1 fun _ l => Ok2 (fun v l' => Val l v l' ∧ v.ty? = some .SelectQuery ∧
      (l.matchKinds [b!"("] = true → ∃ m, Val l.advance v m ∧ m.matchKinds [b!")"] = true ∧ l' = m.advance))
  | .parseSubQuery => A1 fun _ l => Ok2 (fun v l' => Val l v l' ∧ v.ty? = some .SubQuery)
  | .parseQueryParam => A1 fun _ l => Ok2 (Val l)
  | .parseMapLiteral => A1 fun _ l => Ok2 (Val l)
  | .parseWindowCondition => A1 fun _ l => Ok2 (Val l)
  | .parseNestedType => A2 fun _ _ l => Ok2 (fun v _ => v ≠ .nil ∧ v.plain = false)
  | .parseColumnType => A1 fun _ _ => Ok2 (fun _ _ => True)
  | .parseExtractFrom => A1 fun e l => Ok2 (Ext e l)
  | .parseSelectStmt => A1 fun _ l => Ok2 (fun v l' => ∃ p q w top d don its fr wi pw wh gb tt hv ob lb lm st fm,
      v = .mk .SelectQuery [p, q, w, top, d, don, its, fr, wi, pw, wh, gb, tt, hv, ob, lb, lm, st, fm, .nil, .nil, .nil, .nil] ∧ Val l v l' ∧
      (l.matchKw b!"SELECT" = true ∨ l.matchKw b!"WITH" = true))
  | .tryParseWithClause => A1 fun _ l => Ok2 (fun v l' => Opt [] l v l' ∧ (l' = l ∨ l.matchKw b!"WITH" = true))
  | .parseWithClause => A1 fun _ l => Ok2 (Val l)
  | .parseCTEStmt => A1 fun _ l => Ok2 (Val l)
  | .tryParseDistinctOn => A1 fun _ l => Ok2 (Opt [.sp] l)
  | .parseDistinctOn => A1 fun _ l => Ok2 (Val l)
  | .tryParseTopClause => A1 fun _ l => Ok2 (Opt [.sp] l)
  | .parseTopClause => A1 fun _ l => Ok2 (Val l)
  | .parseSelectItems => A0 fun l => Ok2 (Listed l)
  | .parseSelectItem => A0 fun l => Ok2 (Val l)
  | .isSelectItemTerminatorKeyword => A0 fun l => LookC l
  | .matchClauseStarterKeyword => A0 fun l => LookC l
  | .tryParseFromClause => A1 fun _ l => Ok2 (Opt [.sp] l)
  | .parseFromClause => A1 fun _ l => Ok2 (Val l)
  | .tryParsePrewhereClause => A1 fun _ l => Ok2 (Opt [.sp] l)
  | .parsePrewhereClause => A1 fun _ l => Ok2 (Val l)
  | .tryParseWhereClause => A1 fun _ l => Ok2 (Opt [.sp] l)
  | .parseWhereClause => A1 fun _ l => Ok2 (Val l)
  | .tryParseGroupByClause => A1 fun _ l => Ok2 (Opt [.sp] l)
  | .parseGroupByClause => A1 fun _ l => Ok2 (Val l)
  | .tryParseHavingClause => A1 fun _ l => Ok2 (Opt [.sp] l)
  | .parseHavingClause => A1 fun _ l => Ok2 (Val l)
  | .tryParseOrderByClause => A1 fun _ l => Ok2 (fun v l' => Opt [.sp] l v l' ∧ Opt [] l v l')
  | .parseOrderByClause => A1 fun _ l => Ok2 (Tail [.kw b!"ORDER", .sp, .kw b!"BY", .sp] l)
  | .parseOrderExpr => A1 fun _ l => Ok2 (Val l)
  | .parseFillClause => A1 fun _ l => Ok2 (Tail [.kw b!"WITH", .sp, .kw b!"FILL"] l)
  | .parseInterpolateClause => A1 fun _ l => Ok2 (Tail [.kw b!"INTERPOLATE"] l)
  | .tryParseLimitByClause => A1 fun _ l => Ok2 (fun v l' => v = .nil ∧ l' = l ∨ (v.ty? = some .LimitByClause ∨ v.ty? = some .LimitClause) ∧ Val l v l')
  | .parseLimitByClause => A1 fun _ l => Ok2 (fun v l' => (v.ty? = some .LimitByClause ∨ v.ty? = some .LimitClause) ∧ Val l v l')
  | .tryParseLimitAfterLimitByClause => A1 fun _ l => Ok2 (Opt [.sp] l)
  | .tryParseLimitClause => A1 fun _ l => Ok2 (Opt [.sp] l)
  | .parseLimitClause => A1 fun _ l => Ok2 (fun v l' => Val l v l' ∧ v.ty? = some .LimitClause)
  | .tryParseSettingsClause => A1 fun _ l => Ok2 (Opt [.sp] l)
  | .parseSettingsClause => A1 fun _ l => Ok2 (Tail [.kw b!"SETTINGS", .sp] l)
  | .parseSettingsList => A1 fun _ l => Ok2 (Some1 l)
  | .parseSettingsExpr => A1 fun _ l => Ok2 (Val l)
  | .tryParseFormat => A1 fun _ l => Ok2 (Opt [.sp] l)
  | .parseFormat => A1 fun _ l => Ok2 (Val l)
  | .parseFunctionExpr => A1 fun _ l => Ok2 (Val l)
  | .ParseNestedIdentifier => A1 fun _ l => Ok2 (Val l)
  | .tryParseDotIdent => A1 fun _ l => Ok2 (Opt [.op b!"."] l)
  | .tryParseDotIdentOrString => A1 fun _ l => Ok2 (Opt [.op b!"."] l)
  | .parseIdentOrString => A0 fun l => Ok2 (Val l)
  | .parseLiteral => A1 fun _ l => Ok2 (Val l)
  | .parseTableIdentifier => A1 fun _ l => Ok2 (fun v l' => ∃ a b, v = .mk .TableIdentifier [a, b] ∧ b ≠ .nil ∧ Val l v l')
  | .parseTableExpr => A1 fun _ l => Ok2 (Val l)
  | .parseTableArgList => A1 fun _ l => Ok2 (Val l)
  | .parseTableArgExpr => A1 fun _ l => Ok2 (Val l)
  | .parseTableArgPrimaryExpr => A1 fun _ l => Ok2 (Val l)
  | .tryParseSampleClause => A1 fun _ l => Ok2 (Opt [.sp] l)
  | .parseSampleClause => A1 fun _ l => Ok2 (Val l)
  | .parseRatioExpr => A1 fun _ l => Ok2 (Val l)
  | .tryParseJoinConstraints => A1 fun _ l => Ok2 (Opt [.sp] l)
  | .parseJoinTableExpr => A1 fun _ l => Ok2 (fun v l' => Val l v l' ∧ v.ty? = some .JoinTableExpr)
  | .parseJoinExpr => A1 fun _ l => Ok2 (fun v l' => Val l v l' ∧ (v.plain = true → ∃ us, Reads l us l' ∧ Echo .j v ([.op b!","] ++ us)))
  | .parseJoinRightExpr => A1 fun _ l => Ok2 (Rest l)
  | .parseJoinModifiers => A1 fun _ l => Ok2 (Mods l)
  | .parseJoinType => A1 fun _ l => Ret1 (Mods l)
  | .tryParsePartitionByClause => A1 fun _ l => Ok2 (Opt [] l)
  | .canParseWindowNameInParens => A0 fun l => Look l
  | .tryParseWindowClause => A1 fun _ l => Ok2 (fun v l' => v = .nil → l' = l)
  | .parseWindowClause => A1 fun _ _ => Ok2 (fun v _ => v ≠ .nil)
  | .tryParseWindowFrameClause => A1 fun _ l => Ok2 (fun v l' => v = .nil → l' = l)
  | .parseWindowFrameClause => A1 fun _ _ => Ok2 (fun v _ => v ≠ .nil)
  | .parseFrameExtent => A0 fun _ => Ok2 (fun _ _ => True)
  | .parseFrameCurrentRow => A0 fun _ => Ok2 (fun _ _ => True)
  | .parseFrameUnbounded => A0 fun _ => Ok2 (fun _ _ => True)
  | .parseFrameNumber => A0 fun _ => Ok2 (fun _ _ => True)
  | .parseFrameParam => A0 fun _ => Ok2 (fun _ _ => True)
  | .parseFrameInterval => A0 fun _ => Ok2 (fun _ _ => True)
  | .parseFrameDirection => A0 fun _ => Ok2 (fun _ _ => True)
  | .parseFrameDirectionWithEnd => A0 fun _ => Ok3 (fun _ _ _ => True)
  | .parseColumnTypeArgs => A1 fun _ _ => Ok2 (fun _ _ => True)
  | .parseColumnTypeWithParams => A2 fun _ _ _ => Ok2 (fun _ _ => True)
  | .parseComplexType => A2 fun _ _ _ => Ok2 (fun _ _ => True)
  | .parseEnumType => A2 fun _ _ _ => Ok2 (fun _ _ => True)
  | .parseEnumValueExpr => A1 fun _ _ => Ok2 (fun _ _ => True)
  | .parseJSONOption => A0 fun _ => Ok2 (fun _ _ => True)
  | .parseJSONPath => A0 fun _ => Ok2 (fun _ _ => True)
  | .parseJSONType => A2 fun _ _ _ => Ok2 (fun _ _ => True)
  | .parseNestedTypeFieldWithName => A0 fun _ => Ok2 (fun _ _ => True)
  | .parseNestedTypeFields => A0 fun _ => Ok2 (fun _ _ => True)
  | .parseNestedTypeFieldsWithNames => A1 fun _ _ => Ok2 (fun _ _ => True)
  | .parseNestedTypeFieldsWithoutNames => A1 fun _ _ => Ok2 (fun _ _ => True)
  | _ => fun _ _ _ _ => True

/-- All calls with this fuel do what they should. -/
def Call (n : Nat) : Prop := ∀ f args l m i rs l' m' i', Clean l → runFn retryTable n f args ⟨l, m, i⟩ = .ret rs ⟨l', m', i'⟩ → Post f args l rs l'

/-- What is to be shown of a method. -/
def Meth (f : Fn) : Prop := ∀ n, Call n → ∀ args l m i rs l' m' i', Clean l → runFn retryTable (n + 1) f args ⟨l, m, i⟩ = .ret rs ⟨l', m', i'⟩ → Post f args l rs l'

/-! ### Tactics -/

open Lean Meta Elab Tactic in
/-- Unfold the postcondition. -/
elab "unfoldPost" : tactic => do
  let g ← getMainGoal
  g.withContext do
  let t ← instantiateMVars (← g.getType)
  let some t ← unfoldDefinition? t | throwError "unfoldPost"
  let t ← whnfCore t
  let some t ← unfoldDefinition? t | throwError "unfoldPost"
  replaceMainGoal [← g.replaceTargetDefEq (← whnfCore t)]

set_option hygiene false in
/-- Start with a method. -/
macro "method" : tactic => `(tactic| (
  intro n ih args l m i rs l' m' i' hl hr
  unfoldPost
  first
    | (intro ha; subst ha; done)
    | (intro a ha; subst ha)
    | (intro a b ha; subst ha)
    | (intro a b c ha; subst ha)
    | (intro ha; subst ha)))

end Verif.Echo

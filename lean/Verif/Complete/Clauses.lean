/-
The parts of a query after the list of what is selected, except `FROM`, on known tokens.  No definition here is part of the model.
-/
import Verif.Complete.Items

namespace Verif.Complete
open Verif.Spec Verif.Echo Verif.Echo.Sym Verif.Complete.Tac Verif.Group

variable {u v : V} {l l' : Lx} {t k : Token} {ts us : List Token} {vs : List V} {b : Bool}

set_option linter.unusedVariables false

/-- The words that begin the last parts of a query. -/
def lastWords : List Str := [b!"SETTINGS", b!"FORMAT", b!"UNION", b!"EXCEPT", b!"INTERSECT"]

/-- The tokens are a part of a query that the method reads, before one of the words. -/
def MCl (f : Fn) (fol : List Str) (ts : List Token) (v : V) : Prop :=
  ∀ l l', Ahead l ts l' → NoErr l → Starts [b!")", b!";"] fol l' → ∀ a, Fw f [a] l (GotO v l')

theorem Got.opt {l2 : Lx} {rs : List V} (h : Got v l2 rs l') : GotO v l2 rs l' := by
  obtain ⟨w, h1, h2, h3⟩ := h
  exact ⟨w, h1, h2, h3.2⟩

theorem p_no : MCl .tryParsePrewhereClause (b!"WHERE" :: b!"GROUP" :: b!"HAVING" :: b!"ORDER" :: b!"LIMIT" :: b!"OFFSET" :: lastWords) [] .nil := by
  intro l l' ha hn hs a
  cases ha
  start; fw []
  exact ⟨_, rfl, rfl, rfl⟩
theorem p_yes (hk : isWord k b!"PREWHERE") (h : ME 0 ts v) :
    MCl .tryParsePrewhereClause (b!"WHERE" :: b!"GROUP" :: b!"HAVING" :: b!"ORDER" :: b!"LIMIT" :: b!"OFFSET" :: lastWords) (k :: ts) (N.PrewhereClause (expr := v)) := by
  intro l l' ha hn hs a
  have ht := ha.cur
  have e := expr0 h ha.rest hn.adv (hs.mono (by decide))
  obtain ⟨hk, hks⟩ := hk
  have e : ∀ a, Fw .parsePrewhereClause [a] l (Got (N.PrewhereClause (expr := v)) l') := by
    intro a
    start; fw []
    got
  start; fw []
  exact ⟨_, rfl, rfl, (by assumption : Is _ _).2⟩

theorem w_no : MCl .tryParseWhereClause (b!"GROUP" :: b!"HAVING" :: b!"ORDER" :: b!"LIMIT" :: b!"OFFSET" :: lastWords) [] .nil := by
  intro l l' ha hn hs a
  cases ha
  start; fw []
  exact ⟨_, rfl, rfl, rfl⟩
theorem w_yes (hk : isWord k b!"WHERE") (h : ME 0 ts v) :
    MCl .tryParseWhereClause (b!"GROUP" :: b!"HAVING" :: b!"ORDER" :: b!"LIMIT" :: b!"OFFSET" :: lastWords) (k :: ts) (N.WhereClause (expr := v)) := by
  intro l l' ha hn hs a
  have ht := ha.cur
  have e := expr0 h ha.rest hn.adv (hs.mono (by decide))
  obtain ⟨hk, hks⟩ := hk
  have e : ∀ a, Fw .parseWhereClause [a] l (Got (N.WhereClause (expr := v)) l') := by
    intro a
    start; fw []
    got
  start; fw []
  exact ⟨_, rfl, rfl, (by assumption : Is _ _).2⟩

theorem c_listLP (h : Sep MArg ts vs) (ha : Ahead l ts l') (hn : NoErr l) (he : Starts [b!")", b!"]", b!";"] argWords l') (a : V) :
    Fw .parseColumnExprListWithLParen [a] l (Got (columns false vs) l') := by
  have e := c_list (b := false) (ds := []) (.inr (.inl rfl)) (.inl ⟨rfl, rfl⟩) (.inr h) ha hn he (by
    rintro rfl
    obtain ⟨_, _, h, _⟩ := sep_begins (fun _ _ h => h.1) h
    cases h)
  start; fw []
  exact ⟨_, rfl, rfl, by assumption⟩

theorem g_no : MCl .tryParseGroupByClause (b!"HAVING" :: b!"ORDER" :: b!"LIMIT" :: b!"OFFSET" :: lastWords) [] .nil := by
  intro l l' ha hn hs a
  cases ha
  start; fw []
  exact ⟨_, rfl, rfl, rfl⟩
theorem g_yes {b : Token} (hk : isWord k b!"GROUP") (hb : isWord b b!"BY") (h : Sep MArg ts vs) :
    MCl .tryParseGroupByClause (b!"HAVING" :: b!"ORDER" :: b!"LIMIT" :: b!"OFFSET" :: lastWords) (k :: b :: ts) (N.GroupByClause (expr := columns false vs)) := by
  intro l l' ha hn hs a
  have ht := ha.cur
  have ht2 := ha.rest.cur
  have e := c_listLP h ha.rest.rest hn.adv.adv (hs.mono (by decide))
  have hs2 := ((sep_begins (fun _ _ h => h.1) h).starts ha.rest.rest).1
  obtain ⟨hk, hks⟩ := hk
  obtain ⟨hb, hbs⟩ := hb
  have e : ∀ a, Fw .parseGroupByClause [a] l (Got (N.GroupByClause (expr := columns false vs)) l') := by
    intro a
    start; fw []
    refine f_loopL fun L hL => ?_
    apply hL
    fw []
    got
  start; fw []
  exact ⟨_, rfl, rfl, (by assumption : Is _ _).2⟩

theorem h_no : MCl .tryParseHavingClause (b!"ORDER" :: b!"LIMIT" :: b!"OFFSET" :: lastWords) [] .nil := by
  intro l l' ha hn hs a
  cases ha
  start; fw []
  exact ⟨_, rfl, rfl, rfl⟩
theorem h_yes (hk : isWord k b!"HAVING") (h : MArg ts v) : MCl .tryParseHavingClause (b!"ORDER" :: b!"LIMIT" :: b!"OFFSET" :: lastWords) (k :: ts) (N.HavingClause (expr := v)) := by
  intro l l' ha hn hs a
  have ht := ha.cur
  have e := h.2 _ _ ha.rest hn.adv (hs.mono (by decide))
  obtain ⟨hk, hks⟩ := hk
  have e : ∀ a, Fw .parseHavingClause [a] l (Got (N.HavingClause (expr := v)) l') := by
    intro a
    start; fw []
    got
  start; fw []
  exact ⟨_, rfl, rfl, (by assumption : Is _ _).2⟩

/-! ### `ORDER BY` -/

/-- The tokens are one of the things to order by. -/
def MOrd (ts : List Token) (v : V) : Prop :=
  Begins exprKinds exprWords ts ∧ ∀ l l', Ahead l ts l' → NoErr l → Starts [b!",", b!")", b!";"] (b!"LIMIT" :: b!"OFFSET" :: lastWords) l' → ∀ a, Fw .parseOrderExpr [a] l (Got v l')

theorem o_item (hb : Begins exprKinds exprWords ts) (h : ME 0 ts v) : MOrd ts (N.OrderExpr (expr := v)) := by
  refine ⟨hb, fun l l' ha hn hs a => ?_⟩
  have e := expr0 h ha hn (hs.mono (by decide))
  start; fw []
  got
theorem o_asc {d : Token} (hb : Begins exprKinds exprWords ts) (h : ME 0 ts v) (hd : isWord d b!"ASC" ∨ isWord d b!"ASCENDING") :
    MOrd (ts ++ [d]) (N.OrderExpr (expr := v) (direction := b!"ASC")) := by
  refine ⟨hb.append, fun l l' ha hn hs a => ?_⟩
  obtain ⟨m, h1, h2⟩ := ha.append
  have hm := h1.noErr hn
  have ht1 := h2.cur
  have e := expr0 h h1 hn (hd.elim (starts_word ht1 · (by decide)) (starts_word ht1 · (by decide)))
  cases h2.rest
  rcases hd with ⟨hd, hds⟩ | ⟨hd, hds⟩
  all_goals
    start; fw []
    got
theorem o_desc {d : Token} (hb : Begins exprKinds exprWords ts) (h : ME 0 ts v) (hd : isWord d b!"DESC" ∨ isWord d b!"DESCENDING") :
    MOrd (ts ++ [d]) (N.OrderExpr (expr := v) (direction := b!"DESC")) := by
  refine ⟨hb.append, fun l l' ha hn hs a => ?_⟩
  obtain ⟨m, h1, h2⟩ := ha.append
  have hm := h1.noErr hn
  have ht1 := h2.cur
  have e := expr0 h h1 hn (hd.elim (starts_word ht1 · (by decide)) (starts_word ht1 · (by decide)))
  cases h2.rest
  rcases hd with ⟨hd, hds⟩ | ⟨hd, hds⟩
  all_goals
    start; fw []
    got

theorem c_orders (h : Sep MOrd ts vs) (ha : Ahead l ts l') (hn : NoErr l) (he : Starts [b!")", b!";"] (b!"LIMIT" :: b!"OFFSET" :: lastWords) l') (a : V) :
    Fw .parseOrderByClause [a] l (Got (N.OrderByClause (items := .list vs)) l') := by
  start
  fw []
  refine f_loopL fun L hL => ?_
  have key : ∀ us ws, Sep MOrd us ws → ∀ l acc as x3 x4 x5 x6 x7 x8 x9 m i sv, Ahead l us l' → NoErr l → V.normL id acc = as → as ++ ws = vs →
      L ⟨[a, .mk Ty.OrderByClause [a, a, .nil, .nil], .list acc, x3, x4, x5, x6, x7, x8, x9], sv⟩ ⟨l, m, i⟩ := by
    intro us ws hs
    induction hs with
    | one hm =>
      intro l acc as x3 x4 x5 x6 x7 x8 x9 m i sv ha hn hacc hvs
      obtain ⟨hs1, t, ht⟩ := hm.1.starts ha
      have e := hm.2 l l' ha hn (he.mono (by decide))
      apply hL
      fw []
      all_goals
        have hl := normL_snoc hacc (by assumption)
        rw [hvs] at hl
        got
    | more hm hc hs ih =>
      intro l acc as x3 x4 x5 x6 x7 x8 x9 m i sv ha hn hacc hvs
      obtain ⟨m2, h3, h4⟩ := ha.append
      have hm2 := h3.noErr hn
      have htc := h4.cur
      obtain ⟨hs1, t, ht⟩ := hm.1.starts h3
      have e := hm.2 l m2 h3 hn (starts_sign htc hc (by decide))
      obtain ⟨hs2, t2, ht2⟩ := (sep_begins (fun _ _ h => h.1) hs).starts h4.rest
      have hsep := hc
      unfold isSign at hc
      apply hL
      fw []
      exact ih _ _ _ _ _ _ _ _ _ _ _ _ _ h4.rest hm2.adv (normL_snoc hacc (by assumption)) (by simpa using hvs)
  exact key _ _ h _ _ [] _ _ _ _ _ _ _ _ _ _ ha hn rfl rfl

theorem o_no : MCl .tryParseOrderByClause (b!"LIMIT" :: b!"OFFSET" :: lastWords) [] .nil := by
  intro l l' ha hn hs a
  cases ha
  start; fw []
  exact ⟨_, rfl, rfl, rfl⟩
theorem o_yes {b : Token} (hk : isWord k b!"ORDER") (hb : isWord b b!"BY") (h : Sep MOrd ts vs) :
    MCl .tryParseOrderByClause (b!"LIMIT" :: b!"OFFSET" :: lastWords) (k :: b :: ts) (N.OrderByClause (items := .list vs)) := by
  intro l l' ha hn hs a
  have ht := ha.cur
  have ht2 := ha.rest.cur
  have e := c_orders h ha.rest.rest hn.adv.adv hs
  obtain ⟨hk, hks⟩ := hk
  obtain ⟨hb, hbs⟩ := hb
  start; fw []
  exact ⟨_, rfl, rfl, (by assumption : Is _ _).2⟩

/-! ### `LIMIT` and `OFFSET` -/

/-- The tokens are `LIMIT`. -/
def MLimit (ts : List Token) (v : V) : Prop :=
  Begins [] [b!"LIMIT"] ts ∧ ∀ l l', Ahead l ts l' → NoErr l → Starts [b!")", b!";"] (b!"BY" :: lastWords) l' → ∀ a, Fw .parseLimitClause [a] l (GotT .LimitClause v l')

/-- The tokens are `LIMIT`, `LIMIT BY`, `OFFSET` or nothing, as the parser reads them. -/
inductive MLims : List Token → V → V → Prop
  | no : MLims [] .nil .nil
  | one {ts : List Token} {v : V} : Begins [] [b!"LIMIT"] ts →
      (∀ l l', Ahead l ts l' → NoErr l → Starts [b!")", b!";"] lastWords l' → ∀ a, Fw .tryParseLimitByClause [a] l (GotT .LimitClause v l')) → MLims ts .nil v
  | offset {ts : List Token} {v : V} : Begins [] [b!"OFFSET"] ts →
      (∀ l l', Ahead l ts l' → NoErr l → Starts [b!")", b!";"] lastWords l' → ∀ a, Fw .tryParseLimitClause [a] l (GotT .LimitClause v l')) → MLims ts .nil v
  | by_ {ts us : List Token} {v w : V} : Begins [] [b!"LIMIT"] ts → (us = [] ∨ Begins [] [b!"LIMIT"] us) →
      (∀ l l', Ahead l ts l' → NoErr l → Starts [b!")", b!";"] (b!"LIMIT" :: lastWords) l' → ∀ a, Fw .tryParseLimitByClause [a] l (GotT .LimitByClause v l')) →
      MCl .tryParseLimitAfterLimitByClause lastWords us w → MLims (ts ++ us) v w

theorem l_limit (hk : isWord k b!"LIMIT") (h : ME 0 ts v) : MLimit (k :: ts) (N.LimitClause (limit := v)) := by
  refine ⟨begins_word hk (by decide), fun l l' ha hn hs a => ?_⟩
  have ht := ha.cur
  have e := expr0 h ha.rest hn.adv (hs.mono (by decide))
  obtain ⟨hk, hks⟩ := hk
  start; fw []
  got
theorem l_both {o : Token} (hk : isWord k b!"LIMIT") (h : ME 0 ts v) (ho : isWord o b!"OFFSET") (h' : ME 0 us u) :
    MLimit (k :: (ts ++ o :: us)) (N.LimitClause (limit := v) (offset := u)) := by
  refine ⟨begins_word hk (by decide), fun l l' ha hn hs a => ?_⟩
  have ht := ha.cur
  obtain ⟨m, h1, h2⟩ := ha.rest.append
  have hm := h1.noErr hn.adv
  have ht2 := h2.cur
  have e := expr0 h h1 hn.adv (starts_word ht2 ho (by decide))
  have e2 := expr0 h' h2.rest hm.adv (hs.mono (by decide))
  obtain ⟨hk, hks⟩ := hk
  obtain ⟨ho, hos⟩ := ho
  start; fw []
  got

theorem begins_one {k : Str} {ts : List Token} (h : Begins [] [k] ts) (ha : Ahead l ts l') : ∃ t, l.cur = some t ∧ t.kind = .keyword ∧ upper t.str = k := by
  obtain ⟨t, us, rfl, h | h⟩ := h
  · exact absurd h (by simp)
  · exact ⟨t, ha.cur, h.1, by simpa using h.2⟩

theorem ls_one (h : MLimit ts v) : MLims ts .nil v := by
  refine .one h.1 fun l l' ha hn hs a => ?_
  have e := h.2 _ _ ha hn (hs.mono (by decide))
  obtain ⟨t, ht, hk, hks⟩ := begins_one h.1 ha
  have e : ∀ a, Fw .parseLimitByClause [a] l (GotT .LimitClause v l') := by
    intro a
    start; fw []
    exact ⟨_, rfl, rfl, by assumption⟩
  start; fw []
  exact ⟨_, rfl, rfl, by assumption⟩
theorem ls_offset (hk : isWord k b!"OFFSET") (h : ME 0 ts v) : MLims (k :: ts) .nil (N.LimitClause (offset := v)) := by
  refine .offset (begins_word hk (by decide)) fun l l' ha hn hs a => ?_
  have ht := ha.cur
  have e := expr0 h ha.rest hn.adv (hs.mono (by decide))
  obtain ⟨hk, hks⟩ := hk
  have e : ∀ a, Fw .parseLimitClause [a] l (GotT .LimitClause (N.LimitClause (offset := v)) l') := by
    intro a
    start; fw []
    got
  start; fw []
  exact ⟨_, rfl, rfl, by assumption⟩
theorem c_limitBy {b : Token} (h : MLimit ts v) (hb : isWord b b!"BY") (h' : Sep MArg us vs) (ha : Ahead l (ts ++ b :: us) l') (hn : NoErr l)
    (hs : Starts [b!")", b!";"] (b!"LIMIT" :: lastWords) l') (a : V) :
    Fw .tryParseLimitByClause [a] l (GotT .LimitByClause (N.LimitByClause (limit := v) (byExpr := columns false vs)) l') := by
  obtain ⟨m, a1, a2⟩ := ha.append
  have hm := a1.noErr hn
  have htb := a2.cur
  have e := h.2 _ _ a1 hn (starts_word htb hb (by decide))
  have e2 := c_listLP h' a2.rest hm.adv (hs.mono (by decide))
  obtain ⟨t, ht, hk, hks⟩ := begins_one h.1 a1
  obtain ⟨hb, hbs⟩ := hb
  have e : ∀ a, Fw .parseLimitByClause [a] l (GotT .LimitByClause (N.LimitByClause (limit := v) (byExpr := columns false vs)) l') := by
    intro a
    start; fw []
    generalize V.mk Ty.LimitClause _ = W at *
    got
  start; fw []
  exact ⟨_, rfl, rfl, by assumption⟩
theorem ls_by {b : Token} (h : MLimit ts v) (hb : isWord b b!"BY") (h' : Sep MArg us vs) :
    MLims (ts ++ b :: us) (N.LimitByClause (limit := v) (byExpr := columns false vs)) .nil := by
  have := MLims.by_ (ts := ts ++ b :: us) (us := []) (w := .nil) h.1.append (.inl rfl) (fun l l' ha hn hs a => c_limitBy h hb h' ha hn hs a) (by
    intro l l' ha hn hs a
    cases ha
    start; fw []
    exact ⟨_, rfl, rfl, rfl⟩)
  simpa using this
theorem ls_both {b : Token} {xs : List Token} (h : MLimit ts v) (hb : isWord b b!"BY") (h' : Sep MArg us vs) (h'' : MLimit xs u) :
    MLims (ts ++ b :: (us ++ xs)) (N.LimitByClause (limit := v) (byExpr := columns false vs)) u := by
  have := MLims.by_ (ts := ts ++ b :: us) (us := xs) (w := u) h.1.append (.inr h''.1) (fun l l' ha hn hs a => c_limitBy h hb h' ha hn hs a) (by
    intro l l' ha hn hs a
    have e := h''.2 _ _ ha hn (hs.mono (by decide))
    obtain ⟨t, ht, hk, hks⟩ := begins_one h''.1 ha
    start; fw []
    exact ⟨_, rfl, rfl, (by assumption : Is _ _).2⟩)
  simpa using this

/-! ### `SETTINGS` and `FORMAT` -/

/-- The tokens are a setting. -/
def MSet (ts : List Token) (v : V) : Prop := ∀ l l', Ahead l ts l' → NoErr l → ∀ a, Fw .parseSettingsExpr [a] l (GotT .SettingExpr v l')

theorem s_number {n e : Token} (h1 : isPlainName n) (h2 : isSign e b!"=") (h3 : t.kind = .int) :
    MSet [n, e, t] (N.SettingExpr (name := name n) (expr := N.NumberLiteral (literal := t.str) (base := t.base))) := by
  intro l l' ha hn a
  have ht1 := ha.cur
  have ht2 := ha.rest.cur
  have ht3 := ha.rest.rest.cur
  cases ha.rest.rest.rest
  unfold isPlainName at h1
  unfold isSign at h2
  start; fw [c_ident, c_int]
  got
theorem s_string {n e : Token} (h1 : isPlainName n) (h2 : isSign e b!"=") (h3 : t.kind = .string) :
    MSet [n, e, t] (N.SettingExpr (name := name n) (expr := N.StringLiteral (literal := t.str))) := by
  intro l l' ha hn a
  have ht1 := ha.cur
  have ht2 := ha.rest.cur
  have ht3 := ha.rest.rest.cur
  cases ha.rest.rest.rest
  unfold isPlainName at h1
  unfold isSign at h2
  start; fw [c_ident, c_string]
  got
theorem s_bool {n e : Token} (h1 : isPlainName n) (h2 : isSign e b!"=") (h3 : isWord t b!"TRUE" ∨ isWord t b!"FALSE") :
    MSet [n, e, t] (N.SettingExpr (name := name n) (expr := N.BoolLiteral (literal := t.str))) := by
  intro l l' ha hn a
  have ht1 := ha.cur
  have ht2 := ha.rest.cur
  have ht3 := ha.rest.rest.cur
  cases ha.rest.rest.rest
  unfold isPlainName at h1
  unfold isSign at h2
  rcases h3 with ⟨h3, h4⟩ | ⟨h3, h4⟩
  all_goals
    start; fw [c_ident]
    got

/-- What follows the first element of a list. -/
inductive More (M : List Token → V → Prop) : List Token → List V → Prop
  | nil : More M [] []
  | cons {c : Token} {ts us : List Token} {v : V} {vs : List V} : isSign c b!"," → M ts v → More M us vs → More M (c :: (ts ++ us)) (v :: vs)

theorem Sep.first {M : List Token → V → Prop} (h : Sep M ts vs) : ∃ xs ys x ws, ts = xs ++ ys ∧ vs = x :: ws ∧ M xs x ∧ More M ys ws := by
  induction h with
  | one h => exact ⟨_, [], _, [], by simp, rfl, h, .nil⟩
  | more h hc _ ih =>
    obtain ⟨xs, ys, x, ws, rfl, rfl, h1, h2⟩ := ih
    exact ⟨_, _, _, _, rfl, rfl, h, .cons hc h1 h2⟩

theorem c_settings (h : Sep MSet ts vs) (ha : Ahead l ts l') (hn : NoErr l) (he : Starts [b!")", b!";"] [b!"FORMAT", b!"UNION", b!"EXCEPT", b!"INTERSECT"] l') (a : V) :
    Fw .parseSettingsList [a] l (GotL vs l') := by
  obtain ⟨xs, ys, x, ws, rfl, rfl, h1, h2⟩ := h.first
  obtain ⟨m, a1, a2⟩ := ha.append
  have e := h1 _ _ a1 hn
  have hm := a1.noErr hn
  start
  fw []
  refine f_loopL fun L hL => ?_
  have key : ∀ us zs, More MSet us zs → ∀ l acc as x2 x3 x4 m i sv, Ahead l us l' → NoErr l → V.normL id acc = as → as ++ zs = x :: ws →
      L ⟨[a, .list acc, x2, x3, x4], sv⟩ ⟨l, m, i⟩ := by
    intro us zs hs
    induction hs with
    | nil =>
      intro l acc as x2 x3 x4 m i sv ha hn hacc hvs
      cases ha
      apply hL
      fw []
      rw [List.append_nil] at hvs
      exact ⟨_, rfl, rfl, hacc.trans hvs⟩
    | cons hc h _ ih =>
      intro l acc as x2 x3 x4 m i sv ha hn hacc hvs
      have htc := ha.cur
      obtain ⟨k, b1, b2⟩ := ha.rest.append
      have e := h _ _ b1 hn.adv
      have hk := b1.noErr hn.adv
      unfold isSign at hc
      apply hL
      fw []
      exact ih _ _ _ _ _ _ _ _ _ b2 hk (normL_snoc hacc (by assumption)) (by simpa using hvs)
  exact key _ _ h2 _ _ [x] _ _ _ _ _ _ a2 hm (by simp [V.normL, (by assumption : Is x _).2]) rfl

theorem s_no : MCl .tryParseSettingsClause [b!"FORMAT", b!"UNION", b!"EXCEPT", b!"INTERSECT"] [] .nil := by
  intro l l' ha hn hs a
  cases ha
  start; fw []
  exact ⟨_, rfl, rfl, rfl⟩
theorem s_yes (hk : isWord k b!"SETTINGS") (h : Sep MSet ts vs) :
    MCl .tryParseSettingsClause [b!"FORMAT", b!"UNION", b!"EXCEPT", b!"INTERSECT"] (k :: ts) (N.SettingsClause (items := .list vs)) := by
  intro l l' ha hn hs a
  have ht := ha.cur
  have e := c_settings h ha.rest hn.adv hs
  obtain ⟨hk, hks⟩ := hk
  have e : ∀ a, Fw .parseSettingsClause [a] l.advance (Got (N.SettingsClause (items := .list vs)) l') := by
    intro a
    start; fw []
    · obtain ⟨_, _, _, _, _, rfl, _⟩ := h.first
      obtain rfl := List.eq_nil_of_length_eq_zero (beq_iff_eq.1 (by assumption : (List.length _ == 0) = true))
      cases (by assumption : V.normL id [] = _)
    · got
  start; fw []
  exact ⟨_, rfl, rfl, (by assumption : Is _ _).2⟩

theorem m_no : MCl .tryParseFormat [b!"UNION", b!"EXCEPT", b!"INTERSECT"] [] .nil := by
  intro l l' ha hn hs a
  cases ha
  start; fw []
  exact ⟨_, rfl, rfl, rfl⟩
theorem m_yes (hk : isWord k b!"FORMAT") (h : isPlainName t) : MCl .tryParseFormat [b!"UNION", b!"EXCEPT", b!"INTERSECT"] [k, t] (N.FormatClause (format_ := name t)) := by
  intro l l' ha hn hs a
  have ht := ha.cur
  have ht2 := ha.rest.cur
  cases ha.rest.rest
  obtain ⟨hk, hks⟩ := hk
  unfold isPlainName at h
  have e : ∀ a, Fw .parseFormat [a] l (Got (N.FormatClause (format_ := name t)) l.advance.advance) := by
    intro a
    start; fw [c_ident]
    got
  start; fw []
  exact ⟨_, rfl, rfl, (by assumption : Is _ _).2⟩

/-! ### `WITH` -/

/-- The tokens are a part of `WITH`. -/
def MCte (ts : List Token) (v : V) : Prop :=
  ∀ l l', Ahead l ts l' → NoErr l → ∀ a, Fw .parseCTEStmt [a] l (GotT .CTEStmt v l')

/-- A return whose middle field is a position. -/
theorem r_retMid {ln : Nat} {t : Ty} {a e c : Exp} {u w : V} {env : List V} {s : PS} {n : Nat} {sv : Lx} {call : Fn → List V → PS → COut} {I B : Frame → PS → Prop} {R : List V → PS → Prop}
    (ha : a.eval s env = some u) (hc : c.eval s env = some w) (h : ∀ x, R [.mk t [u, x, w], .nil] s) (hg : Good ln := by rfl) :
    RetL ((Stmt.ret (Fn := Fn) ln [.mk t [a, e, c], .nil]).run call n ⟨env, sv⟩ s) I B R := by
  rw [run_ret]
  cases he : e.eval s env with
  | none =>
    simp only [Exp.evalL, Exp.eval, ha, hc, he, onSome, Option.bind_some, Option.bind_none, Option.map_none]
    exact hg
  | some x =>
    simp only [Exp.evalL, Exp.eval, ha, hc, he, onSome, Option.bind_some, Option.map_some]
    exact h x

theorem e_no : MCl .tryParseWithClause [b!"SELECT"] [] .nil := by
  intro l l' ha hn hs a
  cases ha
  start; fw []
  exact ⟨_, rfl, rfl, rfl⟩
theorem e_yes (hk : isWord k b!"WITH") (h : Sep MCte ts vs) : MCl .tryParseWithClause [b!"SELECT"] (k :: ts) (N.WithClause (cTEs := .list vs)) := by
  intro l l' ha hn hs a
  have ht := ha.cur
  obtain ⟨xs, ys, x, ws, rfl, rfl, h1, h2⟩ := h.first
  obtain ⟨m, a1, a2⟩ := ha.rest.append
  have e := h1 _ _ a1 hn.adv
  have hm := a1.noErr hn.adv
  obtain ⟨hk, hks⟩ := hk
  have e : ∀ a, Fw .parseWithClause [a] l (Got (N.WithClause (cTEs := .list (x :: ws))) l') := by
    intro a
    start
    fw []
    refine f_loopL fun L hL => ?_
    have key : ∀ us zs, More MCte us zs → ∀ l x1 x2 x3 acc as x5 x6 x7 m i sv, Ahead l us l' → NoErr l → V.normL id acc = as → as ++ zs = x :: ws →
        L ⟨[a, x1, x2, x3, .list acc, x5, x6, x7], sv⟩ ⟨l, m, i⟩ := by
      intro us zs hs
      induction hs with
      | nil =>
        intro l x1 x2 x3 acc as x5 x6 x7 m i sv ha hn hacc hvs
        cases ha
        apply hL
        fw []
        rw [List.append_nil] at hvs
        have hl := hacc.trans hvs
        refine r_retMid rfl rfl fun x => ?_
        got
      | cons hc h _ ih =>
        intro l x1 x2 x3 acc as x5 x6 x7 m i sv ha hn hacc hvs
        have htc := ha.cur
        obtain ⟨k, b1, b2⟩ := ha.rest.append
        have e := h _ _ b1 hn.adv
        have hk := b1.noErr hn.adv
        unfold isSign at hc
        apply hL
        fw []
        exact ih _ _ _ _ _ _ _ _ _ _ _ _ b2 hk (normL_snoc hacc (by assumption)) (by simpa using hvs)
    exact key _ _ h2 _ _ _ _ _ [x] _ _ _ _ _ _ a2 hm (by simp [V.normL, (by assumption : Is x _).2]) rfl
  start; fw []
  exact ⟨_, rfl, rfl, (by assumption : Is _ _).2⟩

theorem e_query {a o c : Token} (h : ME 0 ts v) (hw : isWord a b!"AS") (ho : isSign o b!"(") (h' : MQ us u) (hc : isSign c b!")") :
    MCte (ts ++ a :: o :: (us ++ [c])) (N.CTEStmt (expr := v) («alias» := u)) := by
  intro l l' ha hn _
  obtain ⟨m, a1, a2⟩ := ha.append
  have hm := a1.noErr hn
  have ht1 := a2.cur
  have ht2 := a2.rest.cur
  have e := expr0 h a1 hn (starts_word ht1 hw (by decide))
  have e2 := h'.2.2 _ _ _ _ ho hc a2.rest hm.adv
  obtain ⟨hk, hks⟩ := hw
  unfold isSign at ho
  start; fw []
  got
theorem e_name {a t : Token} (h : ME 0 ts v) (hw : isWord a b!"AS") (ht : isAnyName t) : MCte (ts ++ [a, t]) (N.CTEStmt (expr := v) («alias» := name t)) := by
  intro l l' ha hn _
  obtain ⟨m, a1, a2⟩ := ha.append
  have hm := a1.noErr hn
  have ht1 := a2.cur
  have ht2 := a2.rest.cur
  have e := expr0 h a1 hn (starts_word ht1 hw (by decide))
  have e2 := c_any hm.adv ht2 ht
  cases a2.rest.rest
  obtain ⟨hk, hks⟩ := hw
  have hx : m.advance.matchKinds [b!"("] = false := by
    rcases ht with ht | ht
    · exact mk_some ht2 ht rfl
    · exact mk_kw0 ht2 ht rfl
  start; fw []
  got

/-! ### Windows -/

/-- The tokens are `PARTITION BY`, or nothing. -/
def MPar (ts : List Token) (v : V) : Prop := (ts = [] ∨ ∃ k b us, ts = k :: b :: us ∧ isWord k b!"PARTITION" ∧ isWord b b!"BY") ∧ MCl .tryParsePartitionByClause [b!"ORDER"] ts v

theorem b_no : MPar [] .nil := by
  refine ⟨.inl rfl, fun l l' ha hn hs a => ?_⟩
  cases ha
  start; fw []
  exact ⟨_, rfl, rfl, rfl⟩
theorem b_yes {b : Token} (hk : isWord k b!"PARTITION") (hb : isWord b b!"BY") (h : Sep MArg ts vs) : MPar (k :: b :: ts) (N.PartitionByClause (expr := columns false vs)) := by
  refine ⟨.inr ⟨_, _, _, rfl, hk, hb⟩, fun l l' ha hn hs a => ?_⟩
  have ht := ha.cur
  have ht2 := ha.rest.cur
  have e := c_listLP h ha.rest.rest hn.adv.adv (hs.mono (by decide))
  obtain ⟨hk, hks⟩ := hk
  obtain ⟨hb, hbs⟩ := hb
  start; fw []
  exact Got.opt (by got)

/-- The tokens are `ORDER BY`, or nothing. -/
def MOrder (ts : List Token) (v : V) : Prop := (ts = [] ∨ ∃ k b us, ts = k :: b :: us ∧ isWord k b!"ORDER" ∧ isWord b b!"BY") ∧
  MCl .tryParseOrderByClause (b!"LIMIT" :: b!"OFFSET" :: lastWords) ts v

theorem MOrder.begins (h : MOrder ts v) : ts = [] ∨ Begins [] [b!"ORDER"] ts := by
  rcases h.1 with h | ⟨k, b, us, rfl, hk, _⟩
  · exact .inl h
  · exact .inr (begins_word hk (by decide))

/-- Two words, the second of which is `BY`. -/
theorem c_noName1 {k b : Token} (hn : NoErr l) (ht : l.cur = some k) (hk : isWord k b!"PARTITION" ∨ isWord k b!"ORDER") (ht2 : l.advance.cur = some b) (hb : isWord b b!"BY") :
    Fw .canParseWindowNameInParens [] l (Res [.bool false] l) := by
  obtain ⟨hb, hbs⟩ := hb
  rcases hk with ⟨hk, hks⟩ | ⟨hk, hks⟩
  all_goals
    start; fw []
    exact ⟨rfl, rfl⟩
theorem c_noName0 {c : Token} (ht : l.cur = some c) (hc : isSign c b!")") : Fw .canParseWindowNameInParens [] l (Res [.bool false] l) := by
  unfold isSign at hc
  start; fw []
  exact ⟨rfl, rfl⟩

theorem c_window {o c : Token} {ps os : List Token} {p w : V} (ho : isSign o b!"(") (hp : MPar ps p) (hw : MOrder os w) (hc : isSign c b!")")
    (ha : Ahead l (o :: (ps ++ (os ++ [c]))) l') (hn : NoErr l) (a : V) :
    Fw .parseWindowCondition [a] l (Got (N.WindowExpr (partitionBy := p) (orderBy := w)) l') := by
  have ht := ha.cur
  obtain ⟨m1, a1, a2⟩ := ha.rest.append
  obtain ⟨m2, a3, a4⟩ := a2.append
  have n1 := a1.noErr hn.adv
  have n2 := a3.noErr n1
  have htc := a4.cur
  have s2 : Starts [b!")", b!";"] (b!"LIMIT" :: b!"OFFSET" :: lastWords) m2 := starts_sign htc hc (by decide)
  have s1 : Starts [b!")", b!";"] [b!"ORDER"] m1 := by
    rcases hw.begins with rfl | hb
    · cases a3
      exact starts_sign htc hc (by decide)
    · exact (hb.starts a3).1.mono (by decide)
  have e1 := hp.2 _ _ a1 hn.adv s1
  have e2 := hw.2 _ _ a3 n1 s2
  have e0 : Fw .canParseWindowNameInParens [] l.advance (Res [.bool false] l.advance) := by
    rcases hp.1 with rfl | ⟨k, b, us, rfl, hk, hb⟩
    · cases a1
      rcases hw.1 with rfl | ⟨k, b, us, rfl, hk, hb⟩
      · cases a3
        exact c_noName0 htc hc
      · exact c_noName1 hn.adv a3.cur (.inr hk) a3.rest.cur hb
    · exact c_noName1 hn.adv a1.cur (.inl hk) a1.rest.cur hb
  clear s1 s2
  cases a4.rest
  unfold isSign at ho hc
  have e3 : ∀ a, Fw .tryParseWindowFrameClause [a] m2 (Res [.nil, .nil] m2) := by
    intro a
    start; fw []
    exact ⟨rfl, rfl⟩
  start; fw []
  got

theorem a_overWindow {k o c : Token} {ps os : List Token} {p w : V} (h : MC ts v) (hk : isWord k b!"OVER") (hwo : isSign o b!"(") (hp : MPar ps p) (hw : MOrder os w) (hwc : isSign c b!")") :
    MA (ts ++ k :: o :: (ps ++ (os ++ [c]))) (N.WindowFunctionExpr (function := v) (overExpr := N.WindowExpr (partitionBy := p) (orderBy := w))) := by
  obtain ⟨f, o, c, b, ds, us, vs, rfl, rfl, hf, hfw, ho, hd, h, hc⟩ := h
  intro l l' ha hn hcl a
  obtain ⟨m, h1, h2⟩ := ha.append
  have hm := h1.noErr hn
  have hto := h2.cur
  have htt := h2.rest.cur
  obtain ⟨hk, hks⟩ := hk
  have e := c_params ho hd h hc h1.rest hn.adv (mk_kw0 hto hk rfl)
  have e2 := c_window hwo hp hw hwc h2.rest hm.adv
  have ht := h1.cur
  have ht2 := h1.rest.cur
  unfold isSign at ho hwo
  unfold isPlainName at hf
  simp only [keywordCalls, List.mem_cons, List.not_mem_nil, or_false, not_or] at hfw
  obtain ⟨w1, w2, w3, w4⟩ := hfw
  rw [← ne_eq, ← beq_eq_false_iff_ne] at w1 w2 w3 w4
  have e : ∀ a, Fw .parseIdentOrFunction [a] l (Got (N.WindowFunctionExpr (function := N.FunctionExpr (name := name f) (params := N.ParamExprList (items := columns b vs)))
      (overExpr := N.WindowExpr (partitionBy := p) (orderBy := w))) l') := by
    intro a
    start; fw [c_identX]
    got
  start; fw [c_itemId0]
  exact ⟨_, rfl, rfl, by assumption⟩

end Verif.Complete

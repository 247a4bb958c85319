/-
The types of columns.  No definition here is part of the model.
-/
import Verif.Complete.Simple

namespace Verif.Complete
open Verif.Spec Verif.Echo Verif.Echo.Sym Verif.Complete.Tac

variable {l l' : Lx} {k d t : Token} {ts us : List Token} {v w : V} {vs : List V} {b : Bool}

set_option linter.unusedVariables false
set_option linter.unusedTactic false

theorem ahead_next {l1 : Lx} {c : Token} (ha : Ahead l (t :: us) l1) (hc : l1.cur = some c) : ∃ u, l.advance.cur = some u := by
  have := ha.rest
  cases us with
  | nil => cases this; exact ⟨_, hc⟩
  | cons => exact ⟨_, this.cur⟩

/-- The node of a name. -/
notation "idv " t:max => V.mk Ty.Ident [V.str (Token.str t), V.nat (Token.quote t), V.nat (Token.pos t), V.nat (Token.endp t)]

theorem is_idv (t : Token) : Is (name t) (idv t) := ⟨by simp, rfl⟩

theorem c_typeName (ht : l.cur = some t) (hk : isTypeName t) : Fw .parseIdent [] l (Res [idv t, .nil] l.advance) := by
  rcases hk with hk | ⟨hk, hw⟩
  · exact c_identX ht hk
  · simp only [typeWords, List.mem_cons, List.not_mem_nil, or_false] at hw
    rcases hw with hw | hw | hw
    all_goals start; fw []; exact ⟨rfl, rfl⟩

theorem type_kinds (ht : l.cur = some t) (hk : isTypeName t) : l.matchKinds [b!"<ident>"] = true := by
  rcases hk with hk | ⟨hk, hw⟩
  · exact mk_some ht hk (by decide)
  · simp only [typeWords, List.mem_cons, List.not_mem_nil, or_false] at hw
    rcases hw with hw | hw | hw
    all_goals exact mk_kw ht hk hw (by decide)

/-- The tokens are a type. -/
def MTy (ts : List Token) (v : V) : Prop := ∃ t us, ts = t :: us ∧ isTypeName t ∧ (us = [] ∨ ∃ o us', us = o :: us' ∧ isSign o b!"(") ∧ ∀ l l', Ahead l us l' → NoErr l → l'.matchKinds [b!"("] = false →
  Fw .parseColumnTypeArgs [idv t] l (Got v l')

theorem MTy.fw (h : MTy ts v) (ha : Ahead l ts l') (hn : NoErr l) (hi : l'.matchKinds [b!"("] = false) (a : V) : Fw .parseColumnType [a] l (Got v l') := by
  obtain ⟨t, us, rfl, ht, _, h⟩ := h
  have e1 := c_typeName ha.cur ht
  have e2 := h _ _ ha.rest hn.adv hi
  start; fw []
  exact ⟨_, rfl, rfl, by assumption⟩

theorem t_scalar (hk : isTypeName t) : MTy [t] (N.ScalarType (name := name t)) := by
  refine ⟨t, [], rfl, hk, .inl rfl, fun l l' ha hn hi => ?_⟩
  cases ha
  have := is_idv t
  start; fw []
  got

theorem p_literal (h : Piece .literal ts v) (ha : Ahead l ts l') (a : V) : Fw .parseLiteral [a] l (Got v l') := by
  cases h with
  | literalNumber h =>
    have ht := ha.cur
    cases ha.rest
    unfold number
    rcases h with h | h
    · start; fw [c_int]
      exact ⟨_, rfl, rfl, by assumption⟩
    · start; fw [c_float]
      exact ⟨_, rfl, rfl, by assumption⟩
  | literalText h =>
    have ht := ha.cur
    cases ha.rest
    unfold text
    start; fw [c_string]
    exact ⟨_, rfl, rfl, by assumption⟩

theorem p_typeParams {c : Token} (h : Sep (Piece .literal) ts vs) (ha : Ahead l ts l') (hc : l'.cur = some c) (hk : isSign c b!")") (a : V) :
    Fw .parseColumnTypeWithParams [idv t, a] l (Got (N.TypeWithParams (name := name t) (params := .list vs)) l'.advance) := by
  obtain ⟨xs, ys, x, ws, rfl, rfl, h1, h2⟩ := h.first
  obtain ⟨m, a1, a2⟩ := ha.append
  have e := p_literal h1 a1
  unfold isSign at hk
  have hi := is_idv t
  start
  fw []
  refine f_loopL fun L hL => ?_
  have key : ∀ us zs, More (Piece .literal) us zs → ∀ l acc as x3 x4 x5 x6 x7 x8 x9 x10 m i sv, Ahead l us l' → V.normL id acc = as → as ++ zs = x :: ws →
      L ⟨[idv t, a, .list acc, x3, x4, x5, x6, x7, x8, x9, x10], sv⟩ ⟨l, m, i⟩ := by
    intro us zs hs
    induction hs with
    | nil =>
      intro l acc as x3 x4 x5 x6 x7 x8 x9 x10 m i sv ha hacc hvs
      cases ha
      rw [List.append_nil] at hvs
      have hacc := hacc.trans hvs
      apply hL
      cases he : l'.isEOF
      · fw []; got
      · fw []; got
    | cons hc' h hm ih =>
      intro l acc as x3 x4 x5 x6 x7 x8 x9 x10 m i sv ha hacc hvs
      have htc := ha.cur
      obtain ⟨k, b1, b2⟩ := ha.rest.append
      obtain ⟨u, hu⟩ := ahead_next ha hc
      have e := p_literal h b1
      unfold isSign at hc'
      apply hL
      fw []
      exact ih _ _ _ _ _ _ _ _ _ _ _ _ _ _ b2 (normL_snoc hacc (by assumption)) (by simpa using hvs)
  exact key _ _ h2 _ _ [x] _ _ _ _ _ _ _ _ _ _ _ a2 (by simp [V.normL, (by assumption : Is x _).2]) rfl

theorem p_complexType {c : Token} (h : Sep MTy ts vs) (ha : Ahead l ts l') (hn : NoErr l) (hc : l'.cur = some c) (hk : isSign c b!")") (a : V) :
    Fw .parseComplexType [idv t, a] l (Got (N.ComplexType (name := name t) (params := .list vs)) l'.advance) := by
  unfold isSign at hk
  have hi := is_idv t
  start
  fw []
  refine f_loopL fun L hL => ?_
  have key : ∀ us zs, Sep MTy us zs → ∀ l acc as x3 x4 x5 x6 x7 m i sv, Ahead l us l' → NoErr l → V.normL id acc = as → as ++ zs = vs →
      L ⟨[idv t, a, .list acc, x3, x4, x5, x6, x7], sv⟩ ⟨l, m, i⟩ := by
    intro us zs hs
    induction hs with
    | one h =>
      intro l acc as x3 x4 x5 x6 x7 m i sv ha hn hacc hvs
      have e := h.fw ha hn (mk_some hc hk (by decide))
      obtain ⟨t', us', rfl, ht', h⟩ := h
      have q := type_kinds ha.cur ht'
      have st : Starts [b!"<ident>"] typeWords l := (begins_type ht').starts ha |>.1
      obtain ⟨u, hu⟩ := ahead_next ha hc
      apply hL
      fw []
      have hacc := (normL_snoc hacc (by assumption)).trans hvs
      got
    | more h hc' hs' ih =>
      intro l acc as x3 x4 x5 x6 x7 m i sv ha hn hacc hvs
      obtain ⟨k, b1, b2⟩ := ha.append
      have hk' := b1.noErr hn
      have htc := b2.cur
      unfold isSign at hc'
      have e := h.fw b1 hn (mk_some htc hc' (by decide))
      obtain ⟨t', us', rfl, ht', h⟩ := h
      have q := type_kinds b1.cur ht'
      have st : Starts [b!"<ident>"] typeWords l := (begins_type ht').starts b1 |>.1
      obtain ⟨u, hu⟩ := ahead_next b1 htc
      apply hL
      fw []
      exact ih _ _ _ _ _ _ _ _ _ _ _ b2.rest hk'.adv (normL_snoc hacc (by assumption)) (by simpa using hvs)
  exact key _ _ h _ _ [] _ _ _ _ _ _ _ _ ha hn rfl rfl

theorem t_complex {o c : Token} (hk : isTypeName t) (hs : upper t.str ∉ specialTypes) (ho : isSign o b!"(") (h : Sep MTy ts vs) (hc : isSign c b!")") :
    MTy (t :: o :: (ts ++ [c])) (N.ComplexType (name := name t) (params := .list vs)) := by
  refine ⟨t, _, rfl, hk, .inr ⟨_, _, rfl, ho⟩, fun l l' ha hn hi => ?_⟩
  have h1 := ha.cur
  obtain ⟨l1, a1, a2⟩ := ha.rest.append
  have h2 := a2.cur
  cases a2.rest
  have e := p_complexType (t := t) h a1 hn.adv h2 hc
  obtain ⟨xs, ys, x, ws, rfl, rfl, ⟨t', us', rfl, ht', _⟩, _⟩ := h.first
  have q := type_kinds a1.cur ht'
  unfold isSign at ho
  simp only [specialTypes, List.mem_cons, List.not_mem_nil, or_false, not_or] at hs
  have q1 : equalFold t.str b!"Nested" = false := beq_false_of_ne hs.1
  have q2 : equalFold t.str b!"JSON" = false := beq_false_of_ne hs.2.1
  have q3 : equalFold t.str b!"QBit" = false := beq_false_of_ne hs.2.2.1
  have q4 : equalFold t.str b!"Tuple" = false := beq_false_of_ne hs.2.2.2
  start; fw []
  exact ⟨_, rfl, rfl, by assumption⟩

theorem t_empty {o c : Token} (hk : isTypeName t) (ho : isSign o b!"(") (hc : isSign c b!")") : MTy [t, o, c] (N.TypeWithParams (name := name t)) := by
  refine ⟨t, _, rfl, hk, .inr ⟨_, _, rfl, ho⟩, fun l l' ha hn hi => ?_⟩
  have h1 := ha.cur
  have h2 := ha.rest.cur
  cases ha.rest.rest
  have hi := is_idv t
  unfold isSign at ho hc
  start; fw []
  got

theorem t_typeParams {o c : Token} (hk : isTypeName t) (ho : isSign o b!"(") (h : Sep (Piece .literal) ts vs) (hc : isSign c b!")") :
    MTy (t :: o :: (ts ++ [c])) (N.TypeWithParams (name := name t) (params := .list vs)) := by
  refine ⟨t, _, rfl, hk, .inr ⟨_, _, rfl, ho⟩, fun l l' ha hn hi => ?_⟩
  have h1 := ha.cur
  obtain ⟨l1, a1, a2⟩ := ha.rest.append
  have h2 := a2.cur
  cases a2.rest
  have e := p_typeParams (t := t) h a1 h2 hc
  unfold isSign at ho
  have key : ∃ u, l.advance.cur = some u ∧ (u.kind = .int ∨ u.kind = .float ∨ u.kind = .string ∧ ∃ u' s, l.advance.advance.cur = some u' ∧ isSign u' s ∧ (s = b!"," ∨ s = b!")")) := by
    obtain ⟨xs, ys, x, ws, rfl, rfl, hx, h'⟩ := h.first
    obtain ⟨l2, b1, b2⟩ := a1.append
    cases hx with
    | literalNumber hh => exact ⟨_, b1.cur, hh.elim .inl fun h => .inr (.inl h)⟩
    | literalText hh =>
      cases b1.rest
      refine ⟨_, b1.cur, .inr (.inr ⟨hh, ?_⟩)⟩
      cases h' with
      | nil => cases b2; exact ⟨_, _, h2, hc, .inr rfl⟩
      | cons h' => exact ⟨_, _, b2.cur, h', .inl rfl⟩
  obtain ⟨u, hu, key | key | ⟨key, u', s, hu', hs', rfl | rfl⟩⟩ := key
  all_goals (try unfold isSign at hs')
  all_goals
    start; fw []
    exact ⟨_, rfl, rfl, by assumption⟩

/-- A value of an enumeration. -/
def MEnum (ts : List Token) (v : V) : Prop := ∃ s e n, ts = [s, e, n] ∧ s.kind = .string ∧ isSign e b!"=" ∧ n.kind = .int ∧ v = N.EnumValue (name := text s) (value := number n)

theorem enum_sep (h : Piece .enumValues ts v) : ∃ vs, v = .list vs ∧ Sep MEnum ts vs := by
  generalize hc : Part.enumValues = c at h
  induction h
  all_goals try cases hc; done
  case enumOne h1 h2 h3 => exact ⟨_, rfl, .one ⟨_, _, _, rfl, h1, h2, h3, rfl⟩⟩
  case enumMore h1 h2 h3 h4 _ ih =>
    obtain ⟨_, h, h'⟩ := ih rfl
    cases h
    exact ⟨_, rfl, .more (ts := [_, _, _]) ⟨_, _, _, rfl, h1, h2, h3, rfl⟩ h4 h'⟩

theorem p_enumValue (h : MEnum ts v) (ha : Ahead l ts l') (a : V) :
    Fw .parseEnumValueExpr [a] l fun rs l2 => ∃ x y1 y2 y3 y4, rs = [.mk Ty.EnumValue [x, .mk Ty.NumberLiteral [y1, y2, y3, y4]], .nil] ∧ l' = l2 ∧ Is v (.mk Ty.EnumValue [x, .mk Ty.NumberLiteral [y1, y2, y3, y4]]) := by
  obtain ⟨s, e, n, rfl, h1, h2, h3, rfl⟩ := h
  have ht := ha.cur
  have ht2 := ha.rest.cur
  have ht3 := ha.rest.rest.cur
  cases ha.rest.rest.rest
  unfold isSign at h2
  unfold text number
  have e3 : ∀ a, Fw .parseNumber [a] l.advance.advance (fun rs l2 => ∃ y1 y2 y3 y4, rs = [.mk Ty.NumberLiteral [y1, y2, y3, y4], .nil] ∧ l.advance.advance.advance = l2 ∧ Is (number n) (.mk Ty.NumberLiteral [y1, y2, y3, y4])) := by
    intro a
    start; fw []
    exact ⟨_, _, _, _, rfl, rfl, by simp, rfl⟩
  start; fw [c_string]
  obtain ⟨y1, y2, y3, y4, rfl, rfl, hy⟩ := hp2
  fw []
  refine ⟨_, _, _, _, _, rfl, rfl, ?_⟩
  generalize V.mk Ty.NumberLiteral [y1, y2, y3, y4] = z at hy ⊢
  unfold number at hy
  is_tree

theorem p_enumType {c : Token} (h : Sep MEnum ts vs) (ha : Ahead l ts l') (hc : l'.cur = some c) (hk : isSign c b!")") (a : V) :
    Fw .parseEnumType [idv t, a] l (Got (N.EnumType (name := name t) (values := .list vs)) l'.advance) := by
  unfold isSign at hk
  have hi := is_idv t
  start
  fw []
  refine f_loopL fun L hL => ?_
  have key : ∀ us zs, Sep MEnum us zs → ∀ l acc as x3 x4 x5 x6 m i sv, Ahead l us l' → V.normL id acc = as → as ++ zs = vs →
      L ⟨[idv t, a, .mk Ty.EnumType [idv t, a, .nat 0, .list acc], x3, x4, x5, x6], sv⟩ ⟨l, m, i⟩ := by
    intro us zs hs
    induction hs with
    | one h =>
      intro l acc as x3 x4 x5 x6 m i sv ha hacc hvs
      have e := p_enumValue h ha
      obtain ⟨s, e1, n, rfl, h1, h2, h3, rfl⟩ := h
      have hcur := ha.cur
      obtain ⟨u, hu⟩ := ahead_next ha hc
      apply hL
      fw []
      obtain ⟨y0, y1, y2, y3, y4, rfl, rfl, hy⟩ := hp1
      fw []
      have hacc := (normL_snoc hacc (by assumption)).trans hvs
      got
    | more h hc' hs' ih =>
      intro l acc as x3 x4 x5 x6 m i sv ha hacc hvs
      obtain ⟨k, b1, b2⟩ := ha.append
      have htc := b2.cur
      unfold isSign at hc'
      have e := p_enumValue h b1
      obtain ⟨s, e1, n, rfl, h1, h2, h3, rfl⟩ := h
      have hcur := b1.cur
      obtain ⟨u, hu⟩ := ahead_next b1 htc
      apply hL
      fw []
      obtain ⟨y0, y1, y2, y3, y4, rfl, rfl, hy⟩ := hp1
      fw []
      exact ih _ _ _ _ _ _ _ _ _ _ b2.rest (normL_snoc hacc (by assumption)) (by simpa using hvs)
  exact key _ _ h _ _ [] _ _ _ _ _ _ _ ha rfl rfl

theorem t_enum {o c : Token} (hk : isTypeName t) (ho : isSign o b!"(") (h : Sep MEnum ts vs) (hc : isSign c b!")") :
    MTy (t :: o :: (ts ++ [c])) (N.EnumType (name := name t) (values := .list vs)) := by
  refine ⟨t, _, rfl, hk, .inr ⟨_, _, rfl, ho⟩, fun l l' ha hn hi => ?_⟩
  have h1 := ha.cur
  obtain ⟨l1, a1, a2⟩ := ha.rest.append
  have h2 := a2.cur
  cases a2.rest
  have e := p_enumType (t := t) h a1 h2 hc
  unfold isSign at ho
  obtain ⟨xs, ys, x, ws, rfl, rfl, ⟨s, e1, n, rfl, k1, k2, k3, rfl⟩, h'⟩ := h.first
  have h3 := a1.cur
  have h4 := a1.rest.cur
  unfold isSign at k2
  start; fw []
  exact ⟨_, rfl, rfl, by assumption⟩

/-- The fields of a nested type. -/
def MField (ts : List Token) (v : V) : Prop := ∃ t us w, ts = t :: us ∧ isPlainName t ∧ MTy us w ∧
  v = N.ColumnDef (name := N.NestedIdentifier (ident := name t)) (type_ := w)

theorem p_field (h : MField ts v) (ha : Ahead l ts l') (hn : NoErr l) (hi : l'.matchKinds [b!"("] = false) :
    Fw .parseNestedTypeFieldWithName [] l (Got v l') := by
  obtain ⟨t, us, w, rfl, h1, h2, rfl⟩ := h
  have ht := ha.cur
  have e := h2.fw ha.rest hn.adv hi
  unfold isPlainName at h1
  start; fw [c_ident]
  all_goals fin
  all_goals got

theorem is_columnDef {x y x1 : V} (hw : Is w x1) : Is (N.ColumnDef (name := N.NestedIdentifier (ident := name t)) (type_ := w))
    (.mk Ty.ColumnDef [x, y, .mk Ty.NestedIdentifier [idv t, .nil], x1, .nil, .nil, .nil, .nil, .nil, .nil, .nil, .nil, .nil]) := by
  have hi := is_idv t
  generalize (idv t) = z at hi ⊢
  is_tree

theorem p_fields {c : Token} (h : Sep MField ts vs) (ha : Ahead l ts l') (hn : NoErr l) (hc : l'.cur = some c) (hk : isSign c b!")") :
    Fw .parseNestedTypeFields [] l (GotL vs l') := by
  unfold isSign at hk
  cases h with
  | one h =>
    obtain ⟨t, us, w, rfl, h1, h2, rfl⟩ := h
    have ht := ha.cur
    have e := h2.fw ha.rest hn.adv (mk_some hc hk (by decide))
    have e2 := c_identX ht h1
    obtain ⟨t', us', rfl, ht', _⟩ := h2
    have q := type_kinds ha.rest.cur ht'
    have q2 := ha.rest.cur
    unfold isPlainName at h1
    suffices key : Fw .parseNestedTypeFieldsWithNames [idv t] l.advance (GotL [N.ColumnDef (name := N.NestedIdentifier (ident := name t)) (type_ := w)] l') by
      start; fw []
      exact ⟨_, rfl, rfl, by assumption⟩
    start; fw []
    exact ⟨_, rfl, rfl, normL_snoc (vs := []) rfl (is_columnDef (by assumption))⟩
  | @more c' xs ys x ws h hc' hs =>
    obtain ⟨t, us, w, rfl, h1, h2, rfl⟩ := h
    obtain ⟨m, a1, a2⟩ := ha.append
    have hm := a1.noErr hn
    have ht := a1.cur
    have htc := a2.cur
    unfold isSign at hc'
    have e := h2.fw a1.rest hn.adv (mk_some htc hc' (by decide))
    have e2 := c_identX ht h1
    obtain ⟨t', us', rfl, ht', _⟩ := h2
    have q := type_kinds a1.rest.cur ht'
    have q2 := a1.rest.cur
    unfold isPlainName at h1
    suffices key : Fw .parseNestedTypeFieldsWithNames [idv t] l.advance (GotL (N.ColumnDef (name := N.NestedIdentifier (ident := name t)) (type_ := w) :: ws) l') by
      start; fw []
      exact ⟨_, rfl, rfl, by assumption⟩
    start; fw []
    refine f_loopL fun L hL => ?_
    have key : ∀ us zs, Sep MField us zs → ∀ l acc as x2 x3 x4 x5 x6 x7 m i sv, Ahead l us l' → NoErr l → V.normL id acc = as →
        as ++ zs = N.ColumnDef (name := N.NestedIdentifier (ident := name t)) (type_ := w) :: ws →
        L ⟨[idv t, .list acc, x2, x3, x4, x5, x6, x7], sv⟩ ⟨l, m, i⟩ := by
      intro us zs hs
      induction hs with
      | one h =>
        intro l acc as x2 x3 x4 x5 x6 x7 m i sv ha hn hacc hvs
        have e := p_field h ha hn (mk_some hc hk (by decide))
        obtain ⟨t', us', _, rfl, ht', h⟩ := h
        unfold isPlainName at ht'
        have q := ha.cur
        obtain ⟨u, hu⟩ := ahead_next ha hc
        apply hL
        fw []
        have hacc := (normL_snoc hacc (by assumption)).trans hvs
        exact ⟨_, rfl, rfl, hacc⟩
      | more h hc' hs' ih =>
        intro l acc as x2 x3 x4 x5 x6 x7 m i sv ha hn hacc hvs
        obtain ⟨k, b1, b2⟩ := ha.append
        have hk' := b1.noErr hn
        have htc := b2.cur
        unfold isSign at hc'
        have e := p_field h b1 hn (mk_some htc hc' (by decide))
        obtain ⟨t', us', _, rfl, ht', h⟩ := h
        unfold isPlainName at ht'
        have q := b1.cur
        obtain ⟨u, hu⟩ := ahead_next b1 htc
        apply hL
        fw []
        exact ih _ _ _ _ _ _ _ _ _ _ _ _ b2.rest hk'.adv (normL_snoc hacc (by assumption)) (by simpa using hvs)
    exact key _ _ hs _ _ _ _ _ _ _ _ _ _ _ _ a2.rest hm.adv (normL_snoc (vs := []) rfl (is_columnDef (by assumption))) rfl

theorem p_tuple {c : Token} (h : Sep MTy ts vs) (ha : Ahead l ts l') (hn : NoErr l) (hc : l'.cur = some c) (hk : isSign c b!")") :
    Fw .parseNestedTypeFields [] l (GotL vs l') := by
  unfold isSign at hk
  cases h with
  | one h =>
    obtain ⟨t, us, rfl, ht', hz, h⟩ := h
    have ht := ha.cur
    have e := h _ _ ha.rest hn.adv (mk_some hc hk (by decide))
    have e2 := c_typeName ht ht'
    have q := type_kinds ha.cur ht'
    have st := begins_type ht' |>.starts ha |>.1
    have hx : l.advance.matchKinds [b!"<ident>"] = false := by
      rcases hz with rfl | ⟨o, us', rfl, ho⟩
      · cases ha.rest; exact mk_some hc hk (by decide)
      · exact mk_some ha.rest.cur ho (by decide)
    obtain ⟨u, hu⟩ := ahead_next ha hc
    suffices key : Fw .parseNestedTypeFieldsWithoutNames [idv t] l.advance (GotL _ l') by
      start; fw []
      exact ⟨_, rfl, rfl, by assumption⟩
    start; fw []
    exact ⟨_, rfl, rfl, normL_snoc (vs := []) rfl (by assumption)⟩
  | @more c' xs ys x ws h hc' hs =>
    obtain ⟨t, us, rfl, ht', hz, h⟩ := h
    obtain ⟨m, a1, a2⟩ := ha.append
    have hm := a1.noErr hn
    have ht := a1.cur
    have htc := a2.cur
    unfold isSign at hc'
    have e := h _ _ a1.rest hn.adv (mk_some htc hc' (by decide))
    have e2 := c_typeName ht ht'
    have q := type_kinds a1.cur ht'
    have st := begins_type ht' |>.starts a1 |>.1
    have hx : l.advance.matchKinds [b!"<ident>"] = false := by
      rcases hz with rfl | ⟨o, us', rfl, ho⟩
      · cases a1.rest; exact mk_some htc hc' (by decide)
      · exact mk_some a1.rest.cur ho (by decide)
    obtain ⟨u, hu⟩ := ahead_next a1 htc
    suffices key : Fw .parseNestedTypeFieldsWithoutNames [idv t] l.advance (GotL (x :: ws) l') by
      start; fw []
      exact ⟨_, rfl, rfl, by assumption⟩
    start; fw []
    refine f_loopL fun L hL => ?_
    have key : ∀ us zs, Sep MTy us zs → ∀ l acc as x2 x3 x4 x5 x6 x7 m i sv, Ahead l us l' → NoErr l → V.normL id acc = as →
        as ++ zs = x :: ws →
        L ⟨[idv t, .list acc, x2, x3, x4, x5, x6, x7], sv⟩ ⟨l, m, i⟩ := by
      intro us zs hs
      induction hs with
      | one h =>
        intro l acc as x2 x3 x4 x5 x6 x7 m i sv ha hn hacc hvs
        have e := h.fw ha hn (mk_some hc hk (by decide))
        obtain ⟨t', us', rfl, ht', h⟩ := h
        have st := begins_type ht' |>.starts ha |>.1
        obtain ⟨u, hu⟩ := ahead_next ha hc
        apply hL
        fw []
        have hacc := (normL_snoc hacc (by assumption)).trans hvs
        exact ⟨_, rfl, rfl, hacc⟩
      | more h hc' hs' ih =>
        intro l acc as x2 x3 x4 x5 x6 x7 m i sv ha hn hacc hvs
        obtain ⟨k, b1, b2⟩ := ha.append
        have hk' := b1.noErr hn
        have htc := b2.cur
        unfold isSign at hc'
        have e := h.fw b1 hn (mk_some htc hc' (by decide))
        obtain ⟨t', us', rfl, ht', h⟩ := h
        have st := begins_type ht' |>.starts b1 |>.1
        obtain ⟨u, hu⟩ := ahead_next b1 htc
        apply hL
        fw []
        exact ih _ _ _ _ _ _ _ _ _ _ _ _ b2.rest hk'.adv (normL_snoc hacc (by assumption)) (by simpa using hvs)
    exact key _ _ hs _ _ _ _ _ _ _ _ _ _ _ _ a2.rest hm.adv (normL_snoc (vs := []) rfl (by assumption)) rfl

theorem t_nestedOf {o c : Token} (hk : isTypeName t) (hn : upper t.str = b!"TUPLE" ∨ upper t.str = b!"NESTED") (ho : isSign o b!"(")
    (h : ∀ l l', Ahead l ts l' → NoErr l → l'.cur = some c → Fw .parseNestedTypeFields [] l (GotL vs l')) (hts : ∃ t' us, ts = t' :: us ∧ isTypeName t') (hc : isSign c b!")") :
    MTy (t :: o :: (ts ++ [c])) (N.NestedType (name := name t) (columns := .list vs)) := by
  refine ⟨t, _, rfl, hk, .inr ⟨_, _, rfl, ho⟩, fun l l' ha hn' hi => ?_⟩
  have h1 := ha.cur
  obtain ⟨l1, a1, a2⟩ := ha.rest.append
  have h2 := a2.cur
  cases a2.rest
  have e := h _ _ a1 hn'.adv h2
  obtain ⟨t', us', rfl, ht'⟩ := hts
  have q := type_kinds a1.cur ht'
  have hi := is_idv t
  unfold isSign at ho hc
  suffices key : ∀ a, Fw .parseNestedType [idv t, a] l.advance (Got (N.NestedType (name := name t) (columns := .list vs)) l1.advance) by
    rcases hn with hn | hn
    all_goals
      start; fw []
      exact ⟨_, rfl, rfl, by assumption⟩
  intro a
  start; fw []
  got

/-- What the parts of a type stand for. -/
def TMeaning : Part → List Token → V → Prop
  | .type, ts, v => MTy ts v
  | .types, ts, v => ∃ vs, v = .list vs ∧ Sep MTy ts vs
  | .fields, ts, v => ∃ vs, v = .list vs ∧ Sep MField ts vs
  | _, _, _ => True

theorem t_meaning {c : Part} (h : Piece c ts v) : TMeaning c ts v := by
  induction h
  all_goals try trivial
  case scalar h => exact t_scalar h
  case complex h1 h2 h3 _ h5 h4 =>
    obtain ⟨vs, rfl, h4⟩ := h4
    exact t_complex h1 h2 h3 h4 h5
  case tuple h1 h2 h3 _ h5 h4 =>
    obtain ⟨vs, rfl, h4⟩ := h4
    obtain ⟨xs, ys, x, ws, rfl, rfl, ⟨t', us, rfl, ht, _⟩, _⟩ := h4.first
    exact t_nestedOf h1 (.inl h2) h3 (fun l l' ha hn hc => p_tuple h4 ha hn hc h5) ⟨_, _, rfl, ht⟩ h5
  case nested h1 h2 h3 _ h5 h4 =>
    obtain ⟨vs, rfl, h4⟩ := h4
    obtain ⟨xs, ys, x, ws, rfl, rfl, ⟨t', us, _, rfl, ht, _⟩, _⟩ := h4.first
    exact t_nestedOf h1 h2 h3 (fun l l' ha hn hc => p_fields h4 ha hn hc h5) ⟨_, _, rfl, .inl ht⟩ h5
  case empty h1 h2 h3 => exact t_empty h1 h2 h3
  case typeParams h1 h2 h4 h3 _ =>
    obtain ⟨vs, rfl, h6⟩ := sep_piece h4 rfl
    exact t_typeParams h1 h2 h6 h3
  case enum h1 h2 h4 h3 _ =>
    obtain ⟨vs, rfl, h6⟩ := enum_sep h4
    exact t_enum h1 h2 h6 h3
  case typeOne h => exact ⟨_, rfl, .one h⟩
  case typeMore h2 _ h1 h3 =>
    obtain ⟨_, h, h3⟩ := h3
    cases h
    exact ⟨_, rfl, .more h1 h2 h3⟩
  case fieldOne h1 _ h2 => exact ⟨_, rfl, .one ⟨_, _, _, rfl, h1, h2, rfl⟩⟩
  case fieldMore h1 _ h3 _ h2 h4 =>
    obtain ⟨_, h, h4⟩ := h4
    cases h
    exact ⟨_, rfl, .more (ts := _ :: _) ⟨_, _, _, rfl, h1, h2, rfl⟩ h3 h4⟩

end Verif.Complete

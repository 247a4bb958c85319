/-
`INSERT`.  No definition here is part of the model.
-/
import Verif.Complete.Create

namespace Verif.Complete
open Verif.Spec Verif.Echo Verif.Echo.Sym Verif.Complete.Tac

variable {l l' : Lx} {k d t : Token} {ts us : List Token} {v w : V} {vs : List V} {b q : Bool}

set_option linter.unusedVariables false
set_option linter.unusedTactic false

/-! ### Names of columns -/

/-- A tree whose form is that of a node is a node. -/
theorem Got.typed {t : Ty} {fs rs : List V} {l2 : Lx} (h : Got (.mk t fs) l2 rs l) : GotT t (.mk t fs) l2 rs l := by
  obtain ⟨w, rfl, rfl, hne, hw⟩ := h
  cases w with
  | mk t' fs' =>
    have : t' = t := by
      rw [V.norm] at hw
      cases hw
      rfl
    subst this
    exact ⟨_, rfl, rfl, hne, hw⟩
  | _ => simp [V.norm] at hw

theorem column_ident (h : Piece .column ts v) (ha : Ahead l ts l') : ∃ t us, ts = t :: us ∧ l.cur = some t ∧ t.kind = .ident := by
  cases h with
  | column h => exact ⟨_, _, rfl, ha.cur, h⟩
  | columnOf h => exact ⟨_, _, rfl, ha.cur, h⟩

theorem p_columnT (h : Piece .column ts v) (ha : Ahead l ts l') (hn : NoErr l) (hi : l'.matchKinds [b!"."] = false) (a : V) :
    Fw .ParseNestedIdentifier [a] l (GotT .NestedIdentifier v l') := by
  have e := p_column h ha hn hi a
  cases h with
  | column => exact e.mono fun _ _ => Got.typed
  | columnOf => exact e.mono fun _ _ => Got.typed

theorem p_columnNames (h : Piece .columnNames ts v) (ha : Ahead l ts l') (hn : NoErr l) (hi : l'.matchKinds [b!"("] = false) :
    (v = .nil ∧ l = l') ∨ (l.matchKinds [b!"("] = true ∧ ∀ a, Fw .parseColumnNamesExpr [a] l (Got v l')) := by
  cases h with
  | columnNamesNo => cases ha; exact .inl ⟨rfl, rfl⟩
  | columnNames ho h hc =>
    refine .inr ⟨mk_some ha.cur ho (by decide), fun a => ?_⟩
    have h1 := ha.cur
    obtain ⟨l1, a1, a2⟩ := ha.rest.append
    have n1 := a1.noErr hn.adv
    have h2 := a2.cur
    cases a2.rest
    have s1 : Starts [b!")"] [] l1 := starts_sign h2 hc (by decide)
    obtain ⟨vs, rfl, hsep⟩ := sep_piece h rfl
    unfold isSign at ho hc
    start; fw []
    refine f_loopL fun L hL => ?_
    have key : ∀ us zs, Sep (Piece .column) us zs → ∀ l acc as x3 x4 x5 x6 x7 x8 x9 m i sv, Ahead l us l1 → NoErr l → V.normL id acc = as → as ++ zs = vs →
        ∀ u, (u = .nil ∧ acc = []) ∨ u = .list acc →
        L ⟨[a, .nil, u, x3, x4, x5, x6, x7, x8, x9], sv⟩ ⟨l, m, i⟩ := by
      intro us zs hs'
      induction hs' with
      | one hp =>
        intro l acc as x3 x4 x5 x6 x7 x8 x9 m i sv ha hn hacc hvs u hu
        have e := p_columnT hp ha hn (st_kinds s1 (by decide))
        obtain ⟨t', us', rfl, hcur, ht'⟩ := column_ident hp ha
        obtain ⟨u1, hu1⟩ := ahead_next ha h2
        apply hL
        rcases hu with ⟨rfl, rfl⟩ | rfl
        · fw []
          have hacc := (normL_snoc hacc hv1).trans hvs
          have hacc : V.normL id (V.items .nil ++ [V.mk Ty.NestedIdentifier v1]) = vs := hacc
          got
        · fw []
          have hacc := (normL_snoc hacc (by assumption)).trans hvs
          got
      | more hp hcm hr ih =>
        intro l acc as x3 x4 x5 x6 x7 x8 x9 m i sv ha hn hacc hvs u hu
        obtain ⟨k, b1, b2⟩ := ha.append
        have hk' := b1.noErr hn
        have htc := b2.cur
        have e := p_columnT hp b1 hn (mk_some htc hcm (by decide))
        obtain ⟨t', us', rfl, hcur, ht'⟩ := column_ident hp b1
        obtain ⟨u1, hu1⟩ := ahead_next b1 htc
        unfold isSign at hcm
        apply hL
        rcases hu with ⟨rfl, rfl⟩ | rfl
        · fw []
          exact ih _ [_] _ _ _ _ _ _ _ _ _ _ _ b2.rest hk'.adv (normL_snoc (xs := []) hacc (by assumption)) (by simpa using hvs) _ (.inr rfl)
        · fw []
          exact ih _ _ _ _ _ _ _ _ _ _ _ _ _ b2.rest hk'.adv (normL_snoc hacc (by assumption)) (by simpa using hvs) _ (.inr rfl)
    exact key _ _ hsep _ [] [] _ _ _ _ _ _ _ _ _ _ a1 hn.adv rfl rfl _ (.inl ⟨rfl, rfl⟩)

/-! ### Rows -/

/-- What the parser does with a cell of a row. -/
def MCell (ts : List Token) (v : V) : Prop :=
  (∃ t us, ts = t :: us) ∧
  ∀ l l', Ahead l ts l' → NoErr l → Starts [b!",", b!")"] [] l' →
    (l.matchKinds [b!"("] = false ∧ l.matchKinds [b!"{"] = false ∧ l.matchKinds [b!")"] = false ∧ ∀ a, Fw .parseExpr [a] l (Got v l')) ∨
    (l.matchKinds [b!"("] = true ∧ l.matchKinds [b!")"] = false ∧ ∀ a, Fw .parseAssignmentValues [a] l (Got v l'))

theorem p_row {o c : Token} (ho : isSign o b!"(") (h : Sep MCell ts vs) (hc : isSign c b!")") (ha : Ahead l (o :: (ts ++ [c])) l') (hn : NoErr l) (a : V) :
    Fw .parseAssignmentValues [a] l (Got (N.AssignmentValues (values := .list vs)) l') := by
  have h1 := ha.cur
  obtain ⟨l1, a1, a2⟩ := ha.rest.append
  have n1 := a1.noErr hn.adv
  have h2 := a2.cur
  cases a2.rest
  have s1 : Starts [b!",", b!")"] [] l1 := starts_sign h2 hc (by decide)
  unfold isSign at ho hc
  start; fw []
  refine f_loopL fun L hL => ?_
  have key : ∀ us zs, Sep MCell us zs → ∀ l acc as x2 x3 x5 x6 x7 x8 x9 m i sv, Ahead l us l1 → NoErr l → V.normL id acc = as → as ++ zs = vs →
      L ⟨[a, .nil, x2, x3, .list acc, x5, x6, x7, x8, x9], sv⟩ ⟨l, m, i⟩ := by
    intro us zs hs'
    induction hs' with
    | one hp =>
      intro l acc as x2 x3 x5 x6 x7 x8 x9 m i sv ha hn hacc hvs
      obtain ⟨⟨t', us', rfl⟩, e⟩ := hp
      obtain ⟨u1, hu1⟩ := ahead_next ha h2
      apply hL
      rcases e l l1 ha hn s1 with ⟨q1, q2, q3, e⟩ | ⟨q1, q3, e⟩
      all_goals
        fw []
        have hacc := (normL_snoc hacc (by assumption)).trans hvs
        got
    | more hp hcm hr ih =>
      intro l acc as x2 x3 x5 x6 x7 x8 x9 m i sv ha hn hacc hvs
      obtain ⟨k, b1, b2⟩ := ha.append
      have hk' := b1.noErr hn
      have htc := b2.cur
      obtain ⟨⟨t', us', rfl⟩, e⟩ := hp
      obtain ⟨u1, hu1⟩ := ahead_next b1 htc
      have s2 : Starts [b!",", b!")"] [] k := starts_sign htc hcm (by decide)
      unfold isSign at hcm
      apply hL
      rcases e l k b1 hn s2 with ⟨q1, q2, q3, e⟩ | ⟨q1, q3, e⟩
      all_goals
        fw []
        exact ih _ _ _ _ _ _ _ _ _ _ _ _ _ b2.rest hk'.adv (normL_snoc hacc (by assumption)) (by simpa using hvs)
  exact key _ _ h _ [] [] _ _ _ _ _ _ _ _ _ _ a1 hn.adv rfl rfl

/-- The meanings of cells. -/
def CellMeaning : Part → List Token → V → Prop
  | .cell, ts, v => MCell ts v
  | .cells, ts, v => ∃ vs, v = .list vs ∧ Sep MCell ts vs
  | _, _, _ => True

theorem cell_meaning {c : Part} (h : Piece c ts v) : CellMeaning c ts v := by
  induction h
  all_goals try exact trivial
  case cell h1 h2 =>
    obtain ⟨t, us, rfl, hb⟩ := core_begins h1 rfl
    refine ⟨⟨_, _, rfl⟩, fun l l' ha hn hs => .inl ?_⟩
    have hs' : Starts _ _ l := ((core_begins h1 rfl).starts ha).1
    refine ⟨?_, st_kinds hs' (by decide), st_kinds hs' (by decide), exprT h1 ha hn (hs.mono (by decide))⟩
    have hne : t.kind.toStr ≠ b!"(" := by
      have := h2 t rfl
      unfold isSign at this
      cases hk : t.kind with
      | op s =>
        rw [hk] at this
        rintro rfl
        exact this rfl
      | _ => simp [Kind.toStr]
    have hs2 : Starts (exprKinds.erase b!"(") exprWords l := by
      refine .inr ⟨t, ha.cur, hb.imp (fun h => ?_) id⟩
      exact (List.mem_erase_of_ne hne).2 h
    exact st_kinds hs2 (by decide)
  case cellRow ho h hc ih =>
    obtain ⟨vs, rfl, hsep⟩ := ih
    refine ⟨⟨_, _, rfl⟩, fun l l' ha hn hs => .inr ⟨mk_some ha.cur ho (by decide), mk_some ha.cur ho (by decide), p_row ho hsep hc ha hn⟩⟩
  case cellOne h ih => exact ⟨_, rfl, .one ih⟩
  case cellMore h hc h2 ih1 ih2 =>
    obtain ⟨vs, hx, h2⟩ := ih2
    cases hx
    exact ⟨_, rfl, .more ih1 hc h2⟩

/-- What the parser does with a row. -/
def MRow (ts : List Token) (v : V) : Prop := (∃ t t' us, ts = t :: t' :: us) ∧ ∀ l l', Ahead l ts l' → NoErr l → ∀ a, Fw .parseAssignmentValues [a] l (Got v l')

theorem m_row {o c : Token} (ho : isSign o b!"(") (h : Piece .cells ts v) (hc : isSign c b!")") : MRow (o :: (ts ++ [c])) (N.AssignmentValues (values := v)) := by
  obtain ⟨vs, rfl, h⟩ := (cell_meaning h : ∃ vs, v = .list vs ∧ Sep MCell ts vs)
  exact ⟨⟨o, (ts ++ [c]).head (by simp), (ts ++ [c]).tail, by simp⟩, fun l l' ha hn a => p_row ho ‹Sep MCell ts vs› hc ha hn a⟩

theorem rows_sep (h : Piece .rows ts v) : ∃ vs, v = .list vs ∧ Sep MRow ts vs := by
  generalize hP : Part.rows = c at h
  induction h
  all_goals try cases hP; done
  case rowOne ho h hc ih => exact ⟨_, rfl, .one (m_row ho h hc)⟩
  case rowMore ho h hc hm hr ih1 ih2 =>
    obtain ⟨vs, hx, h2⟩ := ih2 rfl
    cases hx
    have := Sep.more (m_row ho h hc) hm h2
    exact ⟨_, rfl, by simpa using this⟩

/-! ### The statement -/

theorem table_split {ws : List Token} (h : ws = [] ∧ b = false ∨ ∃ w, ws = [w] ∧ isWord w b!"TABLE" ∧ b = true) (ha : Ahead l ws l') :
    (b = false ∧ l' = l) ∨ (b = true ∧ ∃ t, l.cur = some t ∧ t.kind = .keyword ∧ upper t.str = b!"TABLE" ∧ l' = l.advance) := by
  rcases h with ⟨rfl, rfl⟩ | ⟨w, rfl, h, rfl⟩
  · cases ha; exact .inl ⟨rfl, rfl⟩
  · have ht := ha.cur
    cases ha.rest
    exact .inr ⟨rfl, _, ht, h.1, h.2, rfl⟩

theorem ms_insertFormat {f i : Token} {is ns ws : List Token} {n : V} (hk : isWord k b!"INSERT") (hi : isWord i b!"INTO")
    (hw : ws = [] ∧ b = false ∨ ∃ w, ws = [w] ∧ isWord w b!"TABLE" ∧ b = true) (hid : Piece .id is v) (hns : Piece .columnNames ns n) (ht : isWord t b!"FORMAT") (hf : isPlainName f) :
    MS (k :: i :: (ws ++ (is ++ (ns ++ [t, f])))) (N.InsertStmt (hasTableKeyword := b) (table := v) (columnNames := n) (format_ := N.FormatClause (format_ := name f))) := by
  refine ms_of (f := .parseInsertStmt) hk (by decide) fun l l' ha hn hs a => ?_
  have h1 := ha.cur
  have h2 := ha.rest.cur
  obtain ⟨l0, a0, ha⟩ := ha.rest.rest.append
  have n0 := a0.noErr hn.adv.adv
  obtain ⟨l1, a1, ha⟩ := ha.append
  have n1 := a1.noErr n0
  obtain ⟨l2, a2, a3⟩ := ha.append
  have n2 := a2.noErr n1
  have h3 := a3.cur
  have h4 := a3.rest.cur
  cases a3.rest.rest
  have s2 : Starts [] [b!"FORMAT"] l2 := starts_word h3 ht (by decide)
  have s1 : Starts [b!"("] [b!"FORMAT"] l1 := (piece_opens hns a2 s2).mono (by decide)
  have s0 := piece_starts hid a1 rfl
  have e1 := p_id hid a1 n0 (st_kinds s1 (by decide))
  have e2 := p_columnNames hns a2 n1 (st_kinds s2 (by decide))
  have q2 : l2.matchKinds [b!"("] = false := st_kinds s2 (by decide)
  obtain ⟨_, _⟩ := hk
  obtain ⟨_, _⟩ := hi
  obtain ⟨_, _⟩ := ht
  unfold isPlainName at hf
  have e3 : ∀ a, Fw .parseFormat [a] l2 (Got (N.FormatClause (format_ := name f)) l2.advance.advance) := by
    intro a
    start; fw [c_ident]
    all_goals got
  clear s1 s2
  rcases table_split hw a0 with ⟨rfl, rfl⟩ | ⟨rfl, x, q3, q4, q5, rfl⟩ <;> rcases e2 with ⟨rfl, rfl⟩ | ⟨q6, e2⟩
  all_goals
    start; fw []
    all_goals fin
    all_goals got

theorem ms_insertQuery {i : Token} {is ns qs ws : List Token} {n q : V} (hk : isWord k b!"INSERT") (hi : isWord i b!"INTO")
    (hw : ws = [] ∧ b = false ∨ ∃ w, ws = [w] ∧ isWord w b!"TABLE" ∧ b = true) (hid : Piece .id is v) (hns : Piece .columnNames ns n) (hq : Core .query qs q)
    (hwith : ∀ t ∈ qs.head?, ¬ isWord t b!"WITH") :
    MS (k :: i :: (ws ++ (is ++ (ns ++ qs)))) (N.InsertStmt (hasTableKeyword := b) (table := v) (columnNames := n) (selectExpr := q)) := by
  refine ms_of (f := .parseInsertStmt) hk (by decide) fun l l' ha hn hs a => ?_
  have h1 := ha.cur
  have h2 := ha.rest.cur
  obtain ⟨l0, a0, ha⟩ := ha.rest.rest.append
  have n0 := a0.noErr hn.adv.adv
  obtain ⟨l1, a1, ha⟩ := ha.append
  have n1 := a1.noErr n0
  obtain ⟨l2, a2, a3⟩ := ha.append
  have n2 := a2.noErr n1
  have hmq : MQ qs q := meaning hq
  obtain ⟨t, h3, ht1, ht2⟩ := hmq.word hwith a3
  have s2 : Starts [] [b!"SELECT"] l2 := starts_word h3 ⟨ht1, ht2⟩ (by decide)
  have s1 : Starts [b!"("] [b!"SELECT"] l1 := (piece_opens hns a2 s2).mono (by decide)
  have s0 := piece_starts hid a1 rfl
  have e1 := p_id hid a1 n0 (st_kinds s1 (by decide))
  have e2 := p_columnNames hns a2 n1 (st_kinds s2 (by decide))
  have e3 := hmq.2.1 _ _ a3 n2 (hs.mono (by decide))
  have q2 : l2.matchKinds [b!"("] = false := st_kinds s2 (by decide)
  obtain ⟨_, _⟩ := hk
  obtain ⟨_, _⟩ := hi
  clear s1 s2
  rcases table_split hw a0 with ⟨rfl, rfl⟩ | ⟨rfl, x, q3, q4, q5, rfl⟩ <;> rcases e2 with ⟨rfl, rfl⟩ | ⟨q6, e2⟩
  all_goals
    start; fw []
    all_goals fin
    all_goals got

set_option hygiene false in
/-- The loop over the rows; `nv` are the names of the columns. -/
macro "insert_rows" bv:term "," nv:term "," hnv:term : tactic => `(tactic| (
  have hnv := $hnv
  refine f_loopL fun L hL => ?_
  have key : ∀ us zs, Sep MRow us zs → ∀ l acc as x4 x5 x7 x8 x9 x10 x11 x13 x14 x15 x16 x17 m i sv, Ahead l us l' → NoErr l → V.normL id acc = as → as ++ zs = vs →
      L ⟨[a, .nil, .nil, .mk Ty.InsertStmt [a, .nil, .bool $bv, v1, $nv, .nil, .nil], x4, x5, .nil, x7, x8, x9, x10, x11, .list acc, x13, x14, x15, x16, x17], sv⟩ ⟨l, m, i⟩ := by
    intro us zs hs'
    induction hs' with
    | one hp =>
      intro l acc as x4 x5 x7 x8 x9 x10 x11 x13 x14 x15 x16 x17 m i sv ha hn hacc hvs
      obtain ⟨⟨t', t2, us', rfl⟩, e⟩ := hp
      have hu1 := ha.rest.cur
      have e := e _ _ ha hn
      apply hL
      fw []
      have hacc := (normL_snoc hacc (by assumption)).trans hvs
      all_goals got
    | more hp hcm hr ih =>
      intro l acc as x4 x5 x7 x8 x9 x10 x11 x13 x14 x15 x16 x17 m i sv ha hn hacc hvs
      obtain ⟨k, b1, b2⟩ := ha.append
      have hk' := b1.noErr hn
      have htc := b2.cur
      obtain ⟨⟨t', t2, us', rfl⟩, e⟩ := hp
      have hu1 := b1.rest.cur
      have e := e _ _ b1 hn
      unfold isSign at hcm
      apply hL
      fw []
      exact ih _ _ _ _ _ _ _ _ _ _ _ _ _ _ _ _ _ _ b2.rest hk'.adv (normL_snoc hacc (by assumption)) (by simpa using hvs)
  exact key _ _ hsep _ [] [] _ _ _ _ _ _ _ _ _ _ _ _ _ _ _ a3.rest n2.adv rfl rfl))

theorem ms_insertValues {i : Token} {is ns rs ws : List Token} {c r : V} (hk : isWord k b!"INSERT") (hi : isWord i b!"INTO")
    (hw : ws = [] ∧ b = false ∨ ∃ w, ws = [w] ∧ isWord w b!"TABLE" ∧ b = true) (hid : Piece .id is v) (hns : Piece .columnNames ns c) (ht : isWord t b!"VALUES") (hr : Piece .rows rs r) :
    MS (k :: i :: (ws ++ (is ++ (ns ++ t :: rs)))) (N.InsertStmt (hasTableKeyword := b) (table := v) (columnNames := c) (values := r)) := by
  refine ms_of (f := .parseInsertStmt) hk (by decide) fun l l' ha hn hs a => ?_
  have h1 := ha.cur
  have h2 := ha.rest.cur
  obtain ⟨l0, a0, ha⟩ := ha.rest.rest.append
  have n0 := a0.noErr hn.adv.adv
  obtain ⟨l1, a1, ha⟩ := ha.append
  have n1 := a1.noErr n0
  obtain ⟨l2, a2, a3⟩ := ha.append
  have n2 := a2.noErr n1
  have h3 := a3.cur
  have s2 : Starts [] [b!"VALUES"] l2 := starts_word h3 ht (by decide)
  have s1 : Starts [b!"("] [b!"VALUES"] l1 := (piece_opens hns a2 s2).mono (by decide)
  have s0 := piece_starts hid a1 rfl
  have e1 := p_id hid a1 n0 (st_kinds s1 (by decide))
  have e2 := p_columnNames hns a2 n1 (st_kinds s2 (by decide))
  have q2 : l2.matchKinds [b!"("] = false := st_kinds s2 (by decide)
  obtain ⟨vs, rfl, hsep⟩ := rows_sep hr
  obtain ⟨_, _⟩ := hk
  obtain ⟨_, _⟩ := hi
  obtain ⟨_, _⟩ := ht
  clear s1 s2
  rcases table_split hw a0 with ⟨rfl, rfl⟩ | ⟨rfl, x, q3, q4, q5, rfl⟩ <;> rcases e2 with ⟨rfl, rfl⟩ | ⟨q6, e2⟩
  · start; fw []
    insert_rows false, .nil, (rfl : V.norm id .nil = .nil)
  · start; fw []
    insert_rows false, v2, hv2.2
  · start; fw []
    insert_rows true, .nil, (rfl : V.norm id .nil = .nil)
  · start; fw []
    insert_rows true, v2, hv2.2

end Verif.Complete

/-
`ALTER TABLE`.  No definition here is part of the model.
-/
import Verif.Complete.Insert
import Verif.Analysis.Sound.Ends

namespace Verif.Complete
open Verif.Spec Verif.Echo Verif.Echo.Sym Verif.Complete.Tac

variable {l l' : Lx} {k d t : Token} {ts us : List Token} {v w : V} {vs : List V} {b q : Bool}

set_option linter.unusedVariables false
set_option linter.unusedTactic false

theorem n_remove (h : l.matchKw b!"REMOVE" = false) (a : V) : Fw .tryParseRemovePropertyTypeExpr [a] l (Res [.nil, .nil] l) := by
  start; fw []
  exact ⟨rfl, rfl⟩

theorem p_after (h : Piece .after ts v) (ha : Ahead l ts l') (hn : NoErr l) (hs : Starts [b!",", b!";"] [] l') :
    (v = .nil ∧ l = l' ∧ Fw .tryParseAfterClause [] l (Res [.nil, .nil] l')) ∨ Fw .tryParseAfterClause [] l (Got v l') := by
  cases h with
  | afterNo =>
    cases ha
    refine .inl ⟨rfl, rfl, ?_⟩
    start; fw []
    exact ⟨rfl, rfl⟩
  | after hk h =>
    refine .inr ?_
    have h1 := ha.cur
    have e := p_column h ha.rest hn.adv (st_kinds hs (by decide))
    obtain ⟨_, _⟩ := hk
    start; fw []
    exact ⟨_, rfl, rfl, by assumption⟩

/-- A tree whose end is known, and the place reached. -/
def GotE (v : V) (l2 : Lx) (rs : List V) (l' : Lx) : Prop := ∃ w, rs = [w, .nil] ∧ l2 = l' ∧ Is v w ∧ ∃ e, w.end? = some e
/-- A name whose end is known, and the place reached. -/
def GotN (v : V) (l2 : Lx) (rs : List V) (l' : Lx) : Prop :=
  ∃ fs, rs = [.mk .NestedIdentifier fs, .nil] ∧ l2 = l' ∧ Is v (.mk .NestedIdentifier fs) ∧ ∃ e, (V.mk .NestedIdentifier fs).end? = some e

theorem i_ident (ht : l.cur = some t) (hk : t.kind = .ident) : Fw .parseIdent [] l (Res [V.mk .Ident [.str t.str, .nat t.quote, .nat t.pos, .nat t.endp], .nil] l.advance) := by
  start; fw []; exact ⟨rfl, rfl⟩
theorem i_any (hn : NoErr l) (ht : l.cur = some t) (hk : isAnyName t) : Fw .parseAnyKeyword [] l (Res [V.mk .Ident [.str t.str, .nat t.quote, .nat t.pos, .nat t.endp], .nil] l.advance) := by
  rcases hk with hk | hk
  all_goals start; fw []; exact ⟨rfl, rfl⟩
theorem i_dot (hn : NoErr l) (hd : l.cur = some d) (hdk : isSign d b!".") (ht : l.advance.cur = some t) (hk : isAnyName t) (a : V) :
    Fw .tryParseDotIdent [a] l (Res [V.mk .Ident [.str t.str, .nat t.quote, .nat t.pos, .nat t.endp], .nil] l.advance.advance) := by
  unfold isSign at hdk
  have e := i_any hn.adv ht hk
  start; fw []; exact ⟨rfl, rfl⟩

theorem p_columnN (h : Piece .column ts v) (ha : Ahead l ts l') (hn : NoErr l) (hi : l'.matchKinds [b!"."] = false) (a : V) :
    Fw .ParseNestedIdentifier [a] l (GotN v l') := by
  cases h with
  | column h1 =>
    have ht := ha.cur
    unfold isPlainName at h1
    have e := i_ident ht h1
    cases ha.rest
    start; fw [p_dotNo]
    refine ⟨_, rfl, rfl, by is_tree, _, rfl⟩
  | columnOf h1 h2 h3 =>
    have ht := ha.cur
    have ht2 := ha.rest.cur
    have ht3 := ha.rest.rest.cur
    unfold isPlainName at h1
    have e := i_ident ht h1
    have e2 := i_dot hn.adv ht2 h2 ht3 h3
    cases ha.rest.rest.rest
    start; fw []
    refine ⟨_, rfl, rfl, by is_tree, _, rfl⟩

theorem end_last {w : V} {e : Nat} (h : w.end? = some e) {acc : List V} {s : PS} {a x y z u : V} {env : List V} :
    (Exp.endOf (.last (.fld (.var 1) 4)) .iface).eval s (a :: .mk .AlterTable [x, y, z, u, .list (acc ++ [w])] :: env) = some (.nat e) := by
  have h1 : (Exp.last (.fld (.var 1) 4)).eval s (a :: .mk .AlterTable [x, y, z, u, .list (acc ++ [w])] :: env) = some w := by
    show (acc ++ [w]).getLast? = _
    simp
  rw [Exp.eval, h1]
  simp only [Option.bind_some, Static.dispatch]
  unfold V.end? at h
  rw [Option.bind_eq_some_iff] at h
  obtain ⟨t, h2, h3⟩ := h
  rw [h2]
  simp [h3]

theorem end_number {e : Exp} {st : Static} {s : PS} {env : List V} {w : V} (h : (Exp.endOf e st).eval s env = some w) : ∃ n, w = .nat n := by
  simp only [Exp.eval, Option.bind_eq_some_iff, Option.map_eq_some_iff] at h
  obtain ⟨_, _, _, _, w, _, rfl⟩ := h
  exact ⟨w, rfl⟩

theorem end_part {t : Ty} {fs gs : List V} {e : Nat} (h : (V.mk .NestedIdentifier fs).end? = some e) (hm : .mk .NestedIdentifier fs ∈ gs)
    (ht : ∀ n, posEndF (n + 1) true t (.mk t gs) = posEndF n true .NestedIdentifier (.mk .NestedIdentifier fs)) : (V.mk t gs).end? = some e := by
  show posEndF ((V.mk t gs).depth + 1) true t (.mk t gs) = some e
  rw [ht, ← h]
  have := depth_items (v := .list gs) hm
  refine An.posEndF_fuel _ _ (Nat.le_refl _) _ _ ?_ (Nat.lt_succ_self _) _ _
  simpa [V.depth] using this

/-- The functions for the parts of `ALTER TABLE`. -/
def alterFns : List (Str × Fn) :=
  [(b!"ADD", .parseAlterTableAdd), (b!"MODIFY", .parseAlterTableModify), (b!"DROP", .parseAlterTableDrop), (b!"RENAME", .parseAlterTableRenameColumn),
    (b!"DELETE", .parseAlterTableDelete), (b!"UPDATE", .parseAlterTableUpdate)]

/-- What the parser does with a part of `ALTER TABLE`. -/
def MAlt (ts : List Token) (v : V) : Prop :=
  (∃ t t' us, ts = t :: t' :: us) ∧ ∃ w f, (w, f) ∈ alterFns ∧ (∀ t ∈ ts.head?, isWord t w) ∧
    ∀ l l', Ahead l ts l' → NoErr l → Starts [b!",", b!";"] [] l' → ∀ a, Fw f [a] l (GotE v l')

theorem malt_of {f : Fn} {w : Str} (hk : isWord k w) (hf : (w, f) ∈ alterFns)
    (h : ∀ l l', Ahead l (k :: d :: ts) l' → NoErr l → Starts [b!",", b!";"] [] l' → ∀ a, Fw f [a] l (GotE v l')) : MAlt (k :: d :: ts) v :=
  ⟨⟨_, _, _, rfl⟩, w, f, hf, fun t ht => by cases ht; exact hk, h⟩

theorem ma_add {bs us xs : List Token} (hk : isWord k b!"ADD") (hd : isWord d b!"COLUMN") (hb : Piece .ifNotExists bs (.bool b)) (h : Piece .columnDef us v) (hx : Piece .after xs w) :
    MAlt (k :: d :: (bs ++ (us ++ xs))) (N.AlterTableAddColumn (column := v) (ifNotExists := b) (after := w)) := by
  refine malt_of (f := .parseAlterTableAdd) hk (by decide) fun l l' ha hn hs a => ?_
  have h1 := ha.cur
  have h2 := ha.rest.cur
  obtain ⟨l1, a1, ha⟩ := ha.rest.rest.append
  have n1 := a1.noErr hn.adv.adv
  obtain ⟨l2, a2, a3⟩ := ha.append
  have n2 := a2.noErr n1
  have s2 : Starts [b!",", b!";"] [b!"AFTER"] l2 := (piece_opens hx a3 hs).mono (by decide)
  have e1 := p_ifNotExists hb a1 (st_kw (piece_starts h a2 rfl) (by decide))
  have e2 := p_columnDef h a2 n1 (s2.mono (by decide))
  have e3 := p_after hx a3 n2 hs
  clear s2
  obtain ⟨hk, hu⟩ := hk
  obtain ⟨hk2, hu2⟩ := hd
  have key : ∀ a, Fw .parseAlterTableAddColumn [a] l.advance (GotE (N.AlterTableAddColumn (column := v) (ifNotExists := b) (after := w)) l') := by
    intro a
    have keepNumbers := trivial
    rcases e3 with ⟨rfl, hl, e3⟩ | e3
    all_goals
      start; fw [n_settings]
      refine ⟨_, rfl, rfl, by is_tree, _, rfl⟩
  start; fw []
  obtain ⟨_, rfl, rfl, h3, h4⟩ := ‹GotE _ _ _ _›
  fw []
  exact ⟨_, rfl, rfl, h3, h4⟩

theorem ma_modify {bs us : List Token} (hk : isWord k b!"MODIFY") (hd : isWord d b!"COLUMN") (hb : Piece .ifExists bs (.bool b)) (h : Piece .columnDef us v) :
    MAlt (k :: d :: (bs ++ us)) (N.AlterTableModifyColumn (column := v) (ifExists := b)) := by
  refine malt_of (f := .parseAlterTableModify) hk (by decide) fun l l' ha hn hs a => ?_
  have h1 := ha.cur
  have h2 := ha.rest.cur
  obtain ⟨l1, a1, a2⟩ := ha.rest.rest.append
  have n1 := a1.noErr hn.adv.adv
  have e1 := p_ifExists hb a1 (st_kw (piece_starts h a2 rfl) (by decide))
  have e2 := p_columnDef h a2 n1 (hs.mono (by decide))
  obtain ⟨hk, hu⟩ := hk
  obtain ⟨hk2, hu2⟩ := hd
  have key : ∀ a, Fw .parseAlterTableModifyColumn [a] l.advance (GotE (N.AlterTableModifyColumn (column := v) (ifExists := b)) l') := by
    intro a
    start; fw [n_remove]
    obtain ⟨e, rfl⟩ := end_number hw3
    refine ⟨_, rfl, rfl, by is_tree, _, rfl⟩
  start; fw []
  obtain ⟨_, rfl, rfl, h3, h4⟩ := ‹GotE _ _ _ _›
  fw []
  exact ⟨_, rfl, rfl, h3, h4⟩

theorem ma_drop {bs us : List Token} {x : Str} {y : V} (hk : isWord k b!"DROP") (hd : isWord d x)
    (hx : (x = b!"COLUMN" ∧ y = N.AlterTableDropColumn (columnName := v) (ifExists := b)) ∨ (x = b!"INDEX" ∧ y = N.AlterTableDropIndex (indexName := v) (ifExists := b)) ∨
      (x = b!"PROJECTION" ∧ y = N.AlterTableDropProjection (projectionName := v) (ifExists := b)))
    (hb : Piece .ifExists bs (.bool b)) (h : Piece .column us v) : MAlt (k :: d :: (bs ++ us)) y := by
  refine malt_of (f := .parseAlterTableDrop) hk (by decide) fun l l' ha hn hs a => ?_
  have h1 := ha.cur
  have h2 := ha.rest.cur
  obtain ⟨l1, a1, a2⟩ := ha.rest.rest.append
  have n1 := a1.noErr hn.adv.adv
  have e1 := p_ifExists hb a1 (st_kw (piece_starts h a2 rfl) (by decide))
  have e2 := p_columnN h a2 n1 (st_kinds hs (by decide))
  obtain ⟨hk, hu⟩ := hk
  obtain ⟨hk2, hu2⟩ := hd
  have key : ∀ a, Fw .parseAlterTableDropClause [a] l.advance (GotE y l') := by
    intro a
    rcases hx with ⟨rfl, rfl⟩ | ⟨rfl, rfl⟩ | ⟨rfl, rfl⟩
    all_goals
      start; fw []
      obtain ⟨_, rfl, rfl, h3, _, h4⟩ := ‹GotN _ _ _ _›
      fw []
      refine ⟨_, rfl, rfl, by generalize V.mk .NestedIdentifier _ = w at h3 ⊢; is_tree, _, end_part h4 (by simp) fun _ => rfl⟩
  rcases hx with ⟨rfl, rfl⟩ | ⟨rfl, rfl⟩ | ⟨rfl, rfl⟩
  all_goals
    start; fw []
    obtain ⟨_, rfl, rfl, h3, h4⟩ := ‹GotE _ _ _ _›
    fw []
    exact ⟨_, rfl, rfl, h3, h4⟩

theorem ma_rename {bs us xs : List Token} (hk : isWord k b!"RENAME") (hd : isWord d b!"COLUMN") (hb : Piece .ifExists bs (.bool b)) (h : Piece .column us v) (ht : isWord t b!"TO")
    (hx : Piece .column xs w) : MAlt (k :: d :: (bs ++ (us ++ t :: xs))) (N.AlterTableRenameColumn (oldColumnName := v) (newColumnName := w) (ifExists := b)) := by
  refine malt_of (f := .parseAlterTableRenameColumn) hk (by decide) fun l l' ha hn hs a => ?_
  have h1 := ha.cur
  have h2 := ha.rest.cur
  obtain ⟨l1, a1, ha⟩ := ha.rest.rest.append
  have n1 := a1.noErr hn.adv.adv
  obtain ⟨l2, a2, a3⟩ := ha.append
  have n2 := a2.noErr n1
  have h3 := a3.cur
  have s2 : Starts [] [b!"TO"] l2 := starts_word h3 ht (by decide)
  have e1 := p_ifExists hb a1 (st_kw (piece_starts h a2 rfl) (by decide))
  have e2 := p_column h a2 n1 (st_kinds s2 (by decide))
  have e3 := p_columnN hx a3.rest n2.adv (st_kinds hs (by decide))
  clear s2
  obtain ⟨hk, hu⟩ := hk
  obtain ⟨hk2, hu2⟩ := hd
  obtain ⟨hk3, hu3⟩ := ht
  start; fw []
  obtain ⟨_, rfl, rfl, h3, _, h4⟩ := ‹GotN _ _ _ _›
  fw []
  refine ⟨_, rfl, rfl, by generalize V.mk .NestedIdentifier _ = w at h3 ⊢; is_tree, _, end_part h4 (by simp) fun _ => rfl⟩

theorem ma_delete (hk : isWord k b!"DELETE") (hd : isWord d b!"WHERE") (h : Core (.expr 0) ts v) : MAlt (k :: d :: ts) (N.AlterTableDelete (whereClause := v)) := by
  refine malt_of (f := .parseAlterTableDelete) hk (by decide) fun l l' ha hn hs a => ?_
  have h1 := ha.cur
  have h2 := ha.rest.cur
  have e := exprT h ha.rest.rest hn.adv.adv (hs.mono (by decide))
  obtain ⟨hk, hu⟩ := hk
  obtain ⟨hk2, hu2⟩ := hd
  start; fw []
  fin
  obtain ⟨e, rfl⟩ := end_number hw100
  refine ⟨_, rfl, rfl, by is_tree, _, rfl⟩

theorem p_assignment (h : Piece .assignment ts v) (ha : Ahead l ts l') (hn : NoErr l) (hs : Starts tailKinds tailWords l') (a : V) : Fw .parseUpdateAssignment [a] l (Got v l') := by
  cases h with
  | assignment h1 he h2 =>
    obtain ⟨l1, a1, a2⟩ := ha.append
    have n1 := a1.noErr hn
    have h3 := a2.cur
    have e1 := p_column h1 a1 hn (mk_some h3 he (by decide))
    have e2 := sub (meaning h2) a2.rest n1.adv (fol_tail hs) (prec_tail hs) (by omega)
    unfold isSign at he
    start; fw []
    all_goals fin
    all_goals got

theorem assignment_cons (h : Piece .assignment ts v) : ∃ t t' us, ts = t :: t' :: us := by
  cases h with
  | assignment h _ _ => cases h <;> exact ⟨_, _, _, rfl⟩

theorem ma_update {us : List Token} (hk : isWord k b!"UPDATE") (h : Piece .assignments ts v) (hd : isWord d b!"WHERE") (hw : Core (.expr 0) us w) :
    MAlt (k :: (ts ++ d :: us)) (N.AlterTableUpdate (assignments := v) (whereClause := w)) := by
  obtain ⟨vs, rfl, hsep⟩ := sep_piece h rfl
  obtain ⟨xs, ys, x, zs, rfl, rfl, hx, hm⟩ := hsep.first
  obtain ⟨t1, t2, us', rfl⟩ := assignment_cons hx
  refine malt_of (f := .parseAlterTableUpdate) hk (by decide) fun l l' ha hn hs a => ?_
  have h1 := ha.cur
  have ha : Ahead l.advance ((t1 :: t2 :: us' ++ ys) ++ d :: us) l' := ha.rest
  obtain ⟨l2, a2, ha⟩ := ha.append
  have n2 := a2.noErr hn.adv
  obtain ⟨l1, a1, a2⟩ := a2.append
  have n1 := a1.noErr hn.adv
  have h3 := ha.cur
  have s2 : Starts [] [b!"WHERE"] l2 := starts_word h3 hd (by decide)
  have s1 := more_starts hm a2 s2
  have e1 := p_assignment hx a1 hn.adv (s1.mono (by decide))
  have e2 := exprT hw ha.rest n2.adv (hs.mono (by decide))
  obtain ⟨hk, hu⟩ := hk
  obtain ⟨hk2, hu2⟩ := hd
  clear s1
  start; fw []
  refine f_loopL fun L hL => ?_
  have key : ∀ rs ws, More (Piece .assignment) rs ws → ∀ l acc as x3 x5 x6 x7 x8 x9 m i sv, Ahead l rs l2 → NoErr l → V.normL id acc = as → as ++ ws = x :: zs →
      L ⟨[a, .nil, .list acc, x3, .nil, x5, x6, x7, x8, x9], sv⟩ ⟨l, m, i⟩ := by
    intro rs ws hs'
    induction hs' with
    | nil =>
      intro l acc as x3 x5 x6 x7 x8 x9 m i sv ha hn hacc hvs
      cases ha
      rw [List.append_nil] at hvs
      have hacc := hacc.trans hvs
      apply hL
      fw []
      fin
      obtain ⟨e, rfl⟩ := end_number hw100
      refine ⟨_, rfl, rfl, by is_tree, _, rfl⟩
    | cons hc h hm' ih =>
      intro l acc as x3 x5 x6 x7 x8 x9 m i sv ha hn hacc hvs
      have htc := ha.cur
      obtain ⟨k', b1, b2⟩ := ha.rest.append
      have e := p_assignment h b1 hn.adv ((more_starts hm' b2 s2).mono (by decide))
      unfold isSign at hc
      apply hL
      fw []
      exact ih _ _ _ _ _ _ _ _ _ _ _ _ b2 (b1.noErr hn.adv) (normL_snoc hacc (by assumption)) (by simpa using hvs)
  exact key _ _ hm _ _ [_] _ _ _ _ _ _ _ _ _ a2 n1 (normL_snoc (xs := []) (vs := []) rfl (by assumption)) rfl

/-- The meanings of the parts of `ALTER TABLE`. -/
theorem alteration_meaning (h : Piece .alteration ts v) : MAlt ts v := by
  cases h with
  | addColumn h1 h2 h3 h4 h5 => exact ma_add h1 h2 h3 h4 h5
  | modifyColumn h1 h2 h3 h4 => exact ma_modify h1 h2 h3 h4
  | dropColumn h1 h2 h3 h4 => exact ma_drop h1 h2 (.inl ⟨rfl, rfl⟩) h3 h4
  | dropIndex h1 h2 h3 h4 => exact ma_drop h1 h2 (.inr (.inl ⟨rfl, rfl⟩)) h3 h4
  | dropProjection h1 h2 h3 h4 => exact ma_drop h1 h2 (.inr (.inr ⟨rfl, rfl⟩)) h3 h4
  | renameColumn h1 h2 h3 h4 h5 h6 => exact ma_rename h1 h2 h3 h4 h5 h6
  | deleteWhere h1 h2 h3 => exact ma_delete h1 h2 h3
  | updateWhere h1 h2 h3 h4 => exact ma_update h1 h2 h3 h4

theorem sep_map {M N : List Token → V → Prop} (h : Sep M ts vs) (hM : ∀ us v, M us v → N us v) : Sep N ts vs := by
  induction h with
  | one h => exact .one (hM _ _ h)
  | more h hc _ ih => exact .more (hM _ _ h) hc ih

theorem ms_alterTable {is cs : List Token} {i c : V} (hk : isWord k b!"ALTER") (hd : isWord d b!"TABLE") (hi : Piece .id is i) (hc : Piece .cluster cs c) (h : Piece .alterations ts v) :
    MS (k :: d :: (is ++ (cs ++ ts))) (N.AlterTable (tableIdentifier := i) (onCluster := c) (alterExprs := v)) := by
  refine ms_of (f := .parseDDL) hk (by decide) fun l l' ha hn hs a => ?_
  have h1 := ha.cur
  have h2 := ha.rest.cur
  obtain ⟨l1, a1, ha⟩ := ha.rest.rest.append
  have n1 := a1.noErr hn.adv.adv
  obtain ⟨l2, a2, a3⟩ := ha.append
  have n2 := a2.noErr n1
  have s2 := piece_starts h a3 rfl
  have s1 := piece_opens hc a2 s2
  have e1 := p_id hi a1 hn.adv.adv (st_kinds s1 (by decide))
  have e2 := p_cluster hc a2 n1 (st_kw s2 (by decide))
  obtain ⟨hk, hu⟩ := hk
  obtain ⟨hk2, hu2⟩ := hd
  obtain ⟨vs, rfl, hsep⟩ := sep_piece h rfl
  replace hsep := sep_map hsep fun _ _ => alteration_meaning
  clear s1 s2
  suffices key : ∀ a, Fw .parseAlterTable [a] l.advance (Got (N.AlterTable (tableIdentifier := i) (onCluster := c) (alterExprs := .list vs)) l') by
    start; fw []
    exact ⟨_, rfl, rfl, by assumption⟩
  intro a
  start; fw []
  refine f_loopL fun L hL => ?_
  have key : ∀ us zs, Sep MAlt us zs → ∀ l acc as x6 x7 x8 m i sv, Ahead l us l' → NoErr l → V.normL id acc = as → as ++ zs = vs →
      L ⟨[a, .mk Ty.AlterTable [a, .nat 0, v1, v2, .list acc], .nil, v1, .nil, v2, x6, x7, x8], sv⟩ ⟨l, m, i⟩ := by
    intro us zs hs'
    induction hs' with
    | one hp =>
      intro l acc as x6 x7 x8 m i sv ha hn hacc hvs
      obtain ⟨⟨t', t2, us', rfl⟩, w, f, hf, hw, e⟩ := hp
      have hcur := ha.cur
      obtain ⟨hw1, hw2⟩ := hw _ rfl
      have hu1 := ha.rest.cur
      have e := e _ _ ha hn (hs.mono (by decide))
      simp only [alterFns, List.mem_cons, List.not_mem_nil, or_false, Prod.mk.injEq] at hf
      rcases hf with ⟨rfl, rfl⟩ | ⟨rfl, rfl⟩ | ⟨rfl, rfl⟩ | ⟨rfl, rfl⟩ | ⟨rfl, rfl⟩ | ⟨rfl, rfl⟩
      all_goals
        apply hL
        fw []
        obtain ⟨_, rfl, rfl, h3, _, h4⟩ := ‹GotE _ _ _ _›
        have hacc := (normL_snoc hacc h3).trans hvs
        fw []
        · exfalso; simp at c1
        refine r_setF (w := .mk .AlterTable [a, .nat _, v1, v2, .list (acc ++ [_])]) (end_last h4) (by rfl) (by rfl) ?_
        fw []
        got
    | more hp hcm hr ih =>
      intro l acc as x6 x7 x8 m i sv ha hn hacc hvs
      obtain ⟨k, b1, b2⟩ := ha.append
      have hk' := b1.noErr hn
      have htc := b2.cur
      obtain ⟨⟨t', t2, us', rfl⟩, w, f, hf, hw, e⟩ := hp
      have hcur := b1.cur
      obtain ⟨hw1, hw2⟩ := hw _ rfl
      have hu1 := b1.rest.cur
      have e := e _ _ b1 hn (starts_sign htc hcm (by decide))
      unfold isSign at hcm
      simp only [alterFns, List.mem_cons, List.not_mem_nil, or_false, Prod.mk.injEq] at hf
      rcases hf with ⟨rfl, rfl⟩ | ⟨rfl, rfl⟩ | ⟨rfl, rfl⟩ | ⟨rfl, rfl⟩ | ⟨rfl, rfl⟩ | ⟨rfl, rfl⟩
      all_goals
        apply hL
        fw []
        obtain ⟨_, rfl, rfl, h3, _, h4⟩ := ‹GotE _ _ _ _›
        fw []
        exact ih _ _ _ _ _ _ _ _ _ b2.rest hk'.adv (normL_snoc hacc h3) (by simpa using hvs)
  exact key _ _ hsep _ [] [] _ _ _ _ _ _ a3 n2 rfl rfl

end Verif.Complete

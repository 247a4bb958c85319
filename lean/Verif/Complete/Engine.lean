/-
The columns and the engine of a table.  No definition here is part of the model.
-/
import Verif.Complete.Columns

namespace Verif.Complete
open Verif.Spec Verif.Echo Verif.Echo.Sym Verif.Complete.Tac

variable {l l' : Lx} {k d t : Token} {ts us : List Token} {v w : V} {vs : List V} {b q : Bool}

set_option linter.unusedVariables false
set_option linter.unusedTactic false

/-! ### Columns -/

theorem columnDef_first (h : Piece .columnDef ts v) (ha : Ahead l ts l') : ∃ t us, ts = t :: us ∧ l.cur = some t ∧ t.kind = .ident := by
  cases h with
  | columnDef h1 =>
    cases h1 with
    | column h => exact ⟨_, _, rfl, ha.cur, h⟩
    | columnOf h _ _ => exact ⟨_, _, rfl, ha.cur, h⟩

theorem p_tryColumn (h : Piece .columnDef ts v) (ha : Ahead l ts l') (hn : NoErr l) (hs : Starts tailKinds [b!"AFTER"] l') (a : V) :
    Fw .tryParseTableColumnExpr [a] l (Got v l') := by
  have e := p_columnDef h ha hn hs
  obtain ⟨t', us', rfl, hcur, ht'⟩ := columnDef_first h ha
  start; fw []
  exact ⟨_, rfl, rfl, by assumption⟩

theorem p_columns {c : Token} (h : Sep (Piece .columnDef) ts vs) (ha : Ahead l ts l') (hn : NoErr l) (hc : l'.cur = some c) (hk : isSign c b!")") :
    Fw .parseTableColumns [] l (GotL vs l') := by
  have s1 : Starts tailKinds [b!"AFTER"] l' := starts_sign hc hk (by decide)
  unfold isSign at hk
  start
  fw []
  refine f_loopL fun L hL => ?_
  have key : ∀ us zs, Sep (Piece .columnDef) us zs → ∀ l acc as x1 x2 x3 x4 x5 x6 x7 x8 x9 x10 x11 x12 x13 m i sv, Ahead l us l' → NoErr l → V.normL id acc = as → as ++ zs = vs →
      L ⟨[.list acc, x1, x2, x3, x4, x5, x6, x7, x8, x9, x10, x11, x12, x13], sv⟩ ⟨l, m, i⟩ := by
    intro us zs hs
    induction hs with
    | one h =>
      intro l acc as x1 x2 x3 x4 x5 x6 x7 x8 x9 x10 x11 x12 x13 m i sv ha hn hacc hvs
      have e := p_tryColumn h ha hn s1
      obtain ⟨t', us', rfl, hcur, ht'⟩ := columnDef_first h ha
      obtain ⟨u, hu⟩ := ahead_next ha hc
      apply hL
      fw []
      have hacc := (normL_snoc hacc (by assumption)).trans hvs
      exact ⟨_, rfl, rfl, hacc⟩
    | more h hc' hs' ih =>
      intro l acc as x1 x2 x3 x4 x5 x6 x7 x8 x9 x10 x11 x12 x13 m i sv ha hn hacc hvs
      obtain ⟨k, b1, b2⟩ := ha.append
      have hk' := b1.noErr hn
      have htc := b2.cur
      have e := p_tryColumn h b1 hn (starts_sign htc hc' (by decide))
      obtain ⟨t', us', rfl, hcur, ht'⟩ := columnDef_first h b1
      obtain ⟨u, hu⟩ := ahead_next b1 htc
      unfold isSign at hc'
      apply hL
      fw []
      exact ih _ _ _ _ _ _ _ _ _ _ _ _ _ _ _ _ _ _ _ b2.rest hk'.adv (normL_snoc hacc (by assumption)) (by simpa using hvs)
  exact key _ _ h _ _ [] _ _ _ _ _ _ _ _ _ _ _ _ _ _ _ _ ha hn rfl rfl

/-- No `AS`, or `AS` and a query. -/
def NoAs (l : Lx) : Prop := l.matchKw b!"AS" = false ∨ ∃ a s, l.cur = some a ∧ isWord a b!"AS" ∧ l.advance.cur = some s ∧ (isWord s b!"SELECT" ∨ isWord s b!"WITH")

theorem p_schema (h : Piece .schema ts v) (ha : Ahead l ts l') (hn : NoErr l) (hi : l'.matchKinds [b!"("] = false) (hs : NoAs l') (a : V) :
    Fw .parseTableSchemaClause [a] l (GotO v l') := by
  cases h with
  | schemaNo =>
    cases ha
    rcases hs with hs | ⟨x, s, h1, ⟨h2, h3⟩, h4, h5⟩
    · start; fw []; exact ⟨_, rfl, rfl, rfl⟩
    · rcases h5 with ⟨h5, h6⟩ | ⟨h5, h6⟩
      · have e : Fw .peekKeyword [.str b!"SELECT"] l (Res [.bool true] l) := by
          start; fw []; exact ⟨by rw [h5, equalFold, h6]; rfl, rfl⟩
        start; fw []; exact ⟨_, rfl, rfl, rfl⟩
      · have e : Fw .peekKeyword [.str b!"SELECT"] l (Res [.bool false] l) := by
          start; fw []; exact ⟨by rw [h5, equalFold, h6]; rfl, rfl⟩
        have e : Fw .peekKeyword [.str b!"WITH"] l (Res [.bool true] l) := by
          start; fw []; exact ⟨by rw [h5, equalFold, h6]; rfl, rfl⟩
        start; fw []; exact ⟨_, rfl, rfl, rfl⟩
  | schema h1 h2 h3 =>
    have ht := ha.cur
    obtain ⟨m, a1, a2⟩ := ha.rest.append
    have ht2 := a2.cur
    cases a2.rest
    obtain ⟨vs, rfl, h4⟩ := sep_piece h2 rfl
    have e := p_columns h4 a1 hn.adv ht2 h3
    unfold isSign at h1 h3
    refine Fw.mono (P := Got _ _) ?_ fun _ _ => Got.opt
    start; fw []
    got

/-! ### Engines -/

theorem p_settings (h : Sep MSet ts vs) (ha : Ahead l ts l') (hn : NoErr l) (he : l'.matchKinds [b!","] = false) (a : V) :
    Fw .parseSettingsClause [a] l (Got (N.SettingsClause (items := .list vs)) l') := by
  have e : ∀ a, Fw .parseSettingsList [a] l (GotL vs l') := by
    intro a
    obtain ⟨xs, ys, x, ws, rfl, rfl, h1, h2⟩ := h.first
    obtain ⟨m, a1, a2⟩ := ha.append
    have e := h1 _ _ a1 hn
    have hm := a1.noErr hn
    start
    fw []
    refine f_loopL fun L hL => ?_
    have key : ∀ us zs, More MSet us zs → ∀ l acc as x2 x3 x4 m i sv, Ahead l us l' → NoErr l → V.normL id acc = as → as ++ zs = x :: ws →
        L ⟨[a, .list acc, x2, x3, x4], sv⟩ ⟨l, m, i⟩ := by
      intro us zs hs
      induction hs with
      | nil =>
        intro l acc as x2 x3 x4 m i sv ha hn hacc hvs
        cases ha
        apply hL
        fw []
        rw [List.append_nil] at hvs
        exact ⟨_, rfl, rfl, hacc.trans hvs⟩
      | cons hc h _ ih =>
        intro l acc as x2 x3 x4 m i sv ha hn hacc hvs
        have htc := ha.cur
        obtain ⟨k, b1, b2⟩ := ha.rest.append
        have e := h _ _ b1 hn.adv
        have hk := b1.noErr hn.adv
        unfold isSign at hc
        apply hL
        fw []
        exact ih _ _ _ _ _ _ _ _ _ b2 hk (normL_snoc hacc (by assumption)) (by simpa using hvs)
    exact key _ _ h2 _ _ [x] _ _ _ _ _ _ a2 hm (by simp [V.normL, (by assumption : Is x _).2]) rfl
  start; fw []
  · obtain ⟨_, _, _, _, _, rfl, _⟩ := h.first
    obtain rfl := List.eq_nil_of_length_eq_zero (beq_iff_eq.1 (by assumption : (List.length _ == 0) = true))
    cases (by assumption : V.normL id [] = _)
  · got

/-- An expression of `TTL`. -/
def MTtl (ts : List Token) (v : V) : Prop := ∃ e, Core (.expr 0) ts e ∧ v = N.TTLExpr (expr := e)

theorem ttls_sep (h : Piece .ttls ts v) : ∃ vs, v = .list vs ∧ Sep MTtl ts vs := by
  generalize hc : Part.ttls = c at h
  induction h
  all_goals try cases hc; done
  case ttlsOne h1 => exact ⟨_, rfl, .one ⟨_, h1, rfl⟩⟩
  case ttlsMore h1 h2 _ ih =>
    obtain ⟨_, h, h'⟩ := ih rfl
    cases h
    exact ⟨_, rfl, .more ⟨_, h1, rfl⟩ h2 h'⟩

theorem p_ttls (h : Sep MTtl ts vs) (ha : Ahead l ts l') (hn : NoErr l) (he : Starts [b!";"] tailWords l') (a : V) :
    Fw .parseTTLClause [a, .bool true] l fun rs l2 => ∃ ws x, rs = [.list (ws ++ [x]), .nil] ∧ l' = l2 ∧ V.normL id (ws ++ [x]) = vs := by
  obtain ⟨xs, ys, x, ws, rfl, rfl, ⟨e1, h1, rfl⟩, h2⟩ := h.first
  obtain ⟨m, a1, a2⟩ := ha.append
  have e := p_ttlExpr h1 a1 hn ((more_starts h2 a2 he).mono (by decide))
  have hm := a1.noErr hn
  have q0 : l'.matchKinds [b!","] = false := st_kinds he (by decide)
  start
  fw []
  refine f_loopL fun L hL => ?_
  have key : ∀ us zs, More MTtl us zs → ∀ l acc z as x3 x4 x5 x6 m i sv, Ahead l us l' → NoErr l → V.normL id (acc ++ [z]) = as → as ++ zs = N.TTLExpr (expr := e1) :: ws →
      L ⟨[a, .bool true, .list (acc ++ [z]), x3, x4, x5, x6], sv⟩ ⟨l, m, i⟩ := by
    intro us zs hs
    induction hs with
    | nil =>
      intro l acc z as x3 x4 x5 x6 m i sv ha hn hacc hvs
      cases ha
      rw [List.append_nil] at hvs
      clear e
      apply hL
      cases hE : l'.isEOF
      · fw []
        exact ⟨_, _, rfl, rfl, hacc.trans hvs⟩
      · fw []
        exact ⟨_, _, rfl, rfl, hacc.trans hvs⟩
    | cons hc h hm' ih =>
      intro l acc z as x3 x4 x5 x6 m i sv ha hn hacc hvs
      have htc := ha.cur
      obtain ⟨e1, h, rfl⟩ := h
      obtain ⟨k, b1, b2⟩ := ha.rest.append
      obtain ⟨_, u, hu⟩ := (core_begins h rfl).starts b1
      have e := p_ttlExpr h b1 hn.adv ((more_starts hm' b2 he).mono (by decide))
      have hk := b1.noErr hn.adv
      unfold isSign at hc
      apply hL
      fw []
      exact ih _ _ _ _ _ _ _ _ _ _ _ b2 hk (normL_snoc hacc (by assumption)) (by simpa using hvs)
  exact key _ _ h2 _ [] _ _ _ _ _ _ _ _ _ a2 hm (normL_snoc (vs := []) rfl (by assumption)) rfl

theorem p_ttlBy (hk : isWord k b!"TTL") (h : Sep MTtl ts vs) (ha : Ahead l (k :: ts) l') (hn : NoErr l) (he : Starts [b!";"] tailWords l') (a : V) :
    Fw .tryParseTTLClause [a, .bool true] l (Got (N.TTLClause (items := .list vs)) l') := by
  have ht := ha.cur
  obtain ⟨_, _⟩ := hk
  have e2 := p_ttls h ha.rest hn.adv he
  start; fw []
  obtain ⟨ws, x, rfl, rfl, hx⟩ := hp1
  fw []
  all_goals got

theorem p_key {e : Token} (hk : isWord k b!"PRIMARY") (he : isWord e b!"KEY") (h : Core (.expr 0) ts v) (ha : Ahead l (k :: e :: ts) l') (hn : NoErr l)
    (hs : Starts tailKinds tailWords l') (a : V) : Fw .tryParsePrimaryKeyClause [a] l (Got (N.PrimaryKeyClause (expr := v)) l') := by
  have h1 := ha.cur
  have h2 := ha.rest.cur
  have e := exprT h ha.rest.rest hn.adv.adv hs
  obtain ⟨_, _⟩ := hk
  obtain ⟨_, _⟩ := he
  start; fw []
  got
theorem p_sample {e : Token} (hk : isWord k b!"SAMPLE") (he : isWord e b!"BY") (h : Core (.expr 0) ts v) (ha : Ahead l (k :: e :: ts) l') (hn : NoErr l)
    (hs : Starts tailKinds tailWords l') (a : V) : Fw .tryParseSampleByClause [a] l (Got (N.SampleByClause (expr := v)) l') := by
  have h1 := ha.cur
  have h2 := ha.rest.cur
  have e := exprT h ha.rest.rest hn.adv.adv hs
  obtain ⟨_, _⟩ := hk
  obtain ⟨_, _⟩ := he
  start; fw []
  got
theorem p_partition {e : Token} (hk : isWord k b!"PARTITION") (he : isWord e b!"BY") (h : Core .args1 ts (.list vs)) (ha : Ahead l (k :: e :: ts) l') (hn : NoErr l)
    (hs : Starts [b!")", b!"]", b!";"] argWords l') (a : V) : Fw .tryParsePartitionByClause [a] l (Got (N.PartitionByClause (expr := columns false vs)) l') := by
  have h1 := ha.cur
  have h2 := ha.rest.cur
  obtain ⟨_, hx, h⟩ := (meaning h : ∃ vs, _ = V.list vs ∧ Sep MArg _ vs)
  cases hx
  have e := c_listLP h ha.rest.rest hn.adv.adv hs
  obtain ⟨_, _⟩ := hk
  obtain ⟨_, _⟩ := he
  start; fw []
  got

/-- What may follow a sorting key: no `AS`, or `AS` and a query. -/
def NoAlias (l : Lx) : Prop := Starts tailKinds (tailWords.erase b!"AS") l ∨ ∃ a s, l.cur = some a ∧ isWord a b!"AS" ∧ l.advance.cur = some s ∧ isWord s b!"SELECT"

theorem NoAlias.starts (h : NoAlias l) : Starts tailKinds tailWords l := by
  rcases h with h | ⟨a, s, h1, h2, _⟩
  · exact h.mono (by decide)
  · exact starts_word h1 h2 (by decide)

theorem p_order {e : Token} (hk : isWord k b!"ORDER") (he : isWord e b!"BY") (h : Core (.expr 0) ts v) (ha : Ahead l (k :: e :: ts) l') (hn : NoErr l)
    (hs : NoAlias l') (a : V) : Fw .tryParseTableOrderByClause [a] l (Got (N.OrderByClause (items := .list [N.OrderExpr (expr := v)])) l') := by
  have h1 := ha.cur
  have h2 := ha.rest.cur
  have e := exprT h ha.rest.rest hn.adv.adv hs.starts
  have n' := ha.noErr hn
  have e2 : ∀ a, Fw .parseOrderExpr [a] l.advance.advance (Got (N.OrderExpr (expr := v)) l') := by
    intro a
    rcases hs with hs | ⟨x, s, h3, ⟨h4, h5⟩, h6, ⟨h7, h8⟩⟩
    · cases hT : l'.matchKw b!"TTL"
      · start; fw []
        got
      · start; fw []
        got
    · have hz : (tokText s == b!"SELECT") = true := by rw [tokText, h7, h8]; rfl
      start; fw []
      got
  obtain ⟨_, _⟩ := hk
  obtain ⟨_, _⟩ := he
  start; fw []
  all_goals fin
  all_goals
    have hl := normL_snoc (xs := []) (vs := []) rfl (by assumption : Is (N.OrderExpr (expr := v)) _)
    got

/-- What follows an engine. -/
def EFol (q : Bool) (l : Lx) : Prop :=
  (q = false ∧ Starts [b!";"] [b!"COMMENT"] l) ∨ (q = true ∧ ∃ a s, l.cur = some a ∧ isWord a b!"AS" ∧ l.advance.cur = some s ∧ isWord s b!"SELECT")

theorem EFol.starts (h : EFol q l) : Starts [b!";"] [b!"COMMENT", b!"AS"] l := by
  rcases h with ⟨_, h⟩ | ⟨_, a, s, h1, h2, _⟩
  · exact h.mono (by decide)
  · exact starts_word h1 h2 (by decide)

theorem clauses_split (h : Piece (.engineClauses q) us v) (ha : Ahead l us l') (hs : EFol q l') : (us = [] ∧ l = l') ∨ (us ≠ [] ∧ Starts [] clauseHeads l) := by
  rcases piece_head h with ⟨_, rfl⟩ | h
  · cases ha; exact .inl ⟨rfl, rfl⟩
  · refine .inr ⟨?_, (h.starts ha).1⟩
    rintro rfl
    obtain ⟨_, _, h, _⟩ := h
    cases h

/-- A field of the engine, what the clauses ahead say about it, and its value in the end. -/
def J (x y z : V) : Prop := (V.norm id x = z ∧ y = .nil) ∨ (x = .nil ∧ y = z)

theorem J.nil {x z : V} (h : J x .nil z) : V.norm id x = z := by
  rcases h with ⟨h, _⟩ | ⟨rfl, rfl⟩
  · exact h
  · rfl
theorem J.val {x y z : V} (h : J x y z) (hy : y ≠ .nil) : y = z := by
  rcases h with ⟨_, h⟩ | ⟨_, h⟩
  · exact absurd h hy
  · exact h
theorem J.got {w z : V} (h : Is z w) : J w .nil z := .inl ⟨h.2, rfl⟩

theorem p_params (h : Piece .params ts v) (ha : Ahead l ts l') (hn : NoErr l) (hi : l'.matchKinds [b!"("] = false) :
    (v = .nil ∧ l = l') ∨ (l.matchKinds [b!"("] = true ∧ ∀ a, Fw .parseFunctionParams [a] l (Got v l')) := by
  cases h with
  | paramsNo => cases ha; exact .inl ⟨rfl, rfl⟩
  | params h1 h2 h3 =>
    refine .inr ⟨mk_some ha.cur h1 (by decide), fun a => ?_⟩
    obtain ⟨_, hx, h2⟩ := (meaning h2 : ∃ vs, _ = V.list vs ∧ MArgs _ vs)
    cases hx
    exact c_params (ds := []) h1 (.inl ⟨rfl, rfl⟩) h2 h3 ha hn hi a

theorem p_settingsBy (hk : isWord k b!"SETTINGS") (h : Core .settingItems ts v) (ha : Ahead l (k :: ts) l') (hn : NoErr l) (he : l'.matchKinds [b!","] = false) (a : V) :
    Fw .tryParseSettingsClause [a] l (Got (N.SettingsClause (items := v)) l') := by
  have ht := ha.cur
  obtain ⟨_, _⟩ := hk
  obtain ⟨vs, rfl, h⟩ := (meaning h : ∃ vs, v = V.list vs ∧ Sep MSet ts vs)
  have e2 := p_settings ‹Sep MSet ts vs› ha.rest hn.adv he
  start; fw []
  exact ⟨_, rfl, rfl, by assumption⟩

theorem clauses_next (h : Piece (.engineClauses q) us v) (ha : Ahead l us l') (hs : EFol q l') : Starts [b!";"] (b!"COMMENT" :: b!"AS" :: clauseHeads) l := by
  rcases clauses_split h ha hs with ⟨_, rfl⟩ | ⟨_, h⟩
  · exact hs.starts.mono (by decide)
  · exact h.mono (by decide)

theorem clauses_noAlias (h : Piece (.engineClauses q) us v) (ha : Ahead l us l') (hs : EFol q l') : NoAlias l := by
  rcases clauses_split h ha hs with ⟨_, rfl⟩ | ⟨_, h⟩
  · rcases hs with ⟨_, h⟩ | ⟨_, h⟩
    · exact .inl (h.mono (by decide))
    · exact .inr h
  · exact .inl (h.mono (by decide))

theorem clauses_noArg (h : Piece (.engineClauses q) us v) (hq : q = true → us ≠ []) (ha : Ahead l us l') (hs : EFol q l') : Starts [b!")", b!"]", b!";"] argWords l := by
  rcases clauses_split h ha hs with ⟨rfl, rfl⟩ | ⟨_, h⟩
  · rcases hs with ⟨_, h⟩ | ⟨hx, h⟩
    · exact h.mono (by decide)
    · exact absurd rfl (hq hx)
  · exact h.mono (by decide)

theorem ahead_app1 (h : Ahead l (k :: (ts ++ us)) l') : ∃ m, Ahead l (k :: ts) m ∧ Ahead m us l' := Ahead.append (ts := k :: ts) h
theorem ahead_app2 (h : Ahead l (k :: e :: (ts ++ us)) l') : ∃ m, Ahead l (k :: e :: ts) m ∧ Ahead m us l' := Ahead.append (ts := k :: e :: ts) h

theorem sep_cons {M : List Token → V → Prop} (h : Sep M ts vs) (hM : ∀ us v, M us v → ∃ t vs, us = t :: vs) : ∃ t us, ts = t :: us := by
  cases h with
  | one h => exact hM _ _ h
  | more h _ _ =>
    obtain ⟨t, us, rfl⟩ := hM _ _ h
    exact ⟨_, _, rfl⟩

theorem mttl_cons (us : List Token) (v : V) (h : MTtl us v) : ∃ t vs, us = t :: vs := by
  obtain ⟨e, h, _⟩ := h
  obtain ⟨t, us, rfl, _⟩ := core_begins h rfl
  exact ⟨_, _, rfl⟩

theorem items_cons (h : Core .settingItems ts v) : ∃ t us, ts = t :: us := by
  cases h with
  | settingOne h => cases h <;> exact ⟨_, _, rfl⟩
  | settingMore h _ _ => cases h <;> exact ⟨_, _, rfl⟩

set_option hygiene false in
/-- The loop over the clauses of an engine; `hpr` tells the parameters. -/
macro "engine_rest" pr:term "," hpr:term : tactic => `(tactic| (
  have hpr := $hpr
  refine f_loopL fun L hL => ?_
  have key : ∀ us y p s t g o, Piece (.engineClauses q) us (clauses y p s t g o) → ∀ l e fy fp fs ft fg fo x3 x5 x6 x7 x8 x9 x10 x11 x12 x13 x14 x15 x16 x17 x18 x19 m i sv,
      Ahead l us l' → NoErr l → J fy y Y → J fp p P → J fs s S → J ft t T → J fg g G → J fo o O →
      L ⟨[a, .nil, .mk Ty.EngineExpr [a, e, .str w.str, $pr, fy, fp, fs, ft, fg, fo], x3, .mk Ty.Ident [.str w.str, .nat w.quote, .nat w.pos, .nat w.endp],
        x5, x6, x7, x8, x9, x10, x11, x12, x13, x14, x15, x16, x17, x18, x19], sv⟩ ⟨l, m, i⟩ := by
    clear h ha a3 n2 n1 s2 q2
    intro us y p s t g o hc
    generalize hP : Part.engineClauses q = P0 at hc
    generalize hV : clauses y p s t g o = V0 at hc
    induction hc generalizing y p s t g o
    all_goals try cases hP; done
    all_goals cases hP
    all_goals intro l e fy fp fs ft fg fo x3 x5 x6 x7 x8 x9 x10 x11 x12 x13 x14 x15 x16 x17 x18 x19 m i sv ha hn jy jp js jt jg jo
    all_goals cases hV
    case clausesNo =>
      cases ha
      have s1 := hs.starts
      have jy := jy.nil
      have jp := jp.nil
      have js := js.nil
      have jt := jt.nil
      have jg := jg.nil
      have jo := jo.nil
      apply hL
      cases hE : l.isEOF
      · fw []
        all_goals got
      · fw []
        all_goals got
    case primaryKey hk1 hk2 he hr ih =>
      have jy := jy.val nofun
      obtain ⟨m1, a1, a2⟩ := ahead_app2 ha
      have s1 := clauses_next hr a2 hs
      have n2 := a1.noErr hn
      have e1 := p_key hk1 hk2 he a1 hn (s1.mono (by decide))
      have h1 := ha.cur
      have h2 := ha.rest.cur
      obtain ⟨_, _⟩ := hk1
      apply hL
      fw []
      apply ih _ _ _ _ _ _ rfl rfl <;> first | assumption | (subst jy; exact J.got (by assumption)) | skip
    case partitionBy hk1 hk2 he hr hq ih =>
      have jp := jp.val nofun
      obtain ⟨m1, a1, a2⟩ := ahead_app2 ha
      have s1 := clauses_next hr a2 hs
      have n2 := a1.noErr hn
      have e1 := p_partition hk1 hk2 he a1 hn (clauses_noArg hr hq a2 hs)
      have h1 := ha.cur
      have h2 := ha.rest.cur
      obtain ⟨_, _⟩ := hk1
      apply hL
      fw []
      apply ih _ _ _ _ _ _ rfl rfl <;> first | assumption | (subst jp; exact J.got (by assumption)) | skip
    case sampleBy hk1 hk2 he hr ih =>
      have js := js.val nofun
      obtain ⟨m1, a1, a2⟩ := ahead_app2 ha
      have s1 := clauses_next hr a2 hs
      have n2 := a1.noErr hn
      have e1 := p_sample hk1 hk2 he a1 hn (s1.mono (by decide))
      have h1 := ha.cur
      have h2 := ha.rest.cur
      obtain ⟨_, _⟩ := hk1
      apply hL
      fw []
      apply ih _ _ _ _ _ _ rfl rfl <;> first | assumption | (subst js; exact J.got (by assumption)) | skip
    case orderBy hk1 hk2 he hr ih =>
      have jo := jo.val nofun
      obtain ⟨m1, a1, a2⟩ := ahead_app2 ha
      have s1 := clauses_next hr a2 hs
      have n2 := a1.noErr hn
      have e1 := p_order hk1 hk2 he a1 hn (clauses_noAlias hr a2 hs)
      have h1 := ha.cur
      have h2 := ha.rest.cur
      obtain ⟨_, _⟩ := hk1
      apply hL
      fw []
      apply ih _ _ _ _ _ _ rfl rfl <;> first | assumption | (subst jo; exact J.got (by assumption)) | skip
    case ttlBy hk1 he hr0 hr ih =>
      have jt := jt.val nofun
      obtain ⟨m1, a1, a2⟩ := ahead_app1 ha
      have s1 := clauses_next hr a2 hs
      have n2 := a1.noErr hn
      obtain ⟨vs, rfl, hes⟩ := ttls_sep he
      obtain ⟨u, us, rfl⟩ := sep_cons hes mttl_cons
      have e1 := p_ttlBy hk1 hes a1 hn (s1.mono (by decide))
      have h1 := ha.cur
      have h2 := a1.rest.cur
      obtain ⟨_, _⟩ := hk1
      apply hL
      fw []
      apply ih _ _ _ _ _ _ rfl rfl <;> first | assumption | (subst jt; exact J.got (by assumption)) | skip
    case settingsBy hk1 he hr ih =>
      have jg := jg.val nofun
      obtain ⟨m1, a1, a2⟩ := ahead_app1 ha
      have s1 := clauses_next hr a2 hs
      have n2 := a1.noErr hn
      have e1 := p_settingsBy hk1 he a1 hn (st_kinds s1 (by decide))
      obtain ⟨u, us, rfl⟩ := items_cons he
      have h1 := ha.cur
      have h2 := a1.rest.cur
      obtain ⟨_, _⟩ := hk1
      apply hL
      fw []
      apply ih _ _ _ _ _ _ rfl rfl <;> first | assumption | (subst jg; exact J.got (by assumption)) | skip
  exact key _ _ _ _ _ _ _ h _ _ _ _ _ _ _ _ _ _ _ _ _ _ _ _ _ _ _ _ _ _ _ _ _ _ _ a3 n2 (.inr ⟨rfl, rfl⟩) (.inr ⟨rfl, rfl⟩) (.inr ⟨rfl, rfl⟩) (.inr ⟨rfl, rfl⟩) (.inr ⟨rfl, rfl⟩) (.inr ⟨rfl, rfl⟩)))

theorem p_engine {w : Token} {es : List Token} {Y P S T G O : V} (hk : isWord k b!"ENGINE") (he : es = [] ∨ (∃ e, es = [e] ∧ isSign e b!"=")) (hn' : isPlainName w)
    (hp : Piece .params ts v) (h : Piece (.engineClauses q) us (clauses Y P S T G O)) (ha : Ahead l (k :: (es ++ w :: (ts ++ us))) l') (hn : NoErr l) (hs : EFol q l') (a : V) :
    Fw .parseEngineExpr [a] l (Got (N.EngineExpr (name := w.str) (params := v) (primaryKey := Y) (partitionBy := P) (sampleBy := S) (ttl := T) (settings := G) (orderBy := O)) l') := by
  have h1 := ha.cur
  obtain ⟨l1, a1, ha⟩ := ha.rest.append
  have n1 := a1.noErr hn.adv
  have h2 := ha.cur
  obtain ⟨l2, a2, a3⟩ := ha.rest.append
  have n2 := a2.noErr n1.adv
  have s2 := clauses_next h a3 hs
  have e2 := p_params hp a2 n1.adv (st_kinds s2 (by decide))
  have q2 : l2.matchKinds [b!"("] = false := st_kinds s2 (by decide)
  have e1 := c_identX h2 hn'
  have hid := is_idv w
  obtain ⟨_, _⟩ := hk
  unfold isPlainName at hn'
  rcases he with rfl | ⟨e, rfl, he⟩
  · cases a1
    rcases e2 with ⟨rfl, rfl⟩ | ⟨q3, e2⟩
    · start; fw []
      engine_rest .nil, (rfl : V.norm id .nil = .nil)
    · start; fw []
      engine_rest v3, hv3.2
  · have h3 := a1.cur
    cases a1.rest
    unfold isSign at he
    rcases e2 with ⟨rfl, rfl⟩ | ⟨q3, e2⟩
    · start; fw []
      engine_rest .nil, (rfl : V.norm id .nil = .nil)
    · start; fw []
      engine_rest v3, hv3.2

theorem p_tryEngine (h : Piece (.engine q) ts v) (ha : Ahead l ts l') (hn : NoErr l) (hs : EFol q l') :
    (v = .nil ∧ l = l' ∧ ∀ a, Fw .tryParseEngineExpr [a] l (Res [.nil, .nil] l')) ∨ ∀ a, Fw .tryParseEngineExpr [a] l (Got v l') := by
  cases h with
  | engineNo =>
    cases ha
    have s1 := hs.starts
    refine .inl ⟨rfl, rfl, fun a => ?_⟩
    start; fw []
    exact ⟨rfl, rfl⟩
  | engine hk he hn' hp hc =>
    have e := p_engine hk he hn' hp hc ha hn hs
    refine .inr fun a => ?_
    have h1 := ha.cur
    obtain ⟨_, _⟩ := hk
    start; fw []
    exact ⟨_, rfl, rfl, by assumption⟩

end Verif.Complete

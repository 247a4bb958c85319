/-
`CREATE` statements are printed and read again.  No definition here is part of the model.
-/
import Verif.Again.Alter
import Verif.Again.SayCreate

namespace Verif.Again
open Verif.Spec Verif.Echo

variable {m b f : Bool} {us ws : List E} {os ts xs is cs bs ns : List Token} {t o n c k d e : Token} {v w i x y : V} {vs : List V} {p : Option Token} {s : Str}

/-! ### Columns of a table -/

theorem say_columnDefs (h : Piece .columnDefs ts v) : Fit m ts → v.kept = true → v.orderly = true → Say m (.l comma) ts v (fun os => Piece .columnDefs os v) := by
  generalize hq : Part.columnDefs = q at h
  induction h with
  | columnDefOne h ih =>
    intro hf hk ho
    simp only [V.kept, V.keptL, Bool.and_true] at hk
    simp only [V.orderly, V.orderlyL, Bool.and_true] at ho
    exact say_one (say_columnDef h hf hk ho) fun _ h => .columnDefOne h
  | columnDefMore h hc h' ih ih' =>
    intro hf hk ho
    simp only [V.kept, V.keptL, Bool.and_eq_true] at hk
    simp only [V.orderly, V.orderlyL, Bool.and_eq_true] at ho
    exact say_more (say_columnDef h hf.left hk.1 ho.1) (ih' rfl hf.right.tail (by simpa only [V.kept] using hk.2) (by simpa only [V.orderly] using ho.2)) (piece_more h' (by simp)) hf hc
      fun _ _ _ h1 h2 h3 => .columnDefMore h1 h2 h3
  | _ => cases hq
theorem lp_gap (h : LexedP p (gap m ++ us) os) : LexedP p us os := by
  cases m with
  | true => exact lp_sp h
  | false => exact h
theorem say_schema (h : Piece .schema ts v) (hf : Fit m ts) (hk : v.kept = true) (ho : v.orderly = true) : Say m (.o [.sp]) ts v (fun os => Piece .schema os v) := by
  cases h with
  | schemaNo => exact ⟨[], onil, fun _ _ => .nil, npr_nil, good_nil.2 trivial, fun p os _ l => by cases lp_nil l; exact .schemaNo⟩
  | @schema o c ts v h1 h2 h3 =>
    simp only [V.kept, V.keptL, keptNode, N.TableSchemaClause, Bool.and_true, Bool.true_and] at hk
    simp only [V.orderly, V.orderlyL, orderlyNode, N.TableSchemaClause, Bool.and_true, Bool.true_and] at ho
    obtain ⟨l, rfl⟩ : ∃ l, v = .list l := by cases h2 <;> exact ⟨_, rfl⟩
    obtain ⟨us, e, i, n, g, r⟩ := say_columnDefs h2 hf.tail.left hk ho
    refine ⟨_, .inr ⟨_, rfl, d_schema e (piece_more h2 (by simp))⟩, fun τ hτ => ?_, by npr, ?_, fun p os _ l => ?_⟩
    · have i : Inv hd us := i _ (typed_of (j := 2) rfl hτ).choose_spec
      show Inv cl _
      cases m <;> simp only [gap, if_true, Bool.false_eq_true, if_false, List.append_nil] <;> inv
    · cases m <;> simp only [gap, if_true, Bool.false_eq_true, if_false, List.append_nil] <;> dgood
    · flat l
      obtain ⟨o', os, rfl, ho', _, l⟩ := lp_op (lp_sp l)
      obtain ⟨a, b, _, rfl, l1, l2⟩ := lp_app (lp_gap l)
      obtain ⟨c', os, rfl, hc', _, l⟩ := lp_op (lp_gap l2)
      cases lp_nil l
      exact .schema ho' (r _ _ (hf.freeS h1 ho').left l1) hc'
theorem free_schema (h : Piece .schema ts v) : Free ts p := by cases h <;> first | exact free_nil | exact free_sign ‹_›

/-! ### Engines -/

/-- A clause that begins with two words. -/
theorem say_two {a c : Str} {u : V} {P : List Token → Prop} (ha : isKw a = true) (hc : isKw c = true) (ga : GoodE m (.kw a)) (gc : GoodE m (.kw c)) (hf : Fit m (k :: e :: ts)) (he : isWord e c)
    (h : Say m .n ts v P) (hp : ∀ {us}, PK m .n v us → PK m .n u ([.kw a, .sp, .kw c, .sp] ++ us)) (hn : NoPosReader v → NoPosReader u)
    (ht : ∀ τ, u.hasTy noReq τ = true → ∃ σ, v.hasTy noReq σ = true) :
    Say m (.o [.sp]) [] u (fun os => ∃ k e ts, os = k :: e :: ts ∧ isWord k a ∧ isWord e c ∧ P ts) := by
  obtain ⟨us, e1, i, n, g, r⟩ := h
  refine ⟨_, .inr ⟨_, rfl, hp e1⟩, fun τ hτ => ?_, hn n, by dgood, fun p os _ l => ?_⟩
  · have i : Inv hd us := i _ (ht τ hτ).choose_spec
    show Inv cl _
    inv
  · flat l
    obtain ⟨k', os, rfl, hk', l⟩ := lp_kw ha (lp_sp l)
    obtain ⟨e', os, rfl, he', l⟩ := lp_kw hc (lp_sp l)
    exact ⟨_, _, _, rfl, hk', he', r _ _ (hf.tail.freeW he he') (lp_sp l)⟩
/-- A clause that begins with one word. -/
theorem say_lead {a : Str} {u : V} {P : List Token → Prop} (ha : isKw a = true) (ga : GoodE m (.kw a)) (hf : Fit m (k :: ts)) (hk : isWord k a)
    (h : Say m (.l comma) ts v P) (hp : ∀ {us}, PK m (.l comma) v us → PK m .n u ([.kw a, .sp] ++ us)) (hn : NoPosReader v → NoPosReader u)
    (ht : ∀ τ, u.hasTy noReq τ = true → ∃ σ, v.hasTy noReq σ = true) :
    Say m (.o [.sp]) [] u (fun os => ∃ k ts, os = k :: ts ∧ isWord k a ∧ P ts) := by
  obtain ⟨us, e1, i, n, g, r⟩ := h
  refine ⟨_, .inr ⟨_, rfl, hp e1⟩, fun τ hτ => ?_, hn n, by dgood, fun p os _ l => ?_⟩
  · have i : Inv hd us := i _ (ht τ hτ).choose_spec
    show Inv cl _
    inv
  · flat l
    obtain ⟨k', os, rfl, hk', l⟩ := lp_kw ha (lp_sp l)
    exact ⟨_, _, rfl, hk', r _ _ (hf.freeW hk hk') (lp_sp l)⟩
theorem say_none {P : List Token → Prop} (h : P []) : Say m (.o [.sp]) [] .nil P :=
  ⟨[], onil, fun _ _ => .nil, npr_nil, good_nil.2 trivial, fun p os _ l => by cases lp_nil l; exact h⟩
theorem say_imp {q : K} {P Q : List Token → Prop} (h : Say m q ts v P) (hPQ : ∀ os, P os → Q os) : Say m q ts v Q := by
  obtain ⟨us, e, i, n, g, r⟩ := h
  exact ⟨us, e, i, n, g, fun p os fr l => hPQ _ (r p os fr l)⟩

theorem say_expr (h : Core (.expr 0) ts v) (hf : Fit m ts) (hk : v.kept = true) : Say m .n ts v (fun os => Core (.expr 0) os v) :=
  say_imp (say_of (claim h hf hk)) fun _ h => h.1
theorem say_ttlExpr (h : Core (.expr 0) ts v) (hf : Fit m ts) (hk : v.kept = true) : Say m .n ts (N.TTLExpr (expr := v)) (fun os => Core (.expr 0) os v) := by
  obtain ⟨us, e, i, n, g, r⟩ := say_expr h hf hk
  exact ⟨us, d_ttlExpr e, fun τ hτ => i _ (typed_of (j := 1) rfl hτ).choose_spec, by npr, g, r⟩
theorem ttls_cons (h : Piece .ttls ts (.list vs)) : vs ≠ [] := by cases h <;> simp
theorem say_ttls (h : Piece .ttls ts v) : Fit m ts → v.kept = true → Say m (.l comma) ts v (fun os => Piece .ttls os v) := by
  generalize hq : Part.ttls = q at h
  induction h with
  | ttlsOne h =>
    intro hf hk
    simp only [V.kept, V.keptL, keptNode, N.TTLExpr, Bool.and_true, Bool.true_and] at hk
    exact say_one (say_ttlExpr h hf hk) fun _ h => .ttlsOne h
  | ttlsMore h hc h' ih =>
    intro hf hk
    simp only [V.kept, V.keptL, keptNode, N.TTLExpr, Bool.and_true, Bool.true_and, Bool.and_eq_true] at hk
    exact say_more (say_ttlExpr h hf.left hk.1) (ih rfl hf.right.tail (by simpa only [V.kept] using hk.2)) (ttls_cons h') hf hc fun _ _ _ h1 h2 h3 => .ttlsMore h1 h2 h3
  | _ => cases hq

/-- A `PRIMARY KEY` clause. -/
def Key (y : V) (os : List Token) : Prop := (y = .nil ∧ os = []) ∨ ∃ k e ts v, y = N.PrimaryKeyClause (expr := v) ∧ os = k :: e :: ts ∧ isWord k b!"PRIMARY" ∧ isWord e b!"KEY" ∧ Core (.expr 0) ts v
/-- A `PARTITION BY` clause. -/
def Ptn (y : V) (os : List Token) : Prop :=
  (y = .nil ∧ os = []) ∨ ∃ k e ts vs, y = N.PartitionByClause (expr := columns false vs) ∧ os = k :: e :: ts ∧ isWord k b!"PARTITION" ∧ isWord e b!"BY" ∧ Core .args1 ts (.list vs)
/-- A `SAMPLE BY` clause. -/
def Smp (y : V) (os : List Token) : Prop := (y = .nil ∧ os = []) ∨ ∃ k e ts v, y = N.SampleByClause (expr := v) ∧ os = k :: e :: ts ∧ isWord k b!"SAMPLE" ∧ isWord e b!"BY" ∧ Core (.expr 0) ts v
/-- A `TTL` clause. -/
def Ttl (y : V) (os : List Token) : Prop := (y = .nil ∧ os = []) ∨ ∃ k ts v, y = N.TTLClause (items := v) ∧ os = k :: ts ∧ isWord k b!"TTL" ∧ Piece .ttls ts v
/-- A `SETTINGS` clause. -/
def Stg (y : V) (os : List Token) : Prop := (y = .nil ∧ os = []) ∨ ∃ k ts v, y = N.SettingsClause (items := v) ∧ os = k :: ts ∧ isWord k b!"SETTINGS" ∧ Core .settingItems ts v
/-- An `ORDER BY` clause. -/
def Ord (y : V) (os : List Token) : Prop :=
  (y = .nil ∧ os = []) ∨ ∃ k e ts v, y = N.OrderByClause (items := .list [N.OrderExpr (expr := v)]) ∧ os = k :: e :: ts ∧ isWord k b!"ORDER" ∧ isWord e b!"BY" ∧ Core (.expr 0) ts v

/-- Somewhere among these tokens. -/
def Within (P : List Token → Prop) (us : List Token) : Prop := ∃ os, os <:+: us ∧ P os
theorem Within.mono {P : List Token → Prop} {us ws : List Token} (h : Within P us) (hi : us <:+: ws) : Within P ws := by
  obtain ⟨os, h1, h2⟩ := h
  exact ⟨os, h1.trans hi, h2⟩

theorem clauses_parts {q : Part} {us : List Token} {u : V} (h : Piece q us u) : ∀ {r : Bool} {y p s t g o : V}, q = .engineClauses r → u = clauses y p s t g o →
    Within (Key y) us ∧ Within (Ptn p) us ∧ Within (Smp s) us ∧ Within (Ttl t) us ∧ Within (Stg g) us ∧ Within (Ord o) us := by
  have nl : ∀ {us : List Token}, ([] : List Token) <:+: us := fun {us} => (List.nil_prefix).isInfix
  induction h with
  | clausesNo =>
    intro r y p s t g o hq hu
    simp only [clauses, V.list.injEq, List.cons.injEq, and_true] at hu
    obtain ⟨rfl, rfl, rfl, rfl, rfl, rfl⟩ := hu
    exact ⟨⟨[], nl, .inl ⟨rfl, rfl⟩⟩, ⟨[], nl, .inl ⟨rfl, rfl⟩⟩, ⟨[], nl, .inl ⟨rfl, rfl⟩⟩, ⟨[], nl, .inl ⟨rfl, rfl⟩⟩, ⟨[], nl, .inl ⟨rfl, rfl⟩⟩, ⟨[], nl, .inl ⟨rfl, rfl⟩⟩⟩
  | @primaryKey _ k e ts us v p s t g o h1 h2 h3 h4 ih =>
    intro r y p s t g o hq hu
    simp only [clauses, V.list.injEq, List.cons.injEq, and_true] at hu
    obtain ⟨rfl, rfl, rfl, rfl, rfl, rfl⟩ := hu
    obtain ⟨i1, i2, i3, i4, i5, i6⟩ := ih rfl rfl
    have hi : us <:+: k :: e :: (ts ++ us) := ⟨k :: e :: ts, [], by simp⟩
    exact ⟨⟨k :: e :: ts, ⟨[], us, by simp⟩, .inr ⟨_, _, _, _, rfl, rfl, h1, h2, h3⟩⟩, i2.mono hi, i3.mono hi, i4.mono hi, i5.mono hi, i6.mono hi⟩
  | @partitionBy _ k e ts us vs y s t g o h1 h2 h3 h4 h5 ih =>
    intro r y p s t g o hq hu
    simp only [clauses, V.list.injEq, List.cons.injEq, and_true] at hu
    obtain ⟨rfl, rfl, rfl, rfl, rfl, rfl⟩ := hu
    obtain ⟨i1, i2, i3, i4, i5, i6⟩ := ih rfl rfl
    have hi : us <:+: k :: e :: (ts ++ us) := ⟨k :: e :: ts, [], by simp⟩
    exact ⟨i1.mono hi, ⟨k :: e :: ts, ⟨[], us, by simp⟩, .inr ⟨_, _, _, _, rfl, rfl, h1, h2, h3⟩⟩, i3.mono hi, i4.mono hi, i5.mono hi, i6.mono hi⟩
  | @sampleBy _ k e ts us v y p t g o h1 h2 h3 h4 ih =>
    intro r y p s t g o hq hu
    simp only [clauses, V.list.injEq, List.cons.injEq, and_true] at hu
    obtain ⟨rfl, rfl, rfl, rfl, rfl, rfl⟩ := hu
    obtain ⟨i1, i2, i3, i4, i5, i6⟩ := ih rfl rfl
    have hi : us <:+: k :: e :: (ts ++ us) := ⟨k :: e :: ts, [], by simp⟩
    exact ⟨i1.mono hi, i2.mono hi, ⟨k :: e :: ts, ⟨[], us, by simp⟩, .inr ⟨_, _, _, _, rfl, rfl, h1, h2, h3⟩⟩, i4.mono hi, i5.mono hi, i6.mono hi⟩
  | @ttlBy _ k ts us v y p s g o h1 h3 h4 ih' ih =>
    intro r y p s t g o hq hu
    simp only [clauses, V.list.injEq, List.cons.injEq, and_true] at hu
    obtain ⟨rfl, rfl, rfl, rfl, rfl, rfl⟩ := hu
    obtain ⟨i1, i2, i3, i4, i5, i6⟩ := ih rfl rfl
    have hi : us <:+: k :: (ts ++ us) := ⟨k :: ts, [], by simp⟩
    exact ⟨i1.mono hi, i2.mono hi, i3.mono hi, ⟨k :: ts, ⟨[], us, by simp⟩, .inr ⟨_, _, _, rfl, rfl, h1, h3⟩⟩, i5.mono hi, i6.mono hi⟩
  | @settingsBy _ k ts us v y p s t o h1 h3 h4 ih =>
    intro r y p s t g o hq hu
    simp only [clauses, V.list.injEq, List.cons.injEq, and_true] at hu
    obtain ⟨rfl, rfl, rfl, rfl, rfl, rfl⟩ := hu
    obtain ⟨i1, i2, i3, i4, i5, i6⟩ := ih rfl rfl
    have hi : us <:+: k :: (ts ++ us) := ⟨k :: ts, [], by simp⟩
    exact ⟨i1.mono hi, i2.mono hi, i3.mono hi, i4.mono hi, ⟨k :: ts, ⟨[], us, by simp⟩, .inr ⟨_, _, _, rfl, rfl, h1, h3⟩⟩, i6.mono hi⟩
  | @orderBy _ k e ts us v y p s t g h1 h2 h3 h4 ih =>
    intro r y p s t g o hq hu
    simp only [clauses, V.list.injEq, List.cons.injEq, and_true] at hu
    obtain ⟨rfl, rfl, rfl, rfl, rfl, rfl⟩ := hu
    obtain ⟨i1, i2, i3, i4, i5, i6⟩ := ih rfl rfl
    have hi : us <:+: k :: e :: (ts ++ us) := ⟨k :: e :: ts, [], by simp⟩
    exact ⟨i1.mono hi, i2.mono hi, i3.mono hi, i4.mono hi, i5.mono hi, ⟨k :: e :: ts, ⟨[], us, by simp⟩, .inr ⟨_, _, _, _, rfl, rfl, h1, h2, h3⟩⟩⟩
  | _ => intro r y p s t g o hq; cases hq

theorem say_key (h : Within (Key y) ts) (hf : Fit m ts) (hk : y.kept = true) : Say m (.o [.sp]) [] y (Key y) := by
  obtain ⟨os, hi, ⟨rfl, rfl⟩ | ⟨k, e, ts, v, rfl, rfl, h1, h2, h3⟩⟩ := h
  · exact say_none (.inl ⟨rfl, rfl⟩)
  · simp only [V.kept, V.keptL, keptNode, N.PrimaryKeyClause, Bool.and_true, Bool.true_and] at hk
    have hf := hf.infix hi
    refine say_imp (say_two kw kw (good_letters rfl).1 (good_letters rfl).1 hf h2 (say_expr h3 hf.tail.tail hk) d_primaryKey (fun _ => by npr) fun τ h => typed_of (j := 1) rfl h) ?_
    rintro _ ⟨k, e, ts, rfl, h1, h2, h3⟩
    exact .inr ⟨_, _, _, _, rfl, rfl, h1, h2, h3⟩
theorem say_ptn (h : Within (Ptn y) ts) (hf : Fit m ts) (hk : y.kept = true) : Say m (.o [.sp]) [] y (Ptn y) := by
  obtain ⟨os, hi, ⟨rfl, rfl⟩ | ⟨k, e, ts, v, rfl, rfl, h1, h2, h3⟩⟩ := h
  · exact say_none (.inl ⟨rfl, rfl⟩)
  · simp only [V.kept, V.keptL, keptNode, N.PartitionByClause, columns, N.ColumnExprList, Bool.and_true, Bool.true_and] at hk
    have hf := hf.infix hi
    have hc := r_plainColumns (claim h3 hf.tail.tail (by simpa only [V.kept] using hk))
    refine say_imp (say_two kw kw (good_letters rfl).1 (good_letters rfl).1 hf h2 (say_of hc) d_partition (fun _ => by npr) fun τ h => typed_of (j := 1) rfl h) ?_
    rintro _ ⟨k, e, ts, rfl, h1, h2, h3⟩
    exact .inr ⟨_, _, _, _, rfl, rfl, h1, h2, h3.1⟩
theorem say_smp (h : Within (Smp y) ts) (hf : Fit m ts) (hk : y.kept = true) : Say m (.o [.sp]) [] y (Smp y) := by
  obtain ⟨os, hi, ⟨rfl, rfl⟩ | ⟨k, e, ts, v, rfl, rfl, h1, h2, h3⟩⟩ := h
  · exact say_none (.inl ⟨rfl, rfl⟩)
  · simp only [V.kept, V.keptL, keptNode, N.SampleByClause, Bool.and_true, Bool.true_and] at hk
    have hf := hf.infix hi
    refine say_imp (say_two kw kw (good_letters rfl).1 (good_letters rfl).1 hf h2 (say_expr h3 hf.tail.tail hk) d_sampleBy (fun _ => by npr) fun τ h => typed_of (j := 1) rfl h) ?_
    rintro _ ⟨k, e, ts, rfl, h1, h2, h3⟩
    exact .inr ⟨_, _, _, _, rfl, rfl, h1, h2, h3⟩
theorem say_ttlBy (h : Within (Ttl y) ts) (hf : Fit m ts) (hk : y.kept = true) : Say m (.o [.sp]) [] y (Ttl y) := by
  obtain ⟨os, hi, ⟨rfl, rfl⟩ | ⟨k, ts, v, rfl, rfl, h1, h3⟩⟩ := h
  · exact say_none (.inl ⟨rfl, rfl⟩)
  · simp only [V.kept, V.keptL, keptNode, N.TTLClause, Bool.and_true, Bool.true_and] at hk
    have hf := hf.infix hi
    refine say_imp (say_lead kw (good_letters rfl).1 hf h1 (say_ttls h3 hf.tail hk) d_ttl (fun _ => by npr) fun τ h => typed_of (j := 2) rfl h) ?_
    rintro _ ⟨k, ts, rfl, h1, h3⟩
    exact .inr ⟨_, _, _, rfl, rfl, h1, h3⟩
theorem say_stg (h : Within (Stg y) ts) (hf : Fit m ts) (hk : y.kept = true) : Say m (.o [.sp]) [] y (Stg y) := by
  obtain ⟨os, hi, ⟨rfl, rfl⟩ | ⟨k, ts, v, rfl, rfl, h1, h3⟩⟩ := h
  · exact say_none (.inl ⟨rfl, rfl⟩)
  · simp only [V.kept, V.keptL, keptNode, N.SettingsClause, Bool.and_true, Bool.true_and] at hk
    have hf := hf.infix hi
    obtain ⟨x, l, rfl⟩ : ∃ x l, v = .list (x :: l) := by cases h3 <;> exact ⟨_, _, rfl⟩
    refine say_imp (say_lead kw (good_letters rfl).1 hf h1 (say_list (claim h3 hf.tail hk)) (fun h => p_settings h (by simp)) (fun _ => by npr) fun τ h => typed_of (j := 2) rfl h) ?_
    rintro _ ⟨k, ts, rfl, h1, h3⟩
    exact .inr ⟨_, _, _, rfl, rfl, h1, h3⟩
theorem say_ord (h : Within (Ord y) ts) (hf : Fit m ts) (hk : y.kept = true) : Say m (.o [.sp]) [] y (Ord y) := by
  obtain ⟨os, hi, ⟨rfl, rfl⟩ | ⟨k, e, ts, v, rfl, rfl, h1, h2, h3⟩⟩ := h
  · exact say_none (.inl ⟨rfl, rfl⟩)
  · simp only [V.kept, V.keptL, keptNode, N.OrderByClause, N.OrderExpr, Bool.and_true, Bool.true_and] at hk
    have hf := hf.infix hi
    refine say_imp (say_two (a := b!"ORDER") (c := b!"BY") kw kw (good_letters rfl).1 (good_letters rfl).1 hf h2 (say_expr h3 hf.tail.tail hk)
      (fun h => by
        have := p_orderBy (p := .nat 0) (q := .nat 0) (p_lone (p_order (p := .nat 0) h onil onil)) (by simp) onil
        simp only [List.append_nil] at this
        exact this)
      (fun n => by
        have n1 : NoPosReader (N.OrderExpr (expr := v)) := by npr
        have n2 : NoPosReader (.list [N.OrderExpr (expr := v)]) := npr_cons n1 (npr_list (by simp))
        npr) fun τ h => ?_) ?_
    · obtain ⟨σ, h2⟩ := typed_of (j := 2) rfl h
      obtain ⟨_, _, h3, _⟩ := list_ty h2
      exact typed_of (j := 1) rfl h3
    rintro _ ⟨k, e, ts, rfl, h1, h2, h3⟩
    exact .inr ⟨_, _, _, _, rfl, rfl, h1, h2, h3⟩

theorem clauses_of {r : Bool} {y p s t g o : V} {o1 o2 o3 o4 o5 o6 : List Token} (h1 : Ord o o1) (h2 : Ptn p o2) (h3 : Key y o3) (h4 : Smp s o4) (h5 : Ttl t o5) (h6 : Stg g o6)
    (hr : r = true → p.nonNil = true → y.nonNil = true ∨ s.nonNil = true ∨ t.nonNil = true ∨ g.nonNil = true) :
    Piece (.engineClauses r) (o1 ++ (o2 ++ (o3 ++ (o4 ++ (o5 ++ o6))))) (clauses y p s t g o) := by
  have k6 : Piece (.engineClauses r) o6 (clauses .nil .nil .nil .nil g .nil) := by
    rcases h6 with ⟨rfl, rfl⟩ | ⟨k, ts, v, rfl, rfl, h1, h3⟩
    · exact .clausesNo
    · have := Piece.settingsBy (q := r) h1 h3 .clausesNo
      simpa using this
  have k5 : Piece (.engineClauses r) (o5 ++ o6) (clauses .nil .nil .nil t g .nil) := by
    rcases h5 with ⟨rfl, rfl⟩ | ⟨k, ts, v, rfl, rfl, h1, h3⟩
    · exact k6
    · exact .ttlBy h1 h3 k6
  have k4 : Piece (.engineClauses r) (o4 ++ (o5 ++ o6)) (clauses .nil .nil s t g .nil) := by
    rcases h4 with ⟨rfl, rfl⟩ | ⟨k, e, ts, v, rfl, rfl, h1, h2, h3⟩
    · exact k5
    · exact .sampleBy h1 h2 h3 k5
  have k3 : Piece (.engineClauses r) (o3 ++ (o4 ++ (o5 ++ o6))) (clauses y .nil s t g .nil) := by
    rcases h3 with ⟨rfl, rfl⟩ | ⟨k, e, ts, v, rfl, rfl, h1, h2, h3⟩
    · exact k4
    · exact .primaryKey h1 h2 h3 k4
  have k2 : Piece (.engineClauses r) (o2 ++ (o3 ++ (o4 ++ (o5 ++ o6)))) (clauses y p s t g .nil) := by
    rcases h2 with ⟨rfl, rfl⟩ | ⟨k, e, ts, v, rfl, rfl, i1, i2, i3⟩
    · exact k3
    · refine .partitionBy i1 i2 i3 k3 fun hr' hn => ?_
      simp only [List.append_eq_nil_iff] at hn
      obtain ⟨rfl, rfl, rfl, rfl⟩ := hn
      have e3 : y = .nil := by rcases h3 with ⟨rfl, _⟩ | ⟨_, _, _, _, _, h, _⟩; rfl; cases h
      have e4 : s = .nil := by rcases h4 with ⟨rfl, _⟩ | ⟨_, _, _, _, _, h, _⟩; rfl; cases h
      have e5 : t = .nil := by rcases h5 with ⟨rfl, _⟩ | ⟨_, _, _, _, h, _⟩; rfl; cases h
      have e6 : g = .nil := by rcases h6 with ⟨rfl, _⟩ | ⟨_, _, _, _, h, _⟩; rfl; cases h
      subst e3 e4 e5 e6
      simpa [V.nonNil] using hr hr' rfl
  rcases h1 with ⟨rfl, rfl⟩ | ⟨k, e, ts, v, rfl, rfl, h1, h2, h3⟩
  · exact k2
  · exact .orderBy h1 h2 h3 k2

theorem engine_infix (h : PlainEngine ts) (hi : os <:+: ts) : PlainEngine os := fun a es n hn => h a es n (hn.trans hi)

theorem say_params (h : Piece .params ts v) (hf : Fit m ts) (hk : v.kept = true) : Say m (.o []) ts v (fun os => Piece .params os v) := by
  cases h with
  | paramsNo => exact ⟨[], onil, fun _ _ => .nil, npr_nil, good_nil.2 trivial, fun p os _ l => by cases lp_nil l; exact .paramsNo⟩
  | @params o c ts vs h1 h2 h3 =>
    simp only [V.kept, V.keptL, keptNode, N.ParamExprList, columns, N.ColumnExprList, Bool.and_true, Bool.true_and] at hk
    obtain ⟨us, e, pl, g, r⟩ := r_columns (ds := []) hf h1 .distinctNo (claim h2 hf.tail.left (by simpa only [V.kept] using hk))
    have n := plain_noPosReader pl
    refine ⟨_, .inr ⟨_, rfl, p_params (print m e) onil⟩, fun τ hτ => ?_, by npr, by dgood, fun p os _ l => ?_⟩
    · have i : Inv hd us := glue e (glued_of _ _ (typed_of (j := 2) rfl hτ).choose_spec pl)
      show Inv cl _
      inv
    · flat l
      obtain ⟨o', os, rfl, ho', _, l⟩ := lp_op l
      obtain ⟨a, b, _, rfl, l1, l2⟩ := lp_app l
      obtain ⟨c', os, rfl, hc', _, l⟩ := lp_op l2
      cases lp_nil l
      obtain ⟨ds, os, rfl, hd, ha⟩ := r _ _ ho' l1
      cases hd
      exact .params ho' ha hc'
theorem free_params (h : Piece .params ts v) : Free ts p := by cases h <;> first | exact free_nil | exact free_sign ‹_›

/-- A partition is not the last clause of the engine if a query follows. -/
def Followed (r : Bool) (v : V) : Prop :=
  r = true → ∀ p q n a y x s t g o, v = .mk .EngineExpr [p, q, n, a, y, x, s, t, g, o] → x.nonNil = true → y.nonNil = true ∨ s.nonNil = true ∨ t.nonNil = true ∨ g.nonNil = true

theorem say_engine {r : Bool} (h : Piece (.engine r) ts v) (hf : Fit m ts) (hk : v.kept = true) (hr : Followed r v) (hp : PlainEngine ts) :
    Say m (.o [.sp]) ts v (fun os => Piece (.engine r) os v ∧ (ts = [] → os = [])) := by
  cases h with
  | engineNo => exact ⟨[], onil, fun _ _ => .nil, npr_nil, good_nil.2 trivial, fun p os _ l => by cases lp_nil l; exact ⟨.engineNo, fun _ => rfl⟩⟩
  | @engine _ k n es ts us v y x s t g o h1 h2 h3 h4 h5 =>
    simp only [V.kept, V.keptL, keptNode, N.EngineExpr, Bool.and_true, Bool.true_and, Bool.and_eq_true] at hk
    obtain ⟨k1, k2, k3, k4, k5, k6, k7⟩ := hk
    have hq : n.quote = 1 := hp k es n ⟨[], ts ++ us, by simp⟩ h1 h2 h3
    have fn : Fit m (n :: (ts ++ us)) := hf.tail.right
    have gn : GoodE m (.word n.str 1) := by simpa only [hq] using name_good fn.head.1 (.inl h3) fn.head.2
    obtain ⟨c1, c2, c3, c4, c5, c6⟩ := clauses_parts h5 rfl rfl
    have fu : Fit m us := fn.tail.right
    obtain ⟨u1, e1, i1, n1, g1, r1⟩ := say_params h4 fn.tail.left k1
    obtain ⟨u2, e2, i2, n2, g2, r2⟩ := say_ord c6 fu k7
    obtain ⟨u3, e3, i3, n3, g3, r3⟩ := say_ptn c2 fu k3
    obtain ⟨u4, e4, i4, n4, g4, r4⟩ := say_key c1 fu k2
    obtain ⟨u5, e5, i5, n5, g5, r5⟩ := say_smp c3 fu k4
    obtain ⟨u6, e6, i6, n6, g6, r6⟩ := say_ttlBy c4 fu k5
    obtain ⟨u7, e7, i7, n7, g7, r7⟩ := say_stg c5 fu k6
    refine ⟨_, .inr ⟨_, rfl, d_engine (textOf_one (u := .word n.str 1) (by simp)) e1 e2 e3 e4 e5 e6 e7⟩, fun τ hτ => ?_, by npr, by dgood, fun p os _ l => ⟨?_, by simp⟩⟩
    · have i1 : Inv cl u1 := i1 _ (typed_of (j := 3) rfl hτ).choose_spec
      have i4 : Inv cl u4 := i4 _ (typed_of (j := 4) rfl hτ).choose_spec
      have i3 : Inv cl u3 := i3 _ (typed_of (j := 5) rfl hτ).choose_spec
      have i5 : Inv cl u5 := i5 _ (typed_of (j := 6) rfl hτ).choose_spec
      have i6 : Inv cl u6 := i6 _ (typed_of (j := 7) rfl hτ).choose_spec
      have i7 : Inv cl u7 := i7 _ (typed_of (j := 8) rfl hτ).choose_spec
      have i2 : Inv cl u2 := i2 _ (typed_of (j := 9) rfl hτ).choose_spec
      show Inv cl _
      inv
    · flat l
      obtain ⟨k', os, rfl, hk', l⟩ := lp_kw kw (lp_sp l)
      obtain ⟨e', os, rfl, he', _, l⟩ := lp_op (lp_sp l)
      obtain ⟨n', os, rfl, hn', l⟩ := lp_word (lp_sp l)
      have hc := name_same fn.head.1 (.inl h3) (o := n') (by rw [hq]; exact hn')
      obtain ⟨o1, b1, _, rfl, l1, m1⟩ := lp_app l
      obtain ⟨o2, b2, _, rfl, l2, m2⟩ := lp_app m1
      obtain ⟨o3, b3, _, rfl, l3, m3⟩ := lp_app m2
      obtain ⟨o4, b4, _, rfl, l4, m4⟩ := lp_app m3
      obtain ⟨o5, b5, _, rfl, l5, m5⟩ := lp_app m4
      obtain ⟨o6, b6, _, rfl, l6, m6⟩ := lp_app m5
      have hcl := clauses_of (r := r) (r2 _ _ free_nil l2) (r3 _ _ free_nil l3) (r4 _ _ free_nil l4) (r5 _ _ free_nil l5) (r6 _ _ free_nil l6) (r7 _ _ free_nil m6)
        (fun hr' => hr hr' _ _ _ _ _ _ _ _ _ _ rfl)
      have := Piece.engine (es := [e']) hk' (.inr ⟨_, rfl, he'⟩) (plainName_eq hc h3) (r1 _ _ (free_params h4) l1) hcl
      rw [(content_at hc).2.1] at this
      exact this
theorem free_engine {r : Bool} (h : Piece (.engine r) ts v) : Free ts p := by cases h <;> first | exact free_nil | exact free_word ‹_›

/-! ### Statements -/

theorem say_query (h : Core .query ts v) (hf : Fit m ts) (hk : v.kept = true) :
    Say m (.o [.sp, .kw b!"AS", .sp]) [] (N.SubQuery (select := v)) (fun os => ∃ a b, os = a :: b ∧ isWord a b!"AS" ∧ Core .query b v) := by
  obtain ⟨us, e, i, n, g, r⟩ := say_of (claim h hf hk)
  refine ⟨_, .inr ⟨_, rfl, p_sub e⟩, fun τ hτ => ?_, by npr, by dgood, fun p os _ l => ?_⟩
  · have i : Inv hd us := i _ (typed_of (j := 1) rfl hτ).choose_spec
    show Inv cl _
    inv
  · flat l
    obtain ⟨a, os, rfl, ha, l⟩ := lp_kw kw (lp_sp l)
    exact ⟨_, _, rfl, ha, r _ _ (free_core h rfl) (lp_sp l)⟩
theorem lp_orReplace (h : LexedP p (opt b [.sp, .kw b!"OR", .sp, .kw b!"REPLACE"] ++ ws) os) : ∃ a c q, os = a ++ c ∧ Piece .orReplace a (.bool b) ∧ LexedP q ws c := by
  rcases lp_opt h with ⟨rfl, l⟩ | ⟨rfl, l⟩
  · exact ⟨[], _, _, rfl, .replaceNo, l⟩
  · flat l
    obtain ⟨k, os, rfl, hk, l⟩ := lp_kw kw (lp_sp l)
    obtain ⟨k', os, rfl, hk', l⟩ := lp_kw kw (lp_sp l)
    exact ⟨[k, k'], _, _, rfl, .replaceYes hk hk', l⟩
theorem lp_temporaryAfter (h : LexedP p (opt b [.sp, .kw b!"TEMPORARY"] ++ ws) os) : ∃ a c q, os = a ++ c ∧ Piece .temporary a (.bool b) ∧ LexedP q ws c := by
  rcases lp_opt h with ⟨rfl, l⟩ | ⟨rfl, l⟩
  · exact ⟨[], _, _, rfl, .temporaryNo, l⟩
  · flat l
    obtain ⟨k, os, rfl, hk, l⟩ := lp_kw kw (lp_sp l)
    exact ⟨[k], _, _, rfl, .temporaryYes hk, l⟩

theorem s_createDatabase {es ms : List Token} {u w y : V} (hf : Fit m (k :: d :: (bs ++ t :: (cs ++ (es ++ ms))))) (hp : PlainEngine es) (h1 : isPlainName t) (h2 : Piece .cluster cs u)
    (h3 : Piece (.engine false) es w) (h4 : Piece .comment ms y) (hk : w.kept = true) :
    St m (k :: d :: (bs ++ t :: (cs ++ (es ++ ms)))) (N.CreateDatabase (name := Spec.name t) (ifNotExists := b) (onCluster := u) (engine := w) (comment := y)) := by
  have f1 := hf.tail.tail.right
  obtain ⟨us, e, i, n, g, r⟩ := say_name (f1.infix ⟨[], _, rfl⟩) h1
  obtain ⟨u1, e1, i1, n1, g1, r1⟩ := say_cluster h2 f1.tail.left
  obtain ⟨u2, e2, i2, n2, g2, r2⟩ := say_engine h3 f1.tail.right.left hk nofun hp
  obtain ⟨u3, e3, i3, n3, g3, r3⟩ := say_comment h4 f1.tail.right.right
  refine ⟨_, d_createDatabase e e1 e2 e3, fun τ hτ => ?_, by npr, by dgood, fun p os _ l => ?_⟩
  · have i : Inv hd us := i _ (typed_of (j := 2) rfl hτ).choose_spec
    have i1 : Inv cl u1 := i1 _ (typed_of (j := 4) rfl hτ).choose_spec
    have i2 : Inv cl u2 := i2 _ (typed_of (j := 5) rfl hτ).choose_spec
    have i3 : Inv cl u3 := i3 _ (typed_of (j := 6) rfl hτ).choose_spec
    show Inv hd _
    cases b <;> simp only [opt, if_true, Bool.false_eq_true, if_false] <;> inv
  · flat l
    obtain ⟨k', os, rfl, hk', l⟩ := lp_kw kw l
    obtain ⟨d', os, rfl, hd', l⟩ := lp_kw kw (lp_sp l)
    obtain ⟨a0, b0, _, rfl, h0, l⟩ := lp_notExists (lp_sp l)
    obtain ⟨a1, b1, _, rfl, l1, x1⟩ := lp_app l
    obtain ⟨a2, b2, _, rfl, l2, x2⟩ := lp_app x1
    obtain ⟨a3, b3, _, rfl, l3, x3⟩ := lp_app x2
    obtain ⟨o, rfl, ho, ho'⟩ := r _ _ (free_any (.inl h1)) l1
    have := Statement.createDatabase hk' hd' h0 ho (r1 _ _ (free_cluster h2) l2) (r2 _ _ (free_engine h3) l3).1 (r3 _ _ (free_comment h4) x3)
    rw [ho'] at this
    exact this

theorem s_createTable {f q : Bool} {rs ps ss es ms : List Token} {i c s w y : V} (hf : Fit m (k :: (rs ++ (ps ++ t :: (bs ++ (is ++ (cs ++ (ss ++ (es ++ ms))))))))) (hp : PlainEngine es)
    (h1 : Piece .id is i) (h2 : Piece .cluster cs c) (h3 : Piece .schema ss s) (h4 : Piece (.engine false) es w) (h5 : Piece .comment ms y) (hk : s.kept = true ∧ w.kept = true)
    (ho : s.orderly = true) :
    St m (k :: (rs ++ (ps ++ t :: (bs ++ (is ++ (cs ++ (ss ++ (es ++ ms))))))))
      (N.CreateTable (orReplace := f) (hasTemporary := q) (ifNotExists := b) (name := i) (onCluster := c) (tableSchema := s) (engine := w) (comment := y)) := by
  have f1 := hf.tail.right.right.tail.right
  obtain ⟨us, e, i, n, g, r⟩ := say_id h1 f1.left
  obtain ⟨u1, e1, i1, n1, g1, r1⟩ := say_cluster h2 f1.right.left
  obtain ⟨u2, e2, i2, n2, g2, r2⟩ := say_schema h3 f1.right.right.left hk.1 ho
  obtain ⟨u3, e3, i3, n3, g3, r3⟩ := say_engine h4 f1.right.right.right.left hk.2 nofun hp
  obtain ⟨u4, e4, i4, n4, g4, r4⟩ := say_comment h5 f1.right.right.right.right
  refine ⟨_, d_createTable e e1 e2 e3 onil e4, fun τ hτ => ?_, by npr, by dgood, fun p os _ l => ?_⟩
  · have i : Inv hd us := i _ (typed_of (j := 3) rfl hτ).choose_spec
    have i1 : Inv cl u1 := i1 _ (typed_of (j := 6) rfl hτ).choose_spec
    have i2 : Inv cl u2 := i2 _ (typed_of (j := 7) rfl hτ).choose_spec
    have i3 : Inv cl u3 := i3 _ (typed_of (j := 8) rfl hτ).choose_spec
    have i4 : Inv cl u4 := i4 _ (typed_of (j := 12) rfl hτ).choose_spec
    show Inv hd _
    cases b <;> cases f <;> cases q <;> simp only [opt, if_true, Bool.false_eq_true, if_false] <;> inv
  · flat l
    obtain ⟨k', os, rfl, hk', l⟩ := lp_kw kw l
    obtain ⟨a6, b6, _, rfl, h6, l⟩ := lp_orReplace l
    obtain ⟨a7, b7, _, rfl, h7, l⟩ := lp_temporaryAfter l
    obtain ⟨d', os, rfl, hd', l⟩ := lp_kw kw (lp_sp l)
    obtain ⟨a0, b0, _, rfl, h0, l⟩ := lp_notExists (lp_sp l)
    obtain ⟨a1, b1, _, rfl, l1, l⟩ := lp_app l
    obtain ⟨a2, b2, _, rfl, l2, l⟩ := lp_app l
    obtain ⟨a3, b3, _, rfl, l3, l⟩ := lp_app l
    obtain ⟨a4, b4, _, rfl, l4, l⟩ := lp_app l
    exact .createTable hk' h6 h7 hd' h0 (r _ _ (free_id h1) l1) (r1 _ _ (free_cluster h2) l2) (r2 _ _ (free_schema h3) l3) (r3 _ _ (free_engine h4) l4).1 (r4 _ _ (free_comment h5) l)

theorem s_createTableAs {f q : Bool} {rs ps ss es qs : List Token} {a : Token} {i c s w y : V} (hf : Fit m (k :: (rs ++ (ps ++ t :: (bs ++ (is ++ (cs ++ (ss ++ (es ++ a :: qs)))))))))
    (hp : PlainEngine es)
    (h1 : Piece .id is i) (h2 : Piece .cluster cs c) (h3 : Piece .schema ss s) (h4 : Piece (.engine true) es w) (h5 : Core .query qs y) (hw : es ≠ [] → ∀ t ∈ qs.head?, ¬ isWord t b!"WITH")
    (hk : s.kept = true ∧ w.kept = true ∧ y.kept = true) (ho : s.orderly = true) (hr : Followed true w) :
    St m (k :: (rs ++ (ps ++ t :: (bs ++ (is ++ (cs ++ (ss ++ (es ++ a :: qs))))))))
      (N.CreateTable (orReplace := f) (hasTemporary := q) (ifNotExists := b) (name := i) (onCluster := c) (tableSchema := s) (engine := w) (subQuery := N.SubQuery (select := y))) := by
  have f1 := hf.tail.right.right.tail.right
  obtain ⟨us, e, i, n, g, r⟩ := say_id h1 f1.left
  obtain ⟨u1, e1, i1, n1, g1, r1⟩ := say_cluster h2 f1.right.left
  obtain ⟨u2, e2, i2, n2, g2, r2⟩ := say_schema h3 f1.right.right.left hk.1 ho
  obtain ⟨u3, e3, i3, n3, g3, r3⟩ := say_engine h4 f1.right.right.right.left hk.2.1 hr hp
  obtain ⟨u4, e4, i4, n4, g4, r4⟩ := say_query h5 f1.right.right.right.right.tail hk.2.2
  refine ⟨_, d_createTable e e1 e2 e3 e4 onil, fun τ hτ => ?_, by npr, by dgood, fun p os _ l => ?_⟩
  · have i : Inv hd us := i _ (typed_of (j := 3) rfl hτ).choose_spec
    have i1 : Inv cl u1 := i1 _ (typed_of (j := 6) rfl hτ).choose_spec
    have i2 : Inv cl u2 := i2 _ (typed_of (j := 7) rfl hτ).choose_spec
    have i3 : Inv cl u3 := i3 _ (typed_of (j := 8) rfl hτ).choose_spec
    have i4 : Inv cl u4 := i4 _ (typed_of (j := 9) rfl hτ).choose_spec
    show Inv hd _
    cases b <;> cases f <;> cases q <;> simp only [opt, if_true, Bool.false_eq_true, if_false] <;> inv
  · flat l
    obtain ⟨k', os, rfl, hk', l⟩ := lp_kw kw l
    obtain ⟨a6, b6, _, rfl, h6, l⟩ := lp_orReplace l
    obtain ⟨a7, b7, _, rfl, h7, l⟩ := lp_temporaryAfter l
    obtain ⟨d', os, rfl, hd', l⟩ := lp_kw kw (lp_sp l)
    obtain ⟨a0, b0, _, rfl, h0, l⟩ := lp_notExists (lp_sp l)
    obtain ⟨a1, b1, _, rfl, l1, l⟩ := lp_app l
    obtain ⟨a2, b2, _, rfl, l2, l⟩ := lp_app l
    obtain ⟨a3, b3, _, rfl, l3, l⟩ := lp_app l
    obtain ⟨a4, b4, _, rfl, l4, l⟩ := lp_app l
    obtain ⟨a5, b5, rfl, ha5, hq⟩ := r4 _ _ free_nil l
    obtain ⟨he, hn⟩ := r3 _ _ (free_engine h4) l4
    exact .createTableAs hk' h6 h7 hd' h0 (r _ _ (free_id h1) l1) (r1 _ _ (free_cluster h2) l2) (r2 _ _ (free_schema h3) l3) he ha5 hq
      fun h => query_head h5 hq (hw fun h' => h (hn h'))

theorem s_createView {f : Bool} {rs ss ms qs : List Token} {a : Token} {i c s w y : V} (hf : Fit m (k :: (rs ++ t :: (bs ++ (is ++ (cs ++ (ss ++ (ms ++ a :: qs))))))))
    (h1 : Piece .id is i) (h2 : Piece .cluster cs c) (h3 : Piece .schema ss s) (h4 : Piece .comment ms w) (h5 : Core .query qs y)
    (hk : s.kept = true ∧ y.kept = true) (ho : s.orderly = true) :
    St m (k :: (rs ++ t :: (bs ++ (is ++ (cs ++ (ss ++ (ms ++ a :: qs)))))))
      (N.CreateView (orReplace := f) (ifNotExists := b) (name := i) (onCluster := c) (tableSchema := s) (comment := w) (subQuery := N.SubQuery (select := y))) := by
  have f1 := hf.tail.right.tail.right
  obtain ⟨us, e, i, n, g, r⟩ := say_id h1 f1.left
  obtain ⟨u1, e1, i1, n1, g1, r1⟩ := say_cluster h2 f1.right.left
  obtain ⟨u2, e2, i2, n2, g2, r2⟩ := say_schema h3 f1.right.right.left hk.1 ho
  obtain ⟨u3, e3, i3, n3, g3, r3⟩ := say_comment h4 f1.right.right.right.left
  obtain ⟨u4, e4, i4, n4, g4, r4⟩ := say_query h5 f1.right.right.right.right.tail hk.2
  refine ⟨_, d_createView e e1 e2 e3 e4, fun τ hτ => ?_, by npr, by dgood, fun p os _ l => ?_⟩
  · have i : Inv hd us := i _ (typed_of (j := 3) rfl hτ).choose_spec
    have i1 : Inv cl u1 := i1 _ (typed_of (j := 6) rfl hτ).choose_spec
    have i2 : Inv cl u2 := i2 _ (typed_of (j := 7) rfl hτ).choose_spec
    have i3 : Inv cl u3 := i3 _ (typed_of (j := 8) rfl hτ).choose_spec
    have i4 : Inv cl u4 := i4 _ (typed_of (j := 9) rfl hτ).choose_spec
    show Inv hd _
    cases b <;> cases f <;> simp only [opt, if_true, Bool.false_eq_true, if_false] <;> inv
  · flat l
    obtain ⟨k', os, rfl, hk', l⟩ := lp_kw kw l
    obtain ⟨a6, b6, _, rfl, h6, l⟩ := lp_orReplace l
    obtain ⟨d', os, rfl, hd', l⟩ := lp_kw kw (lp_sp l)
    obtain ⟨a0, b0, _, rfl, h0, l⟩ := lp_notExists (lp_sp l)
    obtain ⟨a1, b1, _, rfl, l1, l⟩ := lp_app l
    obtain ⟨a2, b2, _, rfl, l2, l⟩ := lp_app l
    obtain ⟨a3, b3, _, rfl, l3, l⟩ := lp_app l
    obtain ⟨a4, b4, _, rfl, l4, l⟩ := lp_app l
    obtain ⟨a5, b5, rfl, ha5, hq⟩ := r4 _ _ free_nil l
    exact .createView hk' h6 hd' h0 (r _ _ (free_id h1) l1) (r1 _ _ (free_cluster h2) l2) (r2 _ _ (free_schema h3) l3) (r3 _ _ (free_comment h4) l4) ha5 hq

end Verif.Again

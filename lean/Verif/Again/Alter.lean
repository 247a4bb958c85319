/-
Columns and alterations are printed and read again.  No definition here is part of the model.
-/
import Verif.Again.Types

namespace Verif.Again
open Verif.Spec Verif.Echo

variable {m b f : Bool} {us ws : List E} {os ts xs is cs bs ns : List Token} {t o n c k d e : Token} {v w i x y : V} {vs : List V} {p : Option Token} {s : Str}

/-! ### Parts of a column -/

theorem say_null {c1 c2 : V} (h : Piece .null ts (.list [c1, c2])) : Inv cl (nullE c1 c2) ∧ NoPosReader c1 ∧ NoPosReader c2 ∧ Good m (nullE c1 c2) ∧
    ∀ p os, LexedP p (nullE c1 c2) os → Piece .null os (.list [c1, c2]) := by
  cases h with
  | nullNo =>
    refine ⟨.nil, npr_nil, npr_nil, good_nil.2 trivial, fun p os l => ?_⟩
    cases lp_nil (show LexedP p [] os from l)
    exact .nullNo
  | null h =>
    refine ⟨?_, npr_nil, by npr, ?_, fun p os l => ?_⟩
    · show Inv cl [.sp, .kw b!"NULL"]
      inv
    · show Good m [.sp, .kw b!"NULL"]
      dgood
    · obtain ⟨k, os, rfl, hk, l⟩ := lp_kw (k := b!"NULL") kw (lp_sp l)
      cases lp_nil l
      exact .null hk
  | notNull h h' =>
    have n1 : NoPosReader N.NullLiteral := by npr
    refine ⟨?_, by npr, npr_nil, ?_, fun p os l => ?_⟩
    · show Inv cl [.sp, .kw b!"NOT", .sp, .kw b!"NULL"]
      inv
    · show Good m [.sp, .kw b!"NOT", .sp, .kw b!"NULL"]
      dgood
    · obtain ⟨k, os, rfl, hk, l⟩ := lp_kw (k := b!"NOT") kw (lp_sp l)
      obtain ⟨k', os, rfl, hk', l⟩ := lp_kw (k := b!"NULL") kw (lp_sp l)
      cases lp_nil l
      exact .notNull hk hk'

theorem say_after {s : Str} (hs : isKw s = true) (hg : GoodE m (.kw s)) (hf : Fit m (k :: ts)) (hk : isWord k s) (h : Core (.expr 0) ts v) (hv : v.kept = true) :
    Say m (.o [.sp, .kw s, .sp]) (k :: ts) v (fun os => ∃ k' a, os = k' :: a ∧ isWord k' s ∧ Core (.expr 0) a v) := by
  obtain ⟨us, e, i, n, g, r⟩ := say_of (claim h hf.tail hv)
  refine ⟨_, .inr ⟨_, rfl, e⟩, fun τ hτ => ?_, n, by dgood, fun p os _ l => ?_⟩
  · have i : Inv hd us := i _ hτ
    show Inv cl _
    inv
  · flat l
    obtain ⟨k', os, rfl, hk', l⟩ := lp_kw hs (lp_sp l)
    exact ⟨_, _, rfl, hk', (r _ _ (hf.freeW hk hk') (lp_sp l)).1⟩
theorem say_value {d1 d2 d3 : V} (h : Piece .value ts (.list [d1, d2, d3])) (hf : Fit m ts) (hv : d1.kept = true ∧ d2.kept = true ∧ d3.kept = true) :
    ∃ u3 u4 u5, PK m (.o [.sp, .kw b!"DEFAULT", .sp]) d1 u3 ∧ PK m (.o [.sp, .kw b!"MATERIALIZED", .sp]) d2 u4 ∧ PK m (.o [.sp, .kw b!"ALIAS", .sp]) d3 u5 ∧
      (∀ τ, d1.hasTy noReq τ = true → Inv cl u3) ∧ (∀ τ, d2.hasTy noReq τ = true → Inv cl u4) ∧ (∀ τ, d3.hasTy noReq τ = true → Inv cl u5) ∧
      NoPosReader d1 ∧ NoPosReader d2 ∧ NoPosReader d3 ∧ Good m u3 ∧ Good m u4 ∧ Good m u5 ∧
      ∀ p os, LexedP p (u3 ++ (u4 ++ u5)) os → Piece .value os (.list [d1, d2, d3]) := by
  cases h with
  | valueNo =>
    refine ⟨[], [], [], onil, onil, onil, fun _ _ => .nil, fun _ _ => .nil, fun _ _ => .nil, npr_nil, npr_nil, npr_nil, good_nil.2 trivial, good_nil.2 trivial, good_nil.2 trivial, fun p os l => ?_⟩
    cases lp_nil l
    exact .valueNo
  | default hk h =>
    obtain ⟨us, e, i, n, g, r⟩ := say_after kw (good_letters rfl).1 hf hk h hv.1
    refine ⟨us, [], [], e, onil, onil, i, fun _ _ => .nil, fun _ _ => .nil, n, npr_nil, npr_nil, g, good_nil.2 trivial, good_nil.2 trivial, fun p os l => ?_⟩
    flat l
    obtain ⟨k', a, rfl, hk', h⟩ := r _ _ (free_word hk) l
    exact .default hk' h
  | materialized hk h =>
    obtain ⟨us, e, i, n, g, r⟩ := say_after kw (good_letters rfl).1 hf hk h hv.2.1
    refine ⟨[], us, [], onil, e, onil, fun _ _ => .nil, i, fun _ _ => .nil, npr_nil, n, npr_nil, good_nil.2 trivial, g, good_nil.2 trivial, fun p os l => ?_⟩
    flat l
    obtain ⟨k', a, rfl, hk', h⟩ := r _ _ (free_word hk) l
    exact .materialized hk' h
  | «alias» hk h =>
    obtain ⟨us, e, i, n, g, r⟩ := say_after kw (good_letters rfl).1 hf hk h hv.2.2
    refine ⟨[], [], us, onil, onil, e, fun _ _ => .nil, fun _ _ => .nil, i, npr_nil, npr_nil, n, good_nil.2 trivial, good_nil.2 trivial, g, fun p os l => ?_⟩
    flat l
    obtain ⟨k', a, rfl, hk', h⟩ := r _ _ (free_word hk) l
    exact .«alias» hk' h
theorem say_comment (h : Piece .comment ts v) (hf : Fit m ts) : Say m (.o [.sp, .kw b!"COMMENT", .sp]) ts v (fun os => Piece .comment os v) := by
  cases h with
  | commentNo => exact ⟨[], onil, fun _ _ => .nil, npr_nil, good_nil.2 trivial, fun p os _ l => by cases lp_nil l; exact .commentNo⟩
  | comment hk h =>
    obtain ⟨us, e, i, n, g, r⟩ := say_str hf.tail h
    refine ⟨_, .inr ⟨_, rfl, e⟩, fun τ hτ => ?_, n, by dgood, fun p os _ l => ?_⟩
    · have i : Inv hd us := i _ hτ
      show Inv cl _
      inv
    · flat l
      obtain ⟨k', os, rfl, hk', l⟩ := lp_kw kw (lp_sp l)
      obtain ⟨o, rfl, ho⟩ := r _ _ (hf.freeW hk hk') (lp_sp l)
      exact text_eq ho ▸ .comment hk' (by rw [kind_eq ho]; exact h)
theorem say_level (h : Piece .level ts v) (hf : Fit m ts) : ∃ us, Lev m v us ∧ Inv cl us ∧ NoPosReader v ∧ Good m us ∧ ∀ p os, LexedP p us os → Piece .level os v ∧ (ts = [] → os = []) := by
  cases h with
  | levelNo => exact ⟨[], .inl ⟨rfl, rfl⟩, .nil, npr_nil, good_nil.2 trivial, fun p os l => by cases lp_nil l; exact ⟨.levelNo, fun _ => rfl⟩⟩
  | level h1 h2 h3 =>
    obtain ⟨us, e, i, n, g, r⟩ := say_number (hf.tail.infix ⟨[], _, rfl⟩) (.inl h2)
    refine ⟨_, .inr ⟨us, e.1, rfl⟩, ?_, n, by dgood, fun p os l => ?_⟩
    · have i : Inv hd us := i (.ptr .NumberLiteral) rfl
      inv
    · flat l
      obtain ⟨o', os, rfl, ho', _, l⟩ := lp_op l
      obtain ⟨a, b, _, rfl, l1, l2⟩ := lp_app l
      obtain ⟨n', rfl, hn'⟩ := r _ _ (Free.left (xs := [_]) (hf.freeS h1 ho')) l1
      obtain ⟨c', os, rfl, hc', _, l⟩ := lp_op l2
      cases lp_nil l
      exact ⟨number_eq hn' ▸ .level ho' (by rw [kind_eq hn']; exact h2) hc', by simp⟩
theorem say_codec (h : Piece .codec ts v) (hf : Fit m ts) : Say m (.o [.sp]) ts v (fun os => Piece .codec os v) := by
  cases h with
  | codecNo => exact ⟨[], onil, fun _ _ => .nil, npr_nil, good_nil.2 trivial, fun p os _ l => by cases lp_nil l; exact .codecNo⟩
  | codec h1 h2 h3 h4 h5 h6 =>
    obtain ⟨us, e, i, n, g, r⟩ := say_any (hf.tail.tail.infix ⟨[], _, rfl⟩) (.inl h3)
    obtain ⟨ws, e', i', n', g', r'⟩ := say_level h4 hf.tail.tail.tail.left
    refine ⟨_, .inr ⟨_, rfl, d_codec e e'⟩, fun τ hτ => ?_, by npr, by dgood, fun p os _ l => ?_⟩
    · have i : Inv hd us := i (.ptr .Ident) rfl
      show Inv cl _
      inv
    · flat l
      obtain ⟨k', os, rfl, hk', l⟩ := lp_kw kw (lp_sp l)
      obtain ⟨o', os, rfl, ho', _, l⟩ := lp_op l
      obtain ⟨a, b, _, rfl, l1, l2⟩ := lp_app l
      obtain ⟨n', rfl, hn'⟩ := r _ _ (free_any (.inl h3)) l1
      obtain ⟨a, b, _, rfl, l3, l4⟩ := lp_app l2
      obtain ⟨c', os, rfl, hc', _, l⟩ := lp_op l4
      cases lp_nil l
      obtain ⟨h7, h8⟩ := r' _ _ l3
      exact name_eq hn' ▸ .codec hk' ho' (plainName_eq hn' h3) h7 (fun ha => by rw [str_eq hn']; exact h5 fun ht => ha (h8 ht)) hc'
  | codecs h1 h2 h3 h4 h5 h6 h7 h8 h9 h10 =>
    obtain ⟨us, e, i, n, g, r⟩ := say_any (hf.tail.tail.infix ⟨[], _, rfl⟩) (.inl h3)
    obtain ⟨ws, e', i', n', g', r'⟩ := say_level h5 hf.tail.tail.tail.left
    obtain ⟨us2, e2, i2, n2, g2, r2⟩ := say_any (hf.tail.tail.tail.right.tail.infix ⟨[], _, rfl⟩) (.inl h7)
    obtain ⟨ws2, e2', i2', n2', g2', r2'⟩ := say_level h8 hf.tail.tail.tail.right.tail.tail.left
    refine ⟨_, .inr ⟨_, rfl, d_codecs e e' e2 e2'⟩, fun τ hτ => ?_, by npr, ?_, fun p os _ l => ?_⟩
    · have i : Inv hd us := i (.ptr .Ident) rfl
      have i2 : Inv hd us2 := i2 (.ptr .Ident) rfl
      show Inv cl _
      simp only [comma]
      inv
    · simp only [comma]
      dgood
    · simp only [comma] at l
      flat l
      obtain ⟨k', os, rfl, hk', l⟩ := lp_kw kw (lp_sp l)
      obtain ⟨o', os, rfl, ho', _, l⟩ := lp_op l
      obtain ⟨a, b, _, rfl, l1, l2⟩ := lp_app l
      obtain ⟨f', rfl, hf'⟩ := r _ _ (free_any (.inl h3)) l1
      obtain ⟨a, b, _, rfl, l3, l4⟩ := lp_app l2
      obtain ⟨m', os, rfl, hm', _, l⟩ := lp_op l4
      obtain ⟨a', b, _, rfl, l5, l6⟩ := lp_app (lp_sp l)
      obtain ⟨n', rfl, hn'⟩ := r2 _ _ (free_any (.inl h7)) l5
      obtain ⟨a', b, _, rfl, l7, l8⟩ := lp_app l6
      obtain ⟨c', os, rfl, hc', _, l⟩ := lp_op l8
      cases lp_nil l
      obtain ⟨h11, _⟩ := r' _ _ l3
      obtain ⟨h13, h14⟩ := r2' _ _ l7
      exact name_eq hn' ▸ name_eq hf' ▸ .codecs hk' ho' (plainName_eq hf' h3) (by rw [str_eq hf']; exact h4) h11 hm' (plainName_eq hn' h7) h13
        (fun ha => by rw [str_eq hn']; exact h9 fun ht => ha (h14 ht)) hc'
theorem say_ttl (h : Piece .ttl ts v) (hf : Fit m ts) (hv : v.kept = true) : Say m (.o [.sp]) ts v (fun os => Piece .ttl os v) := by
  cases h with
  | ttlNo => exact ⟨[], onil, fun _ _ => .nil, npr_nil, good_nil.2 trivial, fun p os _ l => by cases lp_nil l; exact .ttlNo⟩
  | @ttl k ts v hk h =>
    simp only [V.kept, V.keptL, keptNode, N.TTLClause, N.TTLExpr, Bool.and_true, Bool.true_and] at hv
    obtain ⟨us, e, i, n, g, r⟩ := say_of (claim h hf.tail hv)
    have n' : NoPosReader (.list [N.TTLExpr (expr := v)]) := npr_cons (by npr) (npr_list (by simp))
    refine ⟨_, .inr ⟨_, rfl, d_ttl (p_lone (d_ttlExpr e))⟩, fun τ hτ => ?_, by npr, by dgood, fun p os _ l => ?_⟩
    · obtain ⟨σ, h2⟩ := typed_of (j := 2) rfl hτ
      obtain ⟨_, _, h3, _⟩ := list_ty h2
      obtain ⟨σ, h4⟩ := typed_of (j := 1) rfl h3
      have i : Inv hd us := i _ h4
      show Inv cl _
      inv
    · flat l
      obtain ⟨k', os, rfl, hk', l⟩ := lp_kw kw (lp_sp l)
      exact .ttl hk' (r _ _ (hf.freeW hk hk') (lp_sp l)).1

theorem free_comment (h : Piece .comment ts v) : Free ts p := by cases h <;> first | exact free_nil | exact free_word ‹_›
theorem free_codec (h : Piece .codec ts v) : Free ts p := by cases h <;> first | exact free_nil | exact free_word ‹_›
theorem free_ttl (h : Piece .ttl ts v) : Free ts p := by cases h <;> first | exact free_nil | exact free_word ‹_›
theorem free_column (h : Piece .column ts v) : Free ts p := by cases h <;> exact free_any (.inl ‹_›)

/-! ### Columns -/

theorem comment_nil (h : Piece .comment ts .nil) : ts = [] := by cases h; rfl
theorem codec_nil (h : Piece .codec ts .nil) : ts = [] := by cases h; rfl
theorem ttl_nil (h : Piece .ttl ts .nil) : ts = [] := by cases h; rfl
theorem column_ty (h : Piece .column ts v) : ∃ fs, v = .mk .NestedIdentifier fs := by cases h <;> exact ⟨_, rfl⟩

theorem say_columnDef (h : Piece .columnDef ts v) (hf : Fit m ts) (hk : v.kept = true) (ho : v.orderly = true) : Say m .n ts v (fun os => Piece .columnDef os v) := by
  cases h with
  | columnDef h1 h2 h3 h4 h5 h6 h7 =>
    simp only [V.kept, V.keptL, keptNode, N.ColumnDef, Bool.and_true, Bool.true_and, Bool.and_eq_true] at hk
    simp only [V.orderly, orderlyNode, N.ColumnDef, Bool.and_eq_true, Bool.or_eq_true, Bool.not_eq_true'] at ho
    obtain ⟨ho, -⟩ := ho
    obtain ⟨u1, e1, i1, n1, g1, r1⟩ := say_column h1 hf.left
    obtain ⟨u2, e2, i2, n2, g2, r2⟩ := (say_type h2 hf.right.left : Say m .n _ _ _)
    obtain ⟨i3, n3, n3', g3, r3⟩ := say_null (m := m) h3
    obtain ⟨u4, u5, u6, e4, e5, e6, i4, i5, i6, n4, n5, n6, g4, g5, g6, r4⟩ := say_value h4 hf.right.right.right.left ⟨by simp_all, by simp_all, by simp_all⟩
    obtain ⟨u7, e7, i7, n7, g7, r7⟩ := say_comment h5 hf.right.right.right.right.left
    obtain ⟨u8, e8, i8, n8, g8, r8⟩ := say_codec h6 hf.right.right.right.right.right.left
    obtain ⟨u9, e9, i9, n9, g9, r9⟩ := say_ttl h7 hf.right.right.right.right.right.right (by simp_all)
    refine ⟨_, d_columnDef e1 e2 e4 e5 e6 e8 e9 e7, fun τ hτ => ?_, by npr, by dgood, fun p os _ l => ?_⟩
    · replace i1 : Inv hd u1 := i1 _ (typed_of (j := 2) rfl hτ).choose_spec
      replace i2 : Inv hd u2 := i2 _ (typed_of (j := 3) rfl hτ).choose_spec
      replace i4 : Inv cl u4 := i4 _ (typed_of (j := 6) rfl hτ).choose_spec
      replace i5 : Inv cl u5 := i5 _ (typed_of (j := 7) rfl hτ).choose_spec
      replace i6 : Inv cl u6 := i6 _ (typed_of (j := 8) rfl hτ).choose_spec
      replace i8 : Inv cl u8 := i8 _ (typed_of (j := 9) rfl hτ).choose_spec
      replace i9 : Inv cl u9 := i9 _ (typed_of (j := 10) rfl hτ).choose_spec
      replace i7 : Inv cl u7 := i7 _ (typed_of (j := 11) rfl hτ).choose_spec
      show Inv hd _
      inv
    · flat l
      obtain ⟨a, b, _, rfl, l1, l⟩ := lp_app l
      obtain ⟨a2, b, _, rfl, l2, l⟩ := lp_app (lp_sp l)
      obtain ⟨a3, b, _, rfl, l3, l⟩ := lp_app l
      rw [← List.append_assoc, ← List.append_assoc] at l
      obtain ⟨a4, b, _, rfl, l4, l⟩ := lp_app l
      rw [List.append_assoc] at l4
      obtain ⟨a5, b, _, rfl, l5, l⟩ := lp_app l
      obtain ⟨a6, a7, _, rfl, l6, l⟩ := lp_app l
      have k1 := r1 _ _ (free_column h1) l1
      have k2 := r2 _ _ (free_type h2) l2
      have k3 := r3 _ _ l3
      have k4 := r4 _ _ l4
      have k5 := r8 _ _ (free_codec h6) l5
      have k6 := r9 _ _ (free_ttl h7) l6
      have k7 := r7 _ _ (free_comment h5) l
      have := Piece.columnDef k1 k2 k3 k4 k7 k5 k6
      suffices a5 ++ (a6 ++ a7) = a7 ++ (a5 ++ a6) by rw [this]; assumption
      rcases ho with ho | ⟨ho, ho'⟩
      · have : a7 = [] := by
          cases h5 with
          | commentNo => exact comment_nil k7
          | comment => cases ho
        simp [this]
      · have : a5 = [] := by
          cases h6 with
          | codecNo => exact codec_nil k5
          | _ => cases ho
        have : a6 = [] := by
          cases h7 with
          | ttlNo => exact ttl_nil k6
          | ttl => cases ho'
        simp [*]

theorem free_columnDef (h : Piece .columnDef ts v) : Free ts p := by
  cases h with
  | columnDef h => cases h <;> exact free_any (.inl ‹_›)

/-! ### Alterations -/

theorem lp_notExists (h : LexedP p (opt b [.kw b!"IF", .sp, .kw b!"NOT", .sp, .kw b!"EXISTS", .sp] ++ ws) os) :
    ∃ a c q, os = a ++ c ∧ Piece .ifNotExists a (.bool b) ∧ LexedP q ws c := by
  rcases lp_opt h with ⟨rfl, l⟩ | ⟨rfl, l⟩
  · exact ⟨[], _, _, rfl, .notExistsNo, l⟩
  · flat l
    obtain ⟨k, os, rfl, hk, l⟩ := lp_kw kw l
    obtain ⟨k', os, rfl, hk', l⟩ := lp_kw kw (lp_sp l)
    obtain ⟨k2, os, rfl, hk2, l⟩ := lp_kw kw (lp_sp l)
    exact ⟨[k, k', k2], _, _, rfl, .notExistsYes hk hk' hk2, lp_sp l⟩
theorem say_place (h : Piece .after ts v) (hf : Fit m ts) : Say m (.o [.sp, .kw b!"AFTER", .sp]) ts v (fun os => Piece .after os v) := by
  cases h with
  | afterNo => exact ⟨[], onil, fun _ _ => .nil, npr_nil, good_nil.2 trivial, fun p os _ l => by cases lp_nil l; exact .afterNo⟩
  | after hk h =>
    obtain ⟨us, e, i, n, g, r⟩ := say_column h hf.tail
    refine ⟨_, .inr ⟨_, rfl, e⟩, fun τ hτ => ?_, n, by dgood, fun p os _ l => ?_⟩
    · have i : Inv hd us := i _ hτ
      show Inv cl _
      inv
    · flat l
      obtain ⟨k', os, rfl, hk', l⟩ := lp_kw kw (lp_sp l)
      exact .after hk' (r _ _ (free_column h) (lp_sp l))
theorem free_after (h : Piece .after ts v) : Free ts p := by cases h <;> first | exact free_nil | exact free_word ‹_›

theorem say_assignment (h : Piece .assignment ts v) (hf : Fit m ts) (hk : v.kept = true) : Say m .n ts v (fun os => Piece .assignment os v) := by
  cases h with
  | assignment h1 h2 h3 =>
    simp only [V.kept, V.keptL, keptNode, N.UpdateAssignment, Bool.and_true, Bool.true_and, Bool.and_eq_true] at hk
    obtain ⟨us, e, i, n, g, r⟩ := say_column h1 hf.left
    obtain ⟨ws, e', i', n', g', r'⟩ := say_of (claim h3 hf.right.tail hk.2)
    refine ⟨_, d_assignment e e', fun τ hτ => ?_, by npr, by dgood, fun p os _ l => ?_⟩
    · tys hτ
      have i : Inv hd us := i _ (by assumption)
      have i' : Inv hd ws := i' _ (by assumption)
      show Inv hd _
      inv
    · flat l
      obtain ⟨a, b, _, rfl, l1, l⟩ := lp_app l
      obtain ⟨e', os, rfl, he', _, l⟩ := lp_op (lp_sp l)
      exact .assignment (r _ _ (free_column h1) l1) he' (r' _ _ (hf.right.freeS h2 he') (lp_sp l)).1
theorem say_assignments (h : Piece .assignments ts v) : Fit m ts → v.kept = true → Say m (.l comma) ts v (fun os => Piece .assignments os v) := by
  generalize hq : Part.assignments = q at h
  induction h with
  | assignmentOne h ih =>
    intro hf hk
    simp only [V.kept, V.keptL, Bool.and_true] at hk
    cases hq
    exact say_one (say_assignment h hf hk) fun _ h => .assignmentOne h
  | assignmentMore h hc h' ih ih' =>
    intro hf hk
    simp only [V.kept, V.keptL, Bool.and_eq_true] at hk
    exact say_more (say_assignment h hf.left hk.1) (ih' rfl hf.right.tail (by simpa only [V.kept] using hk.2)) (piece_more h' (by simp)) hf hc
      fun _ _ _ h1 h2 h3 => .assignmentMore h1 h2 h3
  | _ => cases hq
theorem free_assignments (h : Piece .assignments ts v) : Free ts p := by
  cases h with
  | assignmentOne h =>
    cases h with
    | assignment h => cases h <;> exact free_any (.inl ‹_›)
  | assignmentMore h =>
    cases h with
    | assignment h => cases h <;> exact free_any (.inl ‹_›)

/-- `DROP COLUMN`, `DROP INDEX` and `DROP PROJECTION`. -/
theorem say_dropping {T : V → Bool → V} {k' : Str} {bs : List Token} (hK : isKw k' = true) (hg : GoodE m (.kw k')) (hf : Fit m ts) (h : Piece .column ts v)
    (hp : ∀ {us}, PK m .n v us → PK m .n (T v b) ([.kw b!"DROP", .sp, .kw k', .sp] ++ opt b [.kw b!"IF", .sp, .kw b!"EXISTS", .sp] ++ us))
    (hn : NoPosReader v → NoPosReader (T v b)) (hty : ∀ τ, (T v b).hasTy noReq τ = true → ∃ σ, v.hasTy noReq σ = true)
    (hQ : ∀ a k bs us, isWord a b!"DROP" → isWord k k' → Piece .ifExists bs (.bool b) → Piece .column us v → Piece .alteration (a :: k :: (bs ++ us)) (T v b)) :
    Say m .n bs (T v b) (fun os => Piece .alteration os (T v b)) := by
  obtain ⟨us, e, i, n, g, r⟩ := say_column h hf
  refine ⟨_, hp e, fun τ hτ => ?_, hn n, by dgood, fun p os _ l => ?_⟩
  · obtain ⟨σ, hσ⟩ := hty τ hτ
    have i : Inv hd us := i _ hσ
    show Inv hd _
    cases b <;> simp only [opt, if_true, Bool.false_eq_true, if_false] <;> inv
  · flat l
    obtain ⟨a, os, rfl, ha, l⟩ := lp_kw kw l
    obtain ⟨k, os, rfl, hk, l⟩ := lp_kw hK (lp_sp l)
    obtain ⟨bs, c, _, rfl, hb, l⟩ := lp_exists (lp_sp l)
    exact hQ _ _ _ _ ha hk hb (r _ _ (free_column h) l)

theorem say_alteration (h : Piece .alteration ts v) (hf : Fit m ts) (hk : v.kept = true) (ho : v.orderly = true) : Say m .n ts v (fun os => Piece .alteration os v) := by
  cases h with
  | addColumn h1 h2 h3 h4 h5 =>
    simp only [V.kept, V.keptL, keptNode, N.AlterTableAddColumn, Bool.and_true, Bool.true_and, Bool.and_eq_true] at hk
    simp only [V.orderly, V.orderlyL, orderlyNode, N.AlterTableAddColumn, Bool.and_true, Bool.true_and, Bool.and_eq_true] at ho
    obtain ⟨us, e, i, n, g, r⟩ := say_columnDef h4 hf.tail.tail.right.left hk.1 ho.1
    obtain ⟨ws, e', i', n', g', r'⟩ := say_place h5 hf.tail.tail.right.right
    refine ⟨_, d_addColumn e e', fun τ hτ => ?_, by npr, by dgood, fun p os _ l => ?_⟩
    · tys hτ
      have i : Inv hd us := i _ (by assumption)
      have i' : Inv cl ws := i' _ (by assumption)
      show Inv hd _
      rename Bool => b
      cases b <;> simp only [opt, if_true, Bool.false_eq_true, if_false] <;> inv
    · flat l
      obtain ⟨a, os, rfl, ha, l⟩ := lp_kw kw l
      obtain ⟨k, os, rfl, hk, l⟩ := lp_kw kw (lp_sp l)
      obtain ⟨bs, c, _, rfl, hb, l⟩ := lp_notExists (lp_sp l)
      obtain ⟨a, b, _, rfl, l1, l2⟩ := lp_app l
      exact .addColumn ha hk hb (r _ _ (free_columnDef h4) l1) (r' _ _ (free_after h5) l2)
  | modifyColumn h1 h2 h3 h4 =>
    simp only [V.kept, V.keptL, keptNode, N.AlterTableModifyColumn, Bool.and_true, Bool.true_and] at hk
    simp only [V.orderly, V.orderlyL, orderlyNode, N.AlterTableModifyColumn, Bool.and_true, Bool.true_and] at ho
    obtain ⟨us, e, i, n, g, r⟩ := say_columnDef h4 hf.tail.tail.right hk ho
    refine ⟨_, d_modifyColumn e, fun τ hτ => ?_, by npr, by dgood, fun p os _ l => ?_⟩
    · tys hτ
      have i : Inv hd us := i _ (by assumption)
      show Inv hd _
      rename Bool => b
      cases b <;> simp only [opt, if_true, Bool.false_eq_true, if_false] <;> inv
    · flat l
      obtain ⟨a, os, rfl, ha, l⟩ := lp_kw kw l
      obtain ⟨k, os, rfl, hk, l⟩ := lp_kw kw (lp_sp l)
      obtain ⟨bs, c, _, rfl, hb, l⟩ := lp_exists (lp_sp l)
      exact .modifyColumn ha hk hb (r _ _ (free_columnDef h4) l)
  | @dropColumn a k b ts us v h1 h2 h3 h4 =>
    exact say_dropping (T := fun v b => N.AlterTableDropColumn (columnName := v) (ifExists := b)) kw (good_letters rfl).1 hf.tail.tail.right h4 d_dropColumn (fun _ => by npr)
      (fun τ h => typed_of (j := 1) rfl h) fun _ _ _ _ h1 h2 h3 h4 => .dropColumn h1 h2 h3 h4
  | @dropIndex a k b ts us v h1 h2 h3 h4 =>
    exact say_dropping (T := fun v b => N.AlterTableDropIndex (indexName := v) (ifExists := b)) kw (good_letters rfl).1 hf.tail.tail.right h4 d_dropIndex (fun _ => by npr)
      (fun τ h => typed_of (j := 1) rfl h) fun _ _ _ _ h1 h2 h3 h4 => .dropIndex h1 h2 h3 h4
  | @dropProjection a k b ts us v h1 h2 h3 h4 =>
    exact say_dropping (T := fun v b => N.AlterTableDropProjection (projectionName := v) (ifExists := b)) kw (good_letters rfl).1 hf.tail.tail.right h4 d_dropProjection (fun _ => by npr)
      (fun τ h => typed_of (j := 1) rfl h) fun _ _ _ _ h1 h2 h3 h4 => .dropProjection h1 h2 h3 h4
  | renameColumn h1 h2 h3 h4 h5 h6 =>
    obtain ⟨us, e, i, n, g, r⟩ := say_column h4 hf.tail.tail.right.left
    obtain ⟨ws, e', i', n', g', r'⟩ := say_column h6 hf.tail.tail.right.right.tail
    refine ⟨_, d_renameColumn e e', fun τ hτ => ?_, by npr, by dgood, fun p os _ l => ?_⟩
    · have i : Inv hd us := i _ (typed_of (j := 2) rfl hτ).choose_spec
      have i' : Inv hd ws := i' _ (typed_of (j := 3) rfl hτ).choose_spec
      show Inv hd _
      rename Bool => b
      cases b <;> simp only [opt, if_true, Bool.false_eq_true, if_false] <;> inv
    · flat l
      obtain ⟨a, os, rfl, ha, l⟩ := lp_kw kw l
      obtain ⟨k, os, rfl, hk, l⟩ := lp_kw kw (lp_sp l)
      obtain ⟨bs, c, _, rfl, hb, l⟩ := lp_exists (lp_sp l)
      obtain ⟨a, b, _, rfl, l1, l2⟩ := lp_app l
      obtain ⟨t, os, rfl, ht, l⟩ := lp_kw kw (lp_sp l2)
      exact .renameColumn ha hk hb (r _ _ (free_column h4) l1) ht (r' _ _ (free_column h6) (lp_sp l))
  | deleteWhere h1 h2 h3 =>
    simp only [V.kept, V.keptL, keptNode, N.AlterTableDelete, Bool.and_true, Bool.true_and] at hk
    obtain ⟨us, e, i, n, g, r⟩ := say_of (claim h3 hf.tail.tail hk)
    refine ⟨_, d_deleteWhere e, fun τ hτ => ?_, by npr, by dgood, fun p os _ l => ?_⟩
    · tys hτ
      have i : Inv hd us := i _ (by assumption)
      show Inv hd _
      inv
    · flat l
      obtain ⟨a, os, rfl, ha, l⟩ := lp_kw kw l
      obtain ⟨k, os, rfl, hk, l⟩ := lp_kw kw (lp_sp l)
      exact .deleteWhere ha hk (r _ _ (hf.tail.freeW h2 hk) (lp_sp l)).1
  | @updateWhere a k ts us v w h1 h2 h3 h4 =>
    simp only [V.kept, V.keptL, keptNode, N.AlterTableUpdate, Bool.and_true, Bool.true_and, Bool.and_eq_true] at hk
    obtain ⟨l, rfl⟩ : ∃ l, v = .list l := by cases h2 <;> exact ⟨_, rfl⟩
    obtain ⟨us, e, i, n, g, r⟩ := say_assignments h2 hf.tail.left hk.1
    obtain ⟨ws, e', i', n', g', r'⟩ := say_of (claim h4 hf.tail.right.tail hk.2)
    refine ⟨_, d_updateWhere e (piece_more h2 (by simp)) e', fun τ hτ => ?_, by npr, by dgood, fun p os _ l => ?_⟩
    · have i : Inv hd us := i _ (typed_of (j := 2) rfl hτ).choose_spec
      have i' : Inv hd ws := i' _ (typed_of (j := 4) rfl hτ).choose_spec
      show Inv hd _
      inv
    · flat l
      obtain ⟨a, os, rfl, ha, l⟩ := lp_kw kw l
      obtain ⟨a, b, _, rfl, l1, l2⟩ := lp_app (lp_sp l)
      obtain ⟨k, os, rfl, hk, l⟩ := lp_kw kw (lp_sp l2)
      exact .updateWhere ha (r _ _ (free_assignments h2) l1) hk (r' _ _ (hf.tail.right.freeW h3 hk) (lp_sp l)).1
theorem say_alterations (h : Piece .alterations ts v) : Fit m ts → v.kept = true → v.orderly = true → Say m (.l comma) ts v (fun os => Piece .alterations os v) := by
  generalize hq : Part.alterations = q at h
  induction h with
  | alterationOne h ih =>
    intro hf hk ho
    simp only [V.kept, V.keptL, Bool.and_true] at hk
    simp only [V.orderly, V.orderlyL, Bool.and_true] at ho
    exact say_one (say_alteration h hf hk ho) fun _ h => .alterationOne h
  | alterationMore h hc h' ih ih' =>
    intro hf hk ho
    simp only [V.kept, V.keptL, Bool.and_eq_true] at hk
    simp only [V.orderly, V.orderlyL, Bool.and_eq_true] at ho
    exact say_more (say_alteration h hf.left hk.1 ho.1) (ih' rfl hf.right.tail (by simpa only [V.kept] using hk.2) (by simpa only [V.orderly] using ho.2)) (piece_more h' (by simp)) hf hc
      fun _ _ _ h1 h2 h3 => .alterationMore h1 h2 h3
  | _ => cases hq
theorem free_alterations (h : Piece .alterations ts v) : Free ts p := by
  cases h with
  | alterationOne h => cases h <;> exact free_word ‹_›
  | alterationMore h => cases h <;> exact free_word ‹_›

theorem s_alterTable (hf : Fit m (k :: d :: (is ++ (cs ++ ts)))) (h : Piece .id is i) (h' : Piece .cluster cs w) (h2 : Piece .alterations ts v) (hk : v.kept = true) (ho : v.orderly = true) :
    St m (k :: d :: (is ++ (cs ++ ts))) (N.AlterTable (tableIdentifier := i) (onCluster := w) (alterExprs := v)) := by
  obtain ⟨l, rfl⟩ : ∃ l, v = .list l := by cases h2 <;> exact ⟨_, rfl⟩
  obtain ⟨us, e, i, n, g, r⟩ := say_id h hf.tail.tail.left
  obtain ⟨ws, e', i', n', g', r'⟩ := say_cluster h' hf.tail.tail.right.left
  obtain ⟨xs, e2, i2, n2, g2, r2⟩ := say_alterations h2 hf.tail.tail.right.right hk ho
  refine ⟨_, d_alterTable e e' e2 (piece_more h2 (by simp)), fun τ hτ => ?_, by npr, by dgood, fun p os _ l => ?_⟩
  · have i : Inv hd us := i _ (typed_of (j := 2) rfl hτ).choose_spec
    have i' : Inv cl ws := i' _ (typed_of (j := 3) rfl hτ).choose_spec
    have i2 : Inv hd xs := i2 _ (typed_of (j := 4) rfl hτ).choose_spec
    show Inv hd _
    inv
  · flat l
    obtain ⟨k', os, rfl, hk', l⟩ := lp_kw kw l
    obtain ⟨d', os, rfl, hd', l⟩ := lp_kw kw (lp_sp l)
    obtain ⟨a, b, _, rfl, l1, l⟩ := lp_app (lp_sp l)
    obtain ⟨a', b, _, rfl, l2, l⟩ := lp_app l
    exact .alterTable hk' hd' (r _ _ (free_id h) l1) (r' _ _ (free_cluster h') l2) (r2 _ _ (free_alterations h2) (lp_sp l))

end Verif.Again

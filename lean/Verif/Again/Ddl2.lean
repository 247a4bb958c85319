/-
`INSERT` and `RENAME` are printed and read again.  No definition here is part of the model.
-/
import Verif.Again.Ddl
import Verif.Again.SayInsert

namespace Verif.Again
open Verif.Spec Verif.Echo

variable {m b f : Bool} {us ws : List E} {os ts xs is cs bs ns : List Token} {t o n c k d e : Token} {v w i x y : V} {vs : List V} {p : Option Token} {s : Str}

/-! ### Lists -/

theorem list_ty {τ : FTy} (h : (V.list (v :: vs)).hasTy noReq τ = true) : ∃ e, τ = .slice e ∧ v.hasTy noReq e = true ∧ (V.list vs).hasTy noReq (.slice e) = true := by
  cases τ <;> simp only [V.hasTy, Bool.false_eq_true, V.allTy, Bool.and_eq_true] at h
  exact ⟨_, rfl, h.1.2, by simpa only [V.hasTy] using h.2⟩
theorem say_one {P Q : List Token → Prop} (h : Say m .n ts v P) (hP : ∀ os, P os → Q os) : Say m (.l comma) ts (.list [v]) Q := by
  obtain ⟨us, e, i, n, g, r⟩ := h
  refine ⟨us, p_lone e, fun τ hτ => ?_, npr_cons n (npr_list (by simp)), g, fun p os fr l => hP _ (r p os fr l)⟩
  obtain ⟨e, rfl, h1, _⟩ := list_ty hτ
  exact i _ h1
theorem say_more {P Q R : List Token → Prop} (h : Say m .n ts v P) (h' : Say m (.l comma) xs (.list vs) Q) (hne : vs ≠ []) (hf : Fit m (ts ++ c :: xs)) (hc : isSign c b!",")
    (hP : ∀ a o b, P a → isSign o b!"," → Q b → R (a ++ o :: b)) : Say m (.l comma) (ts ++ c :: xs) (.list (v :: vs)) R := by
  obtain ⟨us, e, i, n, g, r⟩ := h
  obtain ⟨ws, e', i', n', g', r'⟩ := h'
  cases vs with
  | nil => exact absurd rfl hne
  | cons w vs =>
  refine ⟨_, p_lcons e e', fun τ hτ => ?_, npr_cons n n', by dgood, fun p os fr l => ?_⟩
  · obtain ⟨e, rfl, h1, h2⟩ := list_ty hτ
    have i : Inv hd us := i _ h1
    have i' : Inv hd ws := i' _ h2
    show Inv hd _
    inv
  · flat l
    obtain ⟨a, b, _, rfl, l1, l⟩ := lp_app l
    obtain ⟨o', b, rfl, ho', _, l⟩ := lp_op l
    exact hP _ _ _ (r _ _ fr.left l1) ho' (r' _ _ (hf.right.freeS hc ho') (lp_sp l))

/-! ### Columns and rows -/

theorem say_column (h : Piece .column ts v) (hf : Fit m ts) : Say m .n ts v (fun os => Piece .column os v) := by
  cases h with
  | column h =>
    obtain ⟨e, pl, g, _⟩ := name_print hf.head (.inl h)
    refine say_of ⟨_, Echo.nested e .onil, by plain, by good, fun p os _ l => ?_⟩
    flat l
    obtain ⟨o, os, rfl, ho, l⟩ := lp_word l
    cases lp_nil l
    have hc := name_same hf.head.1 (.inl h) ho
    exact name_eq hc ▸ .column (plainName_eq hc h)
  | columnOf h1 h2 h3 =>
    obtain ⟨e, pl, g, _⟩ := name_print hf.head (.inl h1)
    obtain ⟨e', pl', g', _⟩ := name_print hf.tail.tail.head h3
    refine say_of ⟨_, Echo.nested e (.osome e'), by plain, by good, fun p os _ l => ?_⟩
    flat l
    obtain ⟨o, os, rfl, ho, l⟩ := lp_word l
    obtain ⟨k', os, rfl, hk', _, l⟩ := lp_op l
    obtain ⟨o', os, rfl, ho', l⟩ := lp_word l
    cases lp_nil l
    have hc := name_same hf.head.1 (.inl h1) ho
    have hc' := name_same hf.tail.tail.head.1 h3 ho'
    exact name_eq hc ▸ name_eq hc' ▸ .columnOf (plainName_eq hc h1) hk' (any_eq hc' h3)

/-- The claim for the parts of `INSERT`. -/
def PGoal (m : Bool) (c : Part) (ts : List Token) (v : V) : Prop := match c with
  | .cell => Say m .n ts v fun os => Piece .cell os v
  | .cells => Say m (.l comma) ts v fun os => Piece .cells os v
  | .rows => Say m (.l comma) ts v fun os => Piece .rows os v
  | .names => Say m (.l comma) ts v fun os => Piece .names os v
  | _ => True

theorem piece_cons {q : Part} (h : Piece q ts (.list vs)) (hq : q ∈ [Part.cells, .rows, .names, .pairs]) : vs ≠ [] := by
  cases h <;> first | (simp at hq; done) | simp

theorem lead_sign {os : List Token} (h : Lead ts os) (hp : ∀ t ∈ ts.head?, ¬ isSign t b!"(") : ∀ t ∈ os.head?, ¬ isSign t b!"(" := by
  obtain ⟨t, o, ts, os, rfl, rfl, hk, _⟩ := h
  intro x hx hs
  cases hx
  exact hp t rfl (by unfold isSign at hs ⊢; rw [← hk]; exact hs)

theorem say_row {Q : List Token → Prop} {u : V} (hf : Fit m (o :: (ts ++ [c]))) (ho : isSign o b!"(") (h : Say m (.l comma) ts v fun os => Piece .cells os v)
    (hQ : ∀ a o c, isSign o b!"(" → Piece .cells a v → isSign c b!")" → Q (o :: (a ++ [c]))) (hu : u = N.AssignmentValues (values := v)) : Say m .n (o :: (ts ++ [c])) u Q := by
  subst hu
  obtain ⟨us, e, i, n, g, r⟩ := h
  refine ⟨_, d_row e, fun τ hτ => ?_, by npr, by dgood, fun p os _ l => ?_⟩
  · tys hτ
    have i : Inv hd us := i _ (by assumption)
    show Inv hd _
    inv
  · flat l
    obtain ⟨o', os, rfl, ho', _, l⟩ := lp_op l
    obtain ⟨a, b, _, rfl, l1, l⟩ := lp_app l
    obtain ⟨c', b, rfl, hc', _, l⟩ := lp_op l
    cases lp_nil l
    exact hQ _ _ _ ho' (r _ _ (hf.freeS ho ho').left l1) hc'

theorem pieces {q : Part} (h : Piece q ts v) : Fit m ts → v.kept = true → PGoal m q ts v := by
  induction h with
  | cell h hp =>
    intro hf hk
    obtain ⟨us, e, i, n, g, r⟩ := say_of (claim h hf hk)
    exact ⟨us, e, i, n, g, fun p os fr l => .cell (r p os fr l).1 (lead_sign (r p os fr l).2 hp)⟩
  | cellRow ho h hc ih =>
    intro hf hk
    simp only [V.kept, V.keptL, keptNode, N.AssignmentValues, Bool.and_true, Bool.true_and] at hk
    exact say_row hf ho (ih hf.tail.left hk) (fun _ _ _ h1 h2 h3 => .cellRow h1 h2 h3) rfl
  | cellOne h ih =>
    intro hf hk
    simp only [V.kept, V.keptL, Bool.and_true] at hk
    exact say_one (ih hf hk) fun _ h => .cellOne h
  | cellMore h hc h' ih ih' =>
    intro hf hk
    simp only [V.kept, V.keptL, Bool.and_eq_true] at hk
    exact say_more (ih hf.left hk.1) (ih' hf.right.tail (by simpa only [V.kept] using hk.2)) (piece_cons h' (by simp)) hf hc fun _ _ _ h1 h2 h3 => .cellMore h1 h2 h3
  | rowOne ho h hc ih =>
    intro hf hk
    simp only [V.kept, V.keptL, keptNode, N.AssignmentValues, Bool.and_true, Bool.true_and] at hk
    exact say_one (say_row (Q := fun os => Piece .rows os _) hf ho (ih hf.tail.left hk) (fun _ _ _ h1 h2 h3 => .rowOne h1 h2 h3) rfl) fun _ h => h
  | @rowMore o c mm ts us v vs ho h hc hm h' ih ih' =>
    intro hf hk
    simp only [V.kept, V.keptL, keptNode, N.AssignmentValues, Bool.and_true, Bool.true_and, Bool.and_eq_true] at hk
    have he : o :: (ts ++ c :: mm :: us) = (o :: (ts ++ [c])) ++ mm :: us := by simp
    rw [he] at hf ⊢
    refine say_more (say_row (Q := fun os => ∃ o a c, os = o :: (a ++ [c]) ∧ isSign o b!"(" ∧ Piece .cells a v ∧ isSign c b!")") hf.left ho (ih hf.left.tail.left hk.1)
      (fun _ _ _ h1 h2 h3 => ⟨_, _, _, rfl, h1, h2, h3⟩) rfl) (ih' hf.right.tail (by simpa only [V.kept] using hk.2)) (piece_cons h' (by simp)) hf hm ?_
    rintro _ m' b ⟨o, a, c, rfl, h1, h2, h3⟩ h4 h5
    have := Piece.rowMore h1 h2 h3 h4 h5
    simpa using this
  | nameOne h ih =>
    intro hf hk
    exact say_one (say_column h hf) fun _ h => .nameOne h
  | nameMore h hc h' ih ih' =>
    intro hf hk
    simp only [V.kept, V.keptL, Bool.and_eq_true] at hk
    exact say_more (say_column h hf.left) (ih' hf.right.tail (by simpa only [V.kept] using hk.2)) (piece_cons h' (by simp)) hf hc fun _ _ _ h1 h2 h3 => .nameMore h1 h2 h3
  | _ => exact fun _ _ => trivial

theorem free_names (h : Piece .names ts v) : Free ts p := by
  refine free_head fun t ht => ?_
  cases h with
  | nameOne h => cases h <;> cases ht <;> simp_all [isPlainName]
  | nameMore h => cases h <;> cases ht <;> simp_all [isPlainName]
theorem say_columnNames (h : Piece .columnNames ts v) (hf : Fit m ts) (hk : v.kept = true) : Say m (.o [.sp]) ts v (fun os => Piece .columnNames os v) := by
  cases h with
  | columnNamesNo => exact ⟨[], .inl ⟨rfl, rfl⟩, fun _ _ => .nil, npr_nil, good_nil.2 trivial, fun p os _ l => by cases lp_nil l; exact .columnNamesNo⟩
  | columnNames ho h hc =>
    simp only [V.kept, V.keptL, keptNode, N.ColumnNamesExpr, Bool.and_true, Bool.true_and] at hk
    obtain ⟨us, e, i, n, g, r⟩ := (pieces h hf.tail.left hk : Say m (.l comma) _ _ _)
    refine ⟨_, .inr ⟨_, rfl, d_columnNames e⟩, fun τ hτ => ?_, by npr, by dgood, fun p os _ l => ?_⟩
    · tys hτ
      have i : Inv hd us := i _ (by assumption)
      show Inv cl _
      inv
    · flat l
      obtain ⟨o', os, rfl, ho', _, l⟩ := lp_op (lp_sp l)
      obtain ⟨a, b, _, rfl, l1, l⟩ := lp_app l
      obtain ⟨c', b, rfl, hc', _, l⟩ := lp_op l
      cases lp_nil l
      exact .columnNames ho' (r _ _ (free_names h) l1) hc'
theorem free_columnNames (h : Piece .columnNames ts v) : Free ts p := by
  refine free_head fun t ht => ?_
  cases h <;> cases ht
  simp_all [isSign]

/-! ### `INSERT` -/

theorem s_insertQuery (hf : Fit m (k :: d :: (bs ++ (is ++ (ns ++ ts))))) (h : Piece .id is i) (h' : Piece .columnNames ns w) (hk : w.kept = true)
    (hq : Core .query ts v) (hw : ∀ t ∈ ts.head?, ¬ isWord t b!"WITH") (h2 : No m .query ts v) :
    St m (k :: d :: (bs ++ (is ++ (ns ++ ts)))) (N.InsertStmt (hasTableKeyword := b) (table := i) (columnNames := w) (selectExpr := v)) := by
  obtain ⟨us, e, i, n, g, r⟩ := say_id h hf.tail.tail.right.left
  obtain ⟨ws, e', i', n', g', r'⟩ := say_columnNames h' hf.tail.tail.right.right.left hk
  obtain ⟨xs, e2, i2, n2, g2, r2⟩ := say_of h2
  refine ⟨_, d_insertQuery e e' e2, fun τ hτ => ?_, by npr, by dgood, fun p os _ l => ?_⟩
  · tys hτ
    have i : Inv hd us := i _ (by assumption)
    have i' : Inv cl ws := i' _ (by assumption)
    have i2 : Inv hd xs := i2 _ (by assumption)
    show Inv hd _
    cases b <;> simp only [opt, if_true, Bool.false_eq_true, if_false] <;> inv
  · flat l
    obtain ⟨k', os, rfl, hk', l⟩ := lp_kw kw l
    obtain ⟨d', os, rfl, hd', l⟩ := lp_kw kw (lp_sp l)
    obtain ⟨a0, b0, _, rfl, l0, l⟩ := lp_tableWord (lp_sp l)
    obtain ⟨a, b1, _, rfl, l1, l⟩ := lp_app l
    obtain ⟨a', b2, _, rfl, l2, l⟩ := lp_app l
    have hq' := r2 _ _ (free_core hq rfl) (lp_sp l)
    exact .insertQuery hk' hd' l0 (r _ _ (free_id h) l1) (r' _ _ (free_columnNames h') l2) hq' (query_head hq hq' hw)
theorem s_insertFormat {y : Token} (hf : Fit m (k :: d :: (bs ++ (is ++ (ns ++ [t, y]))))) (h : Piece .id is i) (h' : Piece .columnNames ns w) (hk : w.kept = true) (ht : isPlainName y) :
    St m (k :: d :: (bs ++ (is ++ (ns ++ [t, y])))) (N.InsertStmt (hasTableKeyword := b) (table := i) (columnNames := w) (format_ := N.FormatClause (format_ := Spec.name y))) := by
  obtain ⟨us, e, i, n, g, r⟩ := say_id h hf.tail.tail.right.left
  obtain ⟨ws, e', i', n', g', r'⟩ := say_columnNames h' hf.tail.tail.right.right.left hk
  obtain ⟨xs, e2, i2, n2, g2, r2⟩ := say_name hf.tail.tail.right.right.right.tail ht
  have n3 : NoPosReader (N.FormatClause (format_ := Spec.name y)) := by npr
  refine ⟨_, d_insertFormat e e' (p_format e2), fun τ hτ => ?_, by npr, by dgood, fun p os _ l => ?_⟩
  · tys hτ
    have h := tys_mk (T := .FormatClause) (by assumption)
    simp only [schema, V.fieldsTy, Bool.and_eq_true] at h
    casesm* _ ∧ _
    have i : Inv hd us := i _ (by assumption)
    have i' : Inv cl ws := i' _ (by assumption)
    have i2 : Inv hd xs := i2 _ (by assumption)
    show Inv hd _
    cases b <;> simp only [opt, if_true, Bool.false_eq_true, if_false] <;> inv
  · flat l
    obtain ⟨k', os, rfl, hk', l⟩ := lp_kw kw l
    obtain ⟨d', os, rfl, hd', l⟩ := lp_kw kw (lp_sp l)
    obtain ⟨a0, b0, _, rfl, l0, l⟩ := lp_tableWord (lp_sp l)
    obtain ⟨a, b1, _, rfl, l1, l⟩ := lp_app l
    obtain ⟨a', b2, _, rfl, l2, l⟩ := lp_app l
    obtain ⟨t', os, rfl, ht', l⟩ := lp_kw kw (lp_sp l)
    obtain ⟨o, rfl, ho, hn⟩ := r2 _ _ (free_head (by simp [show _ = Kind.ident from ht])) (lp_sp l)
    have := Statement.insertFormat hk' hd' l0 (r _ _ (free_id h) l1) (r' _ _ (free_columnNames h') l2) ht' ho
    rw [hn] at this
    exact this
theorem s_insertValues (hf : Fit m (k :: d :: (bs ++ (is ++ (ns ++ t :: ts))))) (h : Piece .id is i) (h' : Piece .columnNames ns w) (hk : w.kept = true)
    (hr : Piece .rows ts v) (hk' : v.kept = true) :
    St m (k :: d :: (bs ++ (is ++ (ns ++ t :: ts)))) (N.InsertStmt (hasTableKeyword := b) (table := i) (columnNames := w) (values := v)) := by
  obtain ⟨us, e, i, n, g, r⟩ := say_id h hf.tail.tail.right.left
  obtain ⟨ws, e', i', n', g', r'⟩ := say_columnNames h' hf.tail.tail.right.right.left hk
  obtain ⟨xs, e2, i2, n2, g2, r2⟩ := (pieces hr hf.tail.tail.right.right.right.tail hk' : Say m (.l comma) _ _ _)
  obtain ⟨l, rfl⟩ : ∃ l, v = .list l := by cases hr <;> exact ⟨_, rfl⟩
  have hne := piece_cons hr (by simp)
  have fr : ∀ p, Free ts p := by
    refine fun p => free_head fun t ht => ?_
    cases hr <;> cases ht <;> simp_all [isSign]
  refine ⟨_, d_insertValues e e' e2 hne, fun τ hτ => ?_, by npr, by dgood, fun p os _ l => ?_⟩
  · tys hτ
    have i : Inv hd us := i _ (by assumption)
    have i' : Inv cl ws := i' _ (by assumption)
    have i2 : Inv hd xs := i2 _ (by assumption)
    show Inv hd _
    cases b <;> simp only [opt, if_true, Bool.false_eq_true, if_false] <;> inv
  · flat l
    obtain ⟨k', os, rfl, hk', l⟩ := lp_kw kw l
    obtain ⟨d', os, rfl, hd', l⟩ := lp_kw kw (lp_sp l)
    obtain ⟨a0, b0, _, rfl, l0, l⟩ := lp_tableWord (lp_sp l)
    obtain ⟨a, b1, _, rfl, l1, l⟩ := lp_app l
    obtain ⟨a', b2, _, rfl, l2, l⟩ := lp_app l
    obtain ⟨t', os, rfl, ht', l⟩ := lp_kw kw (lp_sp l)
    exact .insertValues hk' hd' l0 (r _ _ (free_id h) l1) (r' _ _ (free_columnNames h') l2) ht' (r2 _ _ (fr _) (lp_sp l))

/-! ### `RENAME` -/

/-- A pair of names is written as these elements. -/
def PairP (m : Bool) (y : V) (us : List E) : Prop := ∃ a c u1 u2, y = .mk .TargetPair [a, c] ∧ PN m a u1 ∧ PN m c u2 ∧ us = u1 ++ ([.sp, .kw b!"TO", .sp] ++ u2)
/-- Pairs of names are written as these elements. -/
def Prs (m : Bool) (v : V) (us : List E) : Prop := ∃ uss, us = (sepd comma uss).flatten ∧ List.Forall₂ (PairP m) v.items uss

theorem wr_loopR {env : List V} {i n k : Nat} {b : Bool} {r : Ref} {v : V} {R : V → List E → Prop} {body : FCmd} {uss : List (List E)} {g : Nat → List E → List E} (hv : r.get env = some v)
    (hf : List.Forall₂ R v.items uss)
    (hb : ∀ j x us, x ∈ v.items → R x us → Wr m (formatF k) body (env ++ [x]) j v.items.length b (g j us) b) :
    Wr m (formatF k) (.loop r body) env i n b (uss.mapIdx g).flatten b := by
  refine wr_loop hv ?_
  have key : ∀ (l : List V) (uss : List (List E)) (j : Nat) (g : Nat → List E → List E), (∀ x ∈ l, x ∈ v.items) → List.Forall₂ R l uss →
      (∀ i x us, x ∈ v.items → R x us → Wr m (formatF k) body (env ++ [x]) (j + i) v.items.length b (g i us) b) →
      List.Forall₂ (fun (x : Nat × V) us => Wr m (formatF k) body (env ++ [x.2]) x.1 v.items.length b us b) ((l.zipIdx j).map fun x => (x.2, x.1)) (uss.mapIdx g) := by
    intro l
    induction l with
    | nil => intro uss j g _ h _; cases h; simp
    | cons x l ih =>
      intro uss j g hm h hb
      cases h with
      | cons h1 h2 =>
        rw [List.zipIdx_cons, List.map_cons, List.mapIdx_cons]
        refine .cons (hb 0 x _ (hm x List.mem_cons_self) h1) ?_
        refine ih _ (j + 1) _ (fun y hy => hm y (List.mem_cons_of_mem _ hy)) h2 fun i y us hy hp => ?_
        have := hb (i + 1) y us hy hp
        rwa [show j + (i + 1) = j + 1 + i by omega] at this
  exact key v.items uss 0 g (fun _ h => h) hf (by simpa using hb)

theorem wr_pairs {k i n : Nat} {b : Bool} {r : Ref} {x : V} (hv : r.get [x] = some v) (hl : Prs m v us) (hs : v.hasTy noReq (.slice (.ptr .TargetPair)) = true) :
    Wr m (formatF k) (.loop r (.seq (.ite .idxPos (.lit b!", ") .skip) (.seq (.expr ⟨1, [.f 0]⟩ (.ptr .TableIdentifier)) (.seq (.lit b!" TO ")
      (.expr ⟨1, [.f 1]⟩ (.ptr .TableIdentifier)))))) [x] i n b us b := by
  obtain ⟨uss, rfl, hf⟩ := hl
  rw [sepd_eq]
  refine wr_loopR (g := fun j u => (if 0 < j then comma else []) ++ u) hv hf fun j y us hm hp => ?_
  obtain ⟨a, c, u1, u2, rfl, h1, h2, rfl⟩ := hp
  have ht := tys_mk (slice_mem hs _ hm)
  simp only [schema, V.fieldsTy, Bool.and_eq_true] at ht
  refine wr_seq ?_ (wr_seq (wrE rfl h1 (.p (by simp_all))) (wr_seq wr_lit (wrE rfl h2 (.p (by simp_all)))))
  by_cases hj : 0 < j
  · rw [if_pos hj]; exact wr_iteT (by simp [Cond.eval, hj]) wr_lit
  · rw [if_neg hj]; exact wr_iteF (by simp [Cond.eval, hj]) wr_skip
theorem d_rename {xs : List E} {p q c : V} {l : V} {x : Str} : TextOf m xs x → Prs m l us → PK m (.o [.sp]) c ws → PK m .n (.mk .RenameStmt [p, q, .str x, l, c])
    ([.kw b!"RENAME", .sp] ++ xs ++ [.sp] ++ us ++ ws) := by
  intro h1 h2 h3
  wnode
  refine ⟨_, Wr.cast (wr_seq (wr_seq wr_lit (wr_seq (wr_strH rfl h1) wr_lit)) (wr_seq (wr_pairs rfl h2 (by assumption)) (wrO1 rfl h3 (by st)))) (by wfin)⟩

theorem say_pair (h : Piece .pair ts v) (hf : Fit m ts) : ∃ us, PairP m v us ∧ (∀ τ, v.hasTy noReq τ = true → Inv hd us) ∧ NoPosReader v ∧ Good m us ∧
    ∀ p os, LexedP p us os → Piece .pair os v := by
  cases h with
  | pair h1 h2 h3 =>
    obtain ⟨us, e, i, n, g, r⟩ := say_id h1 hf.left
    obtain ⟨ws, e', i', n', g', r'⟩ := say_id h3 hf.right.tail
    refine ⟨_, ⟨_, _, _, _, rfl, e.1, e'.1, rfl⟩, fun τ hτ => ?_, by npr, by dgood, fun p os l => ?_⟩
    · tys hτ
      have i : Inv hd us := i _ (by assumption)
      have i' : Inv hd ws := i' _ (by assumption)
      inv
    · flat l
      obtain ⟨a, b, _, rfl, l1, l⟩ := lp_app l
      obtain ⟨k', os, rfl, hk', l⟩ := lp_kw kw (lp_sp l)
      exact .pair (r _ _ (free_id h1) l1) hk' (r' _ _ (free_id h3) (lp_sp l))
theorem say_pairs (h : Piece .pairs ts v) (hf : Fit m ts) : ∃ us, Prs m v us ∧ (∀ τ, v.hasTy noReq τ = true → Inv hd us) ∧ NoPosReader v ∧ Good m us ∧
    ∀ p os, LexedP p us os → Piece .pairs os v := by
  generalize hq : Part.pairs = q at h
  induction h with
  | pairOne h =>
    obtain ⟨us, e, i, n, g, r⟩ := say_pair h hf
    refine ⟨us, ⟨[us], by simp [sepd], .cons e .nil⟩, fun τ hτ => ?_, npr_cons n (npr_list (by simp)), g, fun p os l => .pairOne (r p os l)⟩
    obtain ⟨e, rfl, h1, _⟩ := list_ty hτ
    exact i _ h1
  | pairMore h hc h' _ ih =>
    obtain ⟨us, e, i, n, g, r⟩ := say_pair h hf.left
    obtain ⟨ws, ⟨uss, rfl, e'⟩, i', n', g', r'⟩ := ih hf.right.tail rfl
    cases e' with
    | nil => exact absurd rfl (piece_cons h' (by simp))
    | @cons x y l uss h1 h2 =>
    generalize hws : (sepd comma (y :: uss)).flatten = ws at *
    refine ⟨us ++ comma ++ ws, ⟨us :: y :: uss, by simp [sepd, ← hws], .cons e (.cons h1 h2)⟩, fun τ hτ => ?_, npr_cons n n', by dgood, fun p os l => ?_⟩
    · obtain ⟨e, rfl, h1, h2⟩ := list_ty hτ
      have i : Inv hd us := i _ h1
      have i' : Inv hd ws := i' _ h2
      inv
    · flat l
      obtain ⟨a, b, _, rfl, l1, l⟩ := lp_app l
      obtain ⟨o', b, rfl, ho', _, l⟩ := lp_op l
      exact .pairMore (r _ _ l1) ho' (r' _ _ (lp_sp l))
  | _ => cases hq
theorem s_rename {x : Str} (hx : x = b!"TABLE" ∨ x = b!"DICTIONARY" ∨ x = b!"DATABASE") (hf : Fit m (k :: d :: (ts ++ cs))) (h : Piece .pairs ts v) (h' : Piece .cluster cs w) :
    St m (k :: d :: (ts ++ cs)) (N.RenameStmt (renameTarget := x) (targetPairList := v) (onCluster := w)) := by
  obtain ⟨us, e, i, n, g, r⟩ := say_pairs h hf.tail.tail.left
  obtain ⟨ws, e', i', n', g', r'⟩ := say_cluster h' hf.tail.tail.right
  have hk : letters x = true ∧ isKw x = true := by rcases hx with rfl | rfl | rfl <;> decide +kernel
  have gx := (good_letters (m := m) hk.1).1
  refine ⟨_, d_rename textOf_kw e e', fun τ hτ => ?_, by npr, by dgood, fun p os _ l => ?_⟩
  · tys hτ
    have i : Inv hd us := i _ (by assumption)
    have i' : Inv cl ws := i' _ (by assumption)
    show Inv hd _
    inv
  · flat l
    obtain ⟨k', os, rfl, hk', l⟩ := lp_kw kw l
    obtain ⟨d', os, rfl, hd', l⟩ := lp_kw hk.2 (lp_sp l)
    obtain ⟨a, b, _, rfl, l1, l⟩ := lp_app (lp_sp l)
    exact .rename hk' hx hd' (r _ _ l1) (r' _ _ (free_cluster h') l)

end Verif.Again

/-
Types, columns and alterations are printed and read again.  No definition here is part of the model.
-/
import Verif.Again.Ddl2
import Verif.Again.SayTypes
import Verif.Spec.Orderly

namespace Verif.Again
open Verif.Spec Verif.Echo

variable {m b f : Bool} {us ws : List E} {os ts xs is cs bs ns : List Token} {t o n c k d e : Token} {v w i x y : V} {vs : List V} {p : Option Token} {s : Str}

/-! ### Names and literals -/

theorem number_eq (h : o.content = t.content) : Spec.number o = Spec.number t := by
  obtain ⟨_, h1, h2, _⟩ := content_at h
  simp only [Spec.number, h1, h2]
theorem text_eq (h : o.content = t.content) : text o = text t := by
  obtain ⟨_, h1, _⟩ := content_at h
  simp only [text, h1]
theorem kind_eq (h : o.content = t.content) : o.kind = t.kind := (content_at h).1
theorem str_eq (h : o.content = t.content) : o.str = t.str := (content_at h).2.1
theorem typeName_any (h : isTypeName t) : isAnyName t := h.imp id And.left
theorem typeName_eq (h : o.content = t.content) (ht : isTypeName t) : isTypeName o := by
  unfold isTypeName
  rw [kind_eq h, str_eq h]
  exact ht

theorem say_any (hf : Fit m [t]) (ht : isAnyName t) : Say m .n [t] (Spec.name t) (fun os => ∃ o, os = [o] ∧ o.content = t.content) := by
  obtain ⟨e, pl, g, _⟩ := name_print hf.head ht
  refine say_of ⟨_, e, pl, by good, fun p os _ l => ?_⟩
  obtain ⟨o, os, rfl, ho, l⟩ := lp_word l
  cases lp_nil l
  exact ⟨o, rfl, name_same hf.head.1 ht ho⟩
theorem say_nested (hf : Fit m [t]) (ht : isPlainName t) : Say m .n [t] (N.NestedIdentifier (ident := Spec.name t)) (fun os => ∃ o, os = [o] ∧ o.content = t.content) := by
  obtain ⟨e, pl, g, _⟩ := name_print hf.head (.inl ht)
  refine say_of ⟨_, Echo.nested e .onil, by plain, by good, fun p os _ l => ?_⟩
  flat l
  obtain ⟨o, os, rfl, ho, l⟩ := lp_word l
  cases lp_nil l
  exact ⟨o, rfl, name_same hf.head.1 (.inl ht) ho⟩
theorem say_number (hf : Fit m [t]) (ht : t.kind = .int ∨ t.kind = .float) : Say m .n [t] (Spec.number t) (fun os => ∃ o, os = [o] ∧ o.content = t.content) := by
  have g := num_good hf.head.1 ht hf.head.2
  refine say_of ⟨_, Echo.num, rfl, by good, fun p' os fr l => ?_⟩
  obtain ⟨o, os, rfl, ho, l⟩ := lp_num ht (fr t rfl) l
  cases lp_nil l
  exact ⟨o, rfl, num_same hf.head.1 ht ho⟩
theorem say_str (hf : Fit m [t]) (ht : t.kind = .string) : Say m .n [t] (text t) (fun os => ∃ o, os = [o] ∧ o.content = t.content) := by
  have g := str_good hf.head.1 ht hf.head.2
  refine say_of ⟨_, .str, rfl, by good, fun p os _ l => ?_⟩
  obtain ⟨o, os, rfl, ho, l⟩ := lp_str l
  cases lp_nil l
  exact ⟨o, rfl, str_same hf.head.1 ht ho⟩
theorem free_any (h : isAnyName t) : Free (t :: ts) p := by
  refine free_head fun x hx => ?_
  cases hx
  rcases h with h | h <;> simp [h]
theorem free_sign {k' : Str} (h : isSign k k') : Free (k :: ts) p := by
  refine free_head fun x hx => ?_
  cases hx
  have h : k.kind = _ := h
  simp [h]
theorem free_type (h : Piece .type ts v) : Free ts p := by
  cases h <;> exact free_any (typeName_any ‹isTypeName _›)

/-! ### Types -/

theorem say_args {u : V} {R Q : List Token → Prop} (hf : Fit m (t :: o :: (ts ++ [c]))) (ht : isTypeName t) (ho : isSign o b!"(") (h : Say m (.l comma) ts v R)
    (hp : ∀ {us ws}, PK m .n (Spec.name t) us → PK m (.l comma) v ws → PK m .n u (us ++ [.op b!"("] ++ ws ++ [.op b!")"]))
    (hty : ∀ τ, u.hasTy noReq τ = true → ∃ σ, v.hasTy noReq σ = true) (hn : NoPosReader (Spec.name t) → NoPosReader v → NoPosReader u)
    (hQ : ∀ t' o' c' a, t'.content = t.content → isSign o' b!"(" → R a → isSign c' b!")" → Q (t' :: o' :: (a ++ [c']))) : Say m .n (t :: o :: (ts ++ [c])) u Q := by
  obtain ⟨us, e, i, n, g, r⟩ := say_any (hf.infix ⟨[], _, rfl⟩) (typeName_any ht)
  obtain ⟨ws, e', i', n', g', r'⟩ := h
  refine ⟨_, hp e e', fun τ hτ => ?_, hn n n', by dgood, fun p os fr l => ?_⟩
  · obtain ⟨σ, hσ⟩ := hty τ hτ
    have i : Inv hd us := i (.ptr .Ident) rfl
    have i' : Inv hd ws := i' _ hσ
    show Inv hd _
    inv
  · flat l
    obtain ⟨a, b, _, rfl, l1, l2⟩ := lp_app l
    obtain ⟨t', rfl, ht'⟩ := r _ _ (free_any (typeName_any ht)) l1
    obtain ⟨o', os, rfl, ho', _, l⟩ := lp_op l2
    obtain ⟨b, d, _, rfl, l3, l⟩ := lp_app l
    obtain ⟨c', os, rfl, hc', _, l⟩ := lp_op l
    cases lp_nil l
    exact hQ _ _ _ _ ht' ho' (r' _ _ (hf.tail.freeS ho ho').left l3) hc'

theorem say_enumValue (hf : Fit m [d, e, n]) (h1 : d.kind = .string) (h2 : isSign e b!"=") (h3 : n.kind = .int) :
    Say m .n [d, e, n] (N.EnumValue (name := text d) (value := Spec.number n))
      (fun os => ∃ d' e' n', os = [d', e', n'] ∧ d'.content = d.content ∧ isSign e' b!"=" ∧ n'.content = n.content) := by
  have g := str_good hf.head.1 h1 hf.head.2
  have g' := num_good hf.tail.tail.head.1 (.inl h3) hf.tail.tail.head.2
  refine ⟨_, d_enumValue (us := [.str d.str]) (print m .str) (ws := [.num n.str]) (print m .num), fun τ hτ => ?_, ?_, ?_, fun p os fr l => ?_⟩
  · show Inv hd [.str d.str, .op b!"=", .num n.str]
    inv
  · have n1 : NoPosReader (text d) := plain_noPosReader rfl
    have n2 : NoPosReader (Spec.number n) := plain_noPosReader rfl
    npr
  · dgood
  · flat l
    obtain ⟨d', os, rfl, hd', l⟩ := lp_str l
    obtain ⟨e', os, rfl, he', _, l⟩ := lp_op l
    obtain ⟨n', os, rfl, hn', l⟩ := lp_num (.inl h3) (hf.tail.freeS h2 he' n rfl) l
    cases lp_nil l
    exact ⟨_, _, _, rfl, str_same hf.head.1 h1 hd', he', num_same hf.tail.tail.head.1 (.inl h3) hn'⟩

theorem onil {pre : List E} : PK m (.o pre) .nil [] := .inl ⟨rfl, rfl⟩

theorem say_field (hf : Fit m (t :: ts)) (ht : isPlainName t) (h : Piece .type ts v) (h' : Say m .n ts v fun os => Piece .type os v) :
    Say m .n (t :: ts) (N.ColumnDef (name := N.NestedIdentifier (ident := Spec.name t)) (type_ := v)) (fun os => ∃ t' a, os = t' :: a ∧ t'.content = t.content ∧ Piece .type a v) := by
  obtain ⟨us, e, i, n, g, r⟩ := say_nested (hf.infix ⟨[], _, rfl⟩) ht
  obtain ⟨ws, e', i', n', g', r'⟩ := h'
  refine ⟨_, d_columnDef e e' onil onil onil onil onil onil, fun τ hτ => ?_, by npr, ?_, fun p os fr l => ?_⟩
  · tys hτ
    have i : Inv hd us := i _ (by assumption)
    have i' : Inv hd ws := i' _ (by assumption)
    show Inv hd _
    simp only [nullE, V.nonNil, Bool.false_eq_true, if_false, List.append_nil]
    inv
  · simp only [nullE, V.nonNil, Bool.false_eq_true, if_false, List.append_nil]
    dgood
  · simp only [nullE, V.nonNil, Bool.false_eq_true, if_false, List.append_nil] at l
    flat l
    obtain ⟨a, b, _, rfl, l1, l2⟩ := lp_app l
    obtain ⟨t', rfl, ht'⟩ := r _ _ (free_any (.inl ht)) l1
    exact ⟨_, _, rfl, ht', r' _ _ (free_type h) (lp_sp l2)⟩

/-- The claim for the parts of types. -/
def TGoal (m : Bool) (c : Part) (ts : List Token) (v : V) : Prop := match c with
  | .type => Say m .n ts v fun os => Piece .type os v
  | .types => Say m (.l comma) ts v fun os => Piece .types os v
  | .literal => Say m .n ts v fun os => Piece .literal os v
  | .literals => Say m (.l comma) ts v fun os => Piece .literals os v
  | .enumValues => Say m (.l comma) ts v fun os => Piece .enumValues os v
  | .fields => Say m (.l comma) ts v fun os => Piece .fields os v
  | _ => True

theorem piece_more {q : Part} (h : Piece q ts (.list vs)) (hq : q ∈ [Part.types, .literals, .enumValues, .fields, .columnDefs, .assignments, .alterations]) : vs ≠ [] := by
  cases h <;> first | (simp at hq; done) | simp

theorem typed_of {T : Ty} {fs : List V} {j : Nat} {τ : FTy} (hj : fs[j]? = some v) (h : (V.mk T fs).hasTy noReq τ = true) : ∃ σ, v.hasTy noReq σ = true := by
  replace h := tys_mk h
  generalize schema T = l at h
  induction fs generalizing j l with
  | nil => simp at hj
  | cons y fs ih =>
    cases l with
    | nil => simp [V.fieldsTy] at h
    | cons q l =>
      simp only [V.fieldsTy, Bool.and_eq_true] at h
      cases j with
      | zero => cases hj; exact ⟨_, h.1⟩
      | succ j => exact ih hj _ h.2

theorem say_type {q : Part} (h : Piece q ts v) : Fit m ts → TGoal m q ts v := by
  induction h with
  | scalar h =>
    intro hf
    obtain ⟨us, e, i, n, g, r⟩ := say_any hf (typeName_any h)
    refine ⟨_, d_scalar e, fun τ hτ => ?_, by npr, g, fun p os fr l => ?_⟩
    · exact i (.ptr .Ident) rfl
    · obtain ⟨o, rfl, ho⟩ := r _ _ fr l
      exact name_eq ho ▸ .scalar (typeName_eq ho h)
  | complex h1 h2 h3 h4 h5 ih =>
    intro hf
    refine say_args hf h1 h3 (ih hf.tail.tail.left) d_complex (fun τ h => typed_of (j := 3) rfl h) (fun _ _ => by npr) fun t' o' c' a ht ho ha hc => ?_
    exact name_eq ht ▸ .complex (typeName_eq ht h1) (by rw [str_eq ht]; exact h2) ho ha hc
  | tuple h1 h2 h3 h4 h5 ih =>
    intro hf
    refine say_args hf h1 h3 (ih hf.tail.tail.left) d_nestedType (fun τ h => typed_of (j := 3) rfl h) (fun _ _ => by npr) fun t' o' c' a ht ho ha hc => ?_
    exact name_eq ht ▸ .tuple (typeName_eq ht h1) (by rw [str_eq ht]; exact h2) ho ha hc
  | nested h1 h2 h3 h4 h5 ih =>
    intro hf
    refine say_args hf h1 h3 (ih hf.tail.tail.left) d_nestedType (fun τ h => typed_of (j := 3) rfl h) (fun _ _ => by npr) fun t' o' c' a ht ho ha hc => ?_
    exact name_eq ht ▸ .nested (typeName_eq ht h1) (by rw [str_eq ht]; exact h2) ho ha hc
  | empty h1 h2 h3 =>
    intro hf
    refine say_args (ts := []) (v := .nil) (R := fun os => os = []) hf h1 h2 ⟨[], ⟨[], rfl, .nil⟩, fun _ _ => .nil, npr_nil, good_nil.2 trivial, fun p os _ l => lp_nil l⟩
      d_typeParams (fun τ h => typed_of (j := 3) rfl h) (fun _ _ => by npr) fun t' o' c' a ht ho ha hc => ?_
    subst ha
    exact name_eq ht ▸ .empty (typeName_eq ht h1) ho hc
  | typeParams h1 h3 h4 h5 ih =>
    intro hf
    refine say_args hf h1 h3 (ih hf.tail.tail.left) d_typeParams (fun τ h => typed_of (j := 3) rfl h) (fun _ _ => by npr) fun t' o' c' a ht ho ha hc => ?_
    exact name_eq ht ▸ .typeParams (typeName_eq ht h1) ho ha hc
  | enum h1 h3 h4 h5 ih =>
    intro hf
    refine say_args hf h1 h3 (ih hf.tail.tail.left) d_enum (fun τ h => typed_of (j := 3) rfl h) (fun _ _ => by npr) fun t' o' c' a ht ho ha hc => ?_
    exact name_eq ht ▸ .enum (typeName_eq ht h1) ho ha hc
  | typeOne h ih => exact fun hf => say_one (ih hf) fun _ h => .typeOne h
  | typeMore h hc h' ih ih' =>
    exact fun hf => say_more (ih hf.left) (ih' hf.right.tail) (piece_more h' (by simp)) hf hc fun _ _ _ h1 h2 h3 => .typeMore h1 h2 h3
  | literalNumber h =>
    intro hf
    obtain ⟨us, e, i, n, g, r⟩ := say_number hf h
    refine ⟨us, e, i, n, g, fun p os fr l => ?_⟩
    obtain ⟨o, rfl, ho⟩ := r _ _ fr l
    exact number_eq ho ▸ .literalNumber (by rw [kind_eq ho]; exact h)
  | literalText h =>
    intro hf
    obtain ⟨us, e, i, n, g, r⟩ := say_str hf h
    refine ⟨us, e, i, n, g, fun p os fr l => ?_⟩
    obtain ⟨o, rfl, ho⟩ := r _ _ fr l
    exact text_eq ho ▸ .literalText (by rw [kind_eq ho]; exact h)
  | literalOne h ih => exact fun hf => say_one (ih hf) fun _ h => .literalOne h
  | literalMore h hc h' ih ih' =>
    exact fun hf => say_more (ih hf.left) (ih' hf.right.tail) (piece_more h' (by simp)) hf hc fun _ _ _ h1 h2 h3 => .literalMore h1 h2 h3
  | enumOne h1 h2 h3 =>
    intro hf
    refine say_one (say_enumValue hf h1 h2 h3) ?_
    rintro _ ⟨d', e', n', rfl, hd, he, hn⟩
    exact text_eq hd ▸ number_eq hn ▸ .enumOne (by rw [kind_eq hd]; exact h1) he (by rw [kind_eq hn]; exact h3)
  | @enumMore d e n c us vs h1 h2 h3 h4 h5 ih =>
    intro hf
    have hf' : Fit m ([d, e, n] ++ c :: us) := hf
    refine say_more (ts := [d, e, n]) (say_enumValue hf'.left h1 h2 h3) (ih hf'.right.tail) (piece_more h5 (by simp)) hf' h4 ?_
    rintro _ c' b ⟨d', e', n', rfl, hd, he, hn⟩ hc hb
    exact text_eq hd ▸ number_eq hn ▸ .enumMore (by rw [kind_eq hd]; exact h1) he (by rw [kind_eq hn]; exact h3) hc hb
  | fieldOne h1 h2 ih =>
    intro hf
    refine say_one (say_field hf h1 h2 (ih hf.tail)) ?_
    rintro _ ⟨t', a, rfl, ht, ha⟩
    exact name_eq ht ▸ .fieldOne (plainName_eq ht h1) ha
  | @fieldMore t c ts us v vs h1 h2 h3 h4 ih ih' =>
    intro hf
    have hf' : Fit m ((t :: ts) ++ c :: us) := hf
    refine say_more (ts := t :: ts) (say_field hf'.left h1 h2 (ih hf'.left.tail)) (ih' hf'.right.tail) (piece_more h4 (by simp)) hf' h3 ?_
    rintro _ c' b ⟨t', a, rfl, ht, ha⟩ hc hb
    exact name_eq ht ▸ .fieldMore (plainName_eq ht h1) ha hc hb
  | _ => exact fun _ => trivial

end Verif.Again

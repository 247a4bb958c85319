/-
How the printed elements of the core language are read again.  No definition here is part of the model.
-/
import Verif.Echo.Whole
import Verif.Complete.Heads
import Verif.Spec.Kept

namespace Verif.Again
open Verif.Spec Verif.Echo

variable {p : Option Token} {us ws : List E} {os ts xs : List Token} {m : Bool} {t o : Token} {v w : V}

/-! ### Elements -/

/-- The element can be written, in the several-lines mode as well. -/
structure GoodE (m : Bool) (u : E) : Prop where
  fits : u ≠ .sp → ∃ t, Fits u t
  line : m = true → 10 ∉ u.text
/-- All elements can be written. -/
def Good (m : Bool) (us : List E) : Prop := ∀ u ∈ us, GoodE m u

theorem good_nil : Good m [] ↔ True := by simp [Good]
theorem good_cons {u : E} : Good m (u :: us) ↔ GoodE m u ∧ Good m us := by simp [Good]
theorem good_append : Good m (us ++ ws) ↔ Good m us ∧ Good m ws := by
  simp only [Good, List.mem_append]
  exact ⟨fun h => ⟨fun u hu => h u (.inl hu), fun u hu => h u (.inr hu)⟩, fun h u hu => hu.elim (h.1 u) (h.2 u)⟩
theorem good_sp : GoodE m .sp ↔ True := iff_true_intro ⟨fun h => absurd rfl h, fun _ => by decide⟩
theorem good_as : GoodE m .as_ ↔ True := by
  simp only [iff_true]
  exact ⟨fun _ => ⟨{ pos := 0, endp := 0, str := b!"AS", quote := 1, kind := if upper b!"AS" ∈ keywordList then .keyword else .ident },
      .word (c := 65) (w := [83]) (by simp [WordStart]) (by simp [WordPart, WordStart]) rfl (by simp) (by simp) rfl⟩, fun _ => by decide⟩

/-- Letters only. -/
def letters : Str → Bool
  | [] => false
  | s => s.all fun c => 65 ≤ c && c ≤ 90
theorem good_letters {s : Str} (h : letters s = true) : GoodE m (.kw s) ∧ GoodE m (.raw s) := by
  cases s with
  | nil => cases h
  | cons c w =>
    simp only [letters, List.all_cons, Bool.and_eq_true, decide_eq_true_eq, List.all_eq_true] at h
    have hc : WordStart c := by simp only [WordStart]; omega
    have hw : ∀ d ∈ w, WordPart d := fun d hd => by have := h.2 d hd; simp only [WordPart, WordStart]; omega
    have hn : 10 ∉ c :: w := by
      intro hm
      rcases List.mem_cons.1 hm with rfl | hm
      · simp [WordStart] at hc
      · have := hw _ hm; simp [WordPart, WordStart, Digit] at this
    let t : Token := { pos := 0, endp := 0, str := c :: w, quote := 1, kind := if upper (c :: w) ∈ keywordList then .keyword else .ident }
    exact ⟨⟨fun _ => ⟨t, .word (.inl hc) hw rfl (by simp) (by simp) rfl⟩, fun _ => hn⟩, ⟨fun _ => ⟨t, .word (.inl hc) hw rfl (by simp) (by simp) rfl⟩, fun _ => hn⟩⟩

/-- The operators that are printed. -/
def signs : List Str := [b!"(", b!")", b!"[", b!"]", b!",", b!".", b!"*", b!"+", b!"-", b!"/", b!"%", b!"?", b!":", b!"=", b!"<", b!">",
  b!"->", b!"==", b!"!=", b!"<>", b!"<=", b!">=", b!"||", b!"::"]
theorem good_signs {s : Str} (h : s ∈ signs) : GoodE m (.op s) := by
  simp only [signs, List.mem_cons, List.not_mem_nil, or_false] at h
  refine ⟨fun _ => ⟨{ pos := 0, endp := 0, str := s, kind := .op s }, ?_⟩, fun _ => ?_⟩
  · rcases h with rfl | rfl | rfl | rfl | rfl | rfl | rfl | rfl | rfl | rfl | rfl | rfl | rfl | rfl | rfl | rfl | rfl | rfl | rfl | rfl | rfl | rfl | rfl | rfl
    all_goals first
      | exact .op1 (by decide) (by decide) (by simp [Digit]) (by simp [WordStart]) (by decide) (by decide) (by decide) (by decide) rfl
      | exact .op2 (by decide) (by decide) rfl
  · rcases h with rfl | rfl | rfl | rfl | rfl | rfl | rfl | rfl | rfl | rfl | rfl | rfl | rfl | rfl | rfl | rfl | rfl | rfl | rfl | rfl | rfl | rfl | rfl | rfl
    all_goals decide

/-! ### Tokens of the source -/

theorem src_op (h : Src t) {k : Str} (hk : t.kind = .op k) (hne : k ≠ b!"->") : t.str = k := by
  obtain ⟨p, x, f, d, hl⟩ := h
  cases hl with
  | @number _ _ flt => cases flt <;> simp at hk
  | @signed _ _ _ flt => cases flt <;> simp at hk
  | word => simp only at hk; split at hk <;> cases hk
  | backquoted => simp at hk
  | doublequoted => simp at hk
  | string => simp at hk
  | op2 h =>
    simp only [twoByteKind] at hk
    split at hk
    · cases hk; exact absurd rfl hne
    · cases hk; rfl
  | op1 => cases hk; rfl

theorem name_good (h : Src t) (hk : isAnyName t) (hn : m = true → 10 ∉ t.str) : GoodE m (.word t.str t.quote) := by
  have ok : (E.word t.str t.quote).ok t := ⟨hk.imp (fun h => by rw [isKind, h]) (fun h => by rw [isKind, h]), rfl, rfl⟩
  refine ⟨fun _ => fits_of h (fun k h => ?_) ok rfl, fun hm => ?_⟩
  · rcases hk with hk | hk <;> rw [hk] at h <;> cases h
  · have := hn hm
    simp only [E.text]
    split
    · simpa using this
    · split
      · simpa using this
      · split
        · simpa using this
        · exact this

theorem name_same (h : Src t) (hk : isAnyName t) (hf : Fits (.word t.str t.quote) o) : o.content = t.content := by
  have ok : (E.word t.str t.quote).ok t := ⟨hk.imp (fun h => by rw [isKind, h]) (fun h => by rw [isKind, h]), rfl, rfl⟩
  obtain ⟨p, x, f, d, hl⟩ := h
  unfold isAnyName at hk
  cases hl with
  | @number _ _ flt => cases flt <;> simp at hk
  | @signed _ _ _ flt => cases flt <;> simp at hk
  | word => exact word_content hf (.inr (.inr (.inl ⟨_, rfl⟩))) rfl
  | backquoted =>
    cases hf with
    | word h1 _ h2 => simp only [E.text, if_true, List.cons.injEq] at h2; obtain ⟨rfl, _⟩ := h2; simp [WordStart] at h1
    | back _ h => exact h
  | doublequoted =>
    cases hf with
    | word h1 _ h2 => simp [E.text] at h2; obtain ⟨rfl, _⟩ := h2; simp [WordStart] at h1
    | dbl _ h => exact h
  | string => simp at hk
  | op2 => simp only [twoByteKind] at hk; split at hk <;> simp at hk
  | op1 => simp at hk

theorem num_good (h : Src t) (hk : t.kind = .int ∨ t.kind = .float) (hn : m = true → 10 ∉ t.str) : GoodE m (.num t.str) := by
  have ok : (E.num t.str).ok t := ⟨hk.imp (fun h => by rw [isKind, h]) (fun h => by rw [isKind, h]), rfl⟩
  refine ⟨fun _ => fits_of h (fun k h => ?_) ok rfl, hn⟩
  rcases hk with hk | hk <;> rw [hk] at h <;> cases h

theorem num_same (h : Src t) (hk : t.kind = .int ∨ t.kind = .float) (hf : Fits (.num t.str) o) : o.content = t.content := by
  have ok : (E.num t.str).ok t := ⟨hk.imp (fun h => by rw [isKind, h]) (fun h => by rw [isKind, h]), rfl⟩
  have := printed_of h (fun k h => by rcases hk with hk | hk <;> rw [hk] at h <;> cases h) ok rfl hf
  rcases this with h | ⟨h, _⟩
  · exact h
  · rw [h] at hk; simp at hk

theorem str_good (h : Src t) (hk : t.kind = .string) (hn : m = true → 10 ∉ t.str) : GoodE m (.str t.str) := by
  have ok : (E.str t.str).ok t := ⟨by rw [isKind, hk], rfl⟩
  refine ⟨fun _ => fits_of h (fun k h => by rw [hk] at h; cases h) ok rfl, fun hm => ?_⟩
  simpa [E.text] using hn hm

theorem str_same (h : Src t) (hk : t.kind = .string) (hf : Fits (.str t.str) o) : o.content = t.content := by
  have ok : (E.str t.str).ok t := ⟨by rw [isKind, hk], rfl⟩
  have := printed_of h (fun k h => by rw [hk] at h; cases h) ok rfl hf
  rcases this with h | ⟨h, _⟩
  · exact h
  · rw [h] at hk; cases hk

/-! ### Reading again -/

theorem lp_nil (h : LexedP p [] os) : os = [] := by cases h; rfl
theorem lp_sp (h : LexedP p (.sp :: us) os) : LexedP p us os := by
  cases h with
  | sp h => exact h
  | tok hf => exact absurd hf fits_sp
theorem lp_app (h : LexedP p (us ++ ws) os) : ∃ a b q, os = a ++ b ∧ LexedP p us a ∧ LexedP q ws b := by
  induction us generalizing p os with
  | nil => exact ⟨[], _, _, rfl, .nil, h⟩
  | cons u us ih =>
    rw [List.cons_append] at h
    cases h with
    | sp h => obtain ⟨a, b, q, rfl, h1, h2⟩ := ih h; exact ⟨a, b, q, rfl, .sp h1, h2⟩
    | tok hf h => obtain ⟨a, b, q, rfl, h1, h2⟩ := ih h; exact ⟨_ :: a, b, q, rfl, .tok hf h1, h2⟩
    | split c0 c1 c2 c3 c4 h => obtain ⟨a, b, q, rfl, h1, h2⟩ := ih h; exact ⟨_ :: _ :: a, b, q, rfl, .split c0 c1 c2 c3 c4 h1, h2⟩

/-- The word is a keyword. -/
def isKw (k : Str) : Bool := upper k == k && keywordList.contains k

theorem lp_kw {k : Str} (hk : isKw k = true) (h : LexedP p (.kw k :: us) os) : ∃ o os', os = o :: os' ∧ isWord o k ∧ LexedP (some o) us os' := by
  simp only [isKw, Bool.and_eq_true, beq_iff_eq, List.contains_iff_mem] at hk
  cases h with
  | tok hf h =>
    have := word_content hf (.inl ⟨_, rfl⟩) (x := k) rfl
    rw [hk.1, if_pos hk.2] at this
    obtain ⟨h1, h2, _⟩ := content_at this
    exact ⟨_, _, rfl, ⟨h1, by rw [h2, hk.1]⟩, h⟩
theorem lp_as (h : LexedP p (.as_ :: us) os) : ∃ o os', os = o :: os' ∧ isWord o b!"AS" ∧ LexedP (some o) us os' := by
  cases h with
  | tok hf h =>
    have := word_content hf (.inr (.inr (.inr rfl))) (x := b!"AS") rfl
    rw [if_pos (by decide +kernel)] at this
    obtain ⟨h1, h2, _⟩ := content_at this
    exact ⟨_, _, rfl, ⟨h1, by rw [h2]; rfl⟩, h⟩
theorem lp_raw {k : Str} (hk : isKw (upper k) = true) (h : LexedP p (.raw k :: us) os) :
    ∃ o os', os = o :: os' ∧ o.kind = .keyword ∧ o.str = k ∧ LexedP (some o) us os' := by
  simp only [isKw, Bool.and_eq_true, beq_iff_eq, List.contains_iff_mem] at hk
  cases h with
  | tok hf h =>
    have := word_content hf (.inr (.inl ⟨_, rfl⟩)) (x := k) rfl
    rw [if_pos hk.2] at this
    obtain ⟨h1, h2, _⟩ := content_at this
    exact ⟨_, _, rfl, h1, h2, h⟩
theorem lp_op {k : Str} (h : LexedP p (.op k :: us) os) : ∃ o os', os = o :: os' ∧ isSign o k ∧ o.str = k ∧ LexedP (some o) us os' := by
  cases h with
  | @tok _ _ o _ _ hf h =>
    have hc : o.content = (.op k, k, 0, 0) := by
      cases hf with
      | word _ _ _ _ hno => exact absurd rfl (hno k)
      | op2 _ _ hc => exact hc
      | op1 _ _ _ _ _ _ _ _ hc => exact hc
    obtain ⟨h1, h2, _⟩ := content_at hc
    exact ⟨_, _, rfl, h1, h2, h⟩
theorem lp_word {n : Str} {q : Nat} (h : LexedP p (.word n q :: us) os) : ∃ o os', os = o :: os' ∧ Fits (.word n q) o ∧ LexedP (some o) us os' := by
  cases h with
  | tok hf h => exact ⟨_, _, rfl, hf, h⟩
theorem lp_str {n : Str} (h : LexedP p (.str n :: us) os) : ∃ o os', os = o :: os' ∧ Fits (.str n) o ∧ LexedP (some o) us os' := by
  cases h with
  | tok hf h => exact ⟨_, _, rfl, hf, h⟩
theorem lp_num (hk : t.kind = .int ∨ t.kind = .float) (hp : isSigned t → ¬ AfterOperand p) (h : LexedP p (.num t.str :: us) os) :
    ∃ o os', os = o :: os' ∧ Fits (.num t.str) o ∧ LexedP (some o) us os' := by
  generalize hs : t.str = n at h
  cases h with
  | tok hf h => exact ⟨_, _, rfl, hf, h⟩
  | split h1 h2 => exact absurd h1 (hp ⟨hk, _, _, hs, h2⟩)

/-! ### Texts that can be formatted -/

/-- What is needed of the tokens of the source. -/
structure Fit (m : Bool) (ts : List Token) : Prop where
  src : ∀ t ∈ ts, Src t ∧ (m = true → 10 ∉ t.str)
  two : ∀ a b, [a, b] <:+: ts → isSigned b → ¬ EndsOperand a.kind
  three : PlainUsing ts

theorem Fit.infix (h : Fit m ts) (hi : os <:+: ts) : Fit m os :=
  ⟨fun t ht => h.src t (hi.subset ht), fun a b hab => h.two a b (hab.trans hi), fun a b c habc => h.three a b c (habc.trans hi)⟩
theorem Fit.left (h : Fit m (ts ++ xs)) : Fit m ts := h.infix (List.prefix_append _ _).isInfix
theorem Fit.right (h : Fit m (ts ++ xs)) : Fit m xs := h.infix (List.suffix_append _ _).isInfix
theorem Fit.tail (h : Fit m (t :: ts)) : Fit m ts := h.infix (List.suffix_cons _ _).isInfix
theorem Fit.head (h : Fit m (t :: ts)) : Src t ∧ (m = true → 10 ∉ t.str) := h.src t (by simp)

/-- A signed number at the beginning is read as one token. -/
def Free (ts : List Token) (p : Option Token) : Prop := ∀ t, ts.head? = some t → isSigned t → ¬ AfterOperand p

theorem Free.left (h : Free (ts ++ xs) p) : Free ts p := by
  intro t ht
  cases ts with
  | nil => cases ht
  | cons a ts => cases ht; exact h _ rfl
theorem Fit.free (h : Fit m (t :: ts)) (ho : o.kind = t.kind) : Free ts (some o) := by
  rintro b hb hs ⟨x, hx, hk⟩
  cases hx
  cases ts with
  | nil => cases hb
  | cons c ts =>
    cases hb
    rw [ho] at hk
    exact h.two _ _ (List.IsPrefix.isInfix ⟨ts, by simp⟩) hs hk
theorem Fit.freeW (h : Fit m (t :: ts)) {k : Str} (ht : isWord t k) {k' : Str} (ho : isWord o k') : Free ts (some o) := h.free (ho.1.trans ht.1.symm)
theorem Fit.freeS (h : Fit m (t :: ts)) {k : Str} (ht : isSign t k) (ho : isSign o k) : Free ts (some o) := h.free (Eq.trans ho (Eq.symm ht))
theorem free_nil : Free [] p := fun _ h => by cases h
theorem free_begins {ks ws : List Str} (h : ts = [] ∨ Complete.Begins ks ws ts) (hk : (!ks.contains b!"<int>" && !ks.contains b!"<float>") = true) : Free ts p := by
  rintro t ht ⟨hs, _⟩
  simp only [Bool.and_eq_true, Bool.not_eq_true', ← Bool.not_eq_true, List.contains_iff_mem] at hk
  rcases h with rfl | ⟨a, xs, rfl, h | ⟨h, _⟩⟩
  · cases ht
  · cases ht
    rcases hs with hs | hs <;> rw [hs] at h
    · exact (hk.1 h).elim
    · exact (hk.2 h).elim
  · cases ht
    rcases hs with hs | hs <;> rw [hs] at h <;> cases h
theorem free_core {c : Cat} (h : Core c ts v) (hk : (!(Complete.heads c).2.1.contains b!"<int>" && !(Complete.heads c).2.1.contains b!"<float>") = true) : Free ts p :=
  free_begins ((Complete.core_head h).imp (·.2) id) hk

/-- The first tokens are the same but for their spelling. -/
def Lead (ts os : List Token) : Prop := ∃ t o ts' os', ts = t :: ts' ∧ os = o :: os' ∧ o.kind = t.kind ∧ upper o.str = upper t.str

theorem Lead.append (h : Lead ts os) {xs ys : List Token} : Lead (ts ++ xs) (os ++ ys) := by
  obtain ⟨t, o, ts, os, rfl, rfl, h⟩ := h
  exact ⟨t, o, _, _, rfl, rfl, h⟩
theorem Lead.word {k : Str} (h : isWord t k) (h' : isWord o k) : Lead (t :: ts) (o :: os) := ⟨_, _, _, _, rfl, rfl, h'.1.trans h.1.symm, h'.2.trans h.2.symm⟩
theorem Lead.content (h : o.content = t.content) : Lead (t :: ts) (o :: os) := by
  obtain ⟨h1, h2, _⟩ := content_at h
  exact ⟨_, _, _, _, rfl, rfl, h1, by rw [h2]⟩
theorem Lead.sign {k : Str} (h : isSign t k) (h' : isSign o k) (hs : t.str = o.str) : Lead (t :: ts) (o :: os) := ⟨_, _, _, _, rfl, rfl, Eq.trans h' (Eq.symm h), by rw [hs]⟩

/-! ### What is to be shown -/

/-- The tree is printed as elements that are read as described. -/
def Claim (m : Bool) (k : K) (ts : List Token) (v : V) (P : List Token → Prop) : Prop :=
  ∃ us, Echo k v us ∧ v.plain = true ∧ Good m us ∧ ∀ p os, Free ts p → LexedP p us os → P os

/-- The same, for all parts of the core language. -/
def Goal (m : Bool) (c : Cat) (ts : List Token) (v : V) : Prop := match c with
  | .expr _ | .atom | .call | .arg => Claim m .n ts v fun os => Core c os v ∧ Lead ts os
  | .args1 => Claim m (.l comma) ts v fun os => Core c os v ∧ Lead ts os
  | .dotted => Claim m (.l [.op b!"."]) ts v fun os => Core c os v
  | .args | .items | .orderItems | .ctes | .settingItems => Claim m (.l comma) ts v fun os => Core c os v
  | .distinct => True
  | .whens => Claim m (.p [.sp]) ts v fun os => Core c os v
  | .else_ => Claim m (.o [.sp, .kw b!"ELSE", .sp]) ts v fun os => Core c os v
  | .item | .table | .aliased | .ref | .orderItem | .query | .on | .limit | .cte | .setting => Claim m .n ts v fun os => Core c os v
  | .tables => ∃ us, Echo .n v us ∧ Echo .j v (.op b!"," :: us) ∧ v.plain = true ∧ Good m us ∧ ∀ p os, Free ts p → LexedP p us os → Core c os v
  | .tail => Claim m .j ts v fun os => Core c os v ∧ (afterComma v = false → Core .join os v)
  | .join => Claim m .j ts v fun os => Core c os v
  | .joinKind => Claim m .m ts v fun os => Core c os v
  | .using_ => Claim m (.o [.sp]) ts v fun os => (v = .nil ∧ os = []) ∨ Core .on os v
  | .from_ | .prewhere | .where_ | .groupBy | .having | .orderBy | .partition | .with_ | .settings | .format => Claim m (.o [.sp]) ts v fun os => Core c os v
  | .final => True
  | .limits => ∃ y l, v = .list [y, l] ∧ ∃ us ws, Echo (.o [.sp]) y us ∧ Echo (.o [.sp]) l ws ∧ (y.plain = true ∧ l.plain = true) ∧ Good m (us ++ ws) ∧
      ∀ p os, Free ts p → LexedP p (us ++ ws) os → Core c os v
  | .compound => ∃ a d e i, v = .list [a, d, e, i] ∧ ∃ u1 u2 u3 u4, Echo (.o [.sp, .kw b!"UNION", .sp, .kw b!"ALL", .sp]) a u1 ∧
      Echo (.o [.sp, .kw b!"UNION", .sp, .kw b!"DISTINCT", .sp]) d u2 ∧ Echo (.o [.sp, .kw b!"EXCEPT", .sp]) e u3 ∧ Echo (.o [.sp, .kw b!"INTERSECT", .sp]) i u4 ∧
      ((a ≠ .nil → d = .nil ∧ e = .nil ∧ i = .nil) ∧ (d ≠ .nil → e = .nil ∧ i = .nil) ∧ (e ≠ .nil → i = .nil)) ∧
      (a.plain = true ∧ d.plain = true ∧ e.plain = true ∧ i.plain = true) ∧ Good m (u1 ++ (u2 ++ (u3 ++ u4))) ∧
      ∀ p os, Free ts p → LexedP p (u1 ++ (u2 ++ (u3 ++ u4))) os → Core c os v

theorem echo_mk (h : Echo .n v us) : ∃ t fs, v = .mk t fs := by cases h <;> exact ⟨_, _, rfl⟩
theorem echo_some (h : Echo .n v us) : v ≠ .nil := by obtain ⟨t, fs, rfl⟩ := echo_mk h; simp

/-- What is printed after a blank can be printed without it. -/
theorem unspace {P : List Token → Prop} (h : Claim m (.o [.sp]) ts v P) : Claim m (.o []) ts v P := by
  obtain ⟨us, e, pl, g, r⟩ := h
  cases e with
  | onil => exact ⟨_, .onil, pl, g, r⟩
  | osome e =>
    refine ⟨_, .osome e, pl, ?_, fun p os fr l => r p os fr (.sp l)⟩
    simp only [List.cons_append, List.nil_append, good_cons] at g
    exact g.2

theorem Echo_pcons {pre : List E} (hv : Echo .n v us) : ∀ {vs : V} {ws : List E}, Echo (.p pre) vs ws → ∀ {l}, vs = .list l → Echo (.p pre) (.list (v :: l)) (pre ++ us ++ ws) := by
  intro vs ws h
  generalize hK : K.p pre = k at h
  induction h with
  | pnil =>
    rintro l h
    cases h
    cases hK
    simpa using Echo.psnoc (pre := pre) .pnil hv
  | psnoc h1 h2 ih _ =>
    rintro l h
    cases h
    cases hK
    have := Echo.psnoc (pre := pre) (ih rfl rfl) h2
    simpa using this
  | _ => cases hK

end Verif.Again

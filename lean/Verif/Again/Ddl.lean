/-
Statements that are no queries are printed and read again.  No definition here is part of the model.
-/
import Verif.Again.Say

namespace Verif.Again
open Verif.Spec Verif.Echo

/-! ### What is to be shown -/

/-- The elements can be printed in this order. -/
def GS : K → List E → Prop
  | .o _, us => Inv cl us
  | _, us => Inv hd us

/-- The tree is printed as elements that are read as described. -/
def Say (m : Bool) (k : K) (ts : List Token) (v : V) (P : List Token → Prop) : Prop :=
  ∃ us, PK m k v us ∧ (∀ τ, v.hasTy noReq τ = true → GS k us) ∧ NoPosReader v ∧ Good m us ∧ ∀ p os, Free ts p → LexedP p us os → P os

theorem say_of {m : Bool} {ts : List Token} {v : V} {P : List Token → Prop} (h : Claim m .n ts v P) : Say m .n ts v P := by
  obtain ⟨us, e, pl, g, r⟩ := h
  exact ⟨us, print m e, fun τ hτ => glue e (glued_of v τ hτ pl), plain_noPosReader pl, g, r⟩
theorem say_list {m : Bool} {ts : List Token} {v : V} {P : List Token → Prop} (h : Claim m (.l comma) ts v P) : Say m (.l comma) ts v P := by
  obtain ⟨us, e, pl, g, r⟩ := h
  exact ⟨us, print m e, fun τ hτ => glue e (glued_of v τ hτ pl) rfl, plain_noPosReader pl, g, r⟩

variable {m b f : Bool} {us ws : List E} {os ts xs is cs bs : List Token} {t o n c k d e : Token} {v w i x y : V} {vs : List V} {p : Option Token} {s : Str}

theorem npr_nil : NoPosReader .nil := fun x hx => by simp [V.structs, V.nodes] at hx
theorem npr_nat {n : Nat} : NoPosReader (.nat n) := fun x hx => by simp [V.structs, V.nodes] at hx
theorem npr_str : NoPosReader (.str s) := fun x hx => by simp [V.structs, V.nodes] at hx
theorem npr_bool : NoPosReader (.bool b) := fun x hx => by simp [V.structs, V.nodes] at hx
theorem npr_nodes {l : List V} (h : ∀ y ∈ l, NoPosReader y) : ∀ x ∈ V.nodesL (fun _ => true) l, ∀ t, x.ty? = some t → t ∉ posReaders := by
  induction l with
  | nil => intro x hx; simp [V.nodesL] at hx
  | cons y l ih =>
    intro x hx
    simp only [V.nodesL, List.mem_append] at hx
    exact hx.elim (h y List.mem_cons_self x) (ih (fun z hz => h z (List.mem_cons_of_mem _ hz)) x)
theorem npr_list {l : List V} (h : ∀ y ∈ l, NoPosReader y) : NoPosReader (.list l) := fun x hx => npr_nodes h x hx
theorem npr_items {l : List V} (h : NoPosReader (.list l)) : ∀ x ∈ V.nodesL (fun _ => true) l, ∀ t, x.ty? = some t → t ∉ posReaders := h
theorem npr_cons {l : List V} (hv : NoPosReader v) (h : NoPosReader (.list l)) : NoPosReader (.list (v :: l)) := by
  intro x hx
  simp only [V.structs, V.nodes, V.nodesL, List.mem_append] at hx
  exact hx.elim (hv x) (h x)
theorem npr_mk {T : Ty} {fs : List V} (ht : T ∉ posReaders) (h : ∀ y ∈ fs, NoPosReader y) : NoPosReader (.mk T fs) := by
  intro x hx
  simp only [V.structs, V.nodes, if_true, List.mem_cons] at hx
  rcases hx with rfl | hx
  · intro t ht'; cases ht'; exact ht
  · exact npr_nodes h x hx

theorem tys_mk {T : Ty} {fs : List V} {τ : FTy} (h : (V.mk T fs).hasTy noReq τ = true) : V.fieldsTy noReq fs (schema T) = true := by
  simp only [V.hasTy, Bool.and_eq_true] at h
  exact h.2.1

/-- The types of the parts. -/
macro "tys" h:ident : tactic => `(tactic| (
  replace $h:ident := tys_mk $h:ident
  simp only [schema, V.fieldsTy, Bool.and_eq_true] at $h:ident
  casesm* _ ∧ _))
/-- No part looks at positions. -/
macro "npr" : tactic => `(tactic| exact npr_mk (by decide) (by simp [npr_nil, npr_nat, npr_str, npr_bool, *]))

theorem good_opt (h : Good m us) : Good m (opt b us) := by cases b <;> simp [opt, good_nil, h]
/-- The texts of `DROP`. -/
def mods : List Str := [b!"", b!"SYNC", b!"NO DELAY"]
theorem good_mod (h : s ∈ mods) : Good m (modE s) := by
  simp only [mods, List.mem_cons, List.not_mem_nil, or_false] at h
  rcases h with rfl | rfl | rfl
  · exact good_nil.2 trivial
  · show Good m [.sp, .kw b!"SYNC"]; good
  · show Good m [.sp, .kw b!"NO", .sp, .kw b!"DELAY"]; good
macro "dgood" : tactic => `(tactic| (
  simp only [good_append, good_cons, good_nil, good_sp, good_as, and_true, true_and]
  all_goals (repeat' apply And.intro)
  all_goals first
    | assumption
    | exact (good_letters rfl).1
    | exact good_signs (by decide)
    | exact good_opt (by good)
    | exact good_mod (by assumption)
    | exact True.intro))

theorem inv_mod (h : s ∈ mods) : Inv cl (modE s) := by
  simp only [mods, List.mem_cons, List.not_mem_nil, or_false] at h
  rcases h with rfl | rfl | rfl
  · exact .nil
  · show Inv cl [.sp, .kw b!"SYNC"]; inv
  · show Inv cl [.sp, .kw b!"NO", .sp, .kw b!"DELAY"]; inv
theorem mods_line (h : s ∈ mods) : s.contains 10 = false := by
  simp only [mods, List.mem_cons, List.not_mem_nil, or_false] at h
  rcases h with rfl | rfl | rfl <;> rfl

/-! ### Reading -/

theorem lp_opt (h : LexedP p (opt b us ++ ws) os) : (b = false ∧ LexedP p ws os) ∨ (b = true ∧ LexedP p (us ++ ws) os) := by
  cases b
  · exact .inl ⟨rfl, h⟩
  · exact .inr ⟨rfl, h⟩
theorem lp_temporary (h : LexedP p (opt b [.kw b!"TEMPORARY", .sp] ++ ws) os) : ∃ a c q, os = a ++ c ∧ Piece .temporary a (.bool b) ∧ LexedP q ws c := by
  rcases lp_opt h with ⟨rfl, l⟩ | ⟨rfl, l⟩
  · exact ⟨[], _, _, rfl, .temporaryNo, l⟩
  · flat l
    obtain ⟨k, os, rfl, hk, l⟩ := lp_kw kw l
    exact ⟨[k], _, _, rfl, .temporaryYes hk, lp_sp l⟩
theorem lp_exists (h : LexedP p (opt b [.kw b!"IF", .sp, .kw b!"EXISTS", .sp] ++ ws) os) : ∃ a c q, os = a ++ c ∧ Piece .ifExists a (.bool b) ∧ LexedP q ws c := by
  rcases lp_opt h with ⟨rfl, l⟩ | ⟨rfl, l⟩
  · exact ⟨[], _, _, rfl, .existsNo, l⟩
  · flat l
    obtain ⟨k, os, rfl, hk, l⟩ := lp_kw kw l
    obtain ⟨k', os, rfl, hk', l⟩ := lp_kw kw (lp_sp l)
    exact ⟨[k, k'], _, _, rfl, .existsYes hk hk', lp_sp l⟩
theorem lp_tableWord (h : LexedP p (opt b [.kw b!"TABLE", .sp] ++ ws) os) :
    ∃ a c q, os = a ++ c ∧ (a = [] ∧ b = false ∨ ∃ w, a = [w] ∧ isWord w b!"TABLE" ∧ b = true) ∧ LexedP q ws c := by
  rcases lp_opt h with ⟨rfl, l⟩ | ⟨rfl, l⟩
  · exact ⟨[], _, _, rfl, .inl ⟨rfl, rfl⟩, l⟩
  · flat l
    obtain ⟨k, os, rfl, hk, l⟩ := lp_kw kw l
    exact ⟨[k], _, _, rfl, .inr ⟨k, rfl, hk, rfl⟩, lp_sp l⟩
theorem lp_final (h : LexedP p (opt b [.sp, .kw b!"FINAL"]) os) : Piece .final os (.bool b) := by
  cases b
  · cases lp_nil (show LexedP p [] os from h); exact .finalNo
  · obtain ⟨k, os, rfl, hk, l⟩ := lp_kw kw (lp_sp h)
    cases lp_nil l
    exact .finalYes hk
theorem lp_mod (hs : s ∈ mods) (h : LexedP p (modE s) os) : Piece .modifier os (.str s) := by
  simp only [mods, List.mem_cons, List.not_mem_nil, or_false] at hs
  rcases hs with rfl | rfl | rfl
  · cases lp_nil (show LexedP p [] os from h); exact .modifierNo
  · obtain ⟨k, os, rfl, hk, l⟩ := lp_kw (k := b!"SYNC") kw (lp_sp h)
    cases lp_nil l
    exact .sync hk
  · obtain ⟨k, os, rfl, hk, l⟩ := lp_kw (k := b!"NO") kw (lp_sp h)
    obtain ⟨k', os, rfl, hk', l⟩ := lp_kw (k := b!"DELAY") kw (lp_sp l)
    cases lp_nil l
    exact .noDelay hk hk'
theorem mods_of (h : Piece .modifier ts (.str s)) : s ∈ mods := by cases h <;> decide

theorem free_head (h : ∀ t, ts.head? = some t → t.kind ≠ .int ∧ t.kind ≠ .float) : Free ts p := fun t ht hs => absurd hs.1 (by have := h t ht; simp [this])
theorem free_id (h : Piece .id ts v) : Free ts p := by
  refine free_head fun t ht => ?_
  cases h <;> cases ht <;> simp_all [isPlainName]
theorem free_cluster (h : Piece .cluster ts v) : Free ts p := by
  refine free_head fun t ht => ?_
  cases h <;> cases ht <;> simp_all [isWord]
theorem free_word {k' : Str} (h : isWord k k') : Free (k :: ts) p := by
  refine free_head fun t ht => ?_
  cases ht; simp [h.1]

/-! ### Parts -/

theorem say_name (hf : Fit m [t]) (ht : isPlainName t) : Say m .n [t] (Spec.name t) (fun os => ∃ o, os = [o] ∧ isPlainName o ∧ Spec.name o = Spec.name t) := by
  obtain ⟨e, pl, g, _⟩ := name_print hf.head (.inl ht)
  refine say_of ⟨_, e, pl, by good, fun p os _ l => ?_⟩
  obtain ⟨o, os, rfl, ho, l⟩ := lp_word l
  cases lp_nil l
  have hc := name_same hf.head.1 (.inl ht) ho
  exact ⟨o, rfl, plainName_eq hc ht, name_eq hc⟩
theorem id_of (h : Core .table ts v) (ht : v.ty? = some .TableIdentifier) : Piece .id ts v := by
  cases h with
  | tableName h => exact .idName h
  | tableOf h1 h2 h3 => exact .idOf h1 h2 h3
  | tableQuery => cases ht
theorem say_id (h : Piece .id ts v) (hf : Fit m ts) : Say m .n ts v (fun os => Piece .id os v) := by
  cases h with
  | idName h =>
    obtain ⟨us, e, i, n, g, r⟩ := say_of (r_tableName hf h)
    exact ⟨us, e, i, n, g, fun p os fr l => id_of (r p os fr l) rfl⟩
  | idOf h1 h2 h3 =>
    obtain ⟨us, e, i, n, g, r⟩ := say_of (r_tableOf hf h1 h3)
    exact ⟨us, e, i, n, g, fun p os fr l => id_of (r p os fr l) rfl⟩
theorem say_text (hf : Fit m [t]) (ht : t.kind = .string) : Say m .n [t] (text t) (fun os => ∃ o, os = [o] ∧ o.kind = .string ∧ text o = text t) := by
  have g := str_good hf.head.1 ht hf.head.2
  refine say_of ⟨_, .str, rfl, by good, fun p os _ l => ?_⟩
  obtain ⟨o, os, rfl, ho, l⟩ := lp_str l
  cases lp_nil l
  obtain ⟨h1, h2, _⟩ := content_at (str_same hf.head.1 ht ho)
  exact ⟨o, rfl, by rw [h1]; exact ht, by simp only [text, h2]⟩
theorem say_cluster (h : Piece .cluster ts v) (hf : Fit m ts) : Say m (.o [.sp]) ts v (fun os => Piece .cluster os v) := by
  cases h with
  | clusterNo => exact ⟨[], .inl ⟨rfl, rfl⟩, fun _ _ => .nil, npr_nil, good_nil.2 trivial, fun p os _ l => by cases lp_nil l; exact .clusterNo⟩
  | clusterName h1 h2 h3 =>
    obtain ⟨us, e, i, n, g, r⟩ := say_name hf.tail.tail h3
    refine ⟨_, .inr ⟨_, rfl, d_cluster e⟩, fun τ hτ => ?_, by npr, by dgood, fun p os _ l => ?_⟩
    · tys hτ
      have i : Inv hd us := i _ (by assumption)
      show Inv cl _
      inv
    · flat l
      obtain ⟨k, os, rfl, hk, l⟩ := lp_kw kw (lp_sp l)
      obtain ⟨k', os, rfl, hk', l⟩ := lp_kw kw (lp_sp l)
      obtain ⟨o, rfl, ho, hn⟩ := r _ _ (free_head (by simp [show _ = Kind.ident from h3])) (lp_sp l)
      exact hn ▸ .clusterName hk hk' ho
  | clusterText h1 h2 h3 =>
    obtain ⟨us, e, i, n, g, r⟩ := say_text hf.tail.tail h3
    refine ⟨_, .inr ⟨_, rfl, d_cluster e⟩, fun τ hτ => ?_, by npr, by dgood, fun p os _ l => ?_⟩
    · tys hτ
      have i : Inv hd us := i _ (by assumption)
      show Inv cl _
      inv
    · flat l
      obtain ⟨k, os, rfl, hk, l⟩ := lp_kw kw (lp_sp l)
      obtain ⟨k', os, rfl, hk', l⟩ := lp_kw kw (lp_sp l)
      obtain ⟨o, rfl, ho, hn⟩ := r _ _ (free_head (by simp [h3])) (lp_sp l)
      exact hn ▸ .clusterText hk hk' ho

/-- A statement that is printed and read again. -/
abbrev St (m : Bool) (ts : List Token) (v : V) : Prop := Say m .n ts v fun os => Statement os v

theorem s_use (hf : Fit m [k, t]) (h3 : isPlainName t) : St m [k, t] (N.UseStmt (database := Spec.name t)) := by
  obtain ⟨us, e, i, n, g, r⟩ := say_name hf.tail h3
  refine ⟨_, d_use e, fun τ hτ => ?_, by npr, by dgood, fun p os _ l => ?_⟩
  · tys hτ
    have i : Inv hd us := i _ (by assumption)
    show Inv hd _
    inv
  · flat l
    obtain ⟨k, os, rfl, hk, l⟩ := lp_kw kw l
    obtain ⟨o, rfl, ho, hn⟩ := r _ _ (free_head (by simp [show _ = Kind.ident from h3])) (lp_sp l)
    exact hn ▸ .use hk ho
theorem s_set (hf : Fit m (k :: ts)) (hk : isWord k b!"SET") (h : Li m .settingItems ts v) : St m (k :: ts) (N.SetStmt (settings := N.SettingsClause (items := v))) := by
  obtain ⟨us, e, i, n, g, r⟩ := say_list h
  refine ⟨_, d_set e, fun τ hτ => ?_, npr_mk (by decide) ?_, by dgood, fun p os _ l => ?_⟩
  · tys hτ
    have h := tys_mk (T := .SettingsClause) (by assumption)
    simp only [schema, V.fieldsTy, Bool.and_eq_true] at h
    casesm* _ ∧ _
    have i : Inv hd us := i _ (by assumption)
    show Inv hd _
    inv
  · have : NoPosReader (N.SettingsClause (items := v)) := by npr
    simp [npr_nat, this]
  · flat l
    obtain ⟨k', os, rfl, hk', l⟩ := lp_kw kw l
    exact .set hk' (r _ _ (hf.freeW hk hk') (lp_sp l))
theorem s_check (hf : Fit m (k :: d :: ts)) (h : Piece .id ts v) : St m (k :: d :: ts) (N.CheckStmt (table := v)) := by
  obtain ⟨us, e, i, n, g, r⟩ := say_id h hf.tail.tail
  refine ⟨_, d_check e, fun τ hτ => ?_, by npr, by dgood, fun p os _ l => ?_⟩
  · tys hτ
    have i : Inv hd us := i _ (by assumption)
    show Inv hd _
    inv
  · flat l
    obtain ⟨k', os, rfl, hk', l⟩ := lp_kw kw l
    obtain ⟨d', os, rfl, hd', l⟩ := lp_kw kw (lp_sp l)
    exact .check hk' hd' (r _ _ (free_id h) (lp_sp l))
theorem s_optimize (hf : Fit m (k :: d :: (ts ++ (xs ++ os)))) (h : Piece .id ts v) (h' : Piece .cluster xs w) :
    St m (k :: d :: (ts ++ (xs ++ os))) (N.OptimizeStmt (table := v) (onCluster := w) (hasFinal := b)) := by
  obtain ⟨us, e, i, n, g, r⟩ := say_id h hf.tail.tail.left
  obtain ⟨ws, e', i', n', g', r'⟩ := say_cluster h' hf.tail.tail.right.left
  refine ⟨_, d_optimize e e', fun τ hτ => ?_, by npr, by dgood, fun p os _ l => ?_⟩
  · tys hτ
    have i : Inv hd us := i _ (by assumption)
    have i' : Inv cl ws := i' _ (by assumption)
    show Inv hd _
    cases b <;> simp only [opt, if_true, Bool.false_eq_true, if_false] <;> inv
  · flat l
    obtain ⟨k', os, rfl, hk', l⟩ := lp_kw kw l
    obtain ⟨d', os, rfl, hd', l⟩ := lp_kw kw (lp_sp l)
    obtain ⟨a, b, _, rfl, l1, l⟩ := lp_app (lp_sp l)
    obtain ⟨a', b, _, rfl, l2, l⟩ := lp_app l
    exact .optimize hk' hd' (r _ _ (free_id h) l1) (r' _ _ (free_cluster h') l2) (lp_final l)
theorem s_dropDatabase (hf : Fit m (k :: d :: (bs ++ t :: (xs ++ os)))) (ht : isPlainName t) (h' : Piece .cluster xs w) (hs : s ∈ mods) :
    St m (k :: d :: (bs ++ t :: (xs ++ os))) (N.DropDatabase (name := Spec.name t) (ifExists := b) (onCluster := w) (modifier := s)) := by
  obtain ⟨us, e, i, n, g, r⟩ := say_name (hf.tail.tail.right.infix ⟨[], xs ++ os, rfl⟩) ht
  obtain ⟨ws, e', i', n', g', r'⟩ := say_cluster h' hf.tail.tail.right.tail.left
  refine ⟨_, d_dropDatabase e e' (mods_line hs), fun τ hτ => ?_, by npr, by dgood, fun p os _ l => ?_⟩
  · tys hτ
    have i : Inv hd us := i _ (by assumption)
    have i' : Inv cl ws := i' _ (by assumption)
    have i2 := inv_mod hs
    show Inv hd _
    cases b <;> simp only [opt, if_true, Bool.false_eq_true, if_false] <;> inv
  · flat l
    obtain ⟨k', os, rfl, hk', l⟩ := lp_kw kw l
    obtain ⟨d', os, rfl, hd', l⟩ := lp_kw kw (lp_sp l)
    obtain ⟨a2, b, _, rfl, l2, l⟩ := lp_exists (lp_sp l)
    obtain ⟨a, b, _, rfl, l1, l⟩ := lp_app l
    obtain ⟨a', b, _, rfl, l3, l9⟩ := lp_app l
    obtain ⟨o, rfl, ho, hn⟩ := r _ _ (free_head (by simp [show _ = Kind.ident from ht])) l1
    have := Statement.dropDatabase (cs := a') (ms := b) hk' hd' l2 ho (r' _ _ (free_cluster h') l3) (lp_mod hs l9)
    rw [hn] at this
    exact this
theorem s_drop {ds ms : List Token} {x : Str} (hx : x = b!"TABLE" ∨ f = false ∧ (x = b!"VIEW" ∨ x = b!"DICTIONARY")) (hf : Fit m (k :: (ds ++ d :: (bs ++ (is ++ (cs ++ ms))))))
    (h : Piece .id is i) (h' : Piece .cluster cs w) (hs : s ∈ mods) :
    St m (k :: (ds ++ d :: (bs ++ (is ++ (cs ++ ms))))) (N.DropStmt (dropTarget := x) (name := i) (ifExists := b) (onCluster := w) (isTemporary := f) (modifier := s)) := by
  obtain ⟨us, e, i, n, g, r⟩ := say_id h hf.tail.right.tail.right.left
  obtain ⟨ws, e', i', n', g', r'⟩ := say_cluster h' hf.tail.right.tail.right.right.left
  have hk : letters x = true ∧ isKw x = true := by rcases hx with rfl | ⟨_, rfl | rfl⟩ <;> decide +kernel
  have gx := (good_letters (m := m) hk.1).1
  refine ⟨_, d_drop textOf_kw e e' (mods_line hs), fun τ hτ => ?_, by npr, by dgood, fun p os _ l => ?_⟩
  · tys hτ
    have i : Inv hd us := i _ (by assumption)
    have i' : Inv cl ws := i' _ (by assumption)
    have i2 := inv_mod hs
    show Inv hd _
    cases b <;> cases f <;> simp only [opt, if_true, Bool.false_eq_true, if_false] <;> inv
  · flat l
    obtain ⟨k', os, rfl, hk', l⟩ := lp_kw kw l
    obtain ⟨a3, b, _, rfl, l4, l⟩ := lp_temporary (lp_sp l)
    obtain ⟨d', os, rfl, hd', l⟩ := lp_kw hk.2 l
    obtain ⟨a2, b, _, rfl, l2, l⟩ := lp_exists (lp_sp l)
    obtain ⟨a, b, _, rfl, l1, l⟩ := lp_app l
    obtain ⟨a', b, _, rfl, l3, l9⟩ := lp_app l
    rcases hx with rfl | ⟨rfl, hx⟩
    · exact .dropTable hk' l4 hd' l2 (r _ _ (free_id h) l1) (r' _ _ (free_cluster h') l3) (lp_mod hs l9)
    · cases l4
      exact .dropOther hk' hx hd' l2 (r _ _ (free_id h) l1) (r' _ _ (free_cluster h') l3) (lp_mod hs l9)
theorem s_truncate {ds : List Token} (hf : Fit m (k :: (ds ++ d :: (bs ++ (is ++ cs))))) (h : Piece .id is i) (h' : Piece .cluster cs w) :
    St m (k :: (ds ++ d :: (bs ++ (is ++ cs)))) (N.TruncateTable (isTemporary := f) (ifExists := b) (name := i) (onCluster := w)) := by
  obtain ⟨us, e, i, n, g, r⟩ := say_id h hf.tail.right.tail.right.left
  obtain ⟨ws, e', i', n', g', r'⟩ := say_cluster h' hf.tail.right.tail.right.right
  refine ⟨_, d_truncate e e', fun τ hτ => ?_, by npr, by dgood, fun p os _ l => ?_⟩
  · tys hτ
    have i : Inv hd us := i _ (by assumption)
    have i' : Inv cl ws := i' _ (by assumption)
    show Inv hd _
    cases b <;> cases f <;> simp only [opt, if_true, Bool.false_eq_true, if_false] <;> inv
  · flat l
    obtain ⟨k', os, rfl, hk', l⟩ := lp_kw kw l
    obtain ⟨a3, b, _, rfl, l4, l⟩ := lp_temporary (lp_sp l)
    obtain ⟨d', os, rfl, hd', l⟩ := lp_kw kw l
    obtain ⟨a2, b, _, rfl, l2, l⟩ := lp_exists (lp_sp l)
    obtain ⟨a, b, _, rfl, l1, l⟩ := lp_app l
    exact .truncate hk' l4 hd' l2 (r _ _ (free_id h) l1) (r' _ _ (free_cluster h') l)
theorem s_delete (hf : Fit m (k :: d :: (is ++ (cs ++ n :: ts)))) (hn : isWord n b!"WHERE") (h : Piece .id is i) (h' : Piece .cluster cs w) (h2 : Ex m (.expr 0) ts v) :
    St m (k :: d :: (is ++ (cs ++ n :: ts))) (N.DeleteClause (table := i) (onCluster := w) (whereExpr := v)) := by
  obtain ⟨us, e, i, n, g, r⟩ := say_id h hf.tail.tail.left
  obtain ⟨ws, e', i', n', g', r'⟩ := say_cluster h' hf.tail.tail.right.left
  obtain ⟨xs, e2, i2, n2, g2, r2⟩ := say_of h2
  refine ⟨_, d_delete e e' e2, fun τ hτ => ?_, by npr, by dgood, fun p os _ l => ?_⟩
  · tys hτ
    have i : Inv hd us := i _ (by assumption)
    have i' : Inv cl ws := i' _ (by assumption)
    have i2 : Inv hd xs := i2 _ (by assumption)
    show Inv hd _
    inv
  · flat l
    obtain ⟨k', os, rfl, hk', l⟩ := lp_kw kw l
    obtain ⟨d', os, rfl, hd', l⟩ := lp_kw kw (lp_sp l)
    obtain ⟨a, b, _, rfl, l1, l⟩ := lp_app (lp_sp l)
    obtain ⟨a', b, _, rfl, l2, l⟩ := lp_app l
    obtain ⟨n', os, rfl, hn', l⟩ := lp_kw kw (lp_sp l)
    exact .delete hk' hd' (r _ _ (free_id h) l1) (r' _ _ (free_cluster h') l2) hn' (r2 _ _ (hf.tail.tail.right.right.freeW hn hn') (lp_sp l)).1
theorem s_explain (hf : Fit m (k :: t :: ts)) (ht : t.kind = .keyword) (hu : upper t.str ∈ [b!"SYNTAX", b!"PIPELINE", b!"ESTIMATE", b!"AST"]) (hq : Core .query ts v)
    (h : No m .query ts v) : St m (k :: t :: ts) (N.ExplainStmt (type_ := t.str) (statement := v)) := by
  obtain ⟨us, e, i, n, g, r⟩ := say_of h
  have gt := raw_good hf.tail.head.1 ht hf.tail.head.2
  have hw : isKw (upper t.str) = true := by
    simp only [List.mem_cons, List.not_mem_nil, or_false] at hu
    rcases hu with hu | hu | hu | hu <;> (rw [hu]; decide +kernel)
  refine ⟨_, d_explain textOf_raw e, fun τ hτ => ?_, by npr, by dgood, fun p os _ l => ?_⟩
  · tys hτ
    have i : Inv hd us := i _ (by assumption)
    show Inv hd _
    inv
  · flat l
    obtain ⟨k', os, rfl, hk', l⟩ := lp_kw kw l
    obtain ⟨t', os, rfl, h1, h2, l⟩ := lp_raw hw (lp_sp l)
    exact h2 ▸ .explain hk' h1 (by rw [h2]; exact hu) (r _ _ (free_core hq rfl) (lp_sp l))
theorem s_showCreate (hf : Fit m (k :: c :: t :: ts)) (h : Piece .id ts v) : St m (k :: c :: t :: ts) (N.ShowStmt (showType := b!"CREATE TABLE") (target := v)) := by
  obtain ⟨us, e, i, n, g, r⟩ := say_id h hf.tail.tail.tail
  have hx : TextOf m [.kw b!"CREATE", .sp, .kw b!"TABLE"] b!"CREATE TABLE" := by
    have := textOf_toks (m := m) (x := b!"CREATE TABLE") rfl
    rwa [show toks [] b!"CREATE TABLE" = [.kw b!"CREATE", .sp, .kw b!"TABLE"] from rfl] at this
  refine ⟨_, d_showOf hx e, fun τ hτ => ?_, by npr, by dgood, fun p os _ l => ?_⟩
  · tys hτ
    have i : Inv hd us := i _ (by assumption)
    show Inv hd _
    inv
  · flat l
    obtain ⟨k', os, rfl, hk', l⟩ := lp_kw kw l
    obtain ⟨c', os, rfl, hc', l⟩ := lp_kw kw (lp_sp l)
    obtain ⟨t', os, rfl, ht', l⟩ := lp_kw kw (lp_sp l)
    exact .showCreate hk' hc' ht' (r _ _ (free_id h) (lp_sp l))
theorem s_showDatabases : St m ts (N.ShowStmt (showType := b!"DATABASES")) := by
  refine ⟨_, d_show textOf_kw, fun τ hτ => ?_, by npr, by dgood, fun p os _ l => ?_⟩
  · show Inv hd _
    inv
  · flat l
    obtain ⟨k', os, rfl, hk', l⟩ := lp_kw kw l
    obtain ⟨c', os, rfl, hc', l⟩ := lp_kw kw (lp_sp l)
    cases lp_nil l
    exact .showDatabases hk' hc'
theorem s_showTables : St m ts (N.ShowStmt (showType := b!"TABLES")) := by
  refine ⟨_, d_show textOf_kw, fun τ hτ => ?_, by npr, by dgood, fun p os _ l => ?_⟩
  · show Inv hd _
    inv
  · flat l
    obtain ⟨k', os, rfl, hk', l⟩ := lp_kw kw l
    obtain ⟨c', os, rfl, hc', l⟩ := lp_kw kw (lp_sp l)
    cases lp_nil l
    exact .showTables hk' hc'
theorem s_describe (hf : Fit m (k :: ts)) (h : Piece .id ts v) : St m (k :: ts) (N.DescribeStmt (target := v)) := by
  obtain ⟨us, e, i, n, g, r⟩ := say_id h hf.tail
  refine ⟨_, d_describe e, fun τ hτ => ?_, by npr, by dgood, fun p os _ l => ?_⟩
  · tys hτ
    have i : Inv hd us := i _ (by assumption)
    show Inv hd _
    inv
  · flat l
    obtain ⟨k', os, rfl, hk', l⟩ := lp_kw kw l
    exact .describe (.inr hk') (r _ _ (free_id h) (lp_sp l))
theorem s_describeTable (hf : Fit m (k :: t :: ts)) (h : Piece .id ts v) : St m (k :: t :: ts) (N.DescribeStmt (describeType := b!"TABLE") (target := v)) := by
  obtain ⟨us, e, i, n, g, r⟩ := say_id h hf.tail.tail
  refine ⟨_, d_describeOf textOf_kw (by simp) e, fun τ hτ => ?_, by npr, by dgood, fun p os _ l => ?_⟩
  · tys hτ
    have i : Inv hd us := i _ (by assumption)
    show Inv hd _
    inv
  · flat l
    obtain ⟨k', os, rfl, hk', l⟩ := lp_kw kw l
    obtain ⟨t', os, rfl, ht', l⟩ := lp_kw kw (lp_sp l)
    exact .describeTable (.inr hk') ht' (r _ _ (free_id h) (lp_sp l))

end Verif.Again

/-
Grouped expressions with the same items are the same.
-/
import Verif.Spec.Items
import Verif.Group.Sound

namespace Verif.Group
open Verif.Spec

/-! ### Trees of items -/

/-- The left powers of a tree. -/
def lpow : Tree → List Nat
  | .binary _ p _ l _ | .postfix _ p l => p :: lpow l
  | _ => []

/-- The right powers of a tree. -/
def rpow : Tree → List Nat
  | .binary _ _ q _ r | .prefix _ q r => q :: rpow r
  | _ => []

/-- A grouped tree. -/
def ok : Tree → Prop
  | .operand _ => True
  | .binary _ p q l r => (∀ x ∈ rpow l, p ≤ x) ∧ (∀ x ∈ lpow r, q < x) ∧ ok l ∧ ok r
  | .prefix _ q r => (∀ x ∈ lpow r, q < x) ∧ ok r
  | .postfix _ p l => (∀ x ∈ rpow l, p ≤ x) ∧ ok l

/-- Reading an expression whose operators hold at least `m` (`none`), or reading on after an expression. -/
inductive Read : Option Tree → Nat → List Item → Tree → List Item → Prop
  | operand {m v is t js} : Read (some (.operand v)) m is t js → Read none m (.operand v :: is) t js
  | prefix {m a q is r js t ks} : Read none (q + 1) is r js → Read (some (.prefix a q r)) m js t ks → Read none m (.prefix a q :: is) t ks
  | done {m e} : Read (some e) m [] e []
  | binaryStop {m e a p q is} : p < m → Read (some e) m (.binary a p q :: is) e (.binary a p q :: is)
  | postfixStop {m e a p is} : p < m → Read (some e) m (.postfix a p :: is) e (.postfix a p :: is)
  | binary {m e a p q is r js t ks} : m ≤ p → Read none (q + 1) is r js → Read (some (.binary a p q e r)) m js t ks →
    Read (some e) m (.binary a p q :: is) t ks
  | postfix {m e a p is t ks} : m ≤ p → Read (some (.postfix a p e)) m is t ks → Read (some e) m (.postfix a p :: is) t ks

theorem Read.unique {o : Option Tree} {m : Nat} {is : List Item} {t : Tree} {js : List Item} (h : Read o m is t js) :
    ∀ {t' : Tree} {js' : List Item}, Read o m is t' js' → t = t' ∧ js = js' := by
  induction h with
  | operand _ ih => intro t' js' h'; cases h' with | operand h' => exact ih h'
  | «prefix» _ _ ih1 ih2 =>
    intro t' js' h'
    cases h' with | «prefix» h1' h2' =>
    obtain ⟨rfl, rfl⟩ := ih1 h1'
    exact ih2 h2'
  | done => intro t' js' h'; cases h'; exact ⟨rfl, rfl⟩
  | binaryStop hp =>
    intro t' js' h'
    cases h' with
    | binaryStop => exact ⟨rfl, rfl⟩
    | binary hp' => omega
  | postfixStop hp =>
    intro t' js' h'
    cases h' with
    | postfixStop => exact ⟨rfl, rfl⟩
    | «postfix» hp' => omega
  | binary hp _ _ ih1 ih2 =>
    intro t' js' h'
    cases h' with
    | binaryStop => omega
    | binary _ h1' h2' =>
      obtain ⟨rfl, rfl⟩ := ih1 h1'
      exact ih2 h2'
  | «postfix» hp _ ih =>
    intro t' js' h'
    cases h' with
    | postfixStop => omega
    | «postfix» _ h1' => exact ih h1'

/-- The next operator holds no more than `m`. -/
def Weak (m : Nat) : List Item → Prop
  | [] => True
  | .binary _ p _ :: _ | .postfix _ p :: _ => p ≤ m
  | _ => False

theorem Weak.stop {m : Nat} {is : List Item} (h : Weak m is) (e : Tree) : Read (some e) (m + 1) is e is := by
  cases is with
  | nil => exact .done
  | cons i is => cases i <;> simp only [Weak] at h <;> first | exact .binaryStop (by omega) | exact .postfixStop (by omega)

/-- Reading the items of a grouped tree gives the tree. -/
theorem read (t : Tree) (ht : ok t) : ∀ (m : Nat) (rest : List Item) (u : Tree) (js : List Item), (∀ x ∈ lpow t, m ≤ x) → (∀ x ∈ rpow t, Weak x rest) →
    Read (some t) m rest u js → Read none m (t.items ++ rest) u js := by
  induction t with
  | operand v => intro m rest u js _ _ h; exact .operand h
  | binary a p q l r ihl ihr =>
    intro m rest u js h1 h2 h
    simp only [ok] at ht
    simp only [lpow, rpow, List.mem_cons, forall_eq_or_imp] at h1 h2
    simp only [Tree.items, List.append_assoc, List.cons_append]
    exact ihl ht.2.2.1 m _ u js h1.2 ht.1 (.binary h1.1 (ihr ht.2.2.2 (q + 1) rest r rest ht.2.1 h2.2 (h2.1.stop r)) h)
  | «prefix» a q r ihr =>
    intro m rest u js h1 h2 h
    simp only [ok] at ht
    simp only [rpow, List.mem_cons, forall_eq_or_imp] at h2
    simp only [Tree.items, List.cons_append]
    exact .prefix (ihr ht.2 (q + 1) rest r rest ht.1 h2.2 (h2.1.stop r)) h
  | «postfix» a p l ihl =>
    intro m rest u js h1 h2 h
    simp only [ok] at ht
    simp only [lpow, List.mem_cons, forall_eq_or_imp] at h1
    simp only [Tree.items, List.append_assoc, List.cons_append, List.nil_append]
    exact ihl ht.2 m _ u js h1.2 ht.1 (.postfix h1.1 h)

theorem tree_unique {t u : Tree} (ht : ok t) (hu : ok u) (h : t.items = u.items) : t = u := by
  have e1 := read t ht 0 [] t [] (fun _ _ => Nat.zero_le _) (fun _ _ => trivial) .done
  have e2 := read u hu 0 [] u [] (fun _ _ => Nat.zero_le _) (fun _ _ => trivial) .done
  rw [h] at e1
  exact (e1.unique e2).1

/-! ### Expressions -/

/-- The expression of a tree. -/
def back : Tree → V
  | .operand v => v
  | .binary (.mk t fs) _ _ l r => .mk t (if t = .TernaryOperation then [back l, fs[1]?.getD .nil, back r]
      else if t = .BetweenClause then [back l, fs[1]?.getD .nil, fs[2]?.getD .nil, fs[3]?.getD .nil, back r]
      else [back l, fs[1]?.getD .nil, back r, fs[3]?.getD .nil, fs[4]?.getD .nil])
  | .prefix (.mk t fs) _ r => .mk t [fs[0]?.getD .nil, fs[1]?.getD .nil, back r]
  | .postfix (.mk t fs) _ l => .mk t (if t = .ObjectParams then [back l, fs[1]?.getD .nil]
      else if t = .IndexOperation then [back l, fs[1]?.getD .nil, fs[2]?.getD .nil]
      else [fs[0]?.getD .nil, fs[1]?.getD .nil, back l])
  | _ => .nil

theorem back_tree (v : V) : back (tree v) = v := by
  fun_induction tree v <;> simp_all [back]

/-- The tree `t` of `v` is grouped and has the powers of `v`. -/
def TreeOk (v : V) (t : Tree) : Prop := ok t ∧ (∀ x ∈ lpow t, LeftPower v x) ∧ ∀ x ∈ rpow t, RightPower v x

theorem treeOk_binary {v a l r : V} {p q : Nat} {tl tr : Tree} (hg : Grouped v) (hl : leftOpen v = some (p, l)) (hr : rightOpen v = some (q, r))
    (h1 : TreeOk l tl) (h2 : TreeOk r tr) : TreeOk v (.binary a p q tl tr) := by
  obtain ⟨a1, a2, a3⟩ := h1
  obtain ⟨b1, b2, b3⟩ := h2
  simp only [TreeOk, ok, lpow, rpow, List.mem_cons, forall_eq_or_imp]
  exact ⟨⟨fun x hx => hg.left _ _ hl _ (a3 x hx), fun x hx => hg.right _ _ hr _ (b2 x hx), a1, b1⟩,
    ⟨.here hl, fun x hx => .down hl (a2 x hx)⟩, ⟨.here hr, fun x hx => .down hr (b3 x hx)⟩⟩

theorem treeOk_prefix {v a r : V} {q : Nat} {tr : Tree} (hg : Grouped v) (hr : rightOpen v = some (q, r)) (h2 : TreeOk r tr) :
    TreeOk v (.prefix a q tr) := by
  obtain ⟨b1, b2, b3⟩ := h2
  simp only [TreeOk, ok, lpow, rpow, List.mem_cons, forall_eq_or_imp]
  exact ⟨⟨fun x hx => hg.right _ _ hr _ (b2 x hx), b1⟩, by simp, ⟨.here hr, fun x hx => .down hr (b3 x hx)⟩⟩

theorem treeOk_postfix {v a l : V} {p : Nat} {tl : Tree} (hg : Grouped v) (hl : leftOpen v = some (p, l)) (h1 : TreeOk l tl) :
    TreeOk v (.postfix a p tl) := by
  obtain ⟨a1, a2, a3⟩ := h1
  simp only [TreeOk, ok, lpow, rpow, List.mem_cons, forall_eq_or_imp]
  exact ⟨⟨fun x hx => hg.left _ _ hl _ (a3 x hx), a1⟩, ⟨.here hl, fun x hx => .down hl (a2 x hx)⟩, by simp⟩

theorem treeOk_operand (v w : V) : TreeOk v (.operand w) := ⟨trivial, by simp [lpow], by simp [rpow]⟩

theorem tree_ok (v : V) (hv : Good v) : TreeOk v (tree v) := by
  fun_induction tree v with
  | case1 l op r g n ih1 ih2 =>
    obtain ⟨hg, hfs⟩ := good_mk.1 hv
    exact treeOk_binary hg rfl rfl (ih1 (hfs _ (by simp))) (ih2 (hfs _ (by simp)))
  | case2 c a b ih1 ih2 =>
    obtain ⟨hg, hfs⟩ := good_mk.1 hv
    exact treeOk_binary hg rfl rfl (ih1 (hfs _ (by simp))) (ih2 (hfs _ (by simp)))
  | case3 p q e ih =>
    obtain ⟨hg, hfs⟩ := good_mk.1 hv
    exact treeOk_postfix hg rfl (ih (hfs _ (by simp)))
  | case4 p q e ih =>
    obtain ⟨hg, hfs⟩ := good_mk.1 hv
    exact treeOk_postfix hg rfl (ih (hfs _ (by simp)))
  | case5 e n b p a h ih1 ih2 =>
    obtain ⟨hg, hfs⟩ := good_mk.1 hv
    exact treeOk_binary hg (by simp [leftOpen, h]) (by simp [rightOpen, h]) (ih1 (hfs _ (by simp))) (ih2 (hfs _ (by simp)))
  | case6 => exact treeOk_operand _ _
  | case7 => exact treeOk_operand _ _
  | case8 o ps h ih =>
    obtain ⟨hg, hfs⟩ := good_mk.1 hv
    exact treeOk_postfix hg (by simp [leftOpen, h]) (ih (hfs _ (by simp)))
  | case9 => exact treeOk_operand _ _
  | case10 o op i h ih =>
    obtain ⟨hg, hfs⟩ := good_mk.1 hv
    exact treeOk_postfix hg (by simp [leftOpen, h]) (ih (hfs _ (by simp)))
  | case11 p op r ih =>
    obtain ⟨hg, hfs⟩ := good_mk.1 hv
    exact treeOk_prefix hg rfl (ih (hfs _ (by simp)))
  | case12 => exact treeOk_operand _ _

/-- Two grouped expressions with the same items are the same. -/
theorem unique {v w : V} (hv : Good v) (hw : Good w) (h : items v = items w) : v = w := by
  have := tree_unique (tree_ok v hv).1 (tree_ok w hw).1 h
  rw [← back_tree v, this, back_tree]

end Verif.Group

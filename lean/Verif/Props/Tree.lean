/-
Traversal of syntax trees: `Walk`, `WalkWithBreak`, `Find`, `FindAll`, `Transform`, `Accept`
(properties C31 - C37).
-/
import Verif.Lemmas.Accept

namespace Verif

/-- `a + b` as a tree: the example for this file. -/
def exampleSum : V :=
  N.BinaryOperation (leftExpr := N.Ident (name := b!"a")) (operation := b!"+")
    (rightExpr := N.Ident (name := b!"b") (namePos := 4))

/-- `RENAME TABLE a TO b` as a tree. -/
def exampleRename : V :=
  N.RenameStmt (renameTarget := b!"TABLE")
    (targetPairList := .list [N.TargetPair (old := N.TableIdentifier (table := N.Ident (name := b!"a")))
      (new := N.TableIdentifier (table := N.Ident (name := b!"b")))])

example : exampleSum.isTree required := ⟨rfl, by decide +kernel⟩
example : exampleRename.isTree required := ⟨rfl, by decide +kernel⟩

/-! ### C31 -/

/-- **C31**, all of it except for `TargetPair`: for every tree there is one list `l` that starts
with the root, has each node followed by its children (each child with all that is below it), and
holds every node that is not a `TargetPair` exactly once; `Walk` with a callback that always
returns true calls it on the elements of `l` in this order, and reports completion.
Missing from the full statement: the `TargetPair` nodes of a `RENAME`, which are skipped
(`C31_walk_skips_rename_pairs`). -/
theorem C31_walk_visits_all_partial (v : V) (h : v.isTree noReq) :
    ∃ l, PreOrder Ty.isNodeNoPair v l ∧ l.Perm (v.nodes Ty.isNodeNoPair) ∧
      ∀ {σ : Type} (f : V → σ → σ) (s : σ),
        walk (fun n s => (true, f n s)) v s = .go (l.foldl (fun s n => f n s) s) := by
  have hp := walkL_preOrder (v.depth + 1) v h (by omega)
  obtain ⟨t, fs, hv, hN, -⟩ := isTree_cases h
  refine ⟨_, hp, hp.perm ⟨t, fs, hv, hN⟩, ?_⟩
  intro σ f s
  rw [walk, walkF_eq _ _ _ h.2 (by omega)]
  have : ∀ (l : List V) (s : σ), foldWhile (fun n s => (true, f n s)) l s = (true, l.foldl (fun s n => f n s) s) := by
    intro l
    induction l with
    | nil => intro s; rfl
    | cons a l ih => intro s; simp [foldWhile, ih]
  rw [this]; rfl

example : walk (fun n (ms : List V) => (true, ms ++ [n])) exampleSum []
    = .go [exampleSum, N.Ident (name := b!"a"), N.Ident (name := b!"b") (namePos := 4)] := rfl

/-- **C31** is false as stated: in `RENAME TABLE a TO b` the `TargetPair` node, which has an
`Accept` method and a case in `Walk`, is not visited. -/
theorem C31_walk_skips_rename_pairs :
    ∃ v n : V, v.isTree required ∧ n ∈ v.nodes Ty.isNode ∧
      ∃ l, walk (fun n (ms : List V) => (true, ms ++ [n])) v [] = .go l ∧ n ∉ l := by
  refine ⟨exampleRename, N.TargetPair (old := N.TableIdentifier (table := N.Ident (name := b!"a")))
    (new := N.TableIdentifier (table := N.Ident (name := b!"b"))), ⟨rfl, by decide +kernel⟩, ?_, _, rfl, ?_⟩
  · simp [V.nodes, V.nodesL, exampleRename, N.RenameStmt, N.TargetPair, Ty.isNode]
  · simp [N.TargetPair, N.TableIdentifier, N.Ident]

/-! ### C32 -/

/-- **C32**, what holds: `Walk` with any callback goes through the parents-first list of the tree
and stops altogether at the first node for which the callback returns false.
Missing from the full statement: the walk does not go on with the rest of the tree
(`C32_false_stops_everything`). -/
theorem C32_walk_stops_at_first_false_partial (v : V) (h : v.isTree noReq) :
    ∃ l, PreOrder Ty.isNodeNoPair v l ∧ ∀ {σ : Type} (fn : V → σ → Bool × σ) (s : σ),
      walk fn v s = match foldWhile fn l s with
        | (true, s') => .go s'
        | (false, s') => .stop s' := by
  refine ⟨_, walkL_preOrder (v.depth + 1) v h (by omega), ?_⟩
  intro σ fn s
  rw [walk, walkF_eq _ _ _ h.2 (by omega)]
  rcases foldWhile fn (walkL (v.depth + 1) v) s with ⟨b, s'⟩
  cases b <;> rfl

example : walk (fun n (ms : List V) => (n.children Ty.isNodeNoPair ≠ [], ms ++ [n])) exampleSum []
    = .stop [exampleSum, N.Ident (name := b!"a")] := rfl

theorem Pruned.children_mem {isN : Ty → Bool} {p : V → Bool} {v : V} {l : List V} (h : Pruned isN p v l)
    (hp : p v = true) : ∀ c ∈ v.children isN, c ∈ l := by
  intro c hc
  cases h with
  | cut hf => rw [hf] at hp; simp at hp
  | @node _ kids ls _ hk hlen hall =>
    have hc' := hk.mem_iff.2 hc
    obtain ⟨i, hi, hci⟩ := List.getElem_of_mem hc'
    have hi' : i < ls.length := by omega
    have hP := hall i c ls[i] (by simp [hi, hci]) (by simp [hi'])
    have : c ∈ ls[i] := by
      generalize ls[i] = l at hP
      cases hP <;> simp
    exact List.mem_cons_of_mem _ (List.mem_flatten.2 ⟨_, List.getElem_mem hi', this⟩)

/-- **C32** is false as stated: there is a tree and a callback for which the nodes `Walk` visits
are not those of a walk that only skips the subtrees below a `false`. -/
theorem C32_false_stops_everything :
    ∃ (v : V) (p : V → Bool), v.isTree required ∧
      ∃ l, walk (fun n (ms : List V) => (p n, ms ++ [n])) v [] = .stop l ∧ ¬ Pruned Ty.isNodeNoPair p v l := by
  refine ⟨exampleSum, fun n => n.ty? == some .BinaryOperation, ⟨rfl, by decide +kernel⟩, _, rfl, ?_⟩
  intro h
  have := h.children_mem rfl (N.Ident (name := b!"b") (namePos := 4))
    (by simp [V.children, exampleSum, N.BinaryOperation, V.topsL, V.tops, N.Ident, Ty.isNodeNoPair, Ty.isNode])
  simp [N.Ident] at this

/-! ### C34 -/

/-- The callback that `WalkWithBreak` hands to `Walk`, on a list that starts with the root. -/
theorem walkWithBreak_eq {σ : Type} (fn : V → σ → Bool × σ) (v : V) (h : v.isTree noReq) (s : σ) :
    walkWithBreak fn v s = toRes (foldWhile fn (walkL (v.depth + 1) v) s) := by
  obtain ⟨t, fs, rfl, hN, hf⟩ := isTree_cases h
  have hw := fun (fn : V → σ × Bool × Bool → Bool × (σ × Bool × Bool)) s => walkF_eq fn _ _ h.2 (Nat.lt_succ_self _) s
  simp only [walkWithBreak, walk, hw]
  simp only [walkL]
  generalize hl : (((walkBody t).kids [.mk t fs]).getD []).flatMap (fun k => walkL (V.mk t fs).depth k.2) = l
  simp only [foldWhile, if_true]
  rcases fn (.mk t fs) s with ⟨b, s1⟩
  cases b
  · simp [toRes]
  · simp only [Bool.not_true, Bool.false_eq_true, if_false]
    have key : ∀ (l : List V) (s : σ),
        foldWhile (fun child (x : σ × Bool × Bool) =>
          if x.2.1 then (true, (x.1, false, x.2.2))
          else
            let r := fn child x.1
            if !r.1 then (false, (r.2, false, false)) else (true, (r.2, false, x.2.2))) l (s, false, true)
        = match foldWhile fn l s with
          | (true, s') => (true, (s', false, true))
          | (false, s') => (false, (s', false, false)) := by
      intro l
      induction l with
      | nil => intro s; rfl
      | cons a l ih =>
        intro s
        simp only [foldWhile, Bool.false_eq_true, if_false]
        rcases fn a s with ⟨b, s'⟩
        cases b
        · simp
        · simp only [Bool.not_true, Bool.false_eq_true, if_false]
          exact ih s'
    have := key l s1
    simp only at this
    simp only [this]
    rcases foldWhile fn l s1 with ⟨b, s'⟩
    cases b <;> simp [toRes]

/-- **C34**: `WalkWithBreak` calls the callback on the parents-first list of the tree up to and
including the first node for which it returns false, and returns true iff there was none
(`foldWhile` gives the state after these calls). -/
theorem C34_walk_with_break (v : V) (h : v.isTree noReq) :
    ∃ l, PreOrder Ty.isNodeNoPair v l ∧ ∀ {σ : Type} (fn : V → σ → Bool × σ) (s : σ),
      walkWithBreak fn v s = match foldWhile fn l s with
        | (true, s') => .go s'
        | (false, s') => .stop s' := by
  refine ⟨_, walkL_preOrder (v.depth + 1) v h (by omega), ?_⟩
  intro σ fn s
  rw [walkWithBreak_eq fn v h s]
  rcases foldWhile fn (walkL (v.depth + 1) v) s with ⟨b, s'⟩
  cases b <;> rfl

example : walkWithBreak (fun n (ms : List V) => (n.ty? == some .BinaryOperation, ms ++ [n])) exampleSum []
    = .stop [exampleSum, N.Ident (name := b!"a")] := rfl

/-! ### C33 -/

/-- **C33**: with one parents-first list `l` of the tree for all predicates, `FindAll` returns the
elements of `l` that satisfy the predicate, in order, and `Find` the first of them, if any. -/
theorem C33_find (v : V) (h : v.isTree noReq) :
    ∃ l, PreOrder Ty.isNodeNoPair v l ∧ ∀ p : V → Bool,
      findAll v p = some (l.filter p) ∧ find v p = some (l.find? p) := by
  refine ⟨_, walkL_preOrder (v.depth + 1) v h (by omega), ?_⟩
  intro p
  constructor
  · simp only [findAll, walk, walkF_eq _ _ _ h.2 (Nat.lt_succ_self _)]
    have : ∀ (l ms : List V), foldWhile (fun n (ms : List V) => (true, if p n then ms ++ [n] else ms)) l ms
        = (true, ms ++ l.filter p) := by
      intro l
      induction l with
      | nil => intro ms; simp [foldWhile]
      | cons a l ih =>
        intro ms
        simp only [foldWhile, ih]
        by_cases ha : p a = true <;> simp [ha]
    rw [this]; rfl
  · simp only [find, walkWithBreak_eq _ v h]
    have : ∀ (l : List V), foldWhile (fun n (found : Option V) => if p n then (false, some n) else (true, found)) l none
        = ((l.find? p).isNone, l.find? p) := by
      intro l
      induction l with
      | nil => rfl
      | cons a l ih =>
        simp only [foldWhile]
        by_cases ha : p a = true <;> simp [ha, ih]
    rw [this]
    cases (walkL (v.depth + 1) v).find? p <;> rfl

example : find exampleSum (fun n => n.ty? == some .Ident) = some (some (N.Ident (name := b!"a"))) := rfl
example : findAll exampleSum (fun n => n.ty? == some .Ident)
    = some [N.Ident (name := b!"a"), N.Ident (name := b!"b") (namePos := 4)] := rfl

/-! ### C35 -/

/-- **C35**, what holds: `Transform` applies the transformer to the root, and only to it.
Missing from the full statement: the nodes below the root (`C35_children_untouched`). -/
theorem C35_transform_root_partial (v : V) (tr : V → V) (h : tr v = .nil ∨ (tr v).isTree noReq) :
    transform v tr = some (tr v) := by
  rcases h with h | h
  · simp [transform, h]
  · obtain ⟨t, fs, hv, -, -⟩ := isTree_cases h
    simp only [transform]
    rw [hv]
    simp only
    rw [← hv, walk, walkF_eq _ _ _ h.2 (Nat.lt_succ_self _)]
    cases hw : foldWhile (fun _ (s : Unit) => (true, s)) (walkL (V.depth (tr v) + 1) (tr v)) () with
    | mk b s => cases b <;> simp [toRes]

/-- **C35** is false as stated: with an idempotent transformer there is a tree of which a node that
the transformer would replace is still there afterwards. -/
theorem C35_children_untouched :
    ∃ (v : V) (tr : V → V) (w n : V), v.isTree required ∧ (∀ m, tr (tr m) = tr m) ∧
      (∀ m, m.isTree required → (tr m).isTree required) ∧
      transform v tr = some w ∧ n ∈ w.nodes Ty.isNode ∧ tr n ≠ n := by
  refine ⟨exampleSum, fun m => match m with
    | .mk .Ident _ => N.Ident (name := b!"x")
    | m => m, exampleSum, N.Ident (name := b!"a"), ⟨rfl, by decide +kernel⟩, ?_, ?_, rfl, ?_, ?_⟩
  · intro m
    cases m with
    | mk t fs =>
      cases t <;> rfl
    | _ => rfl
  · intro m hm
    cases m with
    | mk t fs =>
      cases t <;> first | exact hm | exact (⟨rfl, by decide +kernel⟩ : (N.Ident (name := b!"x")).isTree required)
    | _ => exact hm
  · simp [exampleSum, N.BinaryOperation, V.nodes, V.nodesL, N.Ident, Ty.isNode]
  · simp [N.Ident]

/-! ### C36, C37 -/

theorem accept_recorded {σ ε : Type} (vis : Visitor σ ε) (v : V) (h : v.isTree required) (s : σ) :
    ∃ s' l e, accept vis v s = some (s', e) ∧ accept (recording vis) v (s, []) = some ((s', l), e) ∧
      Recorded (acceptL (v.depth + 1) v) l e ∧ ((∀ t n s, (vis.visit t n s).2 = none) → e = none) := by
  obtain ⟨t, fs, rfl, hN, hf⟩ := isTree_cases h
  obtain ⟨s', l, ho⟩ := acceptF_record vis ((V.mk t fs).depth + 1) t fs h (by omega) s []
  have hfg := forget_acceptF vis ((V.mk t fs).depth + 1) t (.mk t fs) { st := (s, []) }
  simp only [accept, V.ty?]
  rcases ho with ⟨h1, r⟩ | ⟨e, h1, r⟩
  · rw [h1] at hfg ⊢
    simp only [forget] at hfg
    refine ⟨s', l, none, ?_, by simp, r, fun _ => rfl⟩
    rw [← hfg]
  · rw [h1] at hfg ⊢
    simp only [forget] at hfg
    refine ⟨s', l, some e, ?_, by simp, r, fun hvis => ?_⟩
    · rw [← hfg]
    · exact absurd hfg.symm (acceptF_no_stop hvis _ _ _ _ _)

/-- **C36**: for a tree with its required fields there is a list `l` with every node after its
children (each child with all that is below it), a permutation of the list `w` that `Walk` goes
through, such that `Accept` with any visitor whose methods return no error calls the `Visit...`
methods on exactly the elements of `l` in this order; it does not dereference nil. -/
theorem C36_accept_visits_like_walk (v : V) (h : v.isTree required) :
    ∃ l w, PostOrder Ty.isNodeNoPair v l ∧ l.Perm w ∧
      walk (fun n (ms : List V) => (true, ms ++ [n])) v [] = .go w ∧
      ∀ {σ ε : Type} (vis : Visitor σ ε), (∀ t n s, (vis.visit t n s).2 = none) → ∀ s,
        ∃ s' tr, accept (recording vis) v (s, []) = some ((s', tr), none) ∧ visited tr = l := by
  obtain ⟨t, fs, hv, hN, -⟩ := isTree_cases h
  have hpost := acceptL_postOrder (v.depth + 1) v h (by omega)
  obtain ⟨w, hw1, hw2, hw3⟩ := C31_walk_visits_all_partial v (isTree_noReq h)
  refine ⟨_, w, hpost, (hpost.perm ⟨t, fs, hv, hN⟩).trans hw2.symm, ?_, ?_⟩
  · rw [hw3 (fun n ms => ms ++ [n]) []]
    have : ∀ (l ms : List V), l.foldl (fun s n => s ++ [n]) ms = ms ++ l := by
      intro l
      induction l with
      | nil => simp
      | cons a l ih => intro ms; simp [ih]
    simp [this]
  · intro σ ε vis hvis s
    obtain ⟨s', l, e, -, h2, h3, h4⟩ := accept_recorded vis v h s
    have he := h4 hvis
    subst he
    exact ⟨s', l, h2, h3.done rfl⟩

example : accept (recording (⟨fun _ _ s => s, fun _ _ s => (s, none), fun _ _ s => s⟩ : Visitor Unit Unit))
      exampleSum ((), [])
    = some (((), [.enter exampleSum, .enter (N.Ident (name := b!"a")), .visit (N.Ident (name := b!"a")) none,
        .leave (N.Ident (name := b!"a")), .enter (N.Ident (name := b!"b") (namePos := 4)),
        .visit (N.Ident (name := b!"b") (namePos := 4)) none, .leave (N.Ident (name := b!"b") (namePos := 4)),
        .visit exampleSum none, .leave exampleSum]), none) := rfl

/-- **C37**: for a tree with its required fields and any visitor, `Accept` terminates without
dereferencing nil; the calls of `Enter` and `Leave` are properly nested; if no `Visit...` method
returned an error, none is returned, and otherwise the first error is returned and nothing but the
pending `Leave`s is called after it. -/
theorem C37_accept_protocol {σ ε : Type} (vis : Visitor σ ε) (v : V) (h : v.isTree required) (s : σ) :
    ∃ s' tr e, accept vis v s = some (s', e) ∧ accept (recording vis) v (s, []) = some ((s', tr), e) ∧
      Nested tr ∧ endsWith tr e := by
  obtain ⟨s', l, e, h1, h2, h3, -⟩ := accept_recorded vis v h s
  exact ⟨s', l, e, h1, h2, h3.nested, h3.ends⟩

/-- A visitor that fails on the first `Ident`. -/
example : accept (recording (⟨fun _ _ s => s, fun t _ s => (s, if t = .Ident then some "no" else none),
      fun _ _ s => s⟩ : Visitor Unit String)) exampleSum ((), [])
    = some (((), [.enter exampleSum, .enter (N.Ident (name := b!"a")), .visit (N.Ident (name := b!"a")) (some "no"),
        .leave (N.Ident (name := b!"a")), .leave exampleSum]), some "no") := rfl

end Verif

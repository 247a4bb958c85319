/-
What a syntax tree is, independently of the methods: which values the fields of each struct may
hold, which nodes a tree contains, and what it means to list them parents first or parents last.
-/
import Verif.Ast.Schema

namespace Verif

/-- A value `v` may be stored where the Go type is `τ` (parser/ast.go gives each field its type,
tabulated in `schema`).  Pointers, interfaces and slices may be nil, elements of slices may not.
A `TargetPair` (parser/ast.go:6307) is only stored in the list of a `RenameStmt`, never in an
interface.  `req t` lists further requirements on the fields of `t`. -/
def FTy.admits (τ : FTy) (t : Ty) : Bool :=
  match τ with
  | .val t' | .ptr t' => decide (t' = t)
  | .iface i => t.implements i && decide (t ≠ .TargetPair)
  | _ => false

/-- Neither nil nor an empty slice. -/
def V.filled : V → Bool
  | .nil => false
  | .list l => !l.isEmpty
  | _ => true

/-- Not the zero value of its type: neither nil, empty, zero nor false. -/
def V.isSet : V → Bool
  | .nil => false
  | .nat n => decide (n ≠ 0)
  | .bool b => b
  | .str s => !s.isEmpty
  | .list l => !l.isEmpty
  | .mk _ _ => true

/-- A requirement on the fields of a struct: field `i` is neither nil nor empty, or one of the fields
`i` and `j` has been set. -/
inductive Need where
  | filled (i : Nat) | either (i j : Nat)
deriving DecidableEq, Repr

/-- The requirement is met by the fields `fs`. -/
def Need.holds (fs : List V) : Need → Bool
  | .filled i => (fs[i]?.map V.filled).getD false
  | .either i j => (fs[i]?.map V.isSet).getD false || (fs[j]?.map V.isSet).getD false

mutual
/-- `v` may be stored in a place of type `τ`. -/
def V.hasTy (req : Ty → List Need) : V → FTy → Bool
  | .nil, .ptr _ => true
  | .nil, .iface _ => true
  | .nil, .slice _ => true
  | .nat _, .pos => true
  | .nat _, .int => true
  | .bool _, .bool => true
  | .str _, .str => true
  | .list l, .slice e => V.allTy req l e
  | .mk t fs, τ => τ.admits t && (V.fieldsTy req fs (schema t) && (req t).all (Need.holds fs))
  | _, _ => false
/-- Every element may be stored in a slice with elements of type `e`. -/
def V.allTy (req : Ty → List Need) : List V → FTy → Bool
  | [], _ => true
  | v :: l, e => v.nonNil && V.hasTy req v e && V.allTy req l e
/-- The fields of a struct have the types `τs`. -/
def V.fieldsTy (req : Ty → List Need) : List V → List FTy → Bool
  | [], [] => true
  | v :: l, τ :: τs => V.hasTy req v τ && V.fieldsTy req l τs
  | _, _ => false
end

/-- The fields `fs` may be those of a struct of type `t`. -/
def V.structTy (req : Ty → List Need) (t : Ty) (fs : List V) : Bool :=
  V.fieldsTy req fs (schema t) && (req t).all (Need.holds fs)

/-- No field is required to be non-nil. -/
def noReq : Ty → List Need := fun _ => []

/-- A syntax tree: a non-nil value of the interface type `Expr` all of whose parts fit the
declarations of parser/ast.go. -/
def V.isTree (req : Ty → List Need) (v : V) : Prop := v.nonNil = true ∧ v.hasTy req (.iface .Expr) = true

mutual
/-- The topmost nodes inside a value, if `isN` says which structs are nodes: the value itself if
it is a node, otherwise those of its elements or fields. -/
def V.tops (isN : Ty → Bool) : V → List V
  | .mk t fs => if isN t then [.mk t fs] else V.topsL isN fs
  | .list l => V.topsL isN l
  | _ => []
/-- Those of a list of values. -/
def V.topsL (isN : Ty → Bool) : List V → List V
  | [] => []
  | v :: l => v.tops isN ++ V.topsL isN l
end

/-- The children of a node. -/
def V.children (isN : Ty → Bool) : V → List V
  | .mk _ fs => V.topsL isN fs
  | _ => []

mutual
/-- All nodes inside a value, however deep. -/
def V.nodes (isN : Ty → Bool) : V → List V
  | .mk t fs => if isN t then .mk t fs :: V.nodesL isN fs else V.nodesL isN fs
  | .list l => V.nodesL isN l
  | _ => []
/-- Those of a list of values. -/
def V.nodesL (isN : Ty → Bool) : List V → List V
  | [] => []
  | v :: l => v.nodes isN ++ V.nodesL isN l
end

mutual
/-- `PreOrder isN v l`: `l` starts with `v` and goes on with the children of `v`, in some order,
each followed at once by what is below it. -/
inductive PreOrder (isN : Ty → Bool) : V → List V → Prop
  | node {v kids l} : kids.Perm (v.children isN) → PreOrders isN kids l → PreOrder isN v (v :: l)
/-- The same for a list of nodes. -/
inductive PreOrders (isN : Ty → Bool) : List V → List V → Prop
  | nil : PreOrders isN [] []
  | cons {k ks l ls} : PreOrder isN k l → PreOrders isN ks ls → PreOrders isN (k :: ks) (l ++ ls)
end

mutual
/-- `PostOrder isN v l`: `l` lists what is below `v`, child by child in some order, and ends
with `v`. -/
inductive PostOrder (isN : Ty → Bool) : V → List V → Prop
  | node {v kids l} : kids.Perm (v.children isN) → PostOrders isN kids l → PostOrder isN v (l ++ [v])
/-- The same for a list of nodes. -/
inductive PostOrders (isN : Ty → Bool) : List V → List V → Prop
  | nil : PostOrders isN [] []
  | cons {k ks l ls} : PostOrder isN k l → PostOrders isN ks ls → PostOrders isN (k :: ks) (l ++ ls)
end

/-- Every struct with an `Accept` method except `TargetPair`. -/
def Ty.isNodeNoPair (t : Ty) : Bool := t.isNode && decide (t ≠ .TargetPair)

/-- Going through a list with a function that says whether to go on: the final state, and whether
the end was reached. -/
def foldWhile {α σ : Type} (fn : α → σ → Bool × σ) : List α → σ → Bool × σ
  | [], s => (true, s)
  | a :: l, s => match fn a s with
    | (true, s') => foldWhile fn l s'
    | (false, s') => (false, s')

/-- What a visitor is told: a node is entered, visited (with the error its `Visit...` method
returned, if any), left. -/
inductive Ev (ε : Type) where
  | enter (v : V) | visit (v : V) (e : Option ε) | leave (v : V)

/-- The nodes visited, in order. -/
def visited {ε : Type} : List (Ev ε) → List V
  | [] => []
  | .visit v _ :: l => v :: visited l
  | _ :: l => visited l

/-- `Enter` and `Leave` are properly nested, and each `Leave` is of the node entered last. -/
inductive Nested {ε : Type} : List (Ev ε) → Prop
  | nil : Nested []
  | visit (v e) : Nested [.visit v e]
  | node (v) {l} : Nested l → Nested (.enter v :: l ++ [.leave v])
  | append {a b} : Nested a → Nested b → Nested (a ++ b)

/-- An event that is not an error. -/
def Ev.fine {ε : Type} : Ev ε → Bool
  | .visit _ (some _) => false
  | _ => true

/-- A `Leave`. -/
def Ev.isLeave {ε : Type} : Ev ε → Bool
  | .leave _ => true
  | _ => false

/-- The events belong to a traversal that returned `e`: no error if `e` is nil; otherwise the first
error is `e` and only `Leave`s follow it. -/
def endsWith {ε : Type} (l : List (Ev ε)) : Option ε → Prop
  | none => ∀ x ∈ l, x.fine = true
  | some e => ∃ a v b, l = a ++ .visit v (some e) :: b ∧ (∀ x ∈ a, x.fine = true) ∧ (∀ x ∈ b, x.isLeave = true)

end Verif

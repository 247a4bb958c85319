/-
The little languages in which the methods of the syntax tree are written down.

The ~200 node types of `parser/ast.go` have five regular methods each (`Pos`, `End`, `Accept`,
`FormatSQL` and their case in `Walk`).  Every method body is translated, statement by statement,
into a term of one of the small languages below (tables `Verif.Ast.PosEnd`, `Walk`, `Accept`,
`Format`, written by `tools/genast.py` from the Go text and cited line by line); the interpreters
give the terms their meaning.
-/
import Verif.Bytes
import Verif.Ast.Ty

namespace Verif

/-- A Go value that occurs in a syntax tree: nil (pointer, interface or slice), a number
(`Pos`, `int`), a bool, a string (`string`, `TokenKind`, `OrderDirection`), a slice, or a struct
(a pointer to it, or the struct itself) with its fields in declaration order
(parser/ast.go, the `type ... struct` declarations).  Simplification: pointer identity is not
represented, a tree is a tree. -/
inductive V where
  | nil
  | nat (n : Nat)
  | bool (b : Bool)
  | str (s : Str)
  | list (l : List V)
  | mk (t : Ty) (fs : List V)
deriving Repr

namespace V

/-- Field selection `x.F` (Go semantics): a nil `x` panics (`none`). -/
def field (i : Nat) : V → Option V
  | .mk _ fs => fs[i]?
  | _ => none

/-- The elements of a slice; a nil slice has none (Go semantics). -/
def items : V → List V
  | .list l => l
  | _ => []

/-- `x != nil` (Go semantics). -/
def nonNil : V → Bool
  | .nil => false
  | _ => true

/-- A number field. -/
def toNat? : V → Option Nat
  | .nat n => some n
  | _ => none

/-- A bool field. -/
def toBool? : V → Option Bool
  | .bool b => some b
  | _ => none

/-- A string field. -/
def toStr? : V → Option Str
  | .str s => some s
  | _ => none

/-- The dynamic type of a struct value. -/
def ty? : V → Option Ty
  | .mk t _ => some t
  | _ => none

mutual
/-- Nesting depth of a value: the bound for every recursion along a tree. -/
def depth : V → Nat
  | .mk _ fs => depthL fs + 1
  | .list l => depthL l + 1
  | _ => 0
/-- Depth of a list of values. -/
def depthL : List V → Nat
  | [] => 0
  | v :: l => max v.depth (depthL l)
end

end V

/-- One selection step: a field, the last element `x[len(x)-1]` or the first element `x[0]` of a
slice (index out of range panics). -/
inductive Sel where
  | f (i : Nat) | last | first
deriving DecidableEq, Repr

/-- `Sel` applied (Go semantics). -/
def Sel.get : Sel → V → Option V
  | .f i, v => v.field i
  | .last, v => v.items.getLast?
  | .first, v => v.items.head?

/-- An access path `x.A.B`: a variable (0 is the receiver, loop variables follow) and selections. -/
structure Ref where
  var : Nat
  sels : List Sel
deriving DecidableEq, Repr

/-- Selections applied one after the other. -/
def getSels : List Sel → V → Option V
  | [], v => some v
  | s :: ss, v => (s.get v).bind (getSels ss)

/-- The value of an access path, `none` if it dereferences nil. -/
def Ref.get (env : List V) (r : Ref) : Option V := env[r.var]?.bind (getSels r.sels)

/-- Field `i` of the receiver. -/
abbrev rf (i : Nat) : Ref := ⟨0, [.f i]⟩

/-- The static Go type of an expression that is used as a node: a pointer to a struct type, or an
interface.  A nil pointer converted to an interface is not a nil interface. -/
inductive Static where
  | ptr (t : Ty) | iface
deriving DecidableEq, Repr

/-- Conditions of `if` statements. -/
inductive Cond where
  /-- `x != nil` -/
  | nonNil (r : Ref)
  /-- a bool field -/
  | isTrue (r : Ref)
  /-- `len(x) > 0`, `len(x) != 0` of a slice or string -/
  | lenPos (r : Ref)
  /-- `x == "..."` -/
  | strEq (r : Ref) (s : Str)
  /-- `x == n` for a number -/
  | natEq (r : Ref) (n : Nat)
  /-- `_, ok := x.(*T); ok` -/
  | isTy (r : Ref) (t : Ty)
  /-- `i > 0` for the index of the innermost loop -/
  | idxPos
  /-- `i == len-1` for the innermost loop -/
  | idxLast
  /-- `formatter.mode == FormatModeBeautify` -/
  | beautify
  /-- the local bool variable (`needsBreak`, `wroteAny`, `hasPart`, `wroteItem`) -/
  | flag
  | not (c : Cond)
  | and (a b : Cond)
  | or (a b : Cond)
deriving Repr

/-- What a condition can depend on. -/
structure Ctx where
  env : List V
  idx : Nat := 0
  len : Nat := 0
  beautify : Bool := false
  flag : Bool := false

/-- Evaluation of a condition with Go's short-circuit rules; `none` is a panic. -/
def Cond.eval (c : Ctx) : Cond → Option Bool
  | .nonNil r => (r.get c.env).map V.nonNil
  | .isTrue r => (r.get c.env).bind V.toBool?
  | .lenPos r => (r.get c.env).map (fun v => match v with
      | .str s => !s.isEmpty
      | v => !v.items.isEmpty)
  | .strEq r s => (r.get c.env).bind (fun v => v.toStr?.map (fun x => decide (x = s)))
  | .natEq r n => (r.get c.env).bind (fun v => v.toNat?.map (fun x => decide (x = n)))
  | .isTy r t => (r.get c.env).map (fun v => decide (v.ty? = some t))
  | .idxPos => some (decide (0 < c.idx))
  | .idxLast => some (decide (c.idx + 1 = c.len))
  | .beautify => some c.beautify
  | .flag => some c.flag
  | .not a => (a.eval c).map (!·)
  | .and a b => (a.eval c).bind (fun x => if x then b.eval c else some false)
  | .or a b => (a.eval c).bind (fun x => if x then some true else b.eval c)

/-! ### `Pos` and `End` -/

/-- Bodies of `Pos()` and `End()`. -/
inductive PExp where
  /-- a number -/
  | const (n : Nat)
  /-- a `Pos` field -/
  | field (r : Ref)
  /-- `x.Pos()` -/
  | pos (r : Ref) (s : Static)
  /-- `x.End()` -/
  | end_ (r : Ref) (s : Static)
  /-- `e + n` -/
  | plus (e : PExp) (n : Nat)
  /-- `e + Pos(len(x))` for a string field `x` -/
  | plusLen (e : PExp) (r : Ref)
  /-- `if c { return a }; return b` -/
  | ite (c : Cond) (a b : PExp)
deriving Repr

/-- The dynamic type a method call on `v` dispatches on: that of the struct for an interface
(calling a method of a nil interface panics), the static one for a pointer. -/
def Static.dispatch (s : Static) (v : V) : Option Ty :=
  match s with
  | .ptr t => some t
  | .iface => v.ty?

/-- Evaluation; `call which t v` is the call of `Pos` (`false`) or `End` (`true`) of type `t`. -/
def PExp.eval (call : Bool → Ty → V → Option Nat) (recv : V) : PExp → Option Nat
  | .const n => some n
  | .field r => (r.get [recv]).bind V.toNat?
  | .pos r s => (r.get [recv]).bind (fun v => (s.dispatch v).bind (fun t => call false t v))
  | .end_ r s => (r.get [recv]).bind (fun v => (s.dispatch v).bind (fun t => call true t v))
  | .plus e n => (e.eval call recv).map (· + n)
  | .plusLen e r => (e.eval call recv).bind (fun n =>
      ((r.get [recv]).bind V.toStr?).map (fun s => n + s.length))
  | .ite c a b => (c.eval { env := [recv] }).bind (fun x => if x then a.eval call recv else b.eval call recv)

/-! ### `Walk` and `Accept` -/

/-- Bodies of `Accept` and of the cases of `Walk`, without the common first and last lines. -/
inductive WCmd where
  | skip
  | seq (a b : WCmd)
  /-- `if !Walk(x, fn) { return false }` / `if err := x.Accept(visitor); err != nil { return err }` -/
  | visit (r : Ref) (s : Static)
  /-- `if x != nil { ... }` -/
  | guard (r : Ref) (body : WCmd)
  /-- `for _, item := range x { ... }` -/
  | loop (r : Ref) (body : WCmd)
deriving Repr

/-! ### `FormatSQL` -/

/-- Bodies of `FormatSQL`. -/
inductive FCmd where
  | skip
  | seq (a b : FCmd)
  /-- `formatter.WriteString("...")`, `formatter.WriteByte(...)` -/
  | lit (s : Str)
  /-- `formatter.WriteString(x.F)` -/
  | strF (r : Ref)
  /-- `formatter.WriteString(strings.ToUpper(string(x.F)))` -/
  | upperF (r : Ref)
  /-- `formatter.WriteString(strings.Join(x.F, sep))` -/
  | joinF (r : Ref) (sep : Str)
  /-- `formatter.WriteExpr(x)` -/
  | expr (r : Ref) (s : Static)
  /-- `x.FormatSQL(formatter)` for a pointer to `t` -/
  | direct (r : Ref) (t : Ty)
  /-- `writeJoinSQL(formatter, x)` -/
  | joinSQL (r : Ref)
  /-- parser/format.go:2631-2635: write `Format(x)`, with a blank before it if it is
  not empty and does not start with `(` -/
  | compactExpr (r : Ref) (s : Static)
  /-- `formatter.Break()` -/
  | brk
  /-- `formatter.NewLine()` -/
  | newline
  /-- `formatter.Indent()` -/
  | indent
  /-- `formatter.Dedent()` -/
  | dedent
  /-- the local bool variable becomes true -/
  | setFlag
  | ite (c : Cond) (a b : FCmd)
  /-- `for i, item := range x { ... }` -/
  | loop (r : Ref) (body : FCmd)
deriving Repr

end Verif

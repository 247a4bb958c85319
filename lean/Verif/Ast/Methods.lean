/-
The methods of the syntax tree: `Pos`, `End` (parser/ast.go), `Walk`, `WalkWithBreak`, `Find`,
`FindAll`, `Transform` (parser/walk.go), `Accept` (parser/ast.go) and the formatter
(parser/format.go), as interpreters of the tables.

Recursion follows the tree, so it is given a depth bound (`fuel`); running out of it is `none` /
`panic`, and `Verif.Lemmas.Safe` shows that the bounds used by the entry points are never reached.
-/
import Verif.Ast.PosEndTable
import Verif.Ast.WalkTable
import Verif.Ast.AcceptTable
import Verif.Ast.FormatTable

namespace Verif

/-! ### `Pos()` and `End()` -/

/-- A call of `Pos()` (`which = false`) or `End()` (`which = true`) of type `t` with receiver `v`;
the bodies are parser/ast.go, cited in `posBody`, `endBody`.  `none` is a nil dereference. -/
def posEndF : Nat → Bool → Ty → V → Option Nat
  | 0, _, _, _ => none
  | f + 1, which, t, v => (if which then endBody t else posBody t).eval (posEndF f) v

/-- `node.Pos()` of an interface value (parser/ast.go:12). -/
def V.pos? (v : V) : Option Nat := v.ty?.bind (fun t => posEndF (v.depth + 1) false t v)
/-- `node.End()` of an interface value (parser/ast.go:13). -/
def V.end? (v : V) : Option Nat := v.ty?.bind (fun t => posEndF (v.depth + 1) true t v)

/-! ### `Walk` -/

/-- Outcome of a traversal with state `σ`: it goes on (`Walk` returned true), it was stopped
(`Walk` returned false), or nil was dereferenced. -/
inductive WRes (σ : Type) where
  | go (s : σ) | stop (s : σ) | panic
deriving DecidableEq, Repr

/-- The loop `for _, item := range items` whose body may stop. -/
def loopRun {σ : Type} (body : V → σ → WRes σ) : List V → σ → WRes σ
  | [], s => .go s
  | v :: l, s => match body v s with
    | .go s' => loopRun body l s'
    | r => r

/-- Execution of a body of `Walk` or `Accept`; `call` visits one child. -/
def WCmd.run {σ : Type} (call : Static → V → σ → WRes σ) : WCmd → List V → σ → WRes σ
  | .skip, _, s => .go s
  | .seq a b, env, s => match a.run call env s with
    | .go s' => b.run call env s'
    | r => r
  | .visit r st, env, s => match r.get env with
    | some v => call st v s
    | none => .panic
  | .guard r body, env, s => match r.get env with
    | some v => if v.nonNil then body.run call env s else .go s
    | none => .panic
  | .loop r body, env, s => match r.get env with
    | some v => loopRun (fun item s => body.run call (env ++ [item]) s) v.items s
    | none => .panic

/-- `Walk`, parser/walk.go:12-1586, with a callback that may use and change a state `σ`.
Simplification: the callback does not change the tree it is walking. -/
def walkF {σ : Type} (fn : V → σ → Bool × σ) : Nat → V → σ → WRes σ
  | 0, _, _ => .panic
  | f + 1, v, s => match v with
    | .nil => .go s
    | .mk t fs =>
      let (b, s') := fn (.mk t fs) s
      if b then (walkBody t).run (fun _ c s => walkF fn f c s) [.mk t fs] s' else .stop s'
    | _ => .panic

/-- `Walk(node, fn)`, parser/walk.go:12. -/
def walk {σ : Type} (fn : V → σ → Bool × σ) (v : V) (s : σ) : WRes σ := walkF fn (v.depth + 1) v s

/-- `WalkWithBreak`, parser/walk.go:1646-1674, for an interface value (`nil` is the nil interface).
The state of the inner callback pairs the caller's state with "is this the first call":
Go skips the callback for the node that is the root (`child == node`, compared as pointers), which
is the node `Walk` visits first.  Result: the state and the returned bool.
Simplification: a pointer to the root that occurs again below the root (a cyclic or shared tree)
would also be skipped. -/
def walkWithBreak {σ : Type} (fn : V → σ → Bool × σ) (v : V) (s : σ) : WRes σ :=
  match v with
  | .nil => .go s
  | v =>
    let (b, s1) := fn v s
    if !b then .stop s1
    else
      let inner : V → σ × Bool × Bool → Bool × (σ × Bool × Bool) := fun child (s, first, cont) =>
        if first then (true, (s, false, cont))
        else
          let (b, s') := fn child s
          if !b then (false, (s', false, false)) else (true, (s', false, cont))
      match walk inner v (s1, true, true) with
      | .go (s, _, cont) => if cont then .go s else .stop s
      | .stop (s, _, cont) => if cont then .go s else .stop s
      | .panic => .panic

/-- `Find`, parser/walk.go:1677-1687: the node found (`some none` is "not found");
`none` is a panic. -/
def find (root : V) (p : V → Bool) : Option (Option V) :=
  match walkWithBreak (fun n (found : Option V) => if p n then (false, some n) else (true, found)) root none with
  | .go s => some s
  | .stop s => some s
  | .panic => none

/-- `FindAll`, parser/walk.go:1690-1699. -/
def findAll (root : V) (p : V → Bool) : Option (List V) :=
  match walk (fun n (ms : List V) => (true, if p n then ms ++ [n] else ms)) root [] with
  | .go s => some s
  | .stop s => some s
  | .panic => none

/-- `Transform`, parser/walk.go:1704-1719: the transformer is applied to the root only; the walk
that follows has a callback without effect. -/
def transform (root : V) (tr : V → V) : Option V :=
  match tr root with
  | .nil => some .nil
  | v => match walk (fun _ (s : Unit) => (true, s)) v () with
    | .panic => none
    | _ => some v

/-! ### `Accept` -/

/-- A visitor (`ASTVisitor`, parser/ast_visitor.go:3-203): the methods `Enter`, `Leave` and the
`Visit...` methods, as one function of the node type, over a state `σ`; `visit` may return an
error `ε`. A node is given with its dynamic type, since a visitor can be called with a nil pointer. -/
structure Visitor (σ ε : Type) where
  enter : Ty → V → σ → σ
  visit : Ty → V → σ → σ × Option ε
  leave : Ty → V → σ → σ

/-- State of a traversal that may have returned an error. -/
structure AState (σ ε : Type) where
  st : σ
  err : Option ε := none

/-- A method call `x.M(...)` (Go semantics): on a nil interface it panics. -/
def callMethod {σ : Type} (m : Ty → V → σ → WRes σ) (st : Static) (c : V) (s : σ) : WRes σ :=
  match st.dispatch c with
  | some t => m t c s
  | none => .panic

/-- `Accept` of type `t` with receiver `v`: every `Accept` in parser/ast.go calls `Enter`, defers
`Leave`, visits its children in the order of `acceptBody` returning the first error, and calls
its `Visit...` method.  An error is a stop of the traversal with `err` set.
Calling `Accept` on a nil interface panics. -/
def acceptF {σ ε : Type} (vis : Visitor σ ε) : Nat → Ty → V → AState σ ε → WRes (AState σ ε)
  | 0, _, _, _ => .panic
  | f + 1, t, v, s =>
    let s1 := { s with st := vis.enter t v s.st }
    let kids := (acceptBody t).run
      (callMethod (acceptF vis f)) [v] s1
    match kids with
    | .panic => .panic
    | .stop s2 => .stop { s2 with st := vis.leave t v s2.st }
    | .go s2 =>
      let (x, e) := vis.visit t v s2.st
      match e with
      | some e => .stop { st := vis.leave t v x, err := some e }
      | none => .go { s2 with st := vis.leave t v x }

/-- `node.Accept(visitor)` for an interface value: the final state and the error returned;
`none` is a nil dereference. -/
def accept {σ ε : Type} (vis : Visitor σ ε) (v : V) (s : σ) : Option (σ × Option ε) :=
  match v.ty? with
  | none => none
  | some t => match acceptF vis (v.depth + 1) t v { st := s } with
    | .go s => some (s.st, s.err)
    | .stop s => some (s.st, s.err)
    | .panic => none

/-! ### The formatter -/

/-- `Formatter`, parser/format.go:18-25. -/
structure Fmt where
  out : Str := []
  beautify : Bool := false
  level : Nat := 0
  lineStart : Bool := true
  indent : Str := b!"  "
deriving DecidableEq, Repr

namespace Fmt

/-- `writeIndentIfNeeded`, parser/format.go:46-54. -/
def writeIndentIfNeeded (f : Fmt) : Fmt :=
  if !f.lineStart then f
  else { f with out := f.out ++ (List.replicate f.level f.indent).flatten, lineStart := false }

/-- `WriteByte`, parser/format.go:62-74. -/
def writeByte (f : Fmt) (b : Nat) : Fmt :=
  if f.beautify then
    if b = 10 then { f with out := f.out ++ [10], lineStart := true }
    else
      let f' := f.writeIndentIfNeeded
      { f' with out := f'.out ++ [b] }
  else { f with out := f.out ++ [b] }

/-- `WriteString`, parser/format.go:56-60. -/
def writeString (f : Fmt) (s : Str) : Fmt := s.foldl writeByte f

/-- `NewLine`, parser/format.go:83-88. -/
def newLine (f : Fmt) : Fmt := if f.beautify then f.writeByte 10 else f

/-- `Break`, parser/format.go:90-96. -/
def brk (f : Fmt) : Fmt := if f.beautify then f.newLine else f.writeByte 32

/-- `Indent`, parser/format.go:98-100. -/
def incr (f : Fmt) : Fmt := { f with level := f.level + 1 }

/-- `Dedent`, parser/format.go:102-106. -/
def decr (f : Fmt) : Fmt := if f.level > 0 then { f with level := f.level - 1 } else f

/-- A blank before `s` unless `s` is empty or starts with `(`, parser/format.go:2632-2634. -/
def blankUnlessParen (f : Fmt) (s : Str) : Fmt :=
  match s with
  | [] => f
  | c :: _ => if c = 40 then f else f.writeByte 32

end Fmt

/-- The two recursive procedures of the formatter: `FormatSQL` of a type, `writeJoinSQL`. -/
inductive Proc where
  | fmt (t : Ty) | join
deriving DecidableEq, Repr

/-- `strings.Join` (Go library), parser/format.go:1887. -/
def joinStr (sep : Str) : List Str → Str
  | [] => []
  | [a] => a
  | a :: t => a ++ sep ++ joinStr sep t

/-- The loop of a `FormatSQL` body: index, length, state (formatter and the local bool). -/
def loopFmt (body : Nat → V → Fmt × Bool → Option (Fmt × Bool)) : Nat → List V → Fmt × Bool → Option (Fmt × Bool)
  | _, [], s => some s
  | i, v :: l, s => (body i v s).bind (loopFmt body (i + 1) l)

/-- Execution of a `FormatSQL` body. `call` runs a procedure, `compact` is `Format(expr)` with a
fresh compact formatter. -/
def FCmd.run (call : Proc → V → Fmt → Option Fmt) :
    FCmd → (env : List V) → (idx len : Nat) → Fmt × Bool → Option (Fmt × Bool)
  | .skip, _, _, _, s => some s
  | .seq a b, env, i, n, s => (a.run call env i n s).bind (b.run call env i n)
  | .lit x, _, _, _, (f, b) => some (f.writeString x, b)
  | .strF r, env, _, _, (f, b) => ((r.get env).bind V.toStr?).map (fun x => (f.writeString x, b))
  | .upperF r, env, _, _, (f, b) =>
      ((r.get env).bind V.toStr?).map (fun x => (f.writeString (upper x), b))
  | .joinF r sep, env, _, _, (f, b) =>
      (r.get env).bind (fun v => (v.items.mapM V.toStr?).map (fun l => (f.writeString (joinStr sep l), b)))
  | .expr r st, env, _, _, (f, b) =>
      (r.get env).bind (fun v => match st, v with
        | .iface, .nil => some (f, b)
        | st, v => (st.dispatch v).bind (fun t => (call (.fmt t) v f).map (·, b)))
  | .direct r t, env, _, _, (f, b) =>
      (r.get env).bind (fun v => (call (.fmt t) v f).map (·, b))
  | .joinSQL r, env, _, _, (f, b) => (r.get env).bind (fun v => (call .join v f).map (·, b))
  | .compactExpr r st, env, _, _, (f, b) =>
      (r.get env).bind (fun v =>
        let sub : Option Fmt := match st, v with
          | .iface, .nil => some {}
          | st, v => (st.dispatch v).bind (fun t => call (.fmt t) v {})
        sub.map (fun g => ((f.blankUnlessParen g.out).writeString g.out, b)))
  | .brk, _, _, _, (f, b) => some (f.brk, b)
  | .newline, _, _, _, (f, b) => some (f.newLine, b)
  | .indent, _, _, _, (f, b) => some (f.incr, b)
  | .dedent, _, _, _, (f, b) => some (f.decr, b)
  | .setFlag, _, _, _, (f, _) => some (f, true)
  | .ite c x y, env, i, n, (f, b) =>
      (c.eval { env := env, idx := i, len := n, beautify := f.beautify, flag := b }).bind (fun z =>
        if z then x.run call env i n (f, b) else y.run call env i n (f, b))
  | .loop r body, env, _, _, s =>
      (r.get env).bind (fun v =>
        loopFmt (fun i item s => body.run call (env ++ [item]) i v.items.length s) 0 v.items s)

/-- The statements of a procedure: `FormatSQL` of a type (parser/format.go, cited in `formatBody`)
or `writeJoinSQL` (cited in `joinBody`). -/
def Proc.body : Proc → FCmd
  | .fmt t => formatBody t
  | .join => joinBody

/-- `FormatSQL` of a type (parser/format.go, the methods cited in `formatBody`) or `writeJoinSQL`
(`joinBody`) with receiver / argument `v`; `none` is a nil dereference. -/
def formatF : Nat → Proc → V → Fmt → Option Fmt
  | 0, _, _, _ => none
  | n + 1, p, v, f =>
    (p.body.run (formatF n) [v] 0 0 (f, false)).map Prod.fst

/-- `(*Formatter).WriteExpr`, parser/format.go:76-81, for an interface value. -/
def Fmt.writeExpr (f : Fmt) (v : V) : Option Fmt :=
  match v with
  | .nil => some f
  | v => v.ty?.bind (fun t => formatF (2 * v.depth + 2) (.fmt t) v f)

/-- `Format`, parser/format.go:113-117. -/
def formatCompact (v : V) : Option Str := (({} : Fmt).writeExpr v).map Fmt.out

/-- `NewFormatter().WithBeautify().WithIndent(indent)` and `WriteExpr`, parser/format.go:27-44. -/
def formatBeautify (indent : Str) (v : V) : Option Str :=
  (({ beautify := true, indent := indent } : Fmt).writeExpr v).map Fmt.out

end Verif

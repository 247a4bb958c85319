/-
The language in which the recursive-descent parser is written down, and its interpreter.

The ~270 methods of `Parser` (parser/parser_*.go, parse_system.go) are translated statement by
statement, by `tools/genparser.py`, into terms of the language below (`Verif.Parser.Table*`); the
interpreter gives them their meaning.  The dozen methods that work on the lexer state directly
(parser/parser_common.go:20-155, parser/lexer.go:336-345) are Lean functions here.

Values are those of the syntax tree (`V`), with tokens and errors as further structs.
-/
import Verif.Ast.Methods
import Verif.Source

namespace Verif

/-- `Parser`, parser/parser_common.go:9-18: the lexer, the memo `failedIntervalOffsets` (the keys of
the Go map) and the input.  The cached `lines` is not represented: it is a function of the input. -/
structure PS where
  lx : Lx
  memo : List Nat := []
  input : Str
deriving DecidableEq, Repr

/-- `NewParser`, parser/parser_common.go:29-33. -/
def PS.new (input : Str) : PS := { lx := Lx.new input, input := input }

/-- A `*Token` as a value (parser/lexer.go:60-68). -/
def Token.toV (t : Token) : V :=
  N.Token (pos := t.pos) (end_ := t.endp) (kind := t.kind.toStr) (string := t.str) (base := t.base)
    (quoteType := t.quote)

/-- A `*Token` that may be nil. -/
def tokV : Option Token → V
  | none => .nil
  | some t => t.toV

namespace Lx

/-- `currentTokenKind`, parser/parser_common.go:35-40. -/
def curKind (l : Lx) : Str := match l.cur with
  | none => Kind.eof.toStr
  | some t => t.kind.toStr

/-- `currentTokenString`, parser/parser_common.go:45-50. -/
def curString (l : Lx) : Str := match l.cur with
  | none => b!"<EOF>"
  | some t => t.str

/-- `End`, parser/parser_common.go:58-63. -/
def curEnd (l : Lx) : Nat := match l.cur with
  | none => l.off + 1
  | some t => t.endp

/-- `Pos`, parser/parser_common.go:65-71. -/
def curPos (l : Lx) : Nat := match l.cur with
  | none => l.off
  | some t => t.pos

/-- `matchTokenKind`, parser/parser_common.go:81-97.  `p.current().String` at line 93 is only
reached with a keyword as current token. -/
def matchKinds (l : Lx) (ks : List Str) : Bool :=
  let c := l.curKind
  if ks.contains c then true
  else if c != Kind.keyword.toStr then false
  else if ks.contains Kind.ident.toStr then !isReserved (upper l.curString)
  else false

/-- `matchKeyword`, parser/parser_common.go:120-122. -/
def matchKw (l : Lx) (k : Str) : Bool :=
  l.matchKinds [Kind.keyword.toStr] && equalFold l.curString k

/-- `matchOneOfKeywords`, parser/parser_common.go:124-131. -/
def matchOneOf (l : Lx) (ks : List Str) : Bool := ks.any l.matchKw

/-- `_ = p.lexer.consumeToken()`: the state after it, whether it failed or not (parser/lexer.go:359). -/
def advance (l : Lx) : Lx := match l.consume with
  | .ok l' => l'
  | .err l' => l'

/-- `tryConsumeTokenKind`, parser/parser_common.go:111-118: the token, or nil. -/
def tryKind (l : Lx) (k : Str) : V × Lx :=
  if l.matchKinds [k] then (tokV l.cur, l.advance) else (.nil, l)

/-- The loop of `tryConsumeKeywords`, parser/parser_common.go:147-154; `none` if a keyword does not
match. -/
def takeKws (l : Lx) : List Str → Option Lx
  | [] => some l
  | k :: ks => if l.matchKw k then l.advance.takeKws ks else none

/-- `tryConsumeKeywords`, parser/parser_common.go:145-155. -/
def tryKws (l : Lx) (ks : List Str) : Bool × Lx := match l.takeKws ks with
  | some l' => (true, l')
  | none => (false, l)

end Lx

/-- `errors.New(s)`, `fmt.Errorf(s, ...)` (Go library).  Simplification: of the message only the
format string is kept. -/
def plainErr (s : Str) : V := N.PlainError (msg := s)

/-- The error of `expectTokenKind`, parser/parser_common.go:104-108. -/
def kindErr (l : Lx) (k : Str) : V :=
  N.ParseError (pos := l.curPos) (got := tokV l.cur) (expected := .list [.str k])

/-- The error of `expectKeyword`, parser/parser_common.go:135-139. -/
def keywordErr (l : Lx) (k : Str) : V :=
  N.ParseError (pos := l.curPos) (got := tokV l.cur) (keyword := k)

/-- `wrapError`, parser/parser_common.go:461-480, of a non-nil error.  No error of the parser wraps
another one, so `errors.As` is a test of the dynamic type.  The fields `input` and `starts` of the
result are not represented. -/
def wrapErr (s : PS) (e : V) : V :=
  let resolve (pos : Nat) (line column : V) (rest : List V) : V :=
    if line.toNat?.getD 0 == 0 then
      let (l, c) := position (newLineStarts s.input) pos
      .mk .ParseError (.nat pos :: .nat l :: .nat c :: rest)
    else .mk .ParseError (.nat pos :: line :: column :: rest)
  match e with
  | .mk .ParseError (.nat pos :: line :: column :: rest) => resolve pos line column rest
  | .mk .PlainError [m] =>
    resolve s.lx.curPos (.nat 0) (.nat 0) [tokV s.lx.cur, .nil, .str [], m]
  | e => e

/-- Expressions without side effects. -/
inductive Exp where
  | nil
  | nat (n : Nat)
  | bool (b : Bool)
  | str (s : Str)
  /-- the empty slice `make([]T, 0)` -/
  | empty
  /-- a local variable -/
  | var (i : Nat)
  /-- `x.F` -/
  | fld (e : Exp) (i : Nat)
  /-- `*x` -/
  | deref (e : Exp)
  /-- `&T{...}` or `T{...}` with all fields -/
  | mk (t : Ty) (fs : List Exp)
  /-- `x[len(x)-1]` -/
  | last (e : Exp)
  /-- `x[i]` -/
  | idx (e i : Exp)
  | len (e : Exp)
  /-- `append(x, a)` -/
  | append (e a : Exp)
  /-- `append(x, y...)` -/
  | appendAll (e a : Exp)
  | isNil (e : Exp)
  | not (e : Exp)
  | and (a b : Exp)
  | or (a b : Exp)
  /-- `a == b` of strings -/
  | eqStr (a b : Exp)
  /-- `a == b` of numbers -/
  | eqNat (a b : Exp)
  /-- `a < b` of numbers -/
  | lt (a b : Exp)
  | add (a b : Exp)
  /-- `a - b`.  Simplification: numbers are natural numbers; the only uses are `precedence-1`
  (parser/parser_column.go:122) with a precedence above 0 and `keys.End()-1` (parser/parser_table.go:2273) behind
  `PRIMARY KEY` -/
  | sub (a b : Exp)
  /-- concatenation of strings -/
  | cat (a b : Exp)
  /-- `strings.ToUpper` -/
  | upper (e : Exp)
  /-- `strings.EqualFold` -/
  | equalFold (a b : Exp)
  /-- `_, ok := x.(*T); ok` -/
  | isTy (e : Exp) (t : Ty)
  /-- `x.Pos()` of a node -/
  | posOf (e : Exp) (s : Static)
  /-- `x.End()` of a node -/
  | endOf (e : Exp) (s : Static)
  /-- `intervalUnits.Contains` -/
  | isUnit (e : Exp)
  /-- `slices.Contains(x, a)` -/
  | contains (e a : Exp)
  /-- `slices.ContainsFunc(x, func(m string) bool { return strings.EqualFold(m, a) })` -/
  | containsFold (e a : Exp)
  /-- `(*Token).ToString`, parser/lexer.go:70-75 -/
  | tokText (e : Exp)
  /-- `errors.New`, `fmt.Errorf`: the arguments are evaluated (they may panic) -/
  | error (s : Str) (args : List Exp)
  /-- `p.current()`, parser/parser_common.go:54-56 -/
  | cur
  | curKind
  | curString
  | pos
  | end_
  /-- `p.lexer.isEOF()`, parser/lexer.go:450-452 -/
  | isEOF
  | matchKinds (ks : List Exp)
  | matchKw (k : Exp)
  /-- `matchOneOfKeywords(ks...)` -/
  | matchOneOf (e : Exp)
  /-- a list of strings -/
  | strs (ss : List Str)
  /-- `_, failed := p.failedIntervalOffsets[x]; failed` -/
  | memoHas (e : Exp)

/-- The list of the strings in a value, `none` if it is something else. -/
def V.strs? (v : V) : Option (List Str) := v.items.mapM V.toStr?

mutual
/-- Evaluation (Go semantics); `none` is a panic: a nil dereference or an index out of range. -/
def Exp.eval (s : PS) (env : List V) : Exp → Option V
  | .nil => some .nil
  | .nat n => some (.nat n)
  | .bool b => some (.bool b)
  | .str x => some (.str x)
  | .empty => some (.list [])
  | .var i => env[i]?
  | .fld e i => (e.eval s env).bind (V.field i)
  | .deref e => (e.eval s env).bind (fun v => if v.nonNil then some v else none)
  | .mk t fs => (Exp.evalL s env fs).map (V.mk t)
  | .last e => (e.eval s env).bind (fun v => v.items.getLast?)
  | .idx e i => (e.eval s env).bind (fun v => ((i.eval s env).bind V.toNat?).bind (fun n => v.items[n]?))
  | .len e => (e.eval s env).map (fun v => match v with
      | .str x => .nat x.length
      | v => .nat v.items.length)
  | .append e a => (e.eval s env).bind (fun v => (a.eval s env).map (fun x => .list (v.items ++ [x])))
  | .appendAll e a => (e.eval s env).bind (fun v => (a.eval s env).map (fun x => .list (v.items ++ x.items)))
  | .isNil e => (e.eval s env).map (fun v => .bool (!v.nonNil))
  | .not e => ((e.eval s env).bind V.toBool?).map (fun b => .bool (!b))
  | .and a b => ((a.eval s env).bind V.toBool?).bind (fun x =>
      if x then b.eval s env else some (.bool false))
  | .or a b => ((a.eval s env).bind V.toBool?).bind (fun x =>
      if x then some (.bool true) else b.eval s env)
  | .eqStr a b => ((a.eval s env).bind V.toStr?).bind (fun x =>
      ((b.eval s env).bind V.toStr?).map (fun y => .bool (x == y)))
  | .eqNat a b => ((a.eval s env).bind V.toNat?).bind (fun x =>
      ((b.eval s env).bind V.toNat?).map (fun y => .bool (x == y)))
  | .lt a b => ((a.eval s env).bind V.toNat?).bind (fun x =>
      ((b.eval s env).bind V.toNat?).map (fun y => .bool (decide (x < y))))
  | .add a b => ((a.eval s env).bind V.toNat?).bind (fun x =>
      ((b.eval s env).bind V.toNat?).map (fun y => .nat (x + y)))
  | .sub a b => ((a.eval s env).bind V.toNat?).bind (fun x =>
      ((b.eval s env).bind V.toNat?).map (fun y => .nat (x - y)))
  | .cat a b => ((a.eval s env).bind V.toStr?).bind (fun x =>
      ((b.eval s env).bind V.toStr?).map (fun y => .str (x ++ y)))
  | .upper e => ((e.eval s env).bind V.toStr?).map (fun x => .str (Verif.upper x))
  | .equalFold a b => ((a.eval s env).bind V.toStr?).bind (fun x =>
      ((b.eval s env).bind V.toStr?).map (fun y => .bool (Verif.equalFold x y)))
  | .isTy e t => (e.eval s env).map (fun v => .bool (decide (v.ty? = some t)))
  | .posOf e st => (e.eval s env).bind (fun v => (st.dispatch v).bind (fun t =>
      (posEndF (v.depth + 1) false t v).map V.nat))
  | .endOf e st => (e.eval s env).bind (fun v => (st.dispatch v).bind (fun t =>
      (posEndF (v.depth + 1) true t v).map V.nat))
  | .isUnit e => ((e.eval s env).bind V.toStr?).map (fun x => .bool (isIntervalUnit x))
  | .contains e a => ((e.eval s env).bind V.strs?).bind (fun xs =>
      ((a.eval s env).bind V.toStr?).map (fun y => .bool (xs.contains y)))
  | .containsFold e a => ((e.eval s env).bind V.strs?).bind (fun xs =>
      ((a.eval s env).bind V.toStr?).map (fun y => .bool (xs.any (Verif.equalFold · y))))
  | .tokText e => (e.eval s env).bind (fun v => (v.field 2).bind (fun k => (v.field 3).bind (fun x =>
      k.toStr?.bind (fun k => x.toStr?.map (fun x =>
        .str (if k == Kind.keyword.toStr then Verif.upper x else x))))))
  | .error m args => (Exp.evalL s env args).map (fun _ => plainErr m)
  | .cur => some (tokV s.lx.cur)
  | .curKind => some (.str s.lx.curKind)
  | .curString => some (.str s.lx.curString)
  | .pos => some (.nat s.lx.curPos)
  | .end_ => some (.nat s.lx.curEnd)
  | .isEOF => some (.bool s.lx.isEOF)
  | .matchKinds ks => ((Exp.evalL s env ks).bind (List.mapM V.toStr?)).map (fun ks => .bool (s.lx.matchKinds ks))
  | .matchKw k => ((k.eval s env).bind V.toStr?).map (fun k => .bool (s.lx.matchKw k))
  | .matchOneOf e => ((e.eval s env).bind V.strs?).map (fun ks => .bool (s.lx.matchOneOf ks))
  | .strs ss => some (.list (ss.map V.str))
  | .memoHas e => ((e.eval s env).bind V.toNat?).map (fun n => .bool (s.memo.contains n))
/-- Evaluation from left to right. -/
def Exp.evalL (s : PS) (env : List V) : List Exp → Option (List V)
  | [] => some []
  | e :: es => (e.eval s env).bind (fun v => (Exp.evalL s env es).map (v :: ·))
end

/-- Calls that work on the lexer. -/
inductive Prim where
  /-- `p.lexer.consumeToken()` with its error -/
  | consume
  /-- `p.tryConsumeTokenKind(k)` -/
  | tryKind (k : Exp)
  /-- `p.expectTokenKind(k)`, parser/parser_common.go:100-109 -/
  | expectKind (k : Exp)
  /-- `p.expectKeyword(k)`, parser/parser_common.go:133-143 -/
  | expectKw (k : Exp)
  /-- `p.tryConsumeKeywords(ks...)` -/
  | tryKws (ks : List Str)
  /-- `p.lexer.peekToken()`, parser/lexer.go:336-345: the token and the error -/
  | peek
  /-- `p.wrapError(err)` of a non-nil error -/
  | wrap (e : Exp)

/-- The error text of a failed scan is not modelled (parser/lexer.go). -/
def lexErr : V := plainErr b!"lexer error"

/-- The values returned and the new lexer; `none` is a panic. -/
def Prim.run (s : PS) (env : List V) : Prim → Option (List V × Lx)
  | .consume => some (match s.lx.consume with
    | .ok l => ([.nil], l)
    | .err l => ([lexErr], l))
  | .tryKind k => ((k.eval s env).bind V.toStr?).map (fun k => let (v, l) := s.lx.tryKind k; ([v], l))
  | .expectKind k => ((k.eval s env).bind V.toStr?).map (fun k =>
      match s.lx.tryKind k with
      | (.nil, l) => ([kindErr l k], l)
      | (_, l) => ([.nil], l))
  | .expectKw k => ((k.eval s env).bind V.toStr?).map (fun k =>
      if !s.lx.matchKw k then ([keywordErr s.lx k], s.lx) else ([.nil], s.lx.advance))
  | .tryKws ks => let (b, l) := s.lx.tryKws ks; some ([.bool b], l)
  | .peek => some (match s.lx.peek with
    | .ok t l => ([tokV t, .nil], l)
    | .err l => ([.nil, lexErr], l))
  | .wrap e => (e.eval s env).map (fun v => ([wrapErr s v], s.lx))

/-- Statements.  `ln` is the source line, as `10000 * file + line`; `Fn` are the names of the methods. -/
inductive Stmt (Fn : Type) where
  | skip
  | seq (a b : Stmt Fn)
  /-- `x = e` -/
  | set (ln : Nat) (x : Nat) (e : Exp)
  /-- `x.F.G = e` -/
  | setF (ln : Nat) (x : Nat) (path : List Nat) (e : Exp)
  | ite (ln : Nat) (c : Exp) (a b : Stmt Fn)
  /-- `for { ... }`; a condition is a `break` at the beginning of the body -/
  | loop (body : Stmt Fn)
  | brk
  | cont
  | ret (ln : Nat) (es : List Exp)
  /-- `x, y = p.f(args)`; `dst` are the variables for the results -/
  | call (ln : Nat) (f : Fn) (args : List Exp) (dst : List Nat)
  /-- `x, y = prim` -/
  | prim (ln : Nat) (p : Prim) (dst : List Nat)
  /-- `savedState := p.lexer.saveState()` -/
  | save
  /-- `p.lexer.restoreState(savedState)` -/
  | restore
  /-- `p.failedIntervalOffsets[x] = struct{}{}` -/
  | memoAdd (ln : Nat) (e : Exp)

/-- The body of a method: the number of its local variables (with the parameters) and the code. -/
structure Func (Fn : Type) where
  locals : Nat
  body : Stmt Fn

/-- The local state of a call: variables, and the variable `savedState`. -/
structure Frame where
  env : List V
  saved : Lx

/-- How a statement ends: normally, by `break`, `continue` or `return`, by a panic in a source line,
or because the recursion bound of the interpreter is used up. -/
inductive Out where
  | next (fr : Frame) (s : PS)
  | brk (fr : Frame) (s : PS)
  | cont (fr : Frame) (s : PS)
  | ret (vs : List V) (s : PS)
  | panic (ln : Nat)
  | fuel

/-- How a call ends. -/
inductive COut where
  | ret (vs : List V) (s : PS)
  | panic (ln : Nat)
  | fuel

/-- Store results in variables; a number that is no variable stands for the blank identifier `_`. -/
def storeAll (env : List V) : List Nat → List V → List V
  | x :: xs, v :: vs => storeAll (env.set x v) xs vs
  | _, _ => env

/-- Assignment to a field reached by a path of fields (Go semantics); `none` is a nil dereference.
Simplification: `x` is the only reference to the struct, checked by `tools/genparser.py`. -/
def setPath (x : V) (path : List Nat) (v : V) : Option V :=
  match path with
  | [] => some v
  | i :: p => match x with
    | .mk t fs => fs[i]?.bind (fun w => (setPath w p v).map (fun w' => .mk t (fs.set i w')))
    | _ => none

/-- `for { body }`, at most `n` iterations. -/
def loopN (body : Frame → PS → Out) : Nat → Frame → PS → Out
  | 0, _, _ => .fuel
  | n + 1, fr, s => match body fr s with
    | .next fr' s' => loopN body n fr' s'
    | .cont fr' s' => loopN body n fr' s'
    | .brk fr' s' => .next fr' s'
    | r => r

/-- Execution of a statement; `call` executes the methods called, `n` bounds the iterations of loops. -/
def Stmt.run {Fn : Type} (call : Fn → List V → PS → COut) (n : Nat) : Stmt Fn → Frame → PS → Out
  | .skip, fr, s => .next fr s
  | .seq a b, fr, s => match a.run call n fr s with
    | .next fr' s' => b.run call n fr' s'
    | r => r
  | .set ln x e, fr, s => match e.eval s fr.env with
    | some v => .next { fr with env := fr.env.set x v } s
    | none => .panic ln
  | .setF ln x path e, fr, s => match e.eval s fr.env with
    | some v => match fr.env[x]?.bind (fun w => setPath w path v) with
      | some w => .next { fr with env := fr.env.set x w } s
      | none => .panic ln
    | none => .panic ln
  | .ite ln c a b, fr, s => match (c.eval s fr.env).bind V.toBool? with
    | some true => a.run call n fr s
    | some false => b.run call n fr s
    | none => .panic ln
  | .loop body, fr, s => loopN (body.run call n) n fr s
  | .brk, fr, s => .brk fr s
  | .cont, fr, s => .cont fr s
  | .ret ln es, fr, s => match Exp.evalL s fr.env es with
    | some vs => .ret vs s
    | none => .panic ln
  | .call ln f args dst, fr, s => match Exp.evalL s fr.env args with
    | some vs => match call f vs s with
      | .ret rs s' => .next { fr with env := storeAll fr.env dst rs } s'
      | .panic l => .panic l
      | .fuel => .fuel
    | none => .panic ln
  | .prim ln p dst, fr, s => match p.run s fr.env with
    | some (rs, l) => .next { fr with env := storeAll fr.env dst rs } { s with lx := l }
    | none => .panic ln
  | .save, fr, s => .next { fr with saved := s.lx } s
  | .restore, fr, s => .next fr { s with lx := fr.saved }
  | .memoAdd ln e, fr, s => match (e.eval s fr.env).bind V.toNat? with
    | some n => .next fr { s with memo := n :: s.memo }
    | none => .panic ln

/-- A call of method `f` with `args`; at most `fuel` nested calls. -/
def runFn {Fn : Type} (table : Fn → Func Fn) : Nat → Fn → List V → PS → COut
  | 0, _, _, _ => .fuel
  | n + 1, f, args, s =>
    let fn := table f
    let env := args ++ List.replicate (fn.locals - args.length) V.nil
    match fn.body.run (runFn table n) n { env := env, saved := s.lx } s with
    | .ret vs s' => .ret vs s'
    | .panic l => .panic l
    | .fuel => .fuel
    | .next _ s' => .ret [] s'
    | .brk _ s' => .ret [] s'
    | .cont _ s' => .ret [] s'

infixr:60 " ;; " => Stmt.seq

end Verif

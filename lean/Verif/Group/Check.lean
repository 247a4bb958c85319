/-
A check that the methods of the parser put together operations only where their operands cannot be grouped
otherwise, apart from the few methods that read operators (`special`), for which this is proved by hand.

The check follows the code of a method and keeps track of what the local variables may hold.  Its soundness is
proved in `Verif.Group.Sound`; no definition here is part of the model.
-/
import Verif.Parser.Entry
import Verif.Spec.Grouping

namespace Verif.Group

/-- What a variable may hold. -/
inductive Cls where
  /-- anything grouped -/
  | any
  /-- something without an operand at its ends -/
  | atom
  /-- something that is no operation -/
  | plain
  /-- a name, or no struct -/
  | name
  /-- a description of the keywords in a call, parser/parser_column.go:857-892 -/
  | form
deriving DecidableEq, Repr

def Cls.le : Cls → Cls → Bool
  | _, .any => true
  | .any, _ => false
  | _, .atom => true
  | .atom, _ => false
  | _, .plain => true
  | a, b => a == b

def Cls.join (a b : Cls) : Cls :=
  if a.le b then b else if b.le a then a else .plain

/-- The types of operations. -/
def opTys : List Ty :=
  [.BinaryOperation, .TernaryOperation, .IsNullExpr, .IsNotNullExpr, .BetweenClause, .ObjectParams, .IndexOperation, .UnaryExpr]

/-- The words before an operand in a call. -/
def modWords : List Str := [b!"BOTH", b!"LEADING", b!"TRAILING"]
/-- The words between operands in a call. -/
def sepWords : List Str := [b!"FROM", b!"FOR", b!"PLACING"]

/-- A list of words. -/
def Exp.wordsIn (ws : List Str) : Exp → Bool
  | .strs ss => ss.all ws.contains
  | .nil => true
  | _ => false

mutual
/-- What an expression evaluates to; `none` if it may be something wrong. -/
def cls (Γ : List Cls) : Exp → Option Cls
  | .nil | .nat _ | .bool _ | .str _ | .empty | .strs _ => some .name
  | .var x => Γ[x]?
  | .fld e _ => (cls Γ e).map (fun _ => .any)
  | .deref e => cls Γ e
  | .mk t fs => match t, fs with
    | .BetweenClause, [.nil, a, b, c, d] => (clsL Γ [a, b, c, d]).map (fun _ => .atom)
    | .ObjectParams, [a, b] => if cls Γ a = some .name then (cls Γ b).map (fun _ => .atom) else none
    | .IndexOperation, [a, b, c] => if cls Γ a = some .name then (clsL Γ [b, c]).map (fun _ => .atom) else none
    | .KeywordArgForm, [a, b, c, d, e, f] =>
      (clsL Γ [a, b, c, d, e, f]).map (fun _ => if Exp.wordsIn modWords a && Exp.wordsIn sepWords c then .form else .plain)
    | t, fs => if opTys.contains t then none else (clsL Γ fs).map (fun _ => if t = .Ident then .name else .plain)
  | .last e => (cls Γ e).map (fun _ => .any)
  | .idx e i => (cls Γ e).bind (fun _ => (cls Γ i).map (fun _ => .any))
  | .len e | .isNil e | .not e | .upper e | .isTy e _ | .posOf e _ | .endOf e _ | .isUnit e | .tokText e | .matchKw e | .matchOneOf e
  | .memoHas e => (cls Γ e).map (fun _ => .name)
  | .append a b | .appendAll a b | .eqStr a b | .eqNat a b | .lt a b | .add a b | .sub a b | .cat a b | .equalFold a b
  | .contains a b | .containsFold a b => (cls Γ a).bind (fun _ => (cls Γ b).map (fun _ => .name))
  | .and a b | .or a b => (cls Γ a).bind (fun _ => cls Γ b |>.map (fun c => Cls.join .name c))
  | .error _ es => (clsL Γ es).map (fun _ => .plain)
  | .cur => some .plain
  | .curKind | .curString | .pos | .end_ | .isEOF => some .name
  | .matchKinds es => (clsL Γ es).map (fun _ => .name)
/-- The same for a list. -/
def clsL (Γ : List Cls) : List Exp → Option (List Cls)
  | [] => some []
  | e :: es => (cls Γ e).bind (fun c => (clsL Γ es).map (c :: ·))
end

/-- What is known at a point of a method: what the variables hold; and pairs `(x, i)` such that field `i` of
the variable `x` is no operation. -/
structure Know where
  env : List Cls
  deep : List (Nat × Nat) := []
deriving DecidableEq, Repr

def leL : List Cls → List Cls → Bool
  | [], [] => true
  | a :: as, b :: bs => a.le b && leL as bs
  | _, _ => false

def Know.le (a b : Know) : Bool := leL a.env b.env && b.deep.all a.deep.contains

def Know.join (a b : Know) : Know where
  env := List.zipWith Cls.join a.env b.env
  deep := a.deep.filter b.deep.contains

def joinO : Option Know → Option Know → Option Know
  | none, b => b
  | a, none => a
  | some a, some b => some (a.join b)

/-- After an assignment to `x`. -/
def Know.set (k : Know) (x : Nat) (c : Cls) : Know where
  env := k.env.set x c
  deep := k.deep.filter (fun d => d.1 != x)

def Know.setAll (k : Know) : List Nat → List Cls → Know
  | x :: xs, c :: cs => (k.set x c).setAll xs cs
  | _, _ => k

structure Res where
  ok : Bool
  next : Option Know := none
  brk : Option Know := none
  cont : Option Know := none

def leO : Option Know → Know → Bool
  | none, _ => true
  | some a, b => a.le b

/-- What a method must be called with, and what it returns. -/
structure Sig where
  args : List Cls
  res : List Cls

/-- What a call on the lexer returns. -/
def primRes (Γ : List Cls) : Prim → Option (List Cls)
  | .consume => some [.plain]
  | .peek => some [.plain, .plain]
  | .tryKind e => (cls Γ e).map (fun _ => [.plain])
  | .expectKind e => (cls Γ e).map (fun _ => [.plain])
  | .expectKw e => (cls Γ e).map (fun _ => [.plain])
  | .tryKws _ => some [.name]
  | .wrap e => (cls Γ e).map (fun _ => [.any])

/-- Methods that may only be called with an operator ahead. -/
def guarded : Fn → Bool
  | .parseInfix | .parseInfixLoop | .parseBetweenClause | .parseTernaryExpr => true
  | _ => false

/-- The check of a loop whose body is checked by `f`: weaken what is known until it is preserved. -/
def checkLoop (f : Know → Res) : Nat → Know → Res
  | 0, _ => { ok := false }
  | n + 1, k =>
    let r := f k
    if leO r.next k && leO r.cont k then { ok := r.ok, next := r.brk }
    else match joinO (joinO (some k) r.next) r.cont with
      | some k' => checkLoop f n k'
      | none => { ok := false }

/-- The check of a statement. -/
def check (sig : Fn → Sig) (res : List Cls) : Stmt Fn → Know → Res
  | .skip, k => { ok := true, next := some k }
  | .seq a b, k =>
    let ra := check sig res a k
    match ra.next with
    | none => ra
    | some k' =>
      let rb := check sig res b k'
      { ok := ra.ok && rb.ok, next := rb.next, brk := joinO ra.brk rb.brk, cont := joinO ra.cont rb.cont }
  | .set _ x e, k => match cls k.env e with
    | some c => { ok := true, next := some (k.set x c) }
    | none => { ok := false }
  | .setF _ x path e, k => match cls k.env e, k.env[x]? with
    | some c, some d => match path with
      | [i] =>
        { ok := d.le .plain && d != .form, next := some { env := k.env.set x .plain, deep := if c.le .plain then (x, i) :: k.deep else k.deep.filter (· != (x, i)) } }
      | [i, _] => { ok := d.le .plain && d != .form && k.deep.contains (x, i), next := some { env := k.env.set x .plain, deep := k.deep } }
      | _ => { ok := false }
    | _, _ => { ok := false }
  | .ite _ c a b, k =>
    let ra := check sig res a k
    let rb := check sig res b k
    { ok := (cls k.env c).isSome && ra.ok && rb.ok, next := joinO ra.next rb.next, brk := joinO ra.brk rb.brk, cont := joinO ra.cont rb.cont }
  | .loop body, k => checkLoop (check sig res body) 8 k
  | .brk, k => { ok := true, brk := some k }
  | .cont, k => { ok := true, cont := some k }
  | .ret _ es, k => match clsL k.env es with
    | some cs => { ok := leL cs res }
    | none => { ok := false }
  | .call _ f es dst, k => match clsL k.env es with
    | some cs => { ok := !guarded f && leL cs (sig f).args, next := some (k.setAll dst (sig f).res) }
    | none => { ok := false }
  | .prim _ q dst, k => match primRes k.env q with
    | some cs => { ok := true, next := some (k.setAll dst cs) }
    | none => { ok := false }
  | .save, k => { ok := true, next := some k }
  | .restore, k => { ok := true, next := some k }
  | .memoAdd _ e, k => { ok := (cls k.env e).isSome, next := some k }

/-- The check of a method. -/
def checkFn (sig : Fn → Sig) (f : Fn) : Bool :=
  let g := sig f
  let r := check sig g.res (fnTable f).body { env := g.args ++ List.replicate ((fnTable f).locals - g.args.length) .name }
  r.ok && r.brk.isNone && r.cont.isNone && (r.next.isNone || g.res.isEmpty)

end Verif.Group

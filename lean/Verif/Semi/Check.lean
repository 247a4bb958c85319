/-
A check that the methods of the parser never read on when the current token is `;`.

The check follows the code of a method and keeps track of what is known at each point: whether the current
token is certainly no `;`, and what local variables tell about that.  Its soundness is proved in
`Verif.Semi.Sound`; no definition here is part of the model.
-/
import Verif.Spec.Memo

namespace Verif.Semi

/-- What is known at a point of a method. -/
structure Know where
  /-- the current token is no `;` -/
  cur : Bool
  /-- the token behind the current one is no `;` -/
  nxt : Bool
  /-- the current token of `savedState` is no `;` -/
  sav : Bool
  /-- if one of these variables is true then the current token is no `;` -/
  imp : List Nat
  /-- these variables hold the token behind the current one -/
  pk : List Nat
  /-- these variables hold the kind of the current token -/
  kd : List Nat
deriving DecidableEq, Repr

/-- `a` says at least what `b` says. -/
def Know.le (a b : Know) : Bool :=
  (!b.cur || a.cur) && (!b.nxt || a.nxt) && (!b.sav || a.sav) && b.imp.all (fun x => a.cur || a.imp.contains x) &&
  b.pk.all a.pk.contains && b.kd.all a.kd.contains

/-- What is known if `a` or `b` is the case. -/
def Know.join (a b : Know) : Know where
  cur := a.cur && b.cur
  nxt := a.nxt && b.nxt
  sav := a.sav && b.sav
  imp := (a.imp ++ b.imp).filter (fun x => (a.cur || a.imp.contains x) && (b.cur || b.imp.contains x))
  pk := a.pk.filter b.pk.contains
  kd := a.kd.filter b.kd.contains

/-- The same for points that may be out of reach. -/
def joinO : Option Know → Option Know → Option Know
  | none, b => b
  | a, none => a
  | some a, some b => some (a.join b)

/-- After an assignment to `x`. -/
def Know.forget (k : Know) (xs : List Nat) : Know :=
  { k with imp := k.imp.filter (!xs.contains ·), pk := k.pk.filter (!xs.contains ·), kd := k.kd.filter (!xs.contains ·) }

/-- After reading on. -/
def Know.moved (k : Know) (c : Bool) : Know := { k with cur := c, nxt := false, imp := [], pk := [], kd := [] }

/-- A string other than `;`. -/
def noSemi : Exp → Bool
  | .str s => s != b!";"
  | _ => false

/-- What is known if two strings are equal; field 3 of a token is its text. -/
def Know.givenEq (k : Know) : Exp → Exp → Know
  | .curKind, .str s => { k with cur := k.cur || s != b!";" }
  | .fld (.var x) i, .str s => { k with nxt := k.nxt || (i == 3 && k.pk.contains x && s != b!";") }
  | .var x, .str s => { k with cur := k.cur || (k.kd.contains x && s != b!";") }
  | _, _ => k

/-- What is known if `e` is `b`. -/
def Know.given (k : Know) : Exp → Bool → Know
  | .matchKw _, true => { k with cur := true }
  | .matchOneOf _, true => { k with cur := true }
  | .matchKinds ks, true => { k with cur := k.cur || ks.all noSemi }
  | .eqStr x y, true => k.givenEq x y
  | .isNil .cur, true => { k with cur := true }
  | .var x, true => { k with cur := k.cur || k.imp.contains x }
  | .not e, b => k.given e !b
  | .and x y, true => (k.given x true).given y true
  | .and x y, false => (k.given x false).join ((k.given x true).given y false)
  | .or x y, true => (k.given x true).join ((k.given x false).given y true)
  | .or x y, false => (k.given x false).given y false
  | _, _ => k

/-- Whether the check succeeds, and what is known behind a statement that ends normally, by `break`, or by
`continue`. -/
structure Res where
  ok : Bool
  next : Option Know := none
  brk : Option Know := none
  cont : Option Know := none

/-- `none` is out of reach. -/
def leO : Option Know → Know → Bool
  | none, _ => true
  | some a, b => a.le b

/-- The method must be called with a current token that is no `;`; it returns with such a token if called
with one. -/
structure Sig where
  pre : Bool
  post : Bool

/-- The check of a call on the lexer. -/
def primRes (q : Prim) (dst : List Nat) (k : Know) : Res := match q with
  | .consume => { ok := k.cur, next := some (k.moved k.nxt) }
  | .peek => { ok := k.cur, next := some { k.forget dst with nxt := false, kd := [], pk := match dst with
      | [x, y] => if x == y then [] else [x]
      | _ => [] } }
  | .tryKind e => { ok := noSemi e, next := some (k.moved false) }
  | .expectKind e => { ok := noSemi e, next := some (k.moved false) }
  | .expectKw _ => { ok := true, next := some (k.moved false) }
  | .tryKws _ => { ok := true, next := some (k.moved false) }
  | .wrap _ => { ok := false }

/-- The check of a statement. -/
def check (sig : Fn → Sig) (post : Bool) : Stmt Fn → Know → Res
  | .skip, k => { ok := true, next := some k }
  | .seq a b, k =>
    let ra := check sig post a k
    match ra.next with
    | none => ra
    | some k' =>
      let rb := check sig post b k'
      { ok := ra.ok && rb.ok, next := rb.next, brk := joinO ra.brk rb.brk, cont := joinO ra.cont rb.cont }
  | .set _ x e, k =>
    let k' := k.forget [x]
    { ok := true, next := some (match e with
      | .bool false => { k' with imp := x :: k'.imp }
      | .curKind => { k' with kd := x :: k'.kd }
      | e => if (k.given e true).cur then { k' with imp := x :: k'.imp } else k') }
  | .setF _ x _ _, k => { ok := true, next := some (k.forget [x]) }
  | .ite _ c a b, k =>
    let ra := check sig post a (k.given c true)
    let rb := check sig post b (k.given c false)
    { ok := ra.ok && rb.ok, next := joinO ra.next rb.next, brk := joinO ra.brk rb.brk, cont := joinO ra.cont rb.cont }
  | .loop body, k =>
    let r := check sig post body k
    if leO r.next k && leO r.cont k then { ok := r.ok, next := r.brk }
    else
      let k' := k.moved false
      let r := check sig post body k'
      { ok := r.ok && leO r.next k' && leO r.cont k', next := r.brk }
  | .brk, k => { ok := true, brk := some k }
  | .cont, k => { ok := true, cont := some k }
  | .ret _ _, k => { ok := !post || k.cur }
  | .call _ f _ _, k => { ok := f != .ParseStmts && (!(sig f).pre || k.cur), next := some (k.moved ((sig f).post && k.cur)) }
  | .prim _ q dst, k => primRes q dst k
  | .save, k => { ok := true, next := some { k with sav := k.cur } }
  | .restore, k => { ok := true, next := some (k.moved k.sav) }
  | .memoAdd _ _, _ => { ok := false }

/-- The check of a method. -/
def checkFn (sig : Fn → Sig) (f : Fn) : Bool :=
  let c := (sig f).pre
  let run := fun (post c : Bool) =>
    let r := check sig post (retryTable f).body { cur := c, nxt := false, sav := c, imp := [], pk := [], kd := [] }
    let fine := fun (o : Option Know) => !post || match o with
      | none => true
      | some k => k.cur
    r.ok && fine r.next && fine r.brk && fine r.cont
  run false c && (!(sig f).post || run true true)

end Verif.Semi

/-
An abstract interpretation of the parser methods: the abstract values.

Nothing here is part of the model.  `Verif.Analysis.Sound` proves that what the analysis computes is
true of every execution of the interpreter of `Verif.Parser.Lang`.
-/
import Verif.Parser.Lang
import Verif.Spec.Tree

namespace Verif.An

/-- What is known about the result of a call of `Pos()` or `End()`: it returns (does not panic) if
`safe`, and then returns at most `N + k`. -/
structure PB where
  safe : Bool
  k : Option Int
deriving DecidableEq, Repr

/-- What is known about the fields of every struct of a type that the parser has finished building.
`N` is the length of the input. -/
inductive PNeed where
  /-- field `i` is neither nil nor empty -/
  | filled (i : Nat)
  /-- one of the fields is set -/
  | either (i j : Nat)
  /-- the number in field `i` is at most `N + k` -/
  | bound (i : Nat) (k : Int)
  /-- `Pos()` of what is in field `i` -/
  | pos (i : Nat) (b : PB)
  /-- `End()` of what is in field `i` -/
  | end_ (i : Nat) (b : PB)
  /-- the slice in field `i` has at least as many elements as the number in field `j` says -/
  | lenGe (i j : Nat)
  /-- `Pos()` (`false`) or `End()` (`true`) of the struct itself -/
  | own (which : Bool) (b : PB)
deriving DecidableEq, Repr

/-- Abstract values of variables and fields. -/
inductive AV where
  | top
  | nil
  | zero
  | bool (b : Option Bool)
  /-- a number, at most `N + k` -/
  | nat (k : Option Int)
  /-- a string; `ne`: not `<eof>` -/
  | str (ne : Bool)
  /-- an error, not nil if `nn`; `w`: its position has been resolved -/
  | err (nn w : Bool)
  /-- a value of type `τ`, neither nil nor empty if `nn`, with bounds for `Pos()` and `End()` -/
  | ty (τ : FTy) (nn : Bool) (pe ee : PB)
  /-- nil or an empty slice -/
  | empty
  /-- the current token -/
  | curTok
  /-- `p.Pos()` -/
  | curPos
  /-- `p.currentTokenKind()` -/
  | curKind
deriving DecidableEq, Repr

/-- An abstract value, or a struct with what is known about its fields, its `Pos()` and `End()`. -/
inductive XV where
  | v (a : AV)
  | obj (t : Ty) (fs : List AV) (pe ee : PB)
deriving DecidableEq, Repr

/-- What is known about the kind of a token: nothing; it is a keyword equal to `s` up to case; its kind
is `s`, not keyword. -/
inductive Tk where
  | any | kw (s : Str) | kind (s : Str)
deriving DecidableEq, Repr

/-- What is known about the current token: nothing; there is one, at least `m` bytes before the end of
the input; there is none; there is none because the input is used up. -/
inductive CurS where
  | any | tok (m : Nat) (k : Tk) | none | eof
deriving DecidableEq, Repr

/-- What is known about the lexer compared to an earlier moment: equal, less input left, not more
input left, nothing. -/
inductive Mv where
  | eq | lt | le | un
deriving DecidableEq, Repr

/-- Expressions that occur in comparisons with lengths. -/
inductive Key where
  | v (i : Nat) | add (i j : Nat) | fld (i j : Nat) | len (i j : Nat)
deriving DecidableEq, Repr

/-- An abstract state. `mv` compares with the start of the method and with the start of the current
iteration of every enclosing loop. -/
structure AS where
  cur : CurS
  env : List XV
  mv : List Mv
  saved : CurS
  smv : List Mv
  facts : List (Key × Key)
deriving DecidableEq, Repr

/-- One way in which a method may return. -/
structure Post where
  res : List AV
  cur : CurS
  mv : Mv
deriving DecidableEq, Repr

/-- What holds before and after a method; `rank` decreases with calls that use up no input. -/
structure Sig where
  cur : CurS
  args : List AV
  post : List Post
  rank : Nat
deriving DecidableEq, Repr

/-- The assumptions of the analysis; a method may have several signatures. -/
structure Tables (Fn : Type) where
  need : Ty → List PNeed
  sig : Fn → List Sig
  /-- source lines that may panic -/
  bad : List Nat

/-- Conditions the analysis has to check. -/
inductive Ev (Fn : Type) where
  /-- a struct is finished; `p` and `e` describe its `Pos()` and `End()` -/
  | done (t : Ty) (fs : List AV) (p e : PB)
  /-- a `ParseError` is finished -/
  | err (fs : List AV)
  | panic (ln : Nat)
  | call (f : Fn) (args : List AV) (cur : CurS) (mv : Mv)
  | ret (res : List AV) (cur : CurS) (mv : Mv)
  /-- the next iteration of a loop starts -/
  | back (mv : Mv)
  /-- something the analysis cannot handle -/
  | fail (what : String)
deriving Repr

/-! ### Order and joins -/

/-- `iface i` values are `iface j` values. -/
def ifaceLe (i j : Iface) : Bool :=
  i == j || j == .Expr || j == .Literal || (i == .DDL && j == .ColumnType) || (i == .ColumnType && j == .DDL)

def tyLe : FTy → FTy → Bool
  | .ptr t, .ptr u => t == u
  | .val t, .ptr u => t == u
  | .val t, .val u => t == u
  | .ptr t, .iface i => FTy.admits (.iface i) t
  | .val t, .iface i => FTy.admits (.iface i) t
  | .iface i, .iface j => ifaceLe i j
  | .slice a, .slice b => tyLe a b || (match a, b with
    | .ptr t, .val u => t == u
    | _, _ => false)
  | .str, .str => true
  | .int, .int => true
  | .pos, .pos => true
  | .bool, .bool => true
  | _, _ => false

/-- A type for values of both types. -/
def tyLub : FTy → FTy → Option FTy
  | .slice a, .slice b => (tyLub a b).map .slice
  | a, b => if tyLe a b then some b else if tyLe b a then some a
      else [Iface.ColumnType, .AlterTableClause, .Expr].findSome? fun i =>
        if tyLe a (.iface i) && tyLe b (.iface i) then some (.iface i) else none

/-- Types whose values may be nil. -/
def nullable : FTy → Bool
  | .ptr _ | .iface _ | .slice _ => true
  | _ => false

def isSlice : FTy → Bool
  | .slice _ => true
  | _ => false

/-- The first bound implies the second. -/
def boundLe : Option Int → Option Int → Bool
  | _, none => true
  | some a, some b => decide (a ≤ b)
  | none, some _ => false

def boundMax : Option Int → Option Int → Option Int
  | some a, some b => some (if a ≤ b then b else a)
  | _, _ => none

namespace PB

def top : PB := ⟨false, none⟩
/-- The first implies the second. -/
def le (a b : PB) : Bool := (a.safe || !b.safe) && boundLe a.k b.k
def max (a b : PB) : PB := ⟨a.safe && b.safe, boundMax a.k b.k⟩
/-- What follows from both. -/
def meet (a b : PB) : PB := ⟨a.safe || b.safe, match a.k, b.k with
  | some a, some b => some (if a ≤ b then a else b)
  | some a, none => some a
  | none, b => b⟩

end PB

namespace AV

def le : AV → AV → Bool
  | _, top => true
  | nil, nil => true
  | nil, err false _ => true
  | nil, ty τ false _ _ => nullable τ
  | nil, empty => true
  | zero, zero => true
  | zero, nat k => boundLe (some 0) k
  | bool a, bool b => b == Option.none || a == b
  | nat a, nat b => boundLe a b
  | str a, str b => a || !b
  | err a w, err b w' => (a || !b) && (w || !w')
  | ty τ a p e, ty τ' b p' e' => (tyLe τ τ' && (a || !b)) && (p.le p' && e.le e')
  | empty, empty => true
  | empty, ty τ false _ _ => isSlice τ
  | curTok, curTok => true
  | curPos, curPos => true
  | curKind, curKind => true
  | _, _ => false

def lub (a b : AV) : AV :=
  if le a b then b else if le b a then a else
  match a, b with
  | nil, err _ w => err false w
  | err _ w, nil => err false w
  | nil, ty τ _ p e => if nullable τ then ty τ false p e else top
  | ty τ _ p e, nil => if nullable τ then ty τ false p e else top
  | zero, nat k => nat (boundMax (some 0) k)
  | nat k, zero => nat (boundMax (some 0) k)
  | bool _, bool _ => bool Option.none
  | nat a, nat b => nat (boundMax a b)
  | str a, str b => str (a && b)
  | err a w, err b w' => err (a && b) (w && w')
  | ty τ a p e, ty τ' b p' e' => match tyLub τ τ' with
    | some τ'' => ty τ'' (a && b) (p.max p') (e.max e')
    | Option.none => top
  | empty, ty τ _ p e => if isSlice τ then ty τ false p e else top
  | ty τ _ p e, empty => if isSlice τ then ty τ false p e else top
  | _, _ => top

end AV

def CurS.le : CurS → CurS → Bool
  | _, .any => true
  | .tok m k, .tok m' k' => decide (m' ≤ m) && (k' == .any || k == k')
  | .none, .none => true
  | .eof, .none => true
  | .eof, .eof => true
  | _, _ => false

def CurS.lub (a b : CurS) : CurS :=
  if CurS.le a b then b else if CurS.le b a then a else
  match a, b with
  | .tok m k, .tok m' k' => .tok (min m m') (if k = k' then k else .any)
  | _, _ => .any

def Mv.cmp : Mv → Mv → Bool
  | _, .un => true
  | .eq, .eq => true
  | .eq, .le => true
  | .lt, .lt => true
  | .lt, .le => true
  | .le, .le => true
  | _, _ => false

def Mv.lub (a b : Mv) : Mv :=
  if Mv.cmp a b then b else if Mv.cmp b a then a else
  match a, b with
  | .eq, .lt => .le
  | .lt, .eq => .le
  | _, _ => .un

/-- After a step that used up input. -/
def Mv.strict : Mv → Mv
  | .eq | .lt | .le => .lt
  | .un => .un

/-- After a step that did not add input. -/
def Mv.weak : Mv → Mv
  | .eq | .le => .le
  | .lt => .lt
  | .un => .un

/-- After a step that is itself described by the second argument. -/
def Mv.after (a : Mv) : Mv → Mv
  | .eq => a
  | .lt => a.strict
  | .le => a.weak
  | .un => .un

def all2 {α β : Type} (p : α → β → Bool) : List α → List β → Bool
  | [], [] => true
  | a :: l, b :: m => p a b && all2 p l m
  | _, _ => false

def map2 {α β : Type} (f : α → α → β) : List α → List α → List β
  | a :: l, b :: m => f a b :: map2 f l m
  | _, _ => []

/-! ### Fields of finished structs -/

section
variable {Fn : Type} (tb : Tables Fn)

/-- What the table says about field `i`. -/
def needBound (ns : List PNeed) (i : Nat) : Option Int :=
  ns.findSome? fun n => match n with
    | .bound j k => if j = i then some k else none
    | _ => none
def needPos (ns : List PNeed) (i : Nat) : PB :=
  (ns.findSome? fun n => match n with
    | .pos j b => if j = i then some b else none
    | _ => none).getD .top
def needEnd (ns : List PNeed) (i : Nat) : PB :=
  (ns.findSome? fun n => match n with
    | .end_ j b => if j = i then some b else none
    | _ => none).getD .top

/-- The abstract value of field `i` with type `τ`. -/
def fieldAV (ns : List PNeed) (i : Nat) (τ : FTy) : AV :=
  match τ with
  | .pos | .int => .nat (needBound ns i)
  | .bool => .bool none
  | .str => .str false
  | .val t => .ty (.val t) true (needPos ns i) (needEnd ns i)
  | τ => .ty τ (ns.contains (.filled i)) (needPos ns i) (needEnd ns i)

def expandFrom (ns : List PNeed) (i : Nat) : List FTy → List AV
  | [] => []
  | τ :: τs => fieldAV ns i τ :: expandFrom ns (i + 1) τs

/-- What is known about the fields of a finished struct. -/
def expand (t : Ty) : List AV := expandFrom (tb.need t) 0 (schema t)

/-- A value that is not nil as a struct. -/
def AV.open : AV → Option XV
  | .ty (.ptr t) true p e => some (.obj t (expand tb t) p e)
  | .ty (.val t) _ p e => some (.obj t (expand tb t) p e)
  | _ => none

/-- The fields of a value, if it is not nil. -/
def AV.fields : AV → Option (Ty × List AV)
  | .ty (.ptr t) _ _ _ => some (t, expand tb t)
  | .ty (.val t) _ _ _ => some (t, expand tb t)
  | _ => none

/-- The value is certainly not nil. -/
def AV.there : AV → Bool
  | .ty (.val _) _ _ _ => true
  | .ty _ nn _ _ => nn
  | _ => false

/-- Elements of a slice. -/
def elemAV (τ : FTy) (p e : PB) : AV :=
  match τ with
  | .pos | .int => .nat none
  | .bool => .bool none
  | .str => .str false
  | .slice τ => .ty (.slice τ) false p e
  | τ => .ty τ true p e

/-! ### `Pos()` and `End()` -/

/-- What is known about a part of a struct: nothing, it is never reached, or its value if it is reached,
which is certain if `safe`. -/
inductive R where
  | bad
  | never
  | ok (safe : Bool) (a : AV)

def aSel : Sel → AV → R
  | .f i, a => match a with
    | .nil => .never
    | a => match a.fields tb with
      | some (_, fs) => match fs[i]? with
        | some b => .ok a.there b
        | none => .bad
      | none => .bad
  | .last, .ty (.slice τ) nn p e => .ok nn (elemAV τ p e)
  | .first, .ty (.slice τ) nn p e => .ok nn (elemAV τ p e)
  | .last, .nil | .first, .nil | .last, .empty | .first, .empty => .never

  | _, _ => .bad

def aSels (safe : Bool) (a : AV) : List Sel → R
  | [] => .ok safe a
  | s :: ss => match aSel tb s a with
    | .ok sf b => aSels (safe && sf) b ss
    | r => r

/-- A path that starts at the receiver, whose fields are `fs`. -/
def aRef (fs : List AV) (r : Ref) : R :=
  match r with
  | ⟨0, .f i :: ss⟩ => match fs[i]? with
    | some a => aSels tb true a ss
    | none => .bad
  | _ => .bad

/-- Known truth value of `x != nil`. -/
def AV.notNil? : AV → Option Bool
  | .nil => some false
  | .zero | .bool _ | .nat _ | .str _ => some true
  | .err nn _ => if nn then some true else none
  | .ty τ nn _ _ => if nn || !nullable τ then some true else none
  | _ => none

/-- Known truth value of `len(x) > 0`. -/
def AV.hasLen? : AV → Option Bool
  | .nil | .empty => some false
  | .ty (.slice _) nn _ _ => if nn then some true else none
  | _ => none

def AV.setNN : AV → AV
  | .ty τ _ p e => .ty τ true p e
  | .err _ w => .err true w
  | a => a

/-- The abstract value if it is known to be nil. -/
def AV.setNil : AV → AV
  | .ty τ nn p e => if nullable τ then .nil else .ty τ nn p e
  | .err _ _ => .nil
  | a => a

/-- Outcomes of a condition, with what is known then. -/
structure CR where
  safe : Bool
  outs : List (Bool × List AV)

/-- Outcomes of a test of a part of the struct. -/
def CR.ofR (fs : List AV) (r : R) (f : AV → Option (List (Bool × List AV))) : CR :=
  match r with
  | .bad => ⟨false, [(true, fs), (false, fs)]⟩
  | .never => ⟨false, []⟩
  | .ok safe a => match f a with
    | some l => ⟨safe, l⟩
    | none => ⟨false, [(true, fs), (false, fs)]⟩

def CR.bind (r : CR) (f : Bool × List AV → CR) : CR :=
  r.outs.foldr (fun p acc => let q := f p; ⟨q.safe && acc.safe, q.outs ++ acc.outs⟩) ⟨r.safe, []⟩

/-- A condition on the fields `fs` of the receiver. -/
def aCond (fs : List AV) : Cond → CR
  | .nonNil ⟨0, []⟩ => ⟨true, [(true, fs)]⟩
  | .nonNil r => .ofR fs (aRef tb fs r) fun a => some (match a.notNil? with
    | some b => [(b, fs)]
    | none => match r with
      | ⟨0, [.f i]⟩ => match a with
        | .ty (.slice _) _ _ _ => [(true, fs), (false, fs.set i .nil)]
        | _ => [(true, fs.set i a.setNN), (false, fs.set i a.setNil)]
      | _ => [(true, fs), (false, fs)])
  | .lenPos r => .ofR fs (aRef tb fs r) fun a => some (match a.hasLen? with
    | some b => [(b, fs)]
    | none => match a, r with
      | .ty (.slice _) _ _ _, ⟨0, [.f i]⟩ => [(true, fs.set i a.setNN), (false, fs.set i .empty)]
      | _, _ => [(true, fs), (false, fs)])
  | .isTrue r => .ofR fs (aRef tb fs r) fun a => match a with
    | .bool (some b) => some [(b, fs)]
    | .bool none => some [(true, fs), (false, fs)]
    | _ => none
  | .natEq r n => .ofR fs (aRef tb fs r) fun a => match a with
    | .zero => some [(n == 0, fs)]
    | .nat _ => some [(true, fs), (false, fs)]
    | _ => none
  | .strEq r _ => .ofR fs (aRef tb fs r) fun a => match a with
    | .str _ => some [(true, fs), (false, fs)]
    | _ => none
  | .isTy r _ => .ofR fs (aRef tb fs r) fun _ => some [(true, fs), (false, fs)]
  | .not c => let r := aCond fs c; ⟨r.safe, r.outs.map fun p => (!p.1, p.2)⟩
  | .and a b => (aCond fs a).bind fun p => if p.1 then aCond p.2 b else ⟨true, [p]⟩
  | .or a b => (aCond fs a).bind fun p => if p.1 then ⟨true, [p]⟩ else aCond p.2 b
  | _ => ⟨false, [(true, fs), (false, fs)]⟩

/-- `Pos()` (`false`) or `End()` (`true`) of a node.  (Of the methods with a nil receiver that do not
panic all return 0.) -/
def AV.ends (which : Bool) : AV → PB
  | .ty (.ptr _) nn p e | .ty (.iface _) nn p e =>
    let b := if which then e else p
    if nn then b else ⟨false, boundMax b.k (some 0)⟩
  | .ty (.val _) _ p e => if which then e else p
  | .nil => ⟨false, some 0⟩
  | _ => .top

/-- A static type of which the value certainly is. -/
def AV.isStatic (a : AV) : Static → Bool
  | .ptr t => match a with
    | .ty (.ptr u) _ _ _ | .ty (.val u) _ _ _ => t == u
    | .nil => true
    | _ => false
  | .iface => match a with
    | .ty (.ptr _) _ _ _ | .ty (.val _) _ _ _ | .ty (.iface _) _ _ _ | .nil => true
    | _ => false

/-- `Pos()` or `End()` of a part of the struct. -/
def R.ends (which : Bool) (s : Static) : R → PB
  | .bad => .top
  | .never => ⟨false, some 0⟩
  | .ok safe a => if a.isStatic s then let b := a.ends which; ⟨safe && b.safe, b.k⟩ else .top

/-- The value of a body of `Pos` or `End`. -/
def aPExp (fs : List AV) : PExp → PB
  | .const n => ⟨true, some n⟩
  | .field r => match aRef tb fs r with
    | .bad => .top
    | .never => ⟨false, some 0⟩
    | .ok safe a => match a with
      | .zero => ⟨safe, some 0⟩
      | .nat k => ⟨safe, k⟩
      | _ => .top
  | .pos r s => (aRef tb fs r).ends false s
  | .end_ r s => (aRef tb fs r).ends true s
  | .plus e n => let b := aPExp fs e; ⟨b.safe, b.k.map (· + (n : Int))⟩
  | .plusLen _ _ => .top
  | .ite c a b =>
    let r := aCond tb fs c
    r.outs.foldr (fun p acc => (if p.1 then aPExp p.2 a else aPExp p.2 b).max acc) ⟨r.safe, some (-1000)⟩

/-- `Pos()` or `End()` of a struct with fields `fs`. -/
def structEnds (which : Bool) (t : Ty) (fs : List AV) : PB :=
  aPExp tb fs (if which then endBody t else posBody t)

/-! ### Finished structs -/

/-- A value with this abstract value may be stored in a place of type `τ`. -/
def AV.fits : AV → FTy → Bool
  | .nil, τ => nullable τ
  | .zero, τ => τ == .pos || τ == .int
  | .nat _, τ => τ == .pos || τ == .int
  | .bool _, τ => τ == .bool
  | .str _, τ => τ == .str
  | .empty, τ => isSlice τ
  | .ty σ nn _ _, τ => match τ with
    | .val t => nn && (σ == .ptr t || σ == .val t) || σ == .val t
    | τ => tyLe σ τ
  | _, _ => false

/-- Neither nil nor empty. -/
def AV.isFilled : AV → Bool
  | .zero | .bool _ | .nat _ | .str _ => true
  | .err nn _ => nn
  | .ty τ nn _ _ => nn || (match τ with | .val _ => true | _ => false)
  | _ => false

/-- Not the zero value. -/
def AV.isSet : AV → Bool
  | .bool (some true) => true
  | .ty τ nn _ _ => nn && !(τ == .str || τ == .int || τ == .pos || τ == .bool) || (match τ with | .val _ => true | _ => false)
  | _ => false

/-- `AV` has the bound for `Pos` (`false`) or `End` (`true`) of all nodes in it. -/
def AV.allEnds (which : Bool) (b : PB) : AV → Bool
  | .nil | .empty => true
  | .ty _ _ p e => (if which then e else p).le b
  | _ => false

/-- The requirement is met by fields with these abstract values. -/
def PNeed.check (fs : List AV) (p e : PB) : PNeed → Bool
  | .filled i => (fs[i]?.map AV.isFilled).getD false
  | .either i j => (fs[i]?.map AV.isSet).getD false || (fs[j]?.map AV.isSet).getD false
  | .bound i k => match fs[i]? with
    | some .zero => decide (0 ≤ k)
    | some (.nat b) => boundLe b (some k)
    | _ => false
  | .pos i b => (fs[i]?.map (AV.allEnds false b)).getD false
  | .end_ i b => (fs[i]?.map (AV.allEnds true b)).getD false
  | .lenGe _ _ => false
  | .own which b => (if which then e else p).le b

/-- A struct with these fields is a finished struct. -/
def doneOK (t : Ty) (fs : List AV) (p e : PB) : Bool :=
  all2 AV.fits fs (schema t) && (tb.need t).all (PNeed.check fs p e)

/-- A `ParseError` with a position in the input that is not resolved. -/
def errOK (fs : List AV) : Bool :=
  match fs with
  | p :: l :: c :: rest => p.le (.nat (some 0)) && l == .zero && c == .zero && decide (rest.length = 4)
  | _ => false

/-- A struct becomes an abstract value without details. -/
def weaken : XV → AV × List (Ev Fn)
  | .v a => (a, [])
  | .obj .ParseError fs _ _ => (.err true false, [.err fs])
  | .obj t fs p e => (.ty (.ptr t) true (p.meet (structEnds tb false t fs)) (e.meet (structEnds tb true t fs)),
      [.done t fs (p.meet (structEnds tb false t fs)) (e.meet (structEnds tb true t fs))])

end

end Verif.An

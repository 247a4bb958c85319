/-
An abstract interpretation of the parser methods: expressions, statements, methods.
-/
import Verif.Analysis.Domain

namespace Verif.An

variable {Fn : Type} (tb : Tables Fn)

/-- The slot of a token that is there, at least `m` bytes before the end. -/
def tokObj (m : Nat) : XV :=
  .obj .Token [.nat (some (-(m : Int))), .nat (some 0), .str true, .str false, .nat none, .nat none] .top .top

/-- `curTok` and `curPos` replaced by what is known about them now. -/
def AV.resolve (c : CurS) : AV → XV
  | .curTok => match c with
    | .tok m _ => tokObj m
    | .any => .v (.ty (.ptr .Token) false .top .top)
    | _ => .v .nil
  | .curPos => match c with
    | .tok m _ => .v (.nat (some (-(m : Int))))
    | _ => .v (.nat (some 0))
  | .curKind => match c with
    | .tok _ _ => .v (.str true)
    | _ => .v (.str false)
  | a => .v a

def XV.resolve (c : CurS) : XV → XV
  | .v a => a.resolve c
  | x => x

/-- The state when the lexer is about to change. -/
def AS.release (st : AS) : AS := { st with env := st.env.map (XV.resolve st.cur) }

/-! ### Joins -/

/-- The value as a plain abstract value, resolved. -/
def flat (c : CurS) (x : XV) : AV × List (Ev Fn) := weaken tb (x.resolve c)

def XV.lub (c d : CurS) (x y : XV) : XV × List (Ev Fn) :=
  match x, y with
  | .v .curTok, .v .curTok => (x, [])
  | .v .curPos, .v .curPos => (x, [])
  | .v .curKind, .v .curKind => (x, [])
  | x, y => match x.resolve c, y.resolve d with
    | .v a, .v b => (.v (a.lub b), [])
    | .obj t fs p e, .obj u gs p' e' =>
      if t = u ∧ fs.length = gs.length then 
        (.obj t (map2 AV.lub fs gs) ((p.meet (structEnds tb false t fs)).max (p'.meet (structEnds tb false t gs)))
          ((e.meet (structEnds tb true t fs)).max (e'.meet (structEnds tb true t gs))), [])
      else
        let p := weaken tb (.obj t fs p e); let q := weaken tb (.obj u gs p' e')
        (.v (p.1.lub q.1), p.2 ++ q.2)
    | x, y =>
      let p := weaken tb x; let q := weaken tb y
      (.v (p.1.lub q.1), p.2 ++ q.2)

def lubEnv (c d : CurS) : List XV → List XV → List XV × List (Ev Fn)
  | x :: l, y :: m =>
    let p := XV.lub tb c d x y; let q := lubEnv c d l m
    (p.1 :: q.1, p.2 ++ q.2)
  | _, _ => ([], [])

def AS.lub (a b : AS) : AS × List (Ev Fn) :=
  let p := lubEnv tb a.cur b.cur a.env b.env
  ({ cur := a.cur.lub b.cur, env := p.1, mv := map2 Mv.lub a.mv b.mv, saved := a.saved.lub b.saved,
     smv := map2 Mv.lub a.smv b.smv, facts := a.facts.filter b.facts.contains }, p.2)

/-- States that are kept apart: `strict` also compares bools. -/
def slotApart (strict : Bool) : XV → XV → Bool
  | .v .nil, .v (.err true _) => true
  | .v (.err true _), .v .nil => true
  | .v (.bool a), .v (.bool b) => strict && a != b
  | _, _ => false

def anyApart (strict : Bool) : List XV → List XV → Bool
  | x :: l, y :: m => slotApart strict x y || anyApart strict l m
  | _, _ => false

def CurS.apart : CurS → CurS → Bool
  | .tok _ k, .tok _ k' => k != k'
  | a, b => a != b

/-- 0: keep apart by token, progress, errors and bools; 1: not by bools; 2: by progress and
errors; 3: only by progress. -/
def AS.apart (level : Nat) (a b : AS) : Bool :=
  (level < 2 && a.cur.apart b.cur) || a.mv != b.mv || (level < 3 && anyApart (level == 0) a.env b.env) ||
    a.env.length != b.env.length

/-- Add a state to a list, joining it with one that need not be kept apart. -/
def insert (level : Nat) (a : AS) : List AS → List AS × List (Ev Fn)
  | [] => ([a], [])
  | b :: l =>
    if a = b then (b :: l, [])
    else if a.apart level b then
      let p := insert level a l
      (b :: p.1, p.2)
    else
      let p := AS.lub tb a b
      (p.1 :: l, p.2)

def joinL (level : Nat) : List AS → List AS × List (Ev Fn)
  | [] => ([], [])
  | a :: l =>
    let p := joinL level l
    let q := insert tb level a p.1
    (q.1, p.2 ++ q.2)

def cap : Nat := 10

/-- Reduce a list of states. -/
def join (l : List AS) : List AS × List (Ev Fn) :=
  let p := joinL tb 0 l
  if p.1.length ≤ cap then p
  else
    let q := joinL tb 1 p.1
    if q.1.length ≤ cap then (q.1, p.2 ++ q.2)
    else
      let r := joinL tb 2 q.1
      if r.1.length ≤ cap then (r.1, p.2 ++ (q.2 ++ r.2))
      else
        let t := joinL tb 3 r.1
        (t.1, p.2 ++ (q.2 ++ (r.2 ++ t.2)))

/-! ### Order -/

/-- The first abstract value, of a state with current token `c`, says at least as much. -/
def XV.le (x y : XV) : Bool :=
  match x, y with
  | .v a, .v b => a.le b
  | .obj t fs p e, .obj u gs p' e' => decide (t = u) && all2 AV.le fs gs && 
      ((p.le p' || (p.meet (structEnds tb false t fs)).le p') && (e.le e' || (e.meet (structEnds tb true t fs)).le e'))
  | _, .v .top => true
  | _, _ => false

/-- Covered, after resolving and finishing the struct if necessary; the events are those of it. -/
def XV.leW (c : CurS) (x y : XV) : Bool × List (Ev Fn) :=
  if x.le tb y then (true, [])
  else
    let x' := x.resolve c
    if x'.le tb y then (true, [])
    else
      let p := weaken tb x'
      (XV.le tb (.v p.1) y, p.2)

def envLeW (c : CurS) : List XV → List XV → Bool × List (Ev Fn)
  | [], [] => (true, [])
  | x :: l, y :: m =>
    let p := XV.leW tb c x y
    if p.1 then
      let q := envLeW c l m
      (q.1, p.2 ++ q.2)
    else (false, [])
  | _, _ => (false, [])

def AS.leW (a b : AS) : Bool × List (Ev Fn) :=
  if a.cur.le b.cur && all2 Mv.cmp a.mv b.mv && a.saved.le b.saved && all2 Mv.cmp a.smv b.smv &&
      b.facts.all a.facts.contains then envLeW tb a.cur a.env b.env
  else (false, [])

/-- The first state of the list that covers `a`. -/
def coveredBy (a : AS) : List AS → Bool × List (Ev Fn)
  | [] => (false, [])
  | b :: l => let p := AS.leW tb a b
    if p.1 then p else coveredBy a l

def allCovered : List AS → List AS → Bool × List (Ev Fn)
  | [], _ => (true, [])
  | a :: l, m =>
    let p := coveredBy tb a m
    if p.1 then
      let q := allCovered l m
      (q.1, p.2 ++ q.2)
    else (false, [])

/-! ### Expressions -/

/-- Outcomes of an expression and the conditions to check. -/
structure ER (Fn : Type) where
  outs : List (XV × AS)
  evs : List (Ev Fn) := []

namespace ER

def bind (r : ER Fn) (f : XV → AS → ER Fn) : ER Fn :=
  r.outs.foldr (fun p acc => let q := f p.1 p.2; ⟨q.outs ++ acc.outs, q.evs ++ acc.evs⟩) ⟨[], r.evs⟩

end ER

/-- Outcome of a list of expressions. -/
structure ELR (Fn : Type) where
  outs : List (List XV × AS)
  evs : List (Ev Fn) := []

/-- Replace what is known about a variable or a field of one. -/
def AS.refine (st : AS) (e : Exp) (a : XV) : AS :=
  match e with
  | .var i => { st with env := st.env.set i a }
  | .fld (.var i) j => match a with
    | .v a => match st.env[i]? with
      | some (.obj t fs p e) => { st with env := st.env.set i (.obj t (fs.set j a) p e) }
      | some (.v x) => match x.open tb with
        | some (.obj t fs p e) => { st with env := st.env.set i (.obj t (fs.set j a) p e) }
        | _ => st
      | none => st
    | _ => st
  | _ => st

/-- There is a current token. -/
def AS.some (st : AS) (m : Nat) (k : Tk) : List AS :=
  match st.cur with
  | .any => [{ st with cur := .tok m k }]
  | .tok m' k' => [{ st with cur := .tok (max m m') (if k = .any then k' else k) }]
  | _ => []

/-- There is no current token. -/
def AS.noTok (st : AS) : List AS :=
  match st.cur with
  | .any => [{ st with cur := .none }]
  | .tok _ _ => []
  | _ => [st]

/-- The case that the value of `e`, which is `x`, is not nil, and the case that it is. -/
def splitNil (e : Exp) (x : XV) (st : AS) : List (XV × AS) × List AS :=
  match x with
  | .obj _ _ _ _ => ([(x, st)], [])
  | .v .curTok => ((st.some 0 .any).map (fun st => (x, st)), st.noTok)
  | .v a => match a.notNil? with
    | some true => ([(x, st)], [])
    | some false => ([], [st])
    | none => match a with
      | .ty (.slice _) _ _ _ => ([(x, st)], [st.refine tb e (.v .nil)])
      | .ty _ _ _ _ | .err _ _ => ([(.v a.setNN, st.refine tb e (.v a.setNN))], [st.refine tb e (.v .nil)])
      | _ => ([(x, st)], [st])

/-- The fields of a struct that is known to be there. -/
def XV.fields (x : XV) (st : AS) : Option (Ty × List AV) :=
  match x.resolve st.cur with
  | .obj t fs _ _ => some (t, fs)
  | .v a => a.fields tb

/-- Nothing known: the outcome of an expression that cannot be handled. -/
def unknown (ln : Nat) (st : AS) : ER Fn := ⟨[(.v .top, st)], [.panic ln]⟩

/-- Use the fields of `x`, which is the value of `e`. -/
def withFields (ln : Nat) (e : Exp) (x : XV) (st : AS) (f : List AV → AS → ER Fn) : ER Fn :=
  let p := splitNil tb e x st
  let r : ER Fn := p.1.foldr (fun (y : XV × AS) acc =>
    let q : ER Fn := match y.1.fields tb y.2 with
      | some (_, fs) => f fs y.2
      | none => unknown ln y.2
    ⟨q.outs ++ acc.outs, q.evs ++ acc.evs⟩) ⟨[], []⟩
  if p.2.isEmpty then r else ⟨r.outs, .panic ln :: r.evs⟩

def isStr : XV → Bool
  | .v (.str _) | .v .curKind => true
  | _ => false

def isNat (st : AS) (x : XV) : Bool :=
  match x.resolve st.cur with
  | .v .zero | .v (.nat _) => true
  | _ => false

/-- The bound of a number. -/
def natBound (st : AS) (x : XV) : Option Int :=
  match x.resolve st.cur with
  | .v .zero => some 0
  | .v (.nat k) => k
  | _ => none

def Exp.key? : Exp → Option Key
  | .var i => some (.v i)
  | .add (.var i) (.var j) => some (.add i j)
  | .fld (.var i) j => some (.fld i j)
  | .len (.fld (.var i) j) => some (.len i j)
  | _ => none

/-- Both truth values. -/
def both (st : AS) : ER Fn := ⟨[(.v (.bool (some true)), st), (.v (.bool (some false)), st)], []⟩

/-- Number of bytes a token that matched one of these kinds certainly has (0 if one of them is
an identifier or a string). -/
def kindsLen (ks : List Str) : Nat :=
  if ks.contains Kind.ident.toStr || ks.contains Kind.string.toStr then 0 else 1

/-- Length of the shortest string. -/
def minLen : List Str → Nat
  | [] => 0
  | [s] => s.length
  | s :: l => min s.length (minLen l)

/-- What a token that matched one of these kinds certainly is. -/
def kindsTk : List Str → Tk
  | [s] => if s == Kind.ident.toStr || s == Kind.keyword.toStr then .any else .kind s
  | _ => .any

/-- The outcomes of a test of the kinds of the current token. -/
def testKinds (st : AS) (ks : List Str) : List (Bool × AS) :=
  match st.cur with
  | .none | .eof => [(ks.contains Kind.eof.toStr, st)]
  | .tok _ (.kind s) => [(ks.contains s, st)]
  | .tok _ (.kw s) => [(ks.contains Kind.keyword.toStr ||
      (ks.contains Kind.ident.toStr && !isReserved (upper s)), st)]
  | _ =>
    if ks.contains Kind.eof.toStr then [(true, st), (false, st)]
    else (st.some (kindsLen ks) (kindsTk ks)).map (fun st => (true, st)) ++ [(false, st)]

/-- The outcomes of a test for a keyword. -/
def testKw (st : AS) (k : Str) : List (Bool × AS) :=
  match st.cur with
  | .none | .eof => [(false, st)]
  | .tok _ (.kind _) => [(false, st)]
  | .tok _ (.kw s) => [(equalFold s k, st)]
  | _ => (st.some k.length (.kw k)).map (fun st => (true, st)) ++ [(false, st)]

/-- The outcomes of a test for several keywords. -/
def testOneOf (st : AS) (ks : Option (List Str)) : List (Bool × AS) :=
  match st.cur with
  | .none | .eof => [(false, st)]
  | .tok _ (.kind _) => [(false, st)]
  | _ => match st.cur, ks with
    | .tok _ (.kw s), some ks => [(ks.any (equalFold s), st)]
    | _, some ks => (st.some (minLen ks) .any).map (fun st => (true, st)) ++ [(false, st)]
    | _, none => (st.some 0 .any).map (fun st => (true, st)) ++ [(false, st)]

/-- The outcomes of `p.currentTokenKind() == s`. -/
def testKind (st : AS) (s : Str) : List (Bool × AS) :=
  match st.cur with
  | .none | .eof => [(s == Kind.eof.toStr, st)]
  | .tok _ (.kind s') => [(s == s', st)]
  | .tok _ (.kw _) => [(s == Kind.keyword.toStr, st)]
  | _ =>
    if s == Kind.eof.toStr then [(true, st), (false, st)]
    else (st.some (kindsLen [s]) (if s == Kind.keyword.toStr then .any else .kind s)).map (fun st => (true, st)) ++ [(false, st)]

/-- The outcomes of a test of the current token for a kind. -/
def testKindE (st : AS) : Exp → List (Bool × AS)
  | .str s => testKinds st [s]
  | _ => (st.some 0 .any).map (fun st => (true, st)) ++ [(false, st)]

/-- The outcomes of a test of the current token for a keyword. -/
def testKwE (st : AS) : Exp → List (Bool × AS)
  | .str s => testKw st s
  | _ => testOneOf st none

/-- Outcomes as abstract values. -/
def ER.ofTests (l : List (Bool × AS)) (evs : List (Ev Fn) := []) : ER Fn :=
  ⟨l.map (fun p => (.v (.bool (some p.1)), p.2)), evs⟩

/-- The constant strings in a list of expressions. -/
def constStrs : List Exp → Option (List Str)
  | [] => some []
  | .str s :: es => (constStrs es).map (s :: ·)
  | _ :: _ => none

/-- All values are strings different from `<eof>`. -/
def allNe : List XV → Bool
  | [] => true
  | .v (.str true) :: l => allNe l
  | _ :: _ => false

def allStr : List XV → Bool
  | [] => true
  | x :: l => isStr x && allStr l

/-- A slice of strings. -/
def isStrs : XV → Bool
  | .v .nil | .v .empty => true
  | .v (.ty τ _ _ _) => τ == .slice .str
  | _ => false

/-- The abstract value of `append(x, a)`. -/
def appendAV (x a : AV) : Option AV :=
  let elem : Option (FTy × PB × PB) := match a with
    | .ty τ nn p e => if nn && (match τ with | .slice _ => false | _ => true) then some (τ, p, e) else none
    | .str _ => some (.str, .top, .top)
    | _ => none
  match elem with
  | none => none
  | some (τ, p, e) => match x with
    | .nil | .empty => some (.ty (.slice τ) true p e)
    | .ty (.slice σ) _ p' e' => (tyLub σ τ).map fun τ' => .ty (.slice τ') true (p.max p') (e.max e')
    | _ => none

def appendAllAV (x a : AV) : Option AV :=
  match x, a with
  | .nil, .nil | .nil, .empty | .empty, .nil | .empty, .empty => some .empty
  | .ty (.slice σ) nn p e, .nil | .ty (.slice σ) nn p e, .empty => some (.ty (.slice σ) nn p e)
  | .nil, .ty (.slice σ) nn p e | .empty, .ty (.slice σ) nn p e => some (.ty (.slice σ) nn p e)
  | .ty (.slice σ) nn p e, .ty (.slice τ) nn' p' e' =>
    (tyLub σ τ).map fun τ' => .ty (.slice τ') (nn || nn') (p.max p') (e.max e')
  | _, _ => none

/-- A literal `keywordArgForm`. -/
def formLit : List Exp → Option Bool
  | [a, .bool _, b, .nat n, .bool _, .nat _] => match a, b with
    | .nil, .nil => some false
    | .nil, .strs l | .strs _, .strs l => some (!l.isEmpty && decide (n ≤ l.length))
    | _, _ => none
  | _ => none

/-- What is known of a `keywordArgForm`. -/
def formNeed : List PNeed := [.filled 2, .lenGe 2 3]

/-- `e` is known to be an index into `l`. -/
def inRange (st : AS) (l i : Exp) : Bool :=
  match Exp.key? i, l with
  | some k, .fld (.var x) j =>
    st.facts.contains (k, .len x j) ||
    (decide (j = 2) && st.facts.contains (k, .fld x 3) && (match st.env[x]? with
      | some (.v (.ty (.val .KeywordArgForm) _ _ _)) => (tb.need .KeywordArgForm).contains (.lenGe 2 3)
      | _ => false))
  | _, _ => false

mutual
/-- Abstract evaluation. -/
def aeval (ln : Nat) (st : AS) : Exp → ER Fn
  | .nil => ⟨[(.v .nil, st)], []⟩
  | .nat n => ⟨[(.v (if n = 0 then .zero else .nat (some n)), st)], []⟩
  | .bool b => ⟨[(.v (.bool (some b)), st)], []⟩
  | .str s => ⟨[(.v (.str (s != Kind.eof.toStr)), st)], []⟩
  | .empty => ⟨[(.v .empty, st)], []⟩
  | .strs ss => ⟨[(.v (if ss.isEmpty then .empty else .ty (.slice .str) true .top .top), st)], []⟩
  | .var i => match st.env[i]? with
    | some x => ⟨[(x, st)], []⟩
    | none => unknown ln st
  | .fld e i => (aeval ln st e).bind fun x st => withFields tb ln e x st fun fs st =>
      match fs[i]? with
      | some a => ⟨[(.v a, st)], []⟩
      | none => unknown ln st
  | .deref e => (aeval ln st e).bind fun x st =>
      let p := splitNil tb e x st
      ⟨p.1, if p.2.isEmpty then [] else [.panic ln]⟩
  | .mk t es =>
    if t = .KeywordArgForm then
      match formLit es with
      | some true =>
        if tb.need .KeywordArgForm == formNeed then ⟨[(.v (.ty (.val .KeywordArgForm) true .top .top), st)], []⟩
        else unknown ln st
      | some false => ⟨[(.v .top, st)], []⟩
      | none => unknown ln st
    else
      let r := aevalL ln st es
      r.outs.foldr (fun p acc =>
        let fs := p.1.map (fun x => flat tb p.2.cur x)
        ⟨(.obj t (fs.map Prod.fst) .top .top, p.2) :: acc.outs, (fs.map Prod.snd).flatten ++ acc.evs⟩) ⟨[], r.evs⟩
  | .last e => (aeval ln st e).bind fun x st => match x with
    | .v (.ty (.slice τ) nn p ee) =>
      ⟨[(.v (elemAV τ p ee), st.refine tb e (.v (.ty (.slice τ) true p ee)))], if nn then [] else [.panic ln]⟩
    | .v .nil | .v .empty => ⟨[], [.panic ln]⟩
    | _ => unknown ln st
  | .idx e i => (aeval ln st e).bind fun x st => (aeval ln st i).bind fun y st => match x with
    | .v (.ty (.slice τ) nn p ee) =>
      ⟨[(.v (elemAV τ p ee), st)], if isNat st y && ((nn && y == .v .zero) || inRange tb st e i) then [] else [.panic ln]⟩
    | _ => unknown ln st
  | .len e => (aeval ln st e).bind fun _ st => ⟨[(.v (.nat none), st)], []⟩
  | .append e a => (aeval ln st e).bind fun x st => (aeval ln st a).bind fun y st =>
      let p := flat tb st.cur x; let q := flat tb st.cur y
      match appendAV p.1 q.1 with
      | some r => ⟨[(.v r, st)], p.2 ++ q.2⟩
      | none => ⟨[(.v .top, st)], p.2 ++ (q.2 ++ [.fail "append"])⟩
  | .appendAll e a => (aeval ln st e).bind fun x st => (aeval ln st a).bind fun y st =>
      let p := flat tb st.cur x; let q := flat tb st.cur y
      match appendAllAV p.1 q.1 with
      | some r => ⟨[(.v r, st)], p.2 ++ q.2⟩
      | none => ⟨[(.v .top, st)], p.2 ++ (q.2 ++ [.fail "appendAll"])⟩
  | .isNil e => (aeval ln st e).bind fun x st =>
      let p := splitNil tb e x st
      ⟨p.1.map (fun y => (.v (.bool (some false)), y.2)) ++ p.2.map (fun st => (.v (.bool (some true)), st)), []⟩
  | .not e => (aeval ln st e).bind fun x st => match x with
    | .v (.bool b) => ⟨[(.v (.bool (b.map (!·))), st)], []⟩
    | _ => unknown ln st
  | .and a b => (aeval ln st a).bind fun x st => match x with
    | .v (.bool (some true)) => aeval ln st b
    | .v (.bool (some false)) => ⟨[(.v (.bool (some false)), st)], []⟩
    | .v (.bool none) => let r := aeval ln st b
      ⟨(.v (.bool (some false)), st) :: r.outs, r.evs⟩
    | _ => let r := aeval ln st b
      ⟨(.v (.bool (some false)), st) :: r.outs, .panic ln :: r.evs⟩
  | .or a b => (aeval ln st a).bind fun x st => match x with
    | .v (.bool (some true)) => ⟨[(.v (.bool (some true)), st)], []⟩
    | .v (.bool (some false)) => aeval ln st b
    | .v (.bool none) => let r := aeval ln st b
      ⟨(.v (.bool (some true)), st) :: r.outs, r.evs⟩
    | _ => let r := aeval ln st b
      ⟨(.v (.bool (some true)), st) :: r.outs, .panic ln :: r.evs⟩
  | .eqStr a b => match a, b with
    | .curKind, .str s => .ofTests (testKind st s)
    | .var i, .str s => match st.env[i]? with
      | some (.v .curKind) => .ofTests (testKind st s)
      | some x => if isStr x then both st else ⟨(both (Fn := Fn) st).outs, [.panic ln]⟩
      | none => ⟨(both (Fn := Fn) st).outs, [.panic ln]⟩
    | a, b => (aeval ln st a).bind fun x st => (aeval ln st b).bind fun y st =>
      if isStr x && isStr y then both st else ⟨(both (Fn := Fn) st).outs, [.panic ln]⟩
  | .eqNat a b => (aeval ln st a).bind fun x st => (aeval ln st b).bind fun y st =>
      if isNat st x && isNat st y then
        match a, b with
        | .len e, .nat n =>
          if n = 0 then match e with
            | .var _ | .fld (.var _) _ => (aeval ln st e).bind fun z st => match z with
              | .v (.ty (.slice τ) _ p ee) =>
                ⟨[(.v (.bool (some true)), st.refine tb e (.v .empty)),
                  (.v (.bool (some false)), st.refine tb e (.v (.ty (.slice τ) true p ee)))], []⟩
              | .v .nil | .v .empty => ⟨[(.v (.bool (some true)), st)], []⟩
              | _ => both st
            | _ => both st
          else both st
        | _, _ => both st
      else ⟨(both (Fn := Fn) st).outs, [.panic ln]⟩
  | .lt a b => (aeval ln st a).bind fun x st => (aeval ln st b).bind fun y st =>
      if isNat st x && isNat st y then
        match Exp.key? a, Exp.key? b with
        | some k, some k' => ⟨[(.v (.bool (some true)), { st with facts := (k, k') :: st.facts }), (.v (.bool (some false)), st)], []⟩
        | _, _ => match a, b with
          | .nat n, .len e =>
            if n = 0 then match e with
              | .var _ | .fld (.var _) _ => (aeval ln st e).bind fun z st => match z with
                | .v (.ty (.slice τ) _ p ee) =>
                  ⟨[(.v (.bool (some true)), st.refine tb e (.v (.ty (.slice τ) true p ee))),
                    (.v (.bool (some false)), st.refine tb e (.v .empty))], []⟩
                | .v .nil | .v .empty => ⟨[(.v (.bool (some false)), st)], []⟩
                | _ => both st
              | _ => both st
            else both st
          | _, _ => both st
      else ⟨(both (Fn := Fn) st).outs, [.panic ln]⟩
  | .add a b => (aeval ln st a).bind fun x st => (aeval ln st b).bind fun y st =>
      ⟨[(.v (.nat (match b with
        | .nat n => (natBound st x).bind fun k => if k ≤ 0 then some (k + (n : Int)) else none
        | .len (.str s) => (natBound st x).bind fun k => if k ≤ 0 then some (k + (s.length : Int)) else none
        | _ => none)), st)], if isNat st x && isNat st y then [] else [.panic ln]⟩
  | .sub a b => (aeval ln st a).bind fun x st => (aeval ln st b).bind fun y st =>
      ⟨[(.v (.nat (natBound st x)), st)], if isNat st x && isNat st y then [] else [.panic ln]⟩
  | .cat a b => (aeval ln st a).bind fun x st => (aeval ln st b).bind fun y st =>
      ⟨[(.v (.str false), st)], if isStr x && isStr y then [] else [.panic ln]⟩
  | .upper e => (aeval ln st e).bind fun x st => ⟨[(.v (.str false), st)], if isStr x then [] else [.panic ln]⟩
  | .equalFold a b => (aeval ln st a).bind fun x st => (aeval ln st b).bind fun y st =>
      ⟨(both (Fn := Fn) st).outs, if isStr x && isStr y then [] else [.panic ln]⟩
  | .isTy e t => (aeval ln st e).bind fun x st => match x with
    | .v (.ty (.iface i) _ p ee) =>
      if t.implements i then
        ⟨[(.v (.bool (some true)), st.refine tb e (.v (.ty (.ptr t) true p ee))), (.v (.bool (some false)), st)], []⟩
      else both st
    | .v (.ty (.ptr u) nn _ _) =>
      if t = u then if nn then ⟨[(.v (.bool (some true)), st)], []⟩ else both st
      else ⟨[(.v (.bool (some false)), st)], []⟩
    | .v .nil => ⟨[(.v (.bool (some false)), st)], []⟩
    | .obj u _ _ _ => ⟨[(.v (.bool (some (decide (u = t)))), st)], []⟩
    | _ => both st
  | .posOf e s => (aeval ln st e).bind fun x st =>
      let p := flat tb st.cur x
      let b := if p.1.isStatic s then p.1.ends false else .top
      ⟨[(.v (.nat b.k), st)], p.2 ++ if b.safe then [] else [.panic ln]⟩
  | .endOf e s => (aeval ln st e).bind fun x st =>
      let p := flat tb st.cur x
      let b := if p.1.isStatic s then p.1.ends true else .top
      ⟨[(.v (.nat b.k), st)], p.2 ++ if b.safe then [] else [.panic ln]⟩
  | .isUnit e => (aeval ln st e).bind fun x st => ⟨(both (Fn := Fn) st).outs, if isStr x then [] else [.panic ln]⟩
  | .contains e a => (aeval ln st e).bind fun x st => (aeval ln st a).bind fun y st =>
      ⟨(both (Fn := Fn) st).outs, if isStrs x && isStr y then [] else [.panic ln]⟩
  | .containsFold e a => (aeval ln st e).bind fun x st => (aeval ln st a).bind fun y st =>
      ⟨(both (Fn := Fn) st).outs, if isStrs x && isStr y then [] else [.panic ln]⟩
  | .tokText e => (aeval ln st e).bind fun x st => withFields tb ln e x st fun fs st =>
      ⟨[(.v (.str false), st)], match fs with
        | [_, _, .str _, .str _, _, _] => []
        | _ => [.panic ln]⟩
  | .error _ args =>
    let r := aevalL ln st args
    ⟨r.outs.map (fun p => (.v (.err true false), p.2)), r.evs⟩
  | .cur => ⟨[(.v .curTok, st)], []⟩
  | .curKind => ⟨[(.v .curKind, st)], []⟩
  | .curString => ⟨[(.v (.str false), st)], []⟩
  | .pos => ⟨[(.v .curPos, st)], []⟩
  | .end_ => ⟨[(.v (.nat (some (match st.cur with | .tok _ _ => 0 | _ => 1))), st)], []⟩
  | .isEOF => match st.cur with
    | .eof => ⟨[(.v (.bool (some true)), st)], []⟩
    | _ => both st
  | .matchKinds ks =>
    match constStrs ks with
    | some ss => .ofTests (testKinds st ss)
    | none =>
      let r := aevalL ln st ks
      r.outs.foldr (fun p acc =>
        if allNe p.1 then ⟨(p.2.some 0 .any).map (fun st => (.v (.bool (some true)), st)) ++ ((.v (.bool (some false)), p.2) :: acc.outs), acc.evs⟩
        else ⟨(both (Fn := Fn) p.2).outs ++ acc.outs, if allStr p.1 then acc.evs else .panic ln :: acc.evs⟩) ⟨[], r.evs⟩
  | .matchKw k => (aeval ln st k).bind fun x st =>
      .ofTests (testKwE st k) (if isStr x then [] else [.panic ln])
  | .matchOneOf e => (aeval ln st e).bind fun x st =>
      .ofTests (testOneOf st (match e with | .strs ss => some ss | _ => none)) (if isStrs x then [] else [.panic ln])
  | .memoHas e => (aeval ln st e).bind fun x st =>
      ⟨(both (Fn := Fn) st).outs, if isNat st x then [] else [.panic ln]⟩
/-- From left to right. -/
def aevalL (ln : Nat) (st : AS) : List Exp → ELR Fn
  | [] => ⟨[([], st)], []⟩
  | e :: es =>
    let r := aeval ln st e
    r.outs.foldr (fun p acc =>
      let q := aevalL ln p.2 es
      ⟨q.outs.map (fun y => (p.1 :: y.1, y.2)) ++ acc.outs, q.evs ++ acc.evs⟩) ⟨[], r.evs⟩
end

/-! ### Statements -/

/-- Outcomes of a statement. -/
structure SR (Fn : Type) where
  next : List AS
  brk : List AS := []
  cont : List AS := []
  evs : List (Ev Fn) := []

/-- A variable got a new value: what was known about comparisons with it is gone. -/
def Key.uses (i : Nat) : Key → Bool
  | .v j => i == j
  | .add j k => i == j || i == k
  | .fld j _ => i == j
  | .len j _ => i == j

def AS.assign (st : AS) (i : Nat) (x : XV) : AS :=
  { st with env := st.env.set i x, facts := st.facts.filter (fun p => !(p.1.uses i || p.2.uses i)) }

def AS.assignAll (st : AS) : List Nat → List XV → AS
  | i :: is, x :: xs => (st.assign i x).assignAll is xs
  | _, _ => st

/-- The lexer has changed: `c` describes the new current token. -/
def AS.step (st : AS) (c : CurS) (f : Mv → Mv) : AS :=
  { st.release with cur := c, mv := st.mv.map f }

/-- After a call of `consumeToken` in a state with a current token. -/
def AS.advance (st : AS) : AS := st.step .any Mv.strict

def SR.ofList (l : List AS) (f : AS → SR Fn) : SR Fn :=
  l.foldr (fun st acc => let q := f st
    ⟨q.next ++ acc.next, q.brk ++ acc.brk, q.cont ++ acc.cont, q.evs ++ acc.evs⟩) ⟨[], [], [], []⟩

/-- The abstract results of a primitive. -/
def aprim (ln : Nat) (st : AS) (p : Prim) (dst : List Nat) : SR Fn :=
  match p with
  | .consume => match st.cur with
    | .eof => ⟨[(st.step .eof Mv.weak).assignAll dst [.v .nil]], [], [], []⟩
    | .tok _ _ => if dst == [9999] && decide (st.env.length ≤ 9999) then ⟨[st.advance], [], [], []⟩ else
      ⟨[(st.step (.tok 0 .any) Mv.strict).assignAll dst [.v .nil], (st.step .eof Mv.strict).assignAll dst [.v .nil],
        (st.step .none Mv.strict).assignAll dst [.v (.err true false)]], [], [], []⟩
    | _ => ⟨[(st.step (.tok 0 .any) Mv.strict).assignAll dst [.v .nil], (st.step .eof Mv.weak).assignAll dst [.v .nil],
        (st.step .none Mv.weak).assignAll dst [.v (.err true false)]], [], [], []⟩
  | .tryKind k =>
    let r := aeval tb ln st k
    let q : SR Fn := SR.ofList (r.outs.map Prod.snd) fun st =>
      ⟨(testKindE st k).map (fun p =>
        if p.1 then p.2.advance.assignAll dst [XV.resolve p.2.cur (.v .curTok)] else p.2.assignAll dst [.v .nil]), [], [], []⟩
    ⟨q.next, [], [], r.evs ++ if r.outs.all (fun p => p.1 == .v (.str true)) then [] else [.fail "tryKind"]⟩
  | .expectKind k =>
    let r := aeval tb ln st k
    let q : SR Fn := SR.ofList (r.outs.map Prod.snd) fun st =>
      ⟨(testKindE st k).map (fun p =>
        if p.1 then p.2.advance.assignAll dst [.v .nil] else p.2.assignAll dst [.v (.err true false)]), [], [], []⟩
    ⟨q.next, [], [], r.evs ++ if r.outs.all (fun p => p.1 == .v (.str true)) then [] else [.fail "expectKind"]⟩
  | .expectKw k =>
    let r := aeval tb ln st k
    let q : SR Fn := SR.ofList (r.outs.map Prod.snd) fun st =>
      ⟨(testKwE st k).map (fun p =>
        if p.1 then p.2.advance.assignAll dst [.v .nil] else p.2.assignAll dst [.v (.err true false)]), [], [], []⟩
    ⟨q.next, [], [], r.evs ++ if r.outs.all (fun p => isStr p.1) then [] else [.panic ln]⟩
  | .tryKws ks => match ks with
    | [] => ⟨[], [], [], [.fail "tryKws"]⟩
    | [k] => ⟨(testKw st k).map (fun p =>
        if p.1 then p.2.advance.assignAll dst [.v (.bool (some true))] else p.2.assignAll dst [.v (.bool (some false))]), [], [], []⟩
    | k :: _ => ⟨((testKw st k).filter Prod.fst).map (fun p => p.2.advance.assignAll dst [.v (.bool (some true))]) ++
        [st.assignAll dst [.v (.bool (some false))]], [], [], []⟩
  | .peek =>
    ⟨[st.assignAll dst [.v (.ty (.ptr .Token) false .top .top), .v .nil],
      (st.step .none Mv.weak).assignAll dst [.v .nil, .v (.err true false)]], [], [], []⟩
  | .wrap e =>
    let r := aeval tb ln st e
    ⟨r.outs.map (fun p => p.2.assignAll dst [.v (.err true true)]), [], [],
      r.evs ++ if r.outs.all (fun p => match p.1 with | .v (.err true _) => true | _ => false) then [] else [.fail "wrap"]⟩

/-- Assignment to a field along a path. -/
def asetPath (c : CurS) (x : XV) (path : List Nat) (v : XV) : Option (XV × List (Ev Fn)) :=
  let a := flat tb c v
  match path, x.resolve c with
  | [i], .obj t fs _ _ => if i < fs.length then some (.obj t (fs.set i a.1) .top .top, a.2) else none
  | [i], .v y => match y.open tb with
    | some (.obj t fs _ _) => if i < fs.length then some (.obj t (fs.set i a.1) .top .top, a.2) else none
    | _ => none
  | [i, j], .obj t fs _ _ => match fs[i]? with
    | some y => match y.open tb with
      | some (.obj u gs _ _) =>
        if j < gs.length then
          let p := weaken tb (.obj u (gs.set j a.1) .top .top)
          some (.obj t (fs.set i p.1) .top .top, a.2 ++ p.2)
        else none
      | _ => none
    | none => none
  | _, _ => none

/-- The states after an assignment to a field, and the conditions. -/
def setFOut (ln x : Nat) (path : List Nat) (p : XV × AS) : List AS × List (Ev Fn) := match p.2.env[x]? with
  | some w => match asetPath tb p.2.cur w path p.1 with
    | some (w', evs) => ([p.2.assign x w'], evs)
    | none => match path, w with
      | [_], .v (.ty (.ptr t) false _ _) => match asetPath tb p.2.cur (.obj t (expand tb t) .top .top) path p.1 with
        | some (w', evs) => ([p.2.assign x w'], .panic ln :: evs)
        | none => ([], [.fail "setF"])
      | _ :: _, .v .nil => ([], [.panic ln])
      | _, _ => ([], [.fail "setF"])
  | none => ([], [.fail "setF"])

/-! Variables that are not read any more are forgotten.  (Forgetting is sound anyway; that only
unneeded variables are forgotten is not proved.)  A set of variables is a number. -/

mutual
/-- Variables in an expression. -/
def readsE : Exp → Nat
  | .var i => 1 <<< i
  | .fld e _ | .deref e | .last e | .len e | .isNil e | .not e | .upper e | .isTy e _ | .posOf e _
  | .endOf e _ | .isUnit e | .tokText e | .matchKw e | .matchOneOf e | .memoHas e => readsE e
  | .idx a b | .append a b | .appendAll a b | .and a b | .or a b | .eqStr a b | .eqNat a b | .lt a b
  | .add a b | .sub a b | .cat a b | .equalFold a b | .contains a b | .containsFold a b => readsE a ||| readsE b
  | .mk _ es | .error _ es | .matchKinds es => readsL es
  | _ => 0
def readsL : List Exp → Nat
  | [] => 0
  | e :: es => readsE e ||| readsL es
end

/-- Variables in a primitive. -/
def readsP : Prim → Nat
  | .tryKind e | .expectKind e | .expectKw e | .wrap e => readsE e
  | _ => 0

/-- Remove variables from a set. -/
def minus (s : Nat) : List Nat → Nat
  | [] => s
  | i :: l => minus (if i < 1000 then s ^^^ (s &&& (1 <<< i)) else s) l

/-- Variables that are read from here on. -/
def liveIn : Stmt Fn → (out brk cont : Nat) → Nat
  | .skip, out, _, _ => out
  | .seq a b, out, bk, ct => liveIn a (liveIn b out bk ct) bk ct
  | .set _ x e, out, _, _ => minus out [x] ||| readsE e
  | .setF _ x _ e, out, _, _ => out ||| ((1 <<< x) ||| readsE e)
  | .ite _ c a b, out, bk, ct => readsE c ||| (liveIn a out bk ct ||| liveIn b out bk ct)
  | .loop body, out, _, _ =>
    let l := liveIn body 0 out 0
    liveIn body l out l
  | .brk, _, bk, _ => bk
  | .cont, _, _, ct => ct
  | .ret _ es, _, _, _ => readsL es
  | .call _ _ args dst, out, _, _ => minus out dst ||| readsL args
  | .prim _ p dst, out, _, _ => minus out dst ||| readsP p
  | .save, out, _, _ => out
  | .restore, out, _, _ => out
  | .memoAdd _ e, out, _, _ => out ||| readsE e

/-- Forget what is not in the set. -/
def keep (live : Nat) (i : Nat) : List XV → List XV
  | [] => []
  | x :: l => (if live.testBit i then x else .v .top) :: keep live (i + 1) l

def AS.keep (live : Nat) (st : AS) : AS := { st with env := An.keep live 0 st.env }

/-- The level of a loop added. -/
def AS.push (st : AS) : AS := { st with mv := st.mv ++ [.eq] }
/-- The level of a loop removed, leaving `n`. -/
def AS.pop (n : Nat) (st : AS) : AS := { st with mv := st.mv.take n, smv := st.smv.take n }

/-- The states at the beginning of the next iteration. -/
def backEdge (live n : Nat) (l : List AS) : List AS := l.map (fun st => (st.pop n).push.keep live)

/-- Iterate a loop body until the states at its beginning cover those at the end. -/
def aloop (live : Nat) (body : List AS → SR Fn) (n : Nat) : Nat → List AS → List (Ev Fn) → SR Fn
  | 0, _, evs => ⟨[], [], [], .fail "loop" :: evs⟩
  | k + 1, xs, evs =>
    let r := body xs
    let ends := r.next ++ r.cont
    let again := backEdge live n ends
    let c := allCovered tb again xs
    if c.1 then
      let stuck := ends.filter (fun st => st.mv[n]? != some .lt)
      if stuck.isEmpty then ⟨r.brk.map (AS.pop n), [], [], evs ++ (r.evs ++ c.2)⟩
      else if !stuck.all (fun st => st.mv[n]? == some .eq || st.mv[n]? == some .le) then ⟨[], [], [], [.fail "stuck"]⟩
      else
        let q := body (backEdge live n stuck)
        ⟨r.brk.map (AS.pop n), [], [],
          evs ++ (r.evs ++ (c.2 ++ (q.evs ++ (q.next ++ q.cont).map (fun st => .back ((st.mv[n]?).getD .un)))))⟩
    else
      let j := join tb (xs ++ again)
      aloop live body n k j.1 (evs ++ j.2)

/-- `st` with the boolean of a condition. -/
def condSplit (ln : Nat) (c : Exp) (r : ER Fn) : List AS × List AS × List (Ev Fn) :=
  r.outs.foldr (fun p acc => match p.1 with
    | .v (.bool (some true)) => (p.2 :: acc.1, acc.2.1, acc.2.2)
    | .v (.bool (some false)) => (acc.1, p.2 :: acc.2.1, acc.2.2)
    | .v (.bool none) => match c with
      | .var _ => (p.2.refine tb c (.v (.bool (some true))) :: acc.1, p.2.refine tb c (.v (.bool (some false))) :: acc.2.1, acc.2.2)
      | _ => (p.2 :: acc.1, p.2 :: acc.2.1, acc.2.2)
    | _ => (p.2 :: acc.1, p.2 :: acc.2.1, .panic ln :: acc.2.2)) ([], [], r.evs)

/-- Arguments and results, as plain values. -/
def flatAll (st : AS) : List XV → List AV × List (Ev Fn)
  | [] => ([], [])
  | x :: l =>
    let p : AV × List (Ev Fn) := match x with
      | .v .curPos => (.curPos, [])
      | x => flat tb st.cur x
    let q := flatAll st l
    (p.1 :: q.1, p.2 ++ q.2)

/-- Results of a method: nothing refers to the current token. -/
def flatRes (st : AS) : List XV → List AV × List (Ev Fn)
  | [] => ([], [])
  | x :: l =>
    let p := flat tb st.cur x
    let q := flatRes st l
    (p.1 :: q.1, p.2 ++ q.2)

/-- A non-nil error. -/
def isError : XV → Bool
  | .v (.err true _) => true
  | .obj .ParseError _ _ _ => true
  | _ => false

/-- The other results, together with an error, are of no interest. -/
def dropRes (l : List XV) : List XV :=
  if l.any isError then l.map (fun x => if isError x then x else .v .top) else l

/-- `XV.le` without the case of two structs. -/
def XV.leV (x : XV) (b : AV) : Bool := match x with
  | .v a => a.le b
  | .obj _ _ _ _ => b == .top

/-- An argument is covered by the signature. -/
def argLe (c : CurS) (a b : AV) : Bool := a.le b || (a.resolve c).leV b

/-- The first signature that covers a call. -/
def pick (c : CurS) (args : List AV) : List Sig → Option Sig
  | [] => none
  | sg :: l => if all2 (argLe c) args sg.args && c.le sg.cur then some sg else pick c args l

/-- Sets of variables that are read after a statement: after its normal end, `break`, `continue`. -/
structure Live where
  out : Nat
  brk : Nat
  cont : Nat

/-- Abstract execution, from a list of states. -/
def astmt : Stmt Fn → Live → List AS → SR Fn
  | .skip, _, xs => ⟨xs, [], [], []⟩
  | .seq a b, lv, xs =>
    let r := astmt a ⟨liveIn b lv.out lv.brk lv.cont, lv.brk, lv.cont⟩ xs
    let q := astmt b lv r.next
    ⟨q.next, r.brk ++ q.brk, r.cont ++ q.cont, r.evs ++ q.evs⟩
  | .set ln x e, _, xs => SR.ofList xs fun st =>
      let r := aeval tb ln st e
      ⟨r.outs.map (fun p => p.2.assign x p.1), [], [], r.evs⟩
  | .setF ln x path e, _, xs => SR.ofList xs fun st =>
      let r := aeval tb ln st e
      r.outs.foldr (fun p acc => match setFOut tb ln x path p with
        | (a, b) => ⟨a ++ acc.next, [], [], b ++ acc.evs⟩) ⟨[], [], [], r.evs⟩
  | .ite ln c a b, lv, xs =>
    let r : ER Fn := xs.foldr (fun st acc => let q := aeval tb ln st c; ⟨q.outs ++ acc.outs, q.evs ++ acc.evs⟩) ⟨[], []⟩
    let p := condSplit tb ln c r
    let jt := join tb (p.1.map (AS.keep (liveIn a lv.out lv.brk lv.cont)))
    let jf := join tb (p.2.1.map (AS.keep (liveIn b lv.out lv.brk lv.cont)))
    let ra := astmt a lv jt.1
    let rb := astmt b lv jf.1
    let j := join tb ((ra.next ++ rb.next).map (AS.keep lv.out))
    ⟨j.1, ra.brk ++ rb.brk, ra.cont ++ rb.cont, p.2.2 ++ (jt.2 ++ (jf.2 ++ (ra.evs ++ (rb.evs ++ j.2))))⟩
  | .loop body, lv, xs => match xs with
    | [] => ⟨[], [], [], []⟩
    | x :: _ =>
      if xs.all (fun y => y.mv.length == x.mv.length) then
        let l := liveIn (.loop body) lv.out 0 0
        let j := join tb (xs.map fun st => (st.push.keep l))
        let r := aloop tb l (astmt body ⟨l, lv.out, l⟩) x.mv.length 8 j.1 j.2
        let j2 := join tb (r.next.map (AS.keep lv.out))
        ⟨j2.1, [], [], r.evs ++ j2.2⟩
      else ⟨[], [], [], [.fail "levels"]⟩
  | .brk, _, xs => ⟨[], xs, [], []⟩
  | .cont, _, xs => ⟨[], [], xs, []⟩
  | .ret ln es, _, xs => SR.ofList xs fun st =>
      let r := aevalL tb ln st es
      ⟨[], [], [], r.outs.foldr (fun p acc =>
        let q := flatRes tb p.2 (dropRes p.1)
        .ret q.1 p.2.cur ((p.2.mv[0]?).getD .un) :: (q.2 ++ acc)) r.evs⟩
  | .call ln f args dst, _, xs => SR.ofList xs fun st =>
      let r := aevalL tb ln st args
      r.outs.foldr (fun p acc =>
        let q := flatAll tb p.2 p.1
        let outs := ((pick p.2.cur q.1 (tb.sig f)).elim [] Sig.post).map fun po =>
          match po.mv with
          | .eq => { p.2 with cur := if p.2.cur.le po.cur then p.2.cur else po.cur }.assignAll dst (po.res.map .v)
          | m => (p.2.step po.cur (fun a => a.after m)).assignAll dst (po.res.map .v)
        ⟨outs ++ acc.next, [], [], q.2 ++ (.call f q.1 p.2.cur ((p.2.mv[0]?).getD .un) :: acc.evs)⟩) ⟨[], [], [], r.evs⟩
  | .prim ln p dst, _, xs => SR.ofList xs fun st => aprim tb ln st p dst
  | .save, _, xs => ⟨xs.map (fun st => { st with saved := st.cur, smv := st.mv }), [], [], []⟩
  | .restore, _, xs => ⟨xs.map (fun st => { st.release with
      cur := st.saved, mv := (st.smv ++ List.replicate (st.mv.length - st.smv.length) .un) }), [], [], []⟩
  | .memoAdd ln e, _, xs => SR.ofList xs fun st =>
      let r := aeval tb ln st e
      ⟨r.outs.map Prod.snd, [], [], r.evs ++ if r.outs.all (fun p => isNat p.2 p.1) then [] else [.panic ln]⟩

/-! ### Methods -/

/-- The state at the beginning of a method. -/
def entry (sg : Sig) (locals : Nat) : AS :=
  { cur := sg.cur, env := sg.args.map .v ++ List.replicate (locals - sg.args.length) (.v .nil),
    mv := [.eq], saved := sg.cur, smv := [.eq], facts := [] }

/-- All conditions for a method. -/
def afunc (table : Fn → Func Fn) (f : Fn) (sg : Sig) : List (Ev Fn) :=
  let fn := table f
  let r := astmt tb fn.body ⟨0, 0, 0⟩ [entry sg fn.locals]
  r.evs ++ ((r.next ++ (r.brk ++ r.cont)).map fun st => .ret [] st.cur ((st.mv[0]?).getD .un))

/-- The results are covered by one of the ways to return. -/
def Post.covers (res : List AV) (c : CurS) (m : Mv) (po : Post) : Bool :=
  all2 AV.le res po.res && c.le po.cur && m.cmp po.mv

/-- A condition is met. -/
def Ev.ok (sg : Sig) : Ev Fn → Bool
  | .done t fs p e => doneOK tb t fs p e
  | .err fs => errOK fs
  | .panic ln => tb.bad.contains ln
  | .call g args c m => (pick c args (tb.sig g)).elim false fun sg' =>
      m == .lt || ((m == .le || m == .eq) && decide (sg'.rank < sg.rank))
  | .ret res c m => sg.post.any (Post.covers res c m)
  | .back m => m == .lt
  | .fail _ => false

/-- The analysis of a method succeeds, for each of its signatures. -/
def check (table : Fn → Func Fn) (f : Fn) : Bool :=
  (tb.sig f).all fun sg => (afunc tb table f sg).all (Ev.ok tb sg)

end Verif.An

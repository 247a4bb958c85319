/-
Computes the tables of the analysis of the parser (`Verif.Analysis.Certificate`): an executable, not
part of any proof.  `lake env lean --run Verif/Check/Main.lean --learn OUT`.
-/
import Verif.Analysis.Run
import Verif.Parser.Table
import Verif.Spec.Required

open Verif Verif.An

namespace Learn

instance : Inhabited Sig := ⟨{ cur := .any, args := [], post := [], rank := 0 }⟩

def nFn : Nat := (Fn.ofNat 100000).ctorIdx + 1
def nTy : Nat := (Ty.ofNat 100000).ctorIdx + 1

structure St where
  need : Array (List PNeed)
  sig : Array (List Sig)
  bad : List Nat
  fails : List (Nat × String) := []
  edges : List ((Nat × Nat) × (Nat × Nat)) := []
  back : List Nat := []
  ends : List (Nat × Nat × Bool × List AV) := []

def St.tables (s : St) : Tables Fn :=
  { need := fun t => s.need[t.ctorIdx]!
    sig := fun f => s.sig[f.ctorIdx]!
    bad := s.bad }

/-- Everything that could be required of a type. -/
def hope (t : Ty) : List PNeed :=
  if t = .Token then [.bound 0 0, .bound 1 0]
  else if t = .PlainError then []
  else if t = .KeywordArgForm then formNeed
  else
    let fs := (schema t).zipIdx
    ((required t).filterMap fun n => match n with
      | .either i j => some (.either i j)
      | _ => none) ++ (fs.flatMap fun (τ, i) => match τ with
      | .pos | .int => [.bound i (-10)]
      | .bool | .str => []
      | .val _ => [.pos i ⟨true, some (-10)⟩, .end_ i ⟨true, some (-10)⟩]
      | .slice (.str) => [.filled i]
      | _ => [.filled i, .pos i ⟨true, some (-10)⟩, .end_ i ⟨true, some (-10)⟩]) ++
    [.own false ⟨true, some (-10)⟩, .own true ⟨true, some (-10)⟩]

def maxBound : Int := 16

/-- The next weaker requirement. -/
def weaker (fs : List AV) (p e : PB) (n : PNeed) : Option PNeed :=
  if n.check fs p e then some n else
  let try_ (f : Int → PNeed) (k : Int) : Option PNeed :=
    (List.range 40).findSome? fun (j : Nat) => let k' : Int := k + ((j : Nat) : Int) + 1
      if k' ≤ maxBound && (f k').check fs p e then some (f k') else none
  let pb (f : PB → PNeed) (b : PB) : Option PNeed := match b.k with
    | some k => match try_ (fun k => f ⟨b.safe, some k⟩) (k - 1) with
      | some n => some n
      | none => match try_ (fun k => f ⟨false, some k⟩) (k - 1) with
        | some n => some n
        | none => if (f ⟨b.safe, none⟩).check fs p e then some (f ⟨b.safe, none⟩) else none
    | none => none
  match n with
  | .bound i k => try_ (.bound i) k
  | .pos i b => pb (.pos i) b
  | .end_ i b => pb (.end_ i) b
  | .own w b => pb (.own w) b
  | _ => none

def widen (old new : AV) : AV :=
  let w (a b : Option Int) : Option Int := match a, b with
    | some a, some b => if a = b then some b else if b > maxBound then none else some b
    | _, b => match b with
      | some b => if b > maxBound then none else some b
      | none => none
  match old, new with
  | .nat a, .nat b => .nat (w a b)
  | .ty _ _ p e, .ty τ n p' e' => .ty τ n ⟨p'.safe, w p.k p'.k⟩ ⟨e'.safe, w e.k e'.k⟩
  | _, n => n

def argLub (c d : CurS) (a b : AV) : AV :=
  if a = b then a else
  let r (c : CurS) (a : AV) : AV := match a.resolve c with
    | .v a => a
    | _ => a
  widen a ((r c a).lub (r d b))

/-- Calls with different keys get different signatures. -/
def key (f : Fn) (c : CurS) (args : List AV) : Tk × List AV :=
  let name := reprStr f
  if name.startsWith "Verif.Fn.try" || f = .parseDDL || f = .parseLimitClause then
    (match c with | .tok _ k => k | _ => .any, [])
  else if f = .parseInterval then (.any, args)
  else (.any, [])

def addCall (f : Fn) (c : CurS) (args : List AV) : List Sig → List Sig
  | [] => [{ cur := c, args := args, post := [], rank := 0 }]
  | sg :: l =>
    if key f c args == key f sg.cur sg.args then
      { sg with cur := sg.cur.lub c, args := map2 (argLub sg.cur c) sg.args args } :: l
    else if (key f sg.cur sg.args).1 == .any && (key f c args).1 != .any then
      { cur := c, args := args, post := [], rank := 0 } :: sg :: l
    else sg :: addCall f c args l

def pickIdx (c : CurS) (args : List AV) : List Sig → Nat
  | [] => 0
  | sg :: l => if all2 (argLe c) args sg.args && c.le sg.cur then 0 else pickIdx c args l + 1

def postApart (a b : Post) : Bool :=
  (match a.cur, b.cur with | .tok _ _, .tok _ _ => false | c, d => c != d) || a.mv != b.mv || anyApart true (a.res.map .v) (b.res.map .v)

def postLub (a b : Post) : Post :=
  { res := map2 (fun x y => widen x (x.lub y)) a.res b.res, cur := a.cur.lub b.cur, mv := a.mv.lub b.mv }

def addPost (p : Post) : List Post → List Post
  | [] => [p]
  | q :: l => if postApart p q then q :: addPost p l else postLub q p :: l

/-- Needs that depend on events. -/
def St.event (f : Fn) (v : Nat) (st : St × Bool) (e : An.Ev Fn) : St × Bool :=
  let (s, ch) := st
  let i := f.ctorIdx
  match e with
  | .done t fs p e =>
    let old := s.need[t.ctorIdx]!
    let new := old.filterMap (weaker fs p e)
    let s := if structEnds s.tables false t fs = .top then { s with ends := (i, t.ctorIdx, false, fs) :: s.ends } else s
    let s := if structEnds s.tables true t fs = .top then { s with ends := (i, t.ctorIdx, true, fs) :: s.ends } else s
    let s := if all2 AV.fits fs (schema t) then s else
      { s with fails := (i, s!"fits {repr t} {repr fs}") :: s.fails }
    if new == old then (s, ch) else ({ s with need := s.need.set! t.ctorIdx new }, true)
  | .err fs => if errOK fs then st else ({ s with fails := (i, s!"err {repr fs}") :: s.fails }, ch)
  | .panic ln => ({ s with bad := if s.bad.contains ln then s.bad else ln :: s.bad }, ch)
  | .call g args c m =>
    let s := match m with
      | .lt => s
      | .un => { s with fails := (i, s!"call {repr g} un") :: s.fails }
      | _ => { s with edges := ((i, v), (g.ctorIdx, pickIdx c args s.sig[g.ctorIdx]!)) :: s.edges }
    let old := s.sig[g.ctorIdx]!
    if (pick c args old).isSome && (old.filter fun sg => key g c args == key g sg.cur sg.args && all2 (argLe c) args sg.args && c.le sg.cur).length > 0 then (s, ch)
    else ({ s with sig := s.sig.set! g.ctorIdx (addCall g c args old) }, true)
  | .ret res c m =>
    match s.sig[i]![v]? with
    | none => st
    | some sg =>
      if sg.post.any (Post.covers res c m) then (s, ch)
      else
        let sg' := { sg with post := addPost { res := res, cur := c, mv := m } sg.post }
        ({ s with sig := s.sig.set! i ((s.sig[i]!).set v sg') }, true)
  | .back m => if m = .lt then st else ({ s with back := i :: s.back }, ch)
  | .fail w => ({ s with fails := (i, w) :: s.fails }, ch)

partial def loop (s : St) (round : Nat) : IO St := do
  let old := s.ends.map fun e => (e.1, e.2.1)
  let mut s := { s with bad := [], fails := [], edges := [], back := [], ends := [] }
  let mut changed := false
  for i in [0:nFn] do
    let f := Fn.ofNat i
    for v in [0:(s.sig[i]!).length] do
      let evs := afunc s.tables fnTable f (s.sig[i]!)[v]!
      let (s', ch) := evs.foldl (St.event f v) (s, false)
      s := s'
      changed := changed || ch
  let new := s.ends.filter fun e => !old.contains (e.1, e.2.1)
  for (f, t, b, fs) in new.eraseDups do IO.println s!"ROUND {round} ENDS {repr (Fn.ofNat f)}: {repr (Ty.ofNat t)} {b} {repr fs}"
  IO.eprintln s!"round {round}: changed {changed}, reached {(s.sig.filter (!·.isEmpty)).size}, signatures {(s.sig.map List.length).foldl (· + ·) 0}, bad {s.bad.length}, fails {s.fails.length}, back {s.back.length}"
  if changed && round < 200 then loop s (round + 1) else return s

/-- Ranks: the longest path of calls without progress. -/
def ranks (s : St) : Array (List Nat) × List ((Nat × Nat) × (Nat × Nat)) := Id.run do
  let mut r : Array (List Nat) := s.sig.map (·.map fun _ => 0)
  let edges := s.edges.eraseDups
  for _ in [0:nFn + 1] do
    let mut ch := false
    for (a, b) in edges do
      if (r[a.1]!)[a.2]! ≤ (r[b.1]!)[b.2]! then
        r := r.set! a.1 ((r[a.1]!).set a.2 ((r[b.1]!)[b.2]! + 1))
        ch := true
    if !ch then return (r, [])
  return (r, edges.filter fun (a, b) => (r[a.1]!)[a.2]! > nFn - 20 && (r[b.1]!)[b.2]! > nFn - 20)

/-! ### Output -/

def pStr (s : Str) : String := repr s |>.pretty 100000
def short (s : String) : String :=
  ((s.replace "Verif.An." "").replace "Verif." "")
def out {α : Type} [Repr α] (a : α) : String := short ((repr a).pretty 1000000)

def pInt (k : Int) : String := if k < 0 then s!"({k})" else s!"{k}"
def pPB (b : PB) : String := match b with
  | ⟨false, none⟩ => ".top"
  | ⟨s, none⟩ => s!"⟨{s}, none⟩"
  | ⟨s, some k⟩ => s!"⟨{s}, some {pInt k}⟩"
def pFTy : FTy → String
  | .pos => ".pos" | .int => ".int" | .bool => ".bool" | .str => ".str"
  | .val t => s!"(.val .{(out t).drop 3})"
  | .ptr t => s!"(.ptr .{(out t).drop 3})"
  | .iface i => s!"(.iface .{(out i).drop 6})"
  | .slice t => s!"(.slice {pFTy t})"
def pNeed : PNeed → String
  | .filled i => s!".filled {i}"
  | .either i j => s!".either {i} {j}"
  | .bound i k => s!".bound {i} {pInt k}"
  | .pos i b => s!".pos {i} {pPB b}"
  | .end_ i b => s!".end_ {i} {pPB b}"
  | .lenGe i j => s!".lenGe {i} {j}"
  | .own w b => s!".own {w} {pPB b}"
def pList {α : Type} (f : α → String) (l : List α) : String := "[" ++ ", ".intercalate (l.map f) ++ "]"
def pOB : Option Bool → String
  | none => "none" | some b => s!"(some {b})"
def pOI : Option Int → String
  | none => "none" | some k => s!"(some {pInt k})"
def pAV : AV → String
  | .top => ".top" | .nil => ".nil" | .zero => ".zero" | .empty => ".empty"
  | .curTok => ".curTok" | .curPos => ".curPos" | .curKind => ".curKind"
  | .bool b => s!".bool {pOB b}" | .nat k => s!".nat {pOI k}" | .str b => s!".str {b}"
  | .err a b => s!".err {a} {b}"
  | .ty t n p e => s!".ty {pFTy t} {n} {pPB p} {pPB e}"
def pBytes (s : Str) : String := s!"b!\"{String.ofList (s.map Char.ofNat)}\""
def pTk : Tk → String
  | .any => ".any" | .kw s => s!"(.kw {pBytes s})" | .kind s => s!"(.kind {pBytes s})"
def pCur : CurS → String
  | .any => ".any" | .none => ".none" | .eof => ".eof" | .tok m k => s!"(.tok {m} {pTk k})"
def pMv : Mv → String
  | .eq => ".eq" | .lt => ".lt" | .le => ".le" | .un => ".un"
def pPost (p : Post) : String := s!"⟨{pList pAV p.res}, {pCur p.cur}, {pMv p.mv}⟩"
def pSig (s : Sig) (rank : Nat) : String :=
  s!"⟨{pCur s.cur}, {pList pAV s.args},\n      [{",\n       ".intercalate (s.post.map pPost)}], {rank}⟩"

def certificate (s : St) (r : Array (List Nat)) : String := Id.run do
  let mut o := "/-\nGenerated by `lake env lean --run Verif/Check/Main.lean --learn`: what the analysis of the parser has found.\n"
  o := o ++ "Nothing here is trusted: `Verif.Analysis.Checked` checks it.\n-/\nimport Verif.Analysis.Run\nimport Verif.Parser.Fn\n\n"
  o := o ++ "namespace Verif.An.Cert\n\n/-- What holds of the fields of every struct the parser has finished (structs of parser/ast.go). -/\ndef need : Ty → List PNeed\n"
  for i in [0:nTy] do
    if !(s.need[i]!).isEmpty then
      o := o ++ s!"  | .{(out (Ty.ofNat i)).drop 3} => {pList pNeed s.need[i]!}\n"
  o := o ++ "  | _ => []\n\n"
  o := o ++ "/-- What holds before and after a call of each method of `Parser` (parser/parser_*.go, parse_system.go). -/\ndef sig : Fn → List Sig\n"
  for i in [0:nFn] do
    if !(s.sig[i]!).isEmpty then
      o := o ++ s!"  | .{(out (Fn.ofNat i)).drop 3} =>\n    [{",\n     ".intercalate (((s.sig[i]!).zip r[i]!).map fun (a, b) => pSig a b)}]\n"
  o := o ++ "  | _ => []\n\n"
  o := o ++ s!"/-- The source lines that may panic. -/\ndef bad : List Nat :=\n  {(s.bad.toArray.qsort (· < ·)).toList}\n\n"
  o := o ++ "def tables : Tables Fn := ⟨need, sig, bad⟩\n\nend Verif.An.Cert\n"
  return o

def run (args : List String) : IO Unit := do
  let s0 : St := { need := (Array.range nTy).map (fun i => hope (Ty.ofNat i)), sig := Array.replicate nFn [], bad := [] }
  let s0 := { s0 with sig := s0.sig.set! Fn.ParseStmts.ctorIdx [{ cur := .none, args := [], post := [], rank := 0 }] }
  let s ← loop s0 0
  let (r, cyc) := ranks s
  for a in args do IO.FS.writeFile a (certificate s r)
  for i in [0:nFn] do
    if (s.sig[i]!).isEmpty then IO.println s!"unreached {repr (Fn.ofNat i)}"
    for (sg, rk) in (s.sig[i]!).zip r[i]! do
      IO.println s!"{repr (Fn.ofNat i)} rank {rk}\n   {repr sg.cur} {repr sg.args}"
      for p in sg.post do IO.println s!"     -> {repr p.res} {repr p.cur} {repr p.mv}"
  for i in [0:nTy] do
    IO.println s!"need {repr (Ty.ofNat i)}: {repr s.need[i]!}"
  for (f, w) in s.fails.eraseDups do IO.println s!"FAIL {repr (Fn.ofNat f)}: {w}"
  for (f, t, b, _) in s.ends.eraseDups do IO.println s!"ENDS {repr (Fn.ofNat f)}: {repr (Ty.ofNat t)} {b}"
  IO.println s!"BAD {s.bad.toArray.qsort (· < ·)}"
  IO.println s!"BACK {repr (s.back.eraseDups.map Fn.ofNat)}"
  for (a, b) in cyc do IO.println s!"CYCLE {repr (Fn.ofNat a.1)} {a.2} -> {repr (Fn.ofNat b.1)} {b.2}"

end Learn

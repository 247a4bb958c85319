/-
Computes the types of `Verif.Relation.Types`: an executable, not part of any proof.
`lake env lean --run Verif/Check/Main.lean --types OUT`.
-/
import Verif.Relation.Check
import Verif.Relation.Guard
import Verif.Check.Learn

open Verif

namespace Types

instance : Inhabited Verif.Sig := ⟨⟨[], []⟩⟩

structure St where
  sig : Array Verif.Sig
  changed : Bool := false
  fails : List String := []

def put (Γ : List RTy) (x : Nat) (τ : RTy) : List RTy := match Γ[x]? with
  | some σ => Γ.set x (σ.join τ)
  | none => Γ

def St.join (s : St) (i : Nat) (x : Nat) (τ : RTy) : St :=
  let g := s.sig[i]!
  let Γ := put g.vars x τ
  if Γ = g.vars then s else { s with sig := s.sig.set! i { g with vars := Γ }, changed := true }

def St.joinRet (s : St) (i : Nat) (τs : List RTy) : St :=
  let g := s.sig[i]!
  let ρ := if g.rets.isEmpty then τs.map (RTy.join .nul) else (g.rets.zip τs).map (fun (a, b) => a.join b)
  if ρ = g.rets then s else { s with sig := s.sig.set! i { g with rets := ρ }, changed := true }

def St.fail (s : St) (m : String) : St := { s with fails := m :: s.fails }

def St.dst (s : St) (i : Nat) (dst : List Nat) (τs : List RTy) : St :=
  (dst.zip τs).foldl (fun s (x, τ) => s.join i x τ) s

partial def stmt (i : Nat) (st : Stmt Fn) (s : St) : St :=
  let Γ := s.sig[i]!.vars
  let nm := reprStr (Fn.ofNat i)
  match st with
  | .seq a b => stmt i b (stmt i a s)
  | .set ln x e => match e.infer Γ with
    | some τ => s.join i x τ
    | none => s.fail s!"{nm} {ln} set"
  | .setF ln x path e => match e.infer Γ, Γ[x]? with
    | some τ, some σ => let s := if σ = .tok then s.join i x (.st .Token) else s; if !path.isEmpty && fitsPath τ σ path then s else s.fail s!"{nm} {ln} setF {repr τ} {repr σ}"
    | _, _ => s.fail s!"{nm} {ln} setF"
  | .ite ln c a b =>
    let s := if (c.infer Γ).isSome then s else s.fail s!"{nm} {ln} ite"
    stmt i b (stmt i a s)
  | .loop b => stmt i b s
  | .ret ln es => match Exp.inferL Γ es with
    | some τs => s.joinRet i τs
    | none => s.fail s!"{nm} {ln} ret"
  | .call ln f args dst => match Exp.inferL Γ args with
    | some τs =>
      let s := s.dst f.ctorIdx (List.range τs.length) τs
      s.dst i dst s.sig[f.ctorIdx]!.rets
    | none => s.fail s!"{nm} {ln} call"
  | .prim ln p dst => match p.infer Γ with
    | some τs => s.dst i dst τs
    | none => s.fail s!"{nm} {ln} prim"
  | .memoAdd ln _ => s.fail s!"{nm} {ln} memo"
  | _ => s

partial def loop (s : St) (n : Nat) : IO St := do
  let mut s := { s with changed := false, fails := [] }
  for i in [0:Learn.nFn] do s := stmt i (guardTable (Fn.ofNat i)).body s
  IO.eprintln s!"round {n} fails {s.fails.length}"
  if s.changed then loop s (n + 1) else return s

def pRTy : RTy → String
  | .nul => ".nul" | .exact => ".exact" | .int => ".int" | .num => ".num" | .rel => ".rel" | .tok => ".tok"
  | .emp => ".emp" | .zero => ".zero"
  | .st t => s!".st .{(Learn.out t).drop 3}"
  | .ls t => s!".ls .{(Learn.out t).drop 3}"

def run (args : List String) : IO Unit := do
  let s ← loop { sig := (Array.range Learn.nFn).map (fun i => ⟨List.replicate (guardTable (Fn.ofNat i)).locals .nul, []⟩) } 0
  for m in s.fails do IO.println m
  let mut o := "/-\nGenerated by `lake env lean --run Verif/Check/Main.lean --types`: the types of the variables and results of the\nmethods.  Nothing here is trusted: `Verif.Relation.Typed` checks it.\n-/\nimport Verif.Relation.Check\nimport Verif.Parser.Fn\n\n"
  o := o ++ "namespace Verif\n\n/-- What may differ between two runs in the variables and results of each method of `Parser`\n(parser/parser_*.go, parse_system.go). -/\ndef runSig : Fn → Sig\n"
  for i in [0:Learn.nFn] do
    let g := s.sig[i]!
    o := o ++ s!"  | .{(Learn.out (Fn.ofNat i)).drop 3} => ⟨{Learn.pList pRTy g.vars}, {Learn.pList pRTy g.rets}⟩\n"
  o := o ++ "\nend Verif\n"
  for a in args do IO.FS.writeFile a o

end Types

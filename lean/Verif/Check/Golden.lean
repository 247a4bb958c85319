/-
A driver that runs the model on SQL files and prints the syntax trees and the formatted text, to be compared
with the golden files of the test suite (tools/golden.py).  Nothing is proved here.
Use: `lake env lean --run Verif/Check/Main.lean FILE...`
-/
import Verif.Parser.Table
import Verif.Ast.Methods

namespace Verif.Check

/-- Two hexadecimal digits of every byte. -/
def hex (s : Str) : String :=
  let d (n : Nat) : Char := "0123456789abcdef".toList.getD n '0'
  String.ofList (s.flatMap (fun b => [d (b / 16), d (b % 16)]))

/-- A value as JSON; a struct is an array starting with its type. -/
partial def json : V → String
  | .nil => "null"
  | .nat n => s!"{n}"
  | .bool b => if b then "true" else "false"
  | .str s => s!"\{\"s\":\"{hex s}\"}"
  | .list l => s!"\{\"l\":[{String.intercalate "," (l.map json)}]}"
  | .mk t fs => s!"[\"{((reprStr t).splitOn ".").getLastD ""}\"{String.join (fs.map (fun f => "," ++ json f))}]"

def line (name : String) (input : Str) : String :=
  let r := runFn fnTable 1000000 .ParseStmts [] (PS.new input)
  let fmt (f : V → Option Str) (vs : List V) : String :=
    String.intercalate "," (vs.map (fun v => match f v with | some s => s!"\"{hex s}\"" | none => "null"))
  match r with
  | .ret [st, .nil] _ =>
    let vs := match st with | .list l => l | _ => []
    s!"\{\"file\":\"{name}\",\"ast\":{json st},\"format\":[{fmt formatCompact vs}],\"beautify\":[{fmt (formatBeautify b!"  ") vs}]}"
  | .ret [st, e] _ => s!"\{\"file\":\"{name}\",\"ast\":{json st},\"error\":{json e}}"
  | .ret _ _ => s!"\{\"file\":\"{name}\",\"fail\":\"results\"}"
  | .panic l => s!"\{\"file\":\"{name}\",\"panic\":{l}}"
  | .fuel => s!"\{\"file\":\"{name}\",\"fail\":\"fuel\"}"

def run (args : List String) : IO Unit := do
  for a in args do
    let b ← IO.FS.readBinFile a
    IO.println (line a (b.toList.map UInt8.toNat))

end Verif.Check

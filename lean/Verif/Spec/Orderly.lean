/-
The statements whose clauses are formatted in the order in which they are parsed.
-/
import Verif.Spec.Ddl

namespace Verif.Spec
open Verif

/-- A column is printed with its codec and its TTL before its comment, whereas they are parsed only after it: a column with a comment has neither.  The clauses
of an engine are printed in the order `ORDER BY`, `PARTITION BY`, `PRIMARY KEY`, `SAMPLE BY`, `TTL`, `SETTINGS`: if a query follows, then `PARTITION BY` is not the
last of them, since `AS` would be taken for the beginning of an alias. -/
def orderlyNode : Ty → List V → Bool
  | .ColumnDef, [_, _, _, _, _, _, _, _, _, codec, ttl, comment, _] => !comment.nonNil || (!codec.nonNil && !ttl.nonNil)
  | .CreateTable, [_, _, _, _, _, _, _, _, .mk .EngineExpr [_, _, _, _, key, partition, sample, ttl, settings, _], query, _, _, _] =>
    !query.nonNil || !partition.nonNil || key.nonNil || sample.nonNil || ttl.nonNil || settings.nonNil
  | _, _ => true

mutual
/-- All nodes of the tree are orderly. -/
def _root_.Verif.V.orderly : V → Bool
  | .mk t fs => orderlyNode t fs && V.orderlyL fs
  | .list vs => V.orderlyL vs
  | _ => true
def _root_.Verif.V.orderlyL : List V → Bool
  | [] => true
  | v :: vs => v.orderly && V.orderlyL vs
end

/-- The name of an engine is not quoted: the formatter drops the quotes. -/
def PlainEngine (ts : List Token) : Prop :=
  ∀ a es n, a :: (es ++ [n]) <:+: ts → isWord a b!"ENGINE" → es = [] ∨ (∃ e, es = [e] ∧ isSign e b!"=") → isPlainName n → n.quote = 1

end Verif.Spec

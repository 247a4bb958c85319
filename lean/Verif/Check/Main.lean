/-
The executable checks: `lake env lean --run Verif/Check/Main.lean FILE...` runs the model on SQL files,
with `--learn OUT` it computes the tables of the analysis, with `--types OUT` those of `Verif.Relation.Types`.  Nothing is proved here.
-/
import Verif.Check.Golden
import Verif.Check.Learn
import Verif.Check.Types

def main : List String → IO Unit
  | "--learn" :: args => Learn.run args
  | "--types" :: args => Types.run args
  | args => Verif.Check.run args

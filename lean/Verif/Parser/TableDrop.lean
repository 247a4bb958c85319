/-
The methods of parser/parser_drop.go.
Written by tools/genparser.py from the Go text.
-/
import Verif.Parser.Lang
import Verif.Parser.Fn

namespace Verif.Body

/-- `parseDropDatabase`, parser/parser_drop.go:3-44. -/
def parseDropDatabase : Func Fn := ⟨8,
  .prim 70004 (.expectKw (.str b!"DATABASE")) [1] ;;
  .ite 70004 (.not (.isNil (.var 1 /-err-/)))
    (.ret 70005 [.nil, (.var 1 /-err-/)])
    .skip ;;
  .call 70008 .tryParseIfExists [] [2, 3] ;;
  .ite 70009 (.not (.isNil (.var 3 /-err-/)))
    (.ret 70010 [.nil, (.var 3 /-err-/)])
    .skip ;;
  .call 70013 .parseIdent [] [4, 3] ;;
  .ite 70014 (.not (.isNil (.var 3 /-err-/)))
    (.ret 70015 [.nil, (.var 3 /-err-/)])
    .skip ;;
  .set 70018 5 (.endOf (.var 4 /-name-/) (.ptr .Ident)) /-statementEnd-/ ;;
  .call 70020 .tryParseClusterClause [.pos] [6, 3] ;;
  .ite 70021 (.not (.isNil (.var 3 /-err-/)))
    (.ret 70022 [.nil, (.var 3 /-err-/)])
    .skip ;;
  .ite 70024 (.not (.isNil (.var 6 /-onCluster-/)))
    (.set 70025 5 (.endOf (.var 6 /-onCluster-/) (.ptr .ClusterClause)) /-statementEnd-/)
    .skip ;;
  .call 70028 .tryParseModifier [] [7, 3] ;;
  .ite 70029 (.not (.isNil (.var 3 /-err-/)))
    (.ret 70030 [.nil, (.var 3 /-err-/)])
    .skip ;;
  .ite 70032 (.not (.eqStr (.var 7 /-modifier-/) (.str b!"")))
    (.set 70033 5 .pos /-statementEnd-/)
    .skip ;;
  .ret 70036 [(.mk .DropDatabase [(.var 0 /-pos-/) /-DropPos-/, (.var 5 /-statementEnd-/) /-StatementEnd-/, (.var 4 /-name-/) /-Name-/, (.var 2 /-isExists-/) /-IfExists-/, (.var 6 /-onCluster-/) /-OnCluster-/, (.var 7 /-modifier-/) /-Modifier-/]), .nil]⟩

/-- `parseDropStmt`, parser/parser_drop.go:46-91. -/
def parseDropStmt : Func Fn := ⟨11,
  .set 70047 1 (.bool false) /-isTemporary-/ ;;
  .set 70048 2 (.str b!"TABLE") /-dropTarget-/ ;;
  .prim 70050 (.tryKws [b!"DICTIONARY"]) [3] ;;
  .ite 70050 (.var 3 /-tmp-/)
    (.set 70051 2 (.str b!"DICTIONARY") /-dropTarget-/)
    (.prim 70052 (.tryKws [b!"VIEW"]) [4] ;;
    .ite 70052 (.var 4 /-tmp-/)
      (.set 70053 2 (.str b!"VIEW") /-dropTarget-/)
      (.prim 70055 (.tryKws [b!"TEMPORARY"]) [1] ;;
      .prim 70056 (.expectKw (.str b!"TABLE")) [5] ;;
      .ite 70056 (.not (.isNil (.var 5 /-err-/)))
        (.ret 70057 [.nil, (.var 5 /-err-/)])
        .skip)) ;;
  .call 70061 .tryParseIfExists [] [6, 7] ;;
  .ite 70062 (.not (.isNil (.var 7 /-err-/)))
    (.ret 70063 [.nil, (.var 7 /-err-/)])
    .skip ;;
  .call 70066 .parseTableIdentifier [.pos] [8, 7] ;;
  .ite 70067 (.not (.isNil (.var 7 /-err-/)))
    (.ret 70068 [.nil, (.var 7 /-err-/)])
    .skip ;;
  .call 70071 .tryParseClusterClause [.pos] [9, 7] ;;
  .ite 70072 (.not (.isNil (.var 7 /-err-/)))
    (.ret 70073 [.nil, (.var 7 /-err-/)])
    .skip ;;
  .call 70076 .tryParseModifier [] [10, 7] ;;
  .ite 70077 (.not (.isNil (.var 7 /-err-/)))
    (.ret 70078 [.nil, (.var 7 /-err-/)])
    .skip ;;
  .ret 70081 [(.mk .DropStmt [(.var 0 /-pos-/) /-DropPos-/, .pos /-StatementEnd-/, (.var 2 /-dropTarget-/) /-DropTarget-/, (.var 8 /-name-/) /-Name-/, (.var 6 /-isExists-/) /-IfExists-/, (.var 9 /-onCluster-/) /-OnCluster-/, (.var 1 /-isTemporary-/) /-IsTemporary-/, (.var 10 /-modifier-/) /-Modifier-/]), .nil]⟩

/-- `tryParseModifier`, parser/parser_drop.go:93-104. -/
def tryParseModifier : Func Fn := ⟨3,
  .prim 70095 (.tryKws [b!"SYNC"]) [0] ;;
  .ite 70095 (.var 0 /-tmp-/)
    (.ret 70096 [(.str b!"SYNC"), .nil])
    (.prim 70097 (.tryKws [b!"NO"]) [1] ;;
    .ite 70097 (.var 1 /-tmp-/)
      (.prim 70098 (.expectKw (.str b!"DELAY")) [2] ;;
      .ite 70098 (.not (.isNil (.var 2 /-err-/)))
        (.ret 70099 [(.str b!""), (.var 2 /-err-/)])
        .skip ;;
      .ret 70101 [(.str b!"NO DELAY"), .nil])
      .skip) ;;
  .ret 70103 [(.str b!""), .nil]⟩

end Verif.Body

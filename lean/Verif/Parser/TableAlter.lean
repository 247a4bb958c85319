/-
The methods of parser/parser_alter.go.
Written by tools/genparser.py from the Go text.
-/
import Verif.Parser.Lang
import Verif.Parser.Fn

namespace Verif.Body

/-- `parseAlterTable`, parser/parser_alter.go:8-80. -/
def parseAlterTable : Func Fn := ⟨9,
  .set 60009 1 (.mk .AlterTable [(.var 0 /-pos-/) /-AlterPos-/, (.nat 0) /-StatementEnd-/, .nil /-TableIdentifier-/, .nil /-OnCluster-/, .empty /-AlterExprs-/]) /-alterTable-/ ;;
  .prim 60013 (.expectKw (.str b!"TABLE")) [2] ;;
  .ite 60013 (.not (.isNil (.var 2 /-err-/)))
    (.ret 60014 [.nil, (.var 2 /-err-/)])
    .skip ;;
  .call 60017 .parseTableIdentifier [.pos] [3, 4] ;;
  .ite 60018 (.not (.isNil (.var 4 /-err-/)))
    (.ret 60019 [.nil, (.var 4 /-err-/)])
    .skip ;;
  .setF 60021 1 [2] (.var 3 /-tableIdentifier-/) /-alterTable.TableIdentifier-/ ;;
  .call 60022 .tryParseClusterClause [.pos] [5, 4] ;;
  .ite 60023 (.not (.isNil (.var 4 /-err-/)))
    (.ret 60024 [.nil, (.var 4 /-err-/)])
    .skip ;;
  .setF 60026 1 [3] (.var 5 /-onCluster-/) /-alterTable.OnCluster-/ ;;
  .loop
    (.ite 60028 (.not .isEOF)
      .skip
      .brk ;;
    .set 60029 6 .nil /-alter-/ ;;
    .ite 60031 (.matchKw (.str b!"ADD"))
      (.call 60032 .parseAlterTableAdd [.pos] [6, 4])
      (.ite 60033 (.matchKw (.str b!"DROP"))
        (.call 60034 .parseAlterTableDrop [.pos] [6, 4])
        (.ite 60035 (.matchKw (.str b!"ATTACH"))
          (.call 60036 .parseAlterTableAttachPartition [.pos] [6, 4])
          (.ite 60037 (.matchKw (.str b!"DETACH"))
            (.set 60040 7 .pos /-detachPos-/ ;;
            .prim 60041 .consume [9999] ;;
            .call 60042 .parseAlterTableDetachPartition [(.var 7 /-detachPos-/)] [6, 4])
            (.ite 60043 (.matchKw (.str b!"FREEZE"))
              (.call 60044 .parseAlterTableFreezePartition [.pos] [6, 4])
              (.ite 60045 (.matchKw (.str b!"REMOVE"))
                (.call 60046 .parseAlterTableRemoveTTL [.pos] [6, 4])
                (.ite 60047 (.matchKw (.str b!"RENAME"))
                  (.call 60048 .parseAlterTableRenameColumn [.pos] [6, 4])
                  (.ite 60049 (.matchKw (.str b!"CLEAR"))
                    (.call 60050 .parseAlterTableClear [.pos] [6, 4])
                    (.ite 60051 (.matchKw (.str b!"MODIFY"))
                      (.call 60052 .parseAlterTableModify [.pos] [6, 4])
                      (.ite 60053 (.matchKw (.str b!"REPLACE"))
                        (.call 60054 .parseAlterTableReplacePartition [.pos] [6, 4])
                        (.ite 60055 (.matchKw (.str b!"MATERIALIZE"))
                          (.call 60056 .parseAlterTableMaterialize [.pos] [6, 4])
                          (.ite 60057 (.matchKw (.str b!"RESET"))
                            (.call 60058 .parseAlterTableReset [.pos] [6, 4])
                            (.ite 60059 (.matchKw (.str b!"DELETE"))
                              (.call 60060 .parseAlterTableDelete [.pos] [6, 4])
                              (.ite 60061 (.matchKw (.str b!"UPDATE"))
                                (.call 60062 .parseAlterTableUpdate [.pos] [6, 4])
                                (.ret 60064 [.nil, (.error b!"expected token: ADD|DROP|ATTACH|DETACH|FREEZE|REMOVE|CLEAR|MODIFY|REPLACE|MATERIALIZE|RESET|DELETE|UPDATE" [])])))))))))))))) ;;
    .ite 60066 (.not (.isNil (.var 4 /-err-/)))
      (.ret 60067 [.nil, (.var 4 /-err-/)])
      .skip ;;
    .setF 60069 1 [4] (.append (.fld (.var 1 /-alterTable-/) 4 /-AlterExprs-/) (.var 6 /-alter-/)) /-alterTable.AlterExprs-/ ;;
    .prim 60070 (.tryKind (.str b!",")) [8] ;;
    .ite 60070 (.isNil (.var 8 /-tmp-/))
      .brk
      .skip) ;;
  .ite 60074 (.eqNat (.len (.fld (.var 1 /-alterTable-/) 4 /-AlterExprs-/)) (.nat 0))
    (.ret 60075 [.nil, (.error b!"expected token: ADD|DROP" [])])
    .skip ;;
  .setF 60077 1 [1] (.endOf (.last (.fld (.var 1 /-alterTable-/) 4 /-AlterExprs-/)) .iface) /-alterTable.StatementEnd-/ ;;
  .ret 60079 [(.var 1 /-alterTable-/), .nil]⟩

/-- `parseAlterTableAdd`, parser/parser_alter.go:82-97. -/
def parseAlterTableAdd : Func Fn := ⟨8,
  .prim 60083 (.expectKw (.str b!"ADD")) [1] ;;
  .ite 60083 (.not (.isNil (.var 1 /-err-/)))
    (.ret 60084 [.nil, (.var 1 /-err-/)])
    .skip ;;
  .ite 60088 (.matchKw (.str b!"COLUMN"))
    (.call 60089 .parseAlterTableAddColumn [(.var 0 /-pos-/)] [2, 3] ;;
    .ret 60089 [(.var 2 /-tmp-/), (.var 3 /-tmp-/)])
    (.ite 60090 (.matchKw (.str b!"INDEX"))
      (.call 60091 .parseAlterTableAddIndex [(.var 0 /-pos-/)] [4, 5] ;;
      .ret 60091 [(.var 4 /-tmp-/), (.var 5 /-tmp-/)])
      (.ite 60092 (.matchKw (.str b!"PROJECTION"))
        (.call 60093 .parseAlterTableAddProjection [(.var 0 /-pos-/)] [6, 7] ;;
        .ret 60093 [(.var 6 /-tmp-/), (.var 7 /-tmp-/)])
        (.ret 60095 [.nil, (.error b!"expected token: COLUMN|INDEX|PROJECTION" [])])))⟩

/-- `parseAlterTableAddColumn`, parser/parser_alter.go:99-139. -/
def parseAlterTableAddColumn : Func Fn := ⟨8,
  .prim 60100 (.expectKw (.str b!"COLUMN")) [1] ;;
  .ite 60100 (.not (.isNil (.var 1 /-err-/)))
    (.ret 60101 [.nil, (.var 1 /-err-/)])
    .skip ;;
  .call 60104 .tryParseIfNotExists [] [2, 3] ;;
  .ite 60105 (.not (.isNil (.var 3 /-err-/)))
    (.ret 60106 [.nil, (.var 3 /-err-/)])
    .skip ;;
  .call 60109 .parseTableColumnExpr [.pos] [4, 3] ;;
  .ite 60110 (.not (.isNil (.var 3 /-err-/)))
    (.ret 60111 [.nil, (.var 3 /-err-/)])
    .skip ;;
  .set 60113 5 (.endOf (.var 4 /-column-/) (.ptr .ColumnDef)) /-statementEnd-/ ;;
  .call 60115 .tryParseAfterClause [] [6, 3] ;;
  .ite 60116 (.not (.isNil (.var 3 /-err-/)))
    (.ret 60117 [.nil, (.var 3 /-err-/)])
    .skip ;;
  .ite 60119 (.not (.isNil (.var 6 /-after-/)))
    (.set 60120 5 (.endOf (.var 6 /-after-/) (.ptr .NestedIdentifier)) /-statementEnd-/)
    .skip ;;
  .call 60123 .tryParseSettingsClause [.pos] [7, 3] ;;
  .ite 60124 (.not (.isNil (.var 3 /-err-/)))
    (.ret 60125 [.nil, (.var 3 /-err-/)])
    .skip ;;
  .ite 60127 (.not (.isNil (.var 7 /-settings-/)))
    (.set 60128 5 (.endOf (.var 7 /-settings-/) (.ptr .SettingsClause)) /-statementEnd-/)
    .skip ;;
  .ret 60131 [(.mk .AlterTableAddColumn [(.var 0 /-pos-/) /-AddPos-/, (.var 5 /-statementEnd-/) /-StatementEnd-/, (.var 4 /-column-/) /-Column-/, (.var 2 /-ifNotExists-/) /-IfNotExists-/, (.var 6 /-after-/) /-After-/, (.var 7 /-settings-/) /-Settings-/]), .nil]⟩

/-- `parseAlterTableAddIndex`, parser/parser_alter.go:141-170. -/
def parseAlterTableAddIndex : Func Fn := ⟨8,
  .set 60142 1 .pos /-indexPos-/ ;;
  .prim 60143 (.expectKw (.str b!"INDEX")) [2] ;;
  .ite 60143 (.not (.isNil (.var 2 /-err-/)))
    (.ret 60144 [.nil, (.var 2 /-err-/)])
    .skip ;;
  .call 60147 .tryParseIfNotExists [] [3, 4] ;;
  .ite 60148 (.not (.isNil (.var 4 /-err-/)))
    (.ret 60149 [.nil, (.var 4 /-err-/)])
    .skip ;;
  .call 60151 .parseTableIndex [(.var 1 /-indexPos-/)] [5, 4] ;;
  .ite 60152 (.not (.isNil (.var 4 /-err-/)))
    (.ret 60153 [.nil, (.var 4 /-err-/)])
    .skip ;;
  .set 60155 6 (.endOf (.var 5 /-index-/) (.ptr .TableIndex)) /-statementEnd-/ ;;
  .call 60156 .tryParseAfterClause [] [7, 4] ;;
  .ite 60157 (.not (.isNil (.var 4 /-err-/)))
    (.ret 60158 [.nil, (.var 4 /-err-/)])
    .skip ;;
  .ite 60160 (.not (.isNil (.var 7 /-after-/)))
    (.set 60161 6 (.endOf (.var 7 /-after-/) (.ptr .NestedIdentifier)) /-statementEnd-/)
    .skip ;;
  .ret 60163 [(.mk .AlterTableAddIndex [(.var 0 /-pos-/) /-AddPos-/, (.var 6 /-statementEnd-/) /-StatementEnd-/, (.var 5 /-index-/) /-Index-/, (.var 3 /-ifNotExists-/) /-IfNotExists-/, (.var 7 /-after-/) /-After-/]), .nil]⟩

/-- `tryParseProjectionOrderBy`, parser/parser_alter.go:172-187. -/
def tryParseProjectionOrderBy : Func Fn := ⟨5,
  .prim 60173 (.tryKws [b!"ORDER"]) [1] ;;
  .ite 60173 (.not (.var 1 /-tmp-/))
    (.ret 60174 [.nil, .nil])
    .skip ;;
  .prim 60176 (.expectKw (.str b!"BY")) [2] ;;
  .ite 60176 (.not (.isNil (.var 2 /-err-/)))
    (.ret 60177 [.nil, (.var 2 /-err-/)])
    .skip ;;
  .call 60179 .parseColumnExprList [.pos] [3, 4] ;;
  .ite 60180 (.not (.isNil (.var 4 /-err-/)))
    (.ret 60181 [.nil, (.var 4 /-err-/)])
    .skip ;;
  .ret 60183 [(.mk .ProjectionOrderByClause [(.var 0 /-pos-/) /-OrderByPos-/, (.var 3 /-columns-/) /-Columns-/]), .nil]⟩

/-- `parseProjectionSelect`, parser/parser_alter.go:189-225. -/
def parseProjectionSelect : Func Fn := ⟨10,
  .prim 60190 (.expectKind (.str b!"(")) [1] ;;
  .ite 60190 (.not (.isNil (.var 1 /-err-/)))
    (.ret 60191 [.nil, (.var 1 /-err-/)])
    .skip ;;
  .call 60193 .tryParseWithClause [.pos] [2, 3] ;;
  .ite 60194 (.not (.isNil (.var 3 /-err-/)))
    (.ret 60195 [.nil, (.var 3 /-err-/)])
    .skip ;;
  .prim 60197 (.expectKw (.str b!"SELECT")) [4] ;;
  .ite 60197 (.not (.isNil (.var 4 /-err-/)))
    (.ret 60198 [.nil, (.var 4 /-err-/)])
    .skip ;;
  .call 60200 .parseColumnExprList [.pos] [5, 3] ;;
  .ite 60201 (.not (.isNil (.var 3 /-err-/)))
    (.ret 60202 [.nil, (.var 3 /-err-/)])
    .skip ;;
  .call 60204 .tryParseGroupByClause [.pos] [6, 3] ;;
  .ite 60205 (.not (.isNil (.var 3 /-err-/)))
    (.ret 60206 [.nil, (.var 3 /-err-/)])
    .skip ;;
  .call 60208 .tryParseProjectionOrderBy [.pos] [7, 3] ;;
  .ite 60209 (.not (.isNil (.var 3 /-err-/)))
    (.ret 60210 [.nil, (.var 3 /-err-/)])
    .skip ;;
  .set 60213 8 .cur /-curToken-/ ;;
  .prim 60214 (.expectKind (.str b!")")) [9] ;;
  .ite 60214 (.not (.isNil (.var 9 /-err-/)))
    (.ret 60215 [.nil, (.var 9 /-err-/)])
    .skip ;;
  .ret 60217 [(.mk .ProjectionSelectStmt [(.var 0 /-pos-/) /-LeftParenPos-/, (.fld (.var 8 /-curToken-/) 0 /-Pos-/) /-RightParenPos-/, (.var 2 /-with-/) /-With-/, (.var 5 /-columns-/) /-SelectColumns-/, (.var 6 /-groupBy-/) /-GroupBy-/, (.var 7 /-orderBy-/) /-OrderBy-/]), .nil]⟩

/-- `parseTableProjection`, parser/parser_alter.go:227-247. -/
def parseTableProjection : Func Fn := ⟨6,
  .ite 60228 (.var 1 /-includeProjectionKeyword-/)
    (.prim 60229 (.expectKw (.str b!"PROJECTION")) [2] ;;
    .ite 60229 (.not (.isNil (.var 2 /-err-/)))
      (.ret 60230 [.nil, (.var 2 /-err-/)])
      .skip)
    .skip ;;
  .call 60233 .ParseNestedIdentifier [(.var 0 /-pos-/)] [3, 4] ;;
  .ite 60234 (.not (.isNil (.var 4 /-err-/)))
    (.ret 60235 [.nil, (.var 4 /-err-/)])
    .skip ;;
  .call 60237 .parseProjectionSelect [.pos] [5, 4] ;;
  .ite 60238 (.not (.isNil (.var 4 /-err-/)))
    (.ret 60239 [.nil, (.var 4 /-err-/)])
    .skip ;;
  .ret 60241 [(.mk .TableProjection [(.var 1 /-includeProjectionKeyword-/) /-IncludeProjectionKeyword-/, (.var 0 /-pos-/) /-ProjectionPos-/, (.var 3 /-identifier-/) /-Identifier-/, (.var 5 /-selectExpr-/) /-Select-/]), .nil]⟩

/-- `parseAlterTableAddProjection`, parser/parser_alter.go:249-277. -/
def parseAlterTableAddProjection : Func Fn := ⟨7,
  .prim 60250 (.expectKw (.str b!"PROJECTION")) [1] ;;
  .ite 60250 (.not (.isNil (.var 1 /-err-/)))
    (.ret 60251 [.nil, (.var 1 /-err-/)])
    .skip ;;
  .call 60254 .tryParseIfNotExists [] [2, 3] ;;
  .ite 60255 (.not (.isNil (.var 3 /-err-/)))
    (.ret 60256 [.nil, (.var 3 /-err-/)])
    .skip ;;
  .call 60258 .parseTableProjection [.pos, (.bool false)] [4, 3] ;;
  .ite 60259 (.not (.isNil (.var 3 /-err-/)))
    (.ret 60260 [.nil, (.var 3 /-err-/)])
    .skip ;;
  .set 60262 5 (.endOf (.var 4 /-tableProjection-/) (.ptr .TableProjection)) /-statementEnd-/ ;;
  .call 60263 .tryParseAfterClause [] [6, 3] ;;
  .ite 60264 (.not (.isNil (.var 3 /-err-/)))
    (.ret 60265 [.nil, (.var 3 /-err-/)])
    .skip ;;
  .ite 60267 (.not (.isNil (.var 6 /-after-/)))
    (.set 60268 5 (.endOf (.var 6 /-after-/) (.ptr .NestedIdentifier)) /-statementEnd-/)
    .skip ;;
  .ret 60270 [(.mk .AlterTableAddProjection [(.var 0 /-pos-/) /-AddPos-/, (.var 5 /-statementEnd-/) /-StatementEnd-/, (.var 2 /-ifNotExists-/) /-IfNotExists-/, (.var 4 /-tableProjection-/) /-TableProjection-/, (.var 6 /-after-/) /-After-/]), .nil]⟩

/-- `parseTableIndex`, parser/parser_alter.go:279-313. -/
def parseTableIndex : Func Fn := ⟨8,
  .call 60280 .ParseNestedIdentifier [.pos] [1, 2] ;;
  .ite 60281 (.not (.isNil (.var 2 /-err-/)))
    (.ret 60282 [.nil, (.var 2 /-err-/)])
    .skip ;;
  .call 60285 .parseColumnsExpr [.pos] [3, 2] ;;
  .ite 60286 (.not (.isNil (.var 2 /-err-/)))
    (.ret 60287 [.nil, (.var 2 /-err-/)])
    .skip ;;
  .prim 60290 (.expectKw (.str b!"TYPE")) [4] ;;
  .ite 60290 (.not (.isNil (.var 4 /-err-/)))
    (.ret 60291 [.nil, (.var 4 /-err-/)])
    .skip ;;
  .call 60293 .parseColumnType [.pos] [5, 2] ;;
  .ite 60294 (.not (.isNil (.var 2 /-err-/)))
    (.ret 60295 [.nil, (.var 2 /-err-/)])
    .skip ;;
  .prim 60298 (.expectKw (.str b!"GRANULARITY")) [6] ;;
  .ite 60298 (.not (.isNil (.var 6 /-err-/)))
    (.ret 60299 [.nil, (.var 6 /-err-/)])
    .skip ;;
  .call 60301 .parseDecimal [.pos] [7, 2] ;;
  .ite 60302 (.not (.isNil (.var 2 /-err-/)))
    (.ret 60303 [.nil, (.var 2 /-err-/)])
    .skip ;;
  .ret 60306 [(.mk .TableIndex [(.var 0 /-pos-/) /-IndexPos-/, (.var 1 /-name-/) /-Name-/, (.var 3 /-columnExpr-/) /-ColumnExpr-/, (.var 5 /-columnType-/) /-ColumnType-/, (.var 7 /-granularity-/) /-Granularity-/]), .nil]⟩

/-- `parseAlterTableDrop`, parser/parser_alter.go:315-328. -/
def parseAlterTableDrop : Func Fn := ⟨6,
  .prim 60316 (.expectKw (.str b!"DROP")) [1] ;;
  .ite 60316 (.not (.isNil (.var 1 /-err-/)))
    (.ret 60317 [.nil, (.var 1 /-err-/)])
    .skip ;;
  .ite 60321 (.or (.or (.matchKw (.str b!"COLUMN")) (.matchKw (.str b!"INDEX"))) (.matchKw (.str b!"PROJECTION")))
    (.call 60322 .parseAlterTableDropClause [(.var 0 /-pos-/)] [2, 3] ;;
    .ret 60322 [(.var 2 /-tmp-/), (.var 3 /-tmp-/)])
    (.ite 60323 (.or (.matchKw (.str b!"DETACHED")) (.matchKw (.str b!"PARTITION")))
      (.call 60324 .parseAlterTableDropPartition [(.var 0 /-pos-/)] [4, 5] ;;
      .ret 60324 [(.var 4 /-tmp-/), (.var 5 /-tmp-/)])
      (.ret 60326 [.nil, (.error b!"expected keyword: COLUMN|INDEX|PROJECTION|DETACHED|PARTITION" [])]))⟩

/-- `parseAlterTableDetachPartition`, parser/parser_alter.go:331-355. -/
def parseAlterTableDetachPartition : Func Fn := ⟨7,
  .set 60332 1 .pos /-partitionPos-/ ;;
  .prim 60333 (.expectKw (.str b!"PARTITION")) [2] ;;
  .ite 60333 (.not (.isNil (.var 2 /-err-/)))
    (.ret 60334 [.nil, (.var 2 /-err-/)])
    .skip ;;
  .set 60336 3 (.mk .PartitionClause [(.var 1 /-partitionPos-/) /-PartitionPos-/, .nil /-Expr-/, .nil /-ID-/, (.bool false) /-All-/]) /-partition-/ ;;
  .call 60339 .parseExpr [.pos] [4, 5] ;;
  .ite 60340 (.not (.isNil (.var 5 /-err-/)))
    (.ret 60341 [.nil, (.var 5 /-err-/)])
    .skip ;;
  .setF 60343 3 [1] (.var 4 /-expr-/) /-partition.Expr-/ ;;
  .call 60345 .tryParseSettingsClause [.pos] [6, 5] ;;
  .ite 60346 (.not (.isNil (.var 5 /-err-/)))
    (.ret 60347 [.nil, (.var 5 /-err-/)])
    .skip ;;
  .ret 60350 [(.mk .AlterTableDetachPartition [(.var 0 /-pos-/) /-DetachPos-/, (.var 3 /-partition-/) /-Partition-/, (.var 6 /-settings-/) /-Settings-/]), .nil]⟩

/-- `tryParsePartitionClause`, parser/parser_alter.go:357-362. -/
def tryParsePartitionClause : Func Fn := ⟨3,
  .ite 60358 (.not (.matchKw (.str b!"PARTITION")))
    (.ret 60359 [.nil, .nil])
    .skip ;;
  .call 60361 .parsePartitionClause [(.var 0 /-pos-/)] [1, 2] ;;
  .ret 60361 [(.var 1 /-tmp-/), (.var 2 /-tmp-/)]⟩

/-- `parsePartitionClause`, parser/parser_alter.go:364-388. -/
def parsePartitionClause : Func Fn := ⟨9,
  .prim 60365 (.expectKw (.str b!"PARTITION")) [1] ;;
  .ite 60365 (.not (.isNil (.var 1 /-err-/)))
    (.ret 60366 [.nil, (.var 1 /-err-/)])
    .skip ;;
  .set 60369 2 (.mk .PartitionClause [(.var 0 /-pos-/) /-PartitionPos-/, .nil /-Expr-/, .nil /-ID-/, (.bool false) /-All-/]) /-partition-/ ;;
  .prim 60372 (.tryKws [b!"ID"]) [3] ;;
  .ite 60372 (.var 3 /-tmp-/)
    (.call 60373 .parseString [.pos] [4, 5] ;;
    .ite 60374 (.not (.isNil (.var 5 /-err-/)))
      (.ret 60375 [.nil, (.var 5 /-err-/)])
      .skip ;;
    .setF 60377 2 [2] (.var 4 /-id-/) /-partition.ID-/)
    (.prim 60378 (.tryKws [b!"ALL"]) [6] ;;
    .ite 60378 (.var 6 /-tmp-/)
      (.setF 60379 2 [3] (.bool true) /-partition.All-/)
      (.call 60381 .parseExpr [.pos] [7, 8] ;;
      .ite 60382 (.not (.isNil (.var 8 /-err-/)))
        (.ret 60383 [.nil, (.var 8 /-err-/)])
        .skip ;;
      .setF 60385 2 [1] (.var 7 /-expr-/) /-partition.Expr-/)) ;;
  .ret 60387 [(.var 2 /-partition-/), .nil]⟩

/-- `parseAlterTableAttachPartition`, parser/parser_alter.go:391-411. -/
def parseAlterTableAttachPartition : Func Fn := ⟨8,
  .set 60392 1 (.mk .AlterTableAttachPartition [(.var 0 /-pos-/) /-AttachPos-/, .nil /-Partition-/, .nil /-From-/]) /-alterTable-/ ;;
  .prim 60394 (.expectKw (.str b!"ATTACH")) [2] ;;
  .ite 60394 (.not (.isNil (.var 2 /-err-/)))
    (.ret 60395 [.nil, (.var 2 /-err-/)])
    .skip ;;
  .call 60397 .parsePartitionClause [.pos] [3, 4] ;;
  .ite 60398 (.not (.isNil (.var 4 /-err-/)))
    (.ret 60399 [.nil, (.var 4 /-err-/)])
    .skip ;;
  .setF 60401 1 [1] (.var 3 /-partition-/) /-alterTable.Partition-/ ;;
  .prim 60403 (.tryKws [b!"FROM"]) [5] ;;
  .ite 60403 (.var 5 /-tmp-/)
    (.call 60404 .parseTableIdentifier [.pos] [6, 7] ;;
    .ite 60405 (.not (.isNil (.var 7 /-err-/)))
      (.ret 60406 [.nil, (.var 7 /-err-/)])
      .skip ;;
    .setF 60408 1 [2] (.var 6 /-tableIdentifier-/) /-alterTable.From-/)
    .skip ;;
  .ret 60410 [(.var 1 /-alterTable-/), .nil]⟩

/-- `parseAlterTableDropClause`, parser/parser_alter.go:413-456. -/
def parseAlterTableDropClause : Func Fn := ⟨5,
  .set 60414 1 (.str []) /-kind-/ ;;
  .ite 60416 (.matchKw (.str b!"COLUMN"))
    (.set 60417 1 (.str b!"COLUMN") /-kind-/)
    (.ite 60418 (.matchKw (.str b!"INDEX"))
      (.set 60419 1 (.str b!"INDEX") /-kind-/)
      (.ite 60420 (.matchKw (.str b!"PROJECTION"))
        (.set 60421 1 (.str b!"PROJECTION") /-kind-/)
        (.ret 60423 [.nil, (.error b!"expected token: COLUMN|INDEX|PROJECTION, but got %s" [.curKind])]))) ;;
  .prim 60425 .consume [9999] ;;
  .call 60427 .tryParseIfExists [] [2, 3] ;;
  .ite 60428 (.not (.isNil (.var 3 /-err-/)))
    (.ret 60429 [.nil, (.var 3 /-err-/)])
    .skip ;;
  .call 60432 .ParseNestedIdentifier [.pos] [4, 3] ;;
  .ite 60433 (.not (.isNil (.var 3 /-err-/)))
    (.ret 60434 [.nil, (.var 3 /-err-/)])
    .skip ;;
  .ite 60437 (.eqStr (.var 1 /-kind-/) (.str b!"PROJECTION"))
    (.ret 60438 [(.mk .AlterTableDropProjection [(.var 0 /-pos-/) /-DropPos-/, (.var 4 /-name-/) /-ProjectionName-/, (.var 2 /-ifExists-/) /-IfExists-/]), .nil])
    (.ite 60443 (.eqStr (.var 1 /-kind-/) (.str b!"COLUMN"))
      (.ret 60444 [(.mk .AlterTableDropColumn [(.var 0 /-pos-/) /-DropPos-/, (.var 4 /-name-/) /-ColumnName-/, (.var 2 /-ifExists-/) /-IfExists-/]), .nil])
      (.ret 60450 [(.mk .AlterTableDropIndex [(.var 0 /-pos-/) /-DropPos-/, (.var 4 /-name-/) /-IndexName-/, (.var 2 /-ifExists-/) /-IfExists-/]), .nil]))⟩

/-- `tryParseAfterClause`, parser/parser_alter.go:458-464. -/
def tryParseAfterClause : Func Fn := ⟨3,
  .prim 60459 (.tryKws [b!"AFTER"]) [0] ;;
  .ite 60459 (.not (.var 0 /-tmp-/))
    (.ret 60460 [.nil, .nil])
    .skip ;;
  .call 60463 .ParseNestedIdentifier [.pos] [1, 2] ;;
  .ret 60463 [(.var 1 /-tmp-/), (.var 2 /-tmp-/)]⟩

/-- `parseAlterTableDropPartition`, parser/parser_alter.go:467-497. -/
def parseAlterTableDropPartition : Func Fn := ⟨8,
  .set 60468 1 (.bool false) /-hasDetached-/ ;;
  .ite 60469 (.matchKw (.str b!"DETACHED"))
    (.prim 60470 .consume [9999] ;;
    .set 60471 1 (.bool true) /-hasDetached-/)
    .skip ;;
  .set 60473 2 .pos /-partitionPos-/ ;;
  .prim 60474 (.expectKw (.str b!"PARTITION")) [3] ;;
  .ite 60474 (.not (.isNil (.var 3 /-err-/)))
    (.ret 60475 [.nil, (.var 3 /-err-/)])
    .skip ;;
  .set 60477 4 (.mk .PartitionClause [(.var 2 /-partitionPos-/) /-PartitionPos-/, .nil /-Expr-/, .nil /-ID-/, (.bool false) /-All-/]) /-partition-/ ;;
  .call 60480 .parseExpr [.pos] [5, 6] ;;
  .ite 60481 (.not (.isNil (.var 6 /-err-/)))
    (.ret 60482 [.nil, (.var 6 /-err-/)])
    .skip ;;
  .setF 60484 4 [1] (.var 5 /-expr-/) /-partition.Expr-/ ;;
  .call 60486 .tryParseSettingsClause [.pos] [7, 6] ;;
  .ite 60487 (.not (.isNil (.var 6 /-err-/)))
    (.ret 60488 [.nil, (.var 6 /-err-/)])
    .skip ;;
  .ret 60491 [(.mk .AlterTableDropPartition [(.var 0 /-pos-/) /-DropPos-/, (.var 1 /-hasDetached-/) /-HasDetached-/, (.var 4 /-partition-/) /-Partition-/, (.var 7 /-settings-/) /-Settings-/]), .nil]⟩

/-- `parseAlterTableFreezePartition`, parser/parser_alter.go:499-517. -/
def parseAlterTableFreezePartition : Func Fn := ⟨5,
  .prim 60500 (.expectKw (.str b!"FREEZE")) [1] ;;
  .ite 60500 (.not (.isNil (.var 1 /-err-/)))
    (.ret 60501 [.nil, (.var 1 /-err-/)])
    .skip ;;
  .set 60503 2 (.mk .AlterTableFreezePartition [(.var 0 /-pos-/) /-FreezePos-/, .pos /-StatementEnd-/, .nil /-Partition-/]) /-alterTable-/ ;;
  .ite 60507 (.matchKw (.str b!"PARTITION"))
    (.call 60508 .parsePartitionClause [.pos] [3, 4] ;;
    .ite 60509 (.not (.isNil (.var 4 /-err-/)))
      (.ret 60510 [.nil, (.var 4 /-err-/)])
      .skip ;;
    .setF 60512 2 [2] (.var 3 /-partition-/) /-alterTable.Partition-/ ;;
    .setF 60513 2 [1] (.endOf (.var 3 /-partition-/) (.ptr .PartitionClause)) /-alterTable.StatementEnd-/)
    .skip ;;
  .ret 60516 [(.var 2 /-alterTable-/), .nil]⟩

/-- `parseAlterTableRemoveTTL`, parser/parser_alter.go:519-532. -/
def parseAlterTableRemoveTTL : Func Fn := ⟨3,
  .prim 60520 (.expectKw (.str b!"REMOVE")) [1] ;;
  .ite 60520 (.not (.isNil (.var 1 /-err-/)))
    (.ret 60521 [.nil, (.var 1 /-err-/)])
    .skip ;;
  .prim 60524 (.expectKw (.str b!"TTL")) [2] ;;
  .ite 60524 (.not (.isNil (.var 2 /-err-/)))
    (.ret 60525 [.nil, (.var 2 /-err-/)])
    .skip ;;
  .ret 60528 [(.mk .AlterTableRemoveTTL [(.var 0 /-pos-/) /-RemovePos-/, .pos /-StatementEnd-/]), .nil]⟩

/-- `parseAlterTableClear`, parser/parser_alter.go:534-539. -/
def parseAlterTableClear : Func Fn := ⟨4,
  .prim 60535 (.expectKw (.str b!"CLEAR")) [1] ;;
  .ite 60535 (.not (.isNil (.var 1 /-err-/)))
    (.ret 60536 [.nil, (.var 1 /-err-/)])
    .skip ;;
  .call 60538 .parseAlterTableClearClause [(.var 0 /-pos-/)] [2, 3] ;;
  .ret 60538 [(.var 2 /-tmp-/), (.var 3 /-tmp-/)]⟩

/-- `parseAlterTableClearClause`, parser/parser_alter.go:542-603. -/
def parseAlterTableClearClause : Func Fn := ⟨8,
  .set 60543 1 (.str []) /-kind-/ ;;
  .ite 60545 (.matchKw (.str b!"COLUMN"))
    (.set 60546 1 (.str b!"COLUMN") /-kind-/)
    (.ite 60547 (.matchKw (.str b!"INDEX"))
      (.set 60548 1 (.str b!"INDEX") /-kind-/)
      (.ite 60549 (.matchKw (.str b!"PROJECTION"))
        (.set 60550 1 (.str b!"PROJECTION") /-kind-/)
        (.ret 60552 [.nil, (.error b!"expected keyword: COLUMN|INDEX|PROJECTION, but got %q" [.curKind])]))) ;;
  .prim 60554 .consume [9999] ;;
  .call 60556 .tryParseIfExists [] [2, 3] ;;
  .ite 60557 (.not (.isNil (.var 3 /-err-/)))
    (.ret 60558 [.nil, (.var 3 /-err-/)])
    .skip ;;
  .call 60561 .ParseNestedIdentifier [.pos] [4, 3] ;;
  .ite 60562 (.not (.isNil (.var 3 /-err-/)))
    (.ret 60563 [.nil, (.var 3 /-err-/)])
    .skip ;;
  .set 60565 5 (.endOf (.var 4 /-name-/) (.ptr .NestedIdentifier)) /-statementEnd-/ ;;
  .set 60567 6 .nil /-partition-/ ;;
  .prim 60568 (.tryKws [b!"IN"]) [7] ;;
  .ite 60568 (.var 7 /-tmp-/)
    (.call 60569 .tryParsePartitionClause [.pos] [6, 3] ;;
    .ite 60570 (.not (.isNil (.var 3 /-err-/)))
      (.ret 60571 [.nil, (.var 3 /-err-/)])
      .skip ;;
    .ite 60573 (.not (.isNil (.var 6 /-partition-/)))
      (.set 60574 5 (.endOf (.var 6 /-partition-/) (.ptr .PartitionClause)) /-statementEnd-/)
      .skip)
    .skip ;;
  .ite 60578 (.eqStr (.var 1 /-kind-/) (.str b!"PROJECTION"))
    (.ret 60579 [(.mk .AlterTableClearProjection [(.var 0 /-pos-/) /-ClearPos-/, (.var 5 /-statementEnd-/) /-StatementEnd-/, (.var 2 /-ifExists-/) /-IfExists-/, (.var 4 /-name-/) /-ProjectionName-/, (.var 6 /-partition-/) /-PartitionExpr-/]), .nil])
    (.ite 60586 (.eqStr (.var 1 /-kind-/) (.str b!"COLUMN"))
      (.ret 60587 [(.mk .AlterTableClearColumn [(.var 0 /-pos-/) /-ClearPos-/, (.var 5 /-statementEnd-/) /-StatementEnd-/, (.var 2 /-ifExists-/) /-IfExists-/, (.var 4 /-name-/) /-ColumnName-/, (.var 6 /-partition-/) /-PartitionExpr-/]), .nil])
      (.ret 60595 [(.mk .AlterTableClearIndex [(.var 0 /-pos-/) /-ClearPos-/, (.var 5 /-statementEnd-/) /-StatementEnd-/, (.var 2 /-ifExists-/) /-IfExists-/, (.var 4 /-name-/) /-IndexName-/, (.var 6 /-partition-/) /-PartitionExpr-/]), .nil]))⟩

/-- `parseAlterTableRenameColumn`, parser/parser_alter.go:606-640. -/
def parseAlterTableRenameColumn : Func Fn := ⟨7,
  .prim 60607 (.expectKw (.str b!"RENAME")) [1] ;;
  .ite 60607 (.not (.isNil (.var 1 /-err-/)))
    (.ret 60608 [.nil, (.var 1 /-err-/)])
    .skip ;;
  .prim 60611 (.expectKw (.str b!"COLUMN")) [2] ;;
  .ite 60611 (.not (.isNil (.var 2 /-err-/)))
    (.ret 60612 [.nil, (.var 2 /-err-/)])
    .skip ;;
  .call 60615 .tryParseIfExists [] [3, 4] ;;
  .ite 60616 (.not (.isNil (.var 4 /-err-/)))
    (.ret 60617 [.nil, (.var 4 /-err-/)])
    .skip ;;
  .call 60620 .ParseNestedIdentifier [.pos] [5, 4] ;;
  .ite 60621 (.not (.isNil (.var 4 /-err-/)))
    (.ret 60622 [.nil, (.var 4 /-err-/)])
    .skip ;;
  .prim 60625 (.expectKw (.str b!"TO")) [4] ;;
  .ite 60625 (.not (.isNil (.var 4 /-err-/)))
    (.ret 60626 [.nil, (.var 4 /-err-/)])
    .skip ;;
  .call 60629 .ParseNestedIdentifier [.pos] [6, 4] ;;
  .ite 60630 (.not (.isNil (.var 4 /-err-/)))
    (.ret 60631 [.nil, (.var 4 /-err-/)])
    .skip ;;
  .ret 60634 [(.mk .AlterTableRenameColumn [(.var 0 /-pos-/) /-RenamePos-/, (.var 3 /-ifExists-/) /-IfExists-/, (.var 5 /-oldColumnName-/) /-OldColumnName-/, (.var 6 /-newColumnName-/) /-NewColumnName-/]), .nil]⟩

/-- `parseAlterTableModify`, parser/parser_alter.go:642-714. -/
def parseAlterTableModify : Func Fn := ⟨17,
  .prim 60643 (.expectKw (.str b!"MODIFY")) [1] ;;
  .ite 60643 (.not (.isNil (.var 1 /-err-/)))
    (.ret 60644 [.nil, (.var 1 /-err-/)])
    .skip ;;
  .ite 60648 (.matchKw (.str b!"COLUMN"))
    (.call 60649 .parseAlterTableModifyColumn [(.var 0 /-pos-/)] [2, 3] ;;
    .ret 60649 [(.var 2 /-tmp-/), (.var 3 /-tmp-/)])
    (.ite 60650 (.matchKw (.str b!"TTL"))
      (.set 60651 4 .pos /-ttlPos-/ ;;
      .prim 60652 .consume [9999] ;;
      .call 60653 .parseTTLClause [(.var 4 /-ttlPos-/), (.bool true)] [5, 6] ;;
      .ite 60654 (.not (.isNil (.var 6 /-err-/)))
        (.ret 60655 [.nil, (.var 6 /-err-/)])
        .skip ;;
      .set 60657 7 (.var 4 /-ttlPos-/) /-listEnd-/ ;;
      .ite 60658 (.lt (.nat 0) (.len (.var 5 /-items-/)))
        (.set 60659 7 (.endOf (.last (.var 5 /-items-/)) (.ptr .TTLExpr)) /-listEnd-/)
        .skip ;;
      .set 60661 8 (.mk .TTLClause [(.var 4 /-ttlPos-/) /-TTLPos-/, (.var 7 /-listEnd-/) /-ListEnd-/, (.var 5 /-items-/) /-Items-/]) /-ttlClause-/ ;;
      .ret 60666 [(.mk .AlterTableModifyTTL [(.var 0 /-pos-/) /-ModifyPos-/, (.endOf (.var 8 /-ttlClause-/) (.ptr .TTLClause)) /-StatementEnd-/, (.var 8 /-ttlClause-/) /-TTL-/]), .nil])
      (.ite 60671 (.matchKw (.str b!"QUERY"))
        (.prim 60672 .consume [9999] ;;
        .call 60673 .parseSelectQuery [(.var 0 /-pos-/)] [9, 10] ;;
        .ite 60674 (.not (.isNil (.var 10 /-err-/)))
          (.ret 60675 [.nil, (.var 10 /-err-/)])
          .skip ;;
        .ret 60677 [(.mk .AlterTableModifyQuery [(.var 0 /-pos-/) /-ModifyPos-/, (.endOf (.var 9 /-selectQuery-/) (.ptr .SelectQuery)) /-StatementEnd-/, (.var 9 /-selectQuery-/) /-SelectExpr-/]), .nil])
        (.ite 60682 (.matchKw (.str b!"ORDER"))
          (.prim 60683 .consume [9999] ;;
          .prim 60684 (.expectKw (.str b!"BY")) [11] ;;
          .ite 60684 (.not (.isNil (.var 11 /-err-/)))
            (.ret 60685 [.nil, (.var 11 /-err-/)])
            .skip ;;
          .call 60687 .parseExpr [.pos] [12, 13] ;;
          .ite 60688 (.not (.isNil (.var 13 /-err-/)))
            (.ret 60689 [.nil, (.var 13 /-err-/)])
            .skip ;;
          .ret 60691 [(.mk .AlterTableModifyOrderBy [(.var 0 /-pos-/) /-ModifyPos-/, (.endOf (.var 12 /-orderBy-/) .iface) /-StatementEnd-/, (.var 12 /-orderBy-/) /-OrderBy-/]), .nil])
          (.ite 60696 (.matchKw (.str b!"SETTING"))
            (.prim 60697 .consume [9999] ;;
            .call 60698 .parseSettingsList [.pos] [14, 15] ;;
            .ite 60699 (.not (.isNil (.var 15 /-err-/)))
              (.ret 60700 [.nil, (.var 15 /-err-/)])
              .skip ;;
            .set 60703 16 (.endOf (.last (.var 14 /-settings-/)) (.ptr .SettingExpr)) /-statementEnd-/ ;;
            .ret 60704 [(.mk .AlterTableModifySetting [(.var 0 /-pos-/) /-ModifyPos-/, (.var 16 /-statementEnd-/) /-StatementEnd-/, (.var 14 /-settings-/) /-Settings-/]), .nil])
            (.ret 60710 [.nil, (.error b!"expected keyword: COLUMN|TTL|QUERY|ORDER|SETTING, but got %q" [.curString])])))))⟩

/-- `parseAlterTableModifyColumn`, parser/parser_alter.go:717-748. -/
def parseAlterTableModifyColumn : Func Fn := ⟨7,
  .prim 60718 (.expectKw (.str b!"COLUMN")) [1] ;;
  .ite 60718 (.not (.isNil (.var 1 /-err-/)))
    (.ret 60719 [.nil, (.var 1 /-err-/)])
    .skip ;;
  .call 60722 .tryParseIfExists [] [2, 3] ;;
  .ite 60723 (.not (.isNil (.var 3 /-err-/)))
    (.ret 60724 [.nil, (.var 3 /-err-/)])
    .skip ;;
  .call 60728 .parseTableColumnExpr [.pos] [4, 3] ;;
  .ite 60729 (.not (.isNil (.var 3 /-err-/)))
    (.ret 60730 [.nil, (.var 3 /-err-/)])
    .skip ;;
  .set 60733 5 (.mk .AlterTableModifyColumn [(.var 0 /-pos-/) /-ModifyPos-/, (.endOf (.var 4 /-column-/) (.ptr .ColumnDef)) /-StatementEnd-/, (.var 2 /-ifExists-/) /-IfExists-/, (.var 4 /-column-/) /-Column-/, .nil /-RemovePropertyType-/]) /-alterTableModifyColumn-/ ;;
  .call 60741 .tryParseRemovePropertyTypeExpr [.pos] [6, 3] ;;
  .ite 60742 (.not (.isNil (.var 3 /-err-/)))
    (.ret 60743 [.nil, (.var 3 /-err-/)])
    .skip ;;
  .setF 60745 5 [4] (.var 6 /-removePropertyType-/) /-alterTableModifyColumn.RemovePropertyType-/ ;;
  .ret 60747 [(.var 5 /-alterTableModifyColumn-/), .nil]⟩

/-- `tryParseRemovePropertyTypeExpr`, parser/parser_alter.go:750-768. -/
def tryParseRemovePropertyTypeExpr : Func Fn := ⟨4,
  .ite 60751 (.not (.matchKw (.str b!"REMOVE")))
    (.ret 60752 [.nil, .nil])
    .skip ;;
  .prim 60755 (.expectKw (.str b!"REMOVE")) [1] ;;
  .ite 60755 (.not (.isNil (.var 1 /-err-/)))
    (.ret 60756 [.nil, (.var 1 /-err-/)])
    .skip ;;
  .call 60759 .parseColumnPropertyType [.pos] [2, 3] ;;
  .ite 60760 (.not (.isNil (.var 3 /-err-/)))
    (.ret 60761 [.nil, (.var 3 /-err-/)])
    .skip ;;
  .ret 60764 [(.mk .RemovePropertyType [(.var 0 /-pos-/) /-RemovePos-/, (.var 2 /-columnPropertyType-/) /-PropertyType-/]), .nil]⟩

/-- `parseAlterTableReplacePartition`, parser/parser_alter.go:770-794. -/
def parseAlterTableReplacePartition : Func Fn := ⟨5,
  .prim 60771 (.expectKw (.str b!"REPLACE")) [1] ;;
  .ite 60771 (.not (.isNil (.var 1 /-err-/)))
    (.ret 60772 [.nil, (.var 1 /-err-/)])
    .skip ;;
  .call 60775 .parsePartitionClause [.pos] [2, 3] ;;
  .ite 60776 (.not (.isNil (.var 3 /-err-/)))
    (.ret 60777 [.nil, (.var 3 /-err-/)])
    .skip ;;
  .prim 60780 (.expectKw (.str b!"FROM")) [3] ;;
  .ite 60780 (.not (.isNil (.var 3 /-err-/)))
    (.ret 60781 [.nil, (.var 3 /-err-/)])
    .skip ;;
  .call 60784 .parseTableIdentifier [.pos] [4, 3] ;;
  .ite 60785 (.not (.isNil (.var 3 /-err-/)))
    (.ret 60786 [.nil, (.var 3 /-err-/)])
    .skip ;;
  .ret 60789 [(.mk .AlterTableReplacePartition [(.var 0 /-pos-/) /-ReplacePos-/, (.var 2 /-partition-/) /-Partition-/, (.var 4 /-table-/) /-Table-/]), .nil]⟩

/-- `parseAlterTableMaterialize`, parser/parser_alter.go:796-844. -/
def parseAlterTableMaterialize : Func Fn := ⟨9,
  .prim 60797 (.expectKw (.str b!"MATERIALIZE")) [1] ;;
  .ite 60797 (.not (.isNil (.var 1 /-err-/)))
    (.ret 60798 [.nil, (.var 1 /-err-/)])
    .skip ;;
  .set 60800 2 (.str []) /-kind-/ ;;
  .ite 60802 (.matchKw (.str b!"INDEX"))
    (.set 60803 2 (.str b!"INDEX") /-kind-/)
    (.ite 60804 (.matchKw (.str b!"PROJECTION"))
      (.set 60805 2 (.str b!"PROJECTION") /-kind-/)
      (.ret 60807 [.nil, (.error b!"expected keyword: INDEX|PROJECTION, but got %q" [.curKind])])) ;;
  .prim 60809 .consume [9999] ;;
  .call 60811 .tryParseIfExists [] [3, 4] ;;
  .ite 60812 (.not (.isNil (.var 4 /-err-/)))
    (.ret 60813 [.nil, (.var 4 /-err-/)])
    .skip ;;
  .call 60815 .ParseNestedIdentifier [.pos] [5, 4] ;;
  .ite 60816 (.not (.isNil (.var 4 /-err-/)))
    (.ret 60817 [.nil, (.var 4 /-err-/)])
    .skip ;;
  .set 60819 6 (.endOf (.var 5 /-name-/) (.ptr .NestedIdentifier)) /-statementEnd-/ ;;
  .set 60820 7 .nil /-partition-/ ;;
  .prim 60821 (.tryKws [b!"IN"]) [8] ;;
  .ite 60821 (.var 8 /-tmp-/)
    (.call 60822 .tryParsePartitionClause [.pos] [7, 4] ;;
    .ite 60823 (.not (.isNil (.var 4 /-err-/)))
      (.ret 60824 [.nil, (.var 4 /-err-/)])
      .skip ;;
    .set 60826 6 (.endOf (.var 7 /-partition-/) (.ptr .PartitionClause)) /-statementEnd-/)
    .skip ;;
  .ite 60828 (.eqStr (.var 2 /-kind-/) (.str b!"INDEX"))
    (.ret 60829 [(.mk .AlterTableMaterializeIndex [(.var 0 /-pos-/) /-MaterializedPos-/, (.var 6 /-statementEnd-/) /-StatementEnd-/, (.var 3 /-ifExists-/) /-IfExists-/, (.var 5 /-name-/) /-IndexName-/, (.var 7 /-partition-/) /-Partition-/]), .nil])
    .skip ;;
  .ret 60837 [(.mk .AlterTableMaterializeProjection [(.var 0 /-pos-/) /-MaterializedPos-/, (.var 6 /-statementEnd-/) /-StatementEnd-/, (.var 3 /-ifExists-/) /-IfExists-/, (.var 5 /-name-/) /-ProjectionName-/, (.var 7 /-partition-/) /-Partition-/]), .nil]⟩

/-- `parseAlterTableReset`, parser/parser_alter.go:846-878. -/
def parseAlterTableReset : Func Fn := ⟨8,
  .prim 60847 (.expectKw (.str b!"RESET")) [1] ;;
  .ite 60847 (.not (.isNil (.var 1 /-err-/)))
    (.ret 60848 [.nil, (.var 1 /-err-/)])
    .skip ;;
  .prim 60851 (.expectKw (.str b!"SETTING")) [2] ;;
  .ite 60851 (.not (.isNil (.var 2 /-err-/)))
    (.ret 60852 [.nil, (.var 2 /-err-/)])
    .skip ;;
  .set 60856 3 .nil /-settings-/ ;;
  .call 60857 .parseIdent [] [4, 5] ;;
  .ite 60858 (.not (.isNil (.var 5 /-err-/)))
    (.ret 60859 [.nil, (.var 5 /-err-/)])
    .skip ;;
  .set 60861 3 (.append (.var 3 /-settings-/) (.var 4 /-setting-/)) /-settings-/ ;;
  .loop
    (.prim 60863 (.tryKind (.str b!",")) [6] ;;
    .ite 60863 (.not (.isNil (.var 6 /-tmp-/)))
      .skip
      .brk ;;
    .call 60864 .parseIdent [] [4, 5] ;;
    .ite 60865 (.not (.isNil (.var 5 /-err-/)))
      (.ret 60866 [.nil, (.var 5 /-err-/)])
      .skip ;;
    .set 60868 3 (.append (.var 3 /-settings-/) (.var 4 /-setting-/)) /-settings-/) ;;
  .set 60871 7 (.endOf (.last (.var 3 /-settings-/)) (.ptr .Ident)) /-statementEnd-/ ;;
  .ret 60873 [(.mk .AlterTableResetSetting [(.var 0 /-pos-/) /-ResetPos-/, (.var 7 /-statementEnd-/) /-StatementEnd-/, (.var 3 /-settings-/) /-Settings-/]), .nil]⟩

/-- `parseAlterTableDelete`, parser/parser_alter.go:881-900. -/
def parseAlterTableDelete : Func Fn := ⟨5,
  .prim 60882 (.expectKw (.str b!"DELETE")) [1] ;;
  .ite 60882 (.not (.isNil (.var 1 /-err-/)))
    (.ret 60883 [.nil, (.var 1 /-err-/)])
    .skip ;;
  .prim 60886 (.expectKw (.str b!"WHERE")) [2] ;;
  .ite 60886 (.not (.isNil (.var 2 /-err-/)))
    (.ret 60887 [.nil, (.var 2 /-err-/)])
    .skip ;;
  .call 60890 .parseExpr [.pos] [3, 4] ;;
  .ite 60891 (.not (.isNil (.var 4 /-err-/)))
    (.ret 60892 [.nil, (.var 4 /-err-/)])
    .skip ;;
  .ret 60895 [(.mk .AlterTableDelete [(.var 0 /-pos-/) /-DeletePos-/, (.endOf (.var 3 /-whereExpr-/) .iface) /-StatementEnd-/, (.var 3 /-whereExpr-/) /-WhereClause-/]), .nil]⟩

/-- `parseAlterTableUpdate`, parser/parser_alter.go:903-948. -/
def parseAlterTableUpdate : Func Fn := ⟨10,
  .prim 60904 (.expectKw (.str b!"UPDATE")) [1] ;;
  .ite 60904 (.not (.isNil (.var 1 /-err-/)))
    (.ret 60905 [.nil, (.var 1 /-err-/)])
    .skip ;;
  .set 60909 2 .empty /-assignments-/ ;;
  .call 60910 .parseUpdateAssignment [.pos] [3, 4] ;;
  .ite 60911 (.not (.isNil (.var 4 /-err-/)))
    (.ret 60912 [.nil, (.var 4 /-err-/)])
    .skip ;;
  .set 60914 2 (.append (.var 2 /-assignments-/) (.var 3 /-assignment-/)) /-assignments-/ ;;
  .loop
    (.prim 60917 (.tryKind (.str b!",")) [5] ;;
    .ite 60917 (.not (.isNil (.var 5 /-tmp-/)))
      .skip
      .brk ;;
    .call 60918 .parseUpdateAssignment [.pos] [3, 4] ;;
    .ite 60919 (.not (.isNil (.var 4 /-err-/)))
      (.ret 60920 [.nil, (.var 4 /-err-/)])
      .skip ;;
    .set 60922 2 (.append (.var 2 /-assignments-/) (.var 3 /-assignment-/)) /-assignments-/) ;;
  .set 60925 6 .nil /-inPartition-/ ;;
  .prim 60926 (.tryKws [b!"IN"]) [7] ;;
  .ite 60926 (.var 7 /-tmp-/)
    (.call 60927 .parsePartitionClause [.pos] [6, 4] ;;
    .ite 60928 (.not (.isNil (.var 4 /-err-/)))
      (.ret 60929 [.nil, (.var 4 /-err-/)])
      .skip)
    .skip ;;
  .prim 60932 (.expectKw (.str b!"WHERE")) [8] ;;
  .ite 60932 (.not (.isNil (.var 8 /-err-/)))
    (.ret 60933 [.nil, (.var 8 /-err-/)])
    .skip ;;
  .call 60936 .parseExpr [.pos] [9, 4] ;;
  .ite 60937 (.not (.isNil (.var 4 /-err-/)))
    (.ret 60938 [.nil, (.var 4 /-err-/)])
    .skip ;;
  .ret 60941 [(.mk .AlterTableUpdate [(.var 0 /-pos-/) /-UpdatePos-/, (.endOf (.var 9 /-whereExpr-/) .iface) /-StatementEnd-/, (.var 2 /-assignments-/) /-Assignments-/, (.var 6 /-inPartition-/) /-InPartition-/, (.var 9 /-whereExpr-/) /-WhereClause-/]), .nil]⟩

/-- `parseUpdateAssignment`, parser/parser_alter.go:951-974. -/
def parseUpdateAssignment : Func Fn := ⟨5,
  .call 60952 .ParseNestedIdentifier [.pos] [1, 2] ;;
  .ite 60953 (.not (.isNil (.var 2 /-err-/)))
    (.ret 60954 [.nil, (.var 2 /-err-/)])
    .skip ;;
  .prim 60957 (.expectKind (.str b!"=")) [3] ;;
  .ite 60957 (.not (.isNil (.var 3 /-err-/)))
    (.ret 60958 [.nil, (.var 3 /-err-/)])
    .skip ;;
  .call 60964 .parseSubExpr [.pos, (.nat 10)] [4, 2] ;;
  .ite 60965 (.not (.isNil (.var 2 /-err-/)))
    (.ret 60966 [.nil, (.var 2 /-err-/)])
    .skip ;;
  .ret 60969 [(.mk .UpdateAssignment [(.var 0 /-pos-/) /-AssignmentPos-/, (.var 1 /-column-/) /-Column-/, (.var 4 /-expr-/) /-Expr-/]), .nil]⟩

end Verif.Body

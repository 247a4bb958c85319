/-
The methods of parser/parse_system.go.
Written by tools/genparser.py from the Go text.
-/
import Verif.Parser.Lang
import Verif.Parser.Fn

namespace Verif.Body

/-- `parseSetStmt`, parser/parse_system.go:8-20. -/
def parseSetStmt : Func Fn := ⟨4,
  .prim 50009 (.expectKw (.str b!"SET")) [1] ;;
  .ite 50009 (.not (.isNil (.var 1 /-err-/)))
    (.ret 50010 [.nil, (.var 1 /-err-/)])
    .skip ;;
  .call 50012 .parseSettingsClause [.pos] [2, 3] ;;
  .ite 50013 (.not (.isNil (.var 3 /-err-/)))
    (.ret 50014 [.nil, (.var 3 /-err-/)])
    .skip ;;
  .ret 50016 [(.mk .SetStmt [(.var 0 /-pos-/) /-SetPos-/, (.var 2 /-settings-/) /-Settings-/]), .nil]⟩

/-- `parseSettingsStmt`, parser/parse_system.go:22-34. -/
def parseSettingsStmt : Func Fn := ⟨4,
  .prim 50023 (.expectKw (.str b!"SETTINGS")) [1] ;;
  .ite 50023 (.not (.isNil (.var 1 /-err-/)))
    (.ret 50024 [.nil, (.var 1 /-err-/)])
    .skip ;;
  .call 50026 .parseSettingsClause [.pos] [2, 3] ;;
  .ite 50027 (.not (.isNil (.var 3 /-err-/)))
    (.ret 50028 [.nil, (.var 3 /-err-/)])
    .skip ;;
  .ret 50030 [(.mk .SetStmt [(.var 0 /-pos-/) /-SetPos-/, (.var 2 /-settings-/) /-Settings-/]), .nil]⟩

/-- `parseSystemFlushExpr`, parser/parse_system.go:36-63. -/
def parseSystemFlushExpr : Func Fn := ⟨6,
  .prim 50037 (.expectKw (.str b!"FLUSH")) [1] ;;
  .ite 50037 (.not (.isNil (.var 1 /-err-/)))
    (.ret 50038 [.nil, (.var 1 /-err-/)])
    .skip ;;
  .ite 50042 (.matchKw (.str b!"LOGS"))
    (.set 50043 2 .cur /-curToken-/ ;;
    .prim 50044 .consume [9999] ;;
    .ret 50045 [(.mk .SystemFlushExpr [(.var 0 /-pos-/) /-FlushPos-/, (.fld (.var 2 /-curToken-/) 1 /-End-/) /-StatementEnd-/, (.bool true) /-Logs-/, .nil /-Distributed-/]), .nil])
    (.prim 50050 (.tryKws [b!"DISTRIBUTED"]) [3] ;;
    .ite 50050 (.var 3 /-tmp-/)
      (.call 50051 .parseTableIdentifier [.pos] [4, 5] ;;
      .ite 50052 (.not (.isNil (.var 5 /-err-/)))
        (.ret 50053 [.nil, (.var 5 /-err-/)])
        .skip ;;
      .ret 50055 [(.mk .SystemFlushExpr [(.var 0 /-pos-/) /-FlushPos-/, (.endOf (.var 4 /-distributed-/) (.ptr .TableIdentifier)) /-StatementEnd-/, (.bool false) /-Logs-/, (.var 4 /-distributed-/) /-Distributed-/]), .nil])
      (.ret 50061 [.nil, (.error b!"expected LOGS|DISTRIBUTED" [])]))⟩

/-- `parseSystemReloadExpr`, parser/parse_system.go:65-129. -/
def parseSystemReloadExpr : Func Fn := ⟨10,
  .prim 50066 (.expectKw (.str b!"RELOAD")) [1] ;;
  .ite 50066 (.not (.isNil (.var 1 /-err-/)))
    (.ret 50067 [.nil, (.var 1 /-err-/)])
    .skip ;;
  .set 50070 2 (.str []) /-typ-/ ;;
  .set 50071 3 (.nat 0) /-statementEnd-/ ;;
  .set 50073 4 (.bool false) /-hasDictionaryName-/ ;;
  .ite 50075 (.matchKw (.str b!"DICTIONARIES"))
    (.set 50076 2 (.str b!"DICTIONARIES") /-typ-/ ;;
    .set 50077 3 (.fld .cur 1 /-End-/) /-statementEnd-/ ;;
    .prim 50078 .consume [9999])
    (.ite 50079 (.matchKw (.str b!"DICTIONARY"))
      (.set 50080 2 (.str b!"DICTIONARY") /-typ-/ ;;
      .set 50081 3 (.fld .cur 1 /-End-/) /-statementEnd-/ ;;
      .set 50082 4 (.bool true) /-hasDictionaryName-/ ;;
      .prim 50083 .consume [9999])
      (.prim 50084 (.tryKws [b!"EMBEDDED"]) [5] ;;
      .ite 50084 (.var 5 /-tmp-/)
        (.set 50085 2 (.str b!"EMBEDDED DICTIONARIES") /-typ-/ ;;
        .set 50086 3 (.fld .cur 1 /-End-/) /-statementEnd-/ ;;
        .prim 50087 (.expectKw (.str b!"DICTIONARIES")) [6] ;;
        .ite 50087 (.not (.isNil (.var 6 /-err-/)))
          (.ret 50088 [.nil, (.var 6 /-err-/)])
          .skip)
        (.ret 50091 [.nil, (.error b!"expected DICTIONARIES|DICTIONARY|EMBEDDED" [])]))) ;;
  .call 50094 .tryParseClusterClause [.pos] [7, 8] ;;
  .ite 50095 (.not (.isNil (.var 8 /-err-/)))
    (.ret 50096 [.nil, (.var 8 /-err-/)])
    .skip ;;
  .ite 50098 (.not (.isNil (.var 7 /-onCluster-/)))
    (.set 50099 3 (.endOf (.var 7 /-onCluster-/) (.ptr .ClusterClause)) /-statementEnd-/)
    .skip ;;
  .set 50102 9 .nil /-dictionary-/ ;;
  .ite 50103 (.var 4 /-hasDictionaryName-/)
    (.call 50104 .parseTableIdentifier [.pos] [9, 8] ;;
    .ite 50105 (.not (.isNil (.var 8 /-err-/)))
      (.ret 50106 [.nil, (.var 8 /-err-/)])
      .skip ;;
    .set 50108 3 (.endOf (.var 9 /-dictionary-/) (.ptr .TableIdentifier)) /-statementEnd-/ ;;
    .ite 50111 (.isNil (.var 7 /-onCluster-/))
      (.call 50112 .tryParseClusterClause [.pos] [7, 8] ;;
      .ite 50113 (.not (.isNil (.var 8 /-err-/)))
        (.ret 50114 [.nil, (.var 8 /-err-/)])
        .skip ;;
      .ite 50116 (.not (.isNil (.var 7 /-onCluster-/)))
        (.set 50117 3 (.endOf (.var 7 /-onCluster-/) (.ptr .ClusterClause)) /-statementEnd-/)
        .skip)
      .skip)
    .skip ;;
  .ret 50122 [(.mk .SystemReloadExpr [(.var 0 /-pos-/) /-ReloadPos-/, (.var 3 /-statementEnd-/) /-StatementEnd-/, (.var 7 /-onCluster-/) /-OnCluster-/, (.var 9 /-dictionary-/) /-Dictionary-/, (.var 2 /-typ-/) /-Type-/]), .nil]⟩

/-- `parseSystemSyncExpr`, parser/parse_system.go:131-146. -/
def parseSystemSyncExpr : Func Fn := ⟨5,
  .prim 50132 (.expectKw (.str b!"SYNC")) [1] ;;
  .ite 50132 (.not (.isNil (.var 1 /-err-/)))
    (.ret 50133 [.nil, (.var 1 /-err-/)])
    .skip ;;
  .prim 50135 (.expectKw (.str b!"REPLICA")) [2] ;;
  .ite 50135 (.not (.isNil (.var 2 /-err-/)))
    (.ret 50136 [.nil, (.var 2 /-err-/)])
    .skip ;;
  .call 50138 .parseTableIdentifier [.pos] [3, 4] ;;
  .ite 50139 (.not (.isNil (.var 4 /-err-/)))
    (.ret 50140 [.nil, (.var 4 /-err-/)])
    .skip ;;
  .ret 50142 [(.mk .SystemSyncExpr [(.var 0 /-pos-/) /-SyncPos-/, (.var 3 /-cluster-/) /-Cluster-/]), .nil]⟩

/-- `parseSystemCtrlExpr`, parser/parse_system.go:148-199. -/
def parseSystemCtrlExpr : Func Fn := ⟨10,
  .ite 50149 (.and (.not (.matchKw (.str b!"START"))) (.not (.matchKw (.str b!"STOP"))))
    (.ret 50150 [.nil, (.error b!"expected START|STOP" [])])
    .skip ;;
  .set 50152 1 (.upper (.fld .cur 3 /-String-/)) /-command-/ ;;
  .prim 50153 .consume [9999] ;;
  .set 50155 2 (.str []) /-typ-/ ;;
  .prim 50157 (.tryKws [b!"DISTRIBUTED"]) [3] ;;
  .ite 50157 (.var 3 /-tmp-/)
    (.ite 50159 (.matchKw (.str b!"SENDS"))
      (.set 50160 2 (.str b!"DISTRIBUTED SENDS") /-typ-/)
      (.ite 50161 (.matchKw (.str b!"FETCHES"))
        (.set 50162 2 (.str b!"FETCHES") /-typ-/)
        (.ite 50163 (.matchKw (.str b!"MERGES"))
          (.set 50164 2 (.str b!"MERGES") /-typ-/)
          (.ite 50165 (.matchKw (.str b!"TTL"))
            (.set 50166 2 (.str b!"TTL MERGES") /-typ-/ ;;
            .prim 50167 (.expectKw (.str b!"MERGES")) [4] ;;
            .ite 50167 (.not (.isNil (.var 4 /-err-/)))
              (.ret 50168 [.nil, (.var 4 /-err-/)])
              .skip)
            (.ret 50171 [.nil, (.error b!"expected SENDS|FETCHES|MERGES|TTL" [])])))) ;;
    .call 50173 .parseTableIdentifier [.pos] [5, 6] ;;
    .ite 50174 (.not (.isNil (.var 6 /-err-/)))
      (.ret 50175 [.nil, (.var 6 /-err-/)])
      .skip ;;
    .ret 50177 [(.mk .SystemCtrlExpr [(.var 0 /-pos-/) /-CtrlPos-/, (.endOf (.var 5 /-cluster-/) (.ptr .TableIdentifier)) /-StatementEnd-/, (.var 1 /-command-/) /-Command-/, (.var 2 /-typ-/) /-Type-/, (.var 5 /-cluster-/) /-Cluster-/]), .nil])
    (.prim 50184 (.tryKws [b!"REPLICATED"]) [7] ;;
    .ite 50184 (.var 7 /-tmp-/)
      (.set 50185 8 .cur /-curToken-/ ;;
      .prim 50186 (.expectKw (.str b!"SENDS")) [9] ;;
      .ite 50186 (.not (.isNil (.var 9 /-err-/)))
        (.ret 50187 [.nil, (.var 9 /-err-/)])
        .skip ;;
      .set 50189 2 (.str b!"REPLICATED SENDS") /-typ-/ ;;
      .ret 50190 [(.mk .SystemCtrlExpr [(.var 0 /-pos-/) /-CtrlPos-/, (.fld (.var 8 /-curToken-/) 1 /-End-/) /-StatementEnd-/, (.var 1 /-command-/) /-Command-/, (.var 2 /-typ-/) /-Type-/, .nil /-Cluster-/]), .nil])
      (.ret 50197 [.nil, (.error b!"expected DISTRIBUTED|REPLICATED" [])]))⟩

/-- `parseSystemDropExpr`, parser/parse_system.go:201-239. -/
def parseSystemDropExpr : Func Fn := ⟨8,
  .prim 50202 (.expectKw (.str b!"DROP")) [1] ;;
  .ite 50202 (.not (.isNil (.var 1 /-err-/)))
    (.ret 50203 [.nil, (.var 1 /-err-/)])
    .skip ;;
  .ite 50206 (.or (.or (.or (.or (.matchKw (.str b!"DNS")) (.matchKw (.str b!"MARK"))) (.matchKw (.str b!"UNCOMPRESSED"))) (.matchKw (.str b!"FILESYSTEM"))) (.matchKw (.str b!"QUERY")))
    (.set 50211 2 .cur /-prefixToken-/ ;;
    .prim 50212 .consume [9999] ;;
    .set 50213 3 .cur /-curToken-/ ;;
    .prim 50214 (.expectKw (.str b!"CACHE")) [4] ;;
    .ite 50214 (.not (.isNil (.var 4 /-err-/)))
      (.ret 50215 [.nil, (.var 4 /-err-/)])
      .skip ;;
    .ret 50217 [(.mk .SystemDropExpr [(.var 0 /-pos-/) /-DropPos-/, (.fld (.var 3 /-curToken-/) 1 /-End-/) /-StatementEnd-/, (.cat (.fld (.var 2 /-prefixToken-/) 3 /-String-/) (.str b!" CACHE")) /-Type-/]), .nil])
    (.ite 50222 (.matchKw (.str b!"COMPILED"))
      (.prim 50223 .consume [9999] ;;
      .prim 50224 (.expectKw (.str b!"EXPRESSION")) [5] ;;
      .ite 50224 (.not (.isNil (.var 5 /-err-/)))
        (.ret 50225 [.nil, (.var 5 /-err-/)])
        .skip ;;
      .set 50227 6 .cur /-curToken-/ ;;
      .prim 50228 (.expectKw (.str b!"CACHE")) [7] ;;
      .ite 50228 (.not (.isNil (.var 7 /-err-/)))
        (.ret 50229 [.nil, (.var 7 /-err-/)])
        .skip ;;
      .ret 50231 [(.mk .SystemDropExpr [(.var 0 /-pos-/) /-DropPos-/, (.fld (.var 6 /-curToken-/) 1 /-End-/) /-StatementEnd-/, (.str b!"COMPILED EXPRESSION CACHE") /-Type-/]), .nil])
      (.ret 50237 [.nil, (.error b!"expected DNS|MARK|REPLICA|DATABASE|UNCOMPRESSION|COMPILED|QUERY" [])]))⟩

/-- `tryParseDeduplicateClause`, parser/parse_system.go:241-246. -/
def tryParseDeduplicateClause : Func Fn := ⟨3,
  .ite 50242 (.not (.matchKw (.str b!"DEDUPLICATE")))
    (.ret 50243 [.nil, .nil])
    .skip ;;
  .call 50245 .parseDeduplicateClause [(.var 0 /-pos-/)] [1, 2] ;;
  .ret 50245 [(.var 1 /-tmp-/), (.var 2 /-tmp-/)]⟩

/-- `parseDeduplicateClause`, parser/parse_system.go:248-274. -/
def parseDeduplicateClause : Func Fn := ⟨7,
  .prim 50249 (.expectKw (.str b!"DEDUPLICATE")) [1] ;;
  .ite 50249 (.not (.isNil (.var 1 /-err-/)))
    (.ret 50250 [.nil, (.var 1 /-err-/)])
    .skip ;;
  .prim 50252 (.tryKws [b!"BY"]) [2] ;;
  .ite 50252 (.not (.var 2 /-tmp-/))
    (.ret 50253 [(.mk .DeduplicateClause [(.var 0 /-pos-/) /-DeduplicatePos-/, .nil /-By-/, .nil /-Except-/]), .nil])
    .skip ;;
  .call 50258 .parseColumnExprList [.pos] [3, 4] ;;
  .ite 50259 (.not (.isNil (.var 4 /-err-/)))
    (.ret 50260 [.nil, (.var 4 /-err-/)])
    .skip ;;
  .set 50262 5 .nil /-except-/ ;;
  .prim 50263 (.tryKws [b!"EXCEPT"]) [6] ;;
  .ite 50263 (.var 6 /-tmp-/)
    (.call 50264 .parseColumnExprList [.pos] [5, 4] ;;
    .ite 50265 (.not (.isNil (.var 4 /-err-/)))
      (.ret 50266 [.nil, (.var 4 /-err-/)])
      .skip)
    .skip ;;
  .ret 50269 [(.mk .DeduplicateClause [(.var 0 /-pos-/) /-DeduplicatePos-/, (.var 3 /-by-/) /-By-/, (.var 5 /-except-/) /-Except-/]), .nil]⟩

/-- `parseOptimizeStmt`, parser/parse_system.go:276-330. -/
def parseOptimizeStmt : Func Fn := ⟨12,
  .prim 50277 (.expectKw (.str b!"OPTIMIZE")) [1] ;;
  .ite 50277 (.not (.isNil (.var 1 /-err-/)))
    (.ret 50278 [.nil, (.var 1 /-err-/)])
    .skip ;;
  .prim 50280 (.expectKw (.str b!"TABLE")) [2] ;;
  .ite 50280 (.not (.isNil (.var 2 /-err-/)))
    (.ret 50281 [.nil, (.var 2 /-err-/)])
    .skip ;;
  .call 50284 .parseTableIdentifier [.pos] [3, 4] ;;
  .ite 50285 (.not (.isNil (.var 4 /-err-/)))
    (.ret 50286 [.nil, (.var 4 /-err-/)])
    .skip ;;
  .set 50288 5 (.endOf (.var 3 /-table-/) (.ptr .TableIdentifier)) /-statementEnd-/ ;;
  .call 50290 .tryParseClusterClause [.pos] [6, 4] ;;
  .ite 50291 (.not (.isNil (.var 4 /-err-/)))
    (.ret 50292 [.nil, (.var 4 /-err-/)])
    .skip ;;
  .ite 50294 (.not (.isNil (.var 6 /-onCluster-/)))
    (.set 50295 5 (.endOf (.var 6 /-onCluster-/) (.ptr .ClusterClause)) /-statementEnd-/)
    .skip ;;
  .call 50298 .tryParsePartitionClause [.pos] [7, 4] ;;
  .ite 50299 (.not (.isNil (.var 4 /-err-/)))
    (.ret 50300 [.nil, (.var 4 /-err-/)])
    .skip ;;
  .ite 50302 (.not (.isNil (.var 7 /-partition-/)))
    (.set 50303 5 (.endOf (.var 7 /-partition-/) (.ptr .PartitionClause)) /-statementEnd-/)
    .skip ;;
  .set 50306 8 (.bool false) /-hasFinal-/ ;;
  .set 50307 9 .pos /-lastPos-/ ;;
  .prim 50308 (.tryKws [b!"FINAL"]) [10] ;;
  .ite 50308 (.var 10 /-tmp-/)
    (.set 50309 8 (.bool true) /-hasFinal-/ ;;
    .set 50310 5 (.var 9 /-lastPos-/) /-statementEnd-/)
    .skip ;;
  .call 50313 .tryParseDeduplicateClause [.pos] [11, 4] ;;
  .ite 50314 (.not (.isNil (.var 4 /-err-/)))
    (.ret 50315 [.nil, (.var 4 /-err-/)])
    .skip ;;
  .ite 50317 (.not (.isNil (.var 11 /-deduplicate-/)))
    (.set 50318 5 (.endOf (.var 11 /-deduplicate-/) (.ptr .DeduplicateClause)) /-statementEnd-/)
    .skip ;;
  .ret 50321 [(.mk .OptimizeStmt [(.var 0 /-pos-/) /-OptimizePos-/, (.var 5 /-statementEnd-/) /-StatementEnd-/, (.var 3 /-table-/) /-Table-/, (.var 6 /-onCluster-/) /-OnCluster-/, (.var 7 /-partition-/) /-Partition-/, (.var 8 /-hasFinal-/) /-HasFinal-/, (.var 11 /-deduplicate-/) /-Deduplicate-/]), .nil]⟩

/-- `parseSystemStmt`, parser/parse_system.go:332-360. -/
def parseSystemStmt : Func Fn := ⟨4,
  .prim 50333 (.expectKw (.str b!"SYSTEM")) [1] ;;
  .ite 50333 (.not (.isNil (.var 1 /-err-/)))
    (.ret 50334 [.nil, (.var 1 /-err-/)])
    .skip ;;
  .set 50337 2 .nil /-err-/ ;;
  .set 50338 3 .nil /-expr-/ ;;
  .ite 50340 (.matchKw (.str b!"FLUSH"))
    (.call 50341 .parseSystemFlushExpr [.pos] [3, 2])
    (.ite 50342 (.matchKw (.str b!"RELOAD"))
      (.call 50343 .parseSystemReloadExpr [.pos] [3, 2])
      (.ite 50344 (.matchKw (.str b!"SYNC"))
        (.call 50345 .parseSystemSyncExpr [.pos] [3, 2])
        (.ite 50346 (.or (.matchKw (.str b!"START")) (.matchKw (.str b!"STOP")))
          (.call 50347 .parseSystemCtrlExpr [.pos] [3, 2])
          (.ite 50348 (.matchKw (.str b!"DROP"))
            (.call 50349 .parseSystemDropExpr [.pos] [3, 2])
            (.ret 50351 [.nil, (.error b!"expected FLUSH|RELOAD|SYNC|START|STOP" [])]))))) ;;
  .ite 50353 (.not (.isNil (.var 2 /-err-/)))
    (.ret 50354 [.nil, (.var 2 /-err-/)])
    .skip ;;
  .ret 50356 [(.mk .SystemStmt [(.var 0 /-pos-/) /-SystemPos-/, (.var 3 /-expr-/) /-Expr-/]), .nil]⟩

/-- `parseCheckStmt`, parser/parse_system.go:362-382. -/
def parseCheckStmt : Func Fn := ⟨6,
  .prim 50363 (.expectKw (.str b!"CHECK")) [1] ;;
  .ite 50363 (.not (.isNil (.var 1 /-err-/)))
    (.ret 50364 [.nil, (.var 1 /-err-/)])
    .skip ;;
  .prim 50366 (.expectKw (.str b!"TABLE")) [2] ;;
  .ite 50366 (.not (.isNil (.var 2 /-err-/)))
    (.ret 50367 [.nil, (.var 2 /-err-/)])
    .skip ;;
  .call 50369 .parseTableIdentifier [.pos] [3, 4] ;;
  .ite 50370 (.not (.isNil (.var 4 /-err-/)))
    (.ret 50371 [.nil, (.var 4 /-err-/)])
    .skip ;;
  .call 50373 .tryParsePartitionClause [.pos] [5, 4] ;;
  .ite 50374 (.not (.isNil (.var 4 /-err-/)))
    (.ret 50375 [.nil, (.var 4 /-err-/)])
    .skip ;;
  .ret 50377 [(.mk .CheckStmt [(.var 0 /-pos-/) /-CheckPos-/, (.var 3 /-table-/) /-Table-/, (.var 5 /-partition-/) /-Partition-/]), .nil]⟩

/-- `parseRoleName`, parser/parse_system.go:384-423. -/
def parseRoleName : Func Fn := ⟨9,
  .ite 50386 (.matchKinds [(.str b!"<ident>")])
    (.call 50387 .parseIdent [] [1, 2] ;;
    .ite 50388 (.not (.isNil (.var 2 /-err-/)))
      (.ret 50389 [.nil, (.var 2 /-err-/)])
      .skip ;;
    .set 50391 3 .nil /-scope-/ ;;
    .prim 50392 (.tryKind (.str b!"@")) [4] ;;
    .ite 50392 (.not (.isNil (.var 4 /-tmp-/)))
      (.call 50393 .parseString [.pos] [3, 2] ;;
      .ite 50394 (.not (.isNil (.var 2 /-err-/)))
        (.ret 50395 [.nil, (.var 2 /-err-/)])
        .skip)
      .skip ;;
    .call 50398 .tryParseClusterClause [.pos] [5, 2] ;;
    .ite 50399 (.not (.isNil (.var 2 /-err-/)))
      (.ret 50400 [.nil, (.var 2 /-err-/)])
      .skip ;;
    .ret 50402 [(.mk .RoleName [(.var 1 /-name-/) /-Name-/, (.var 3 /-scope-/) /-Scope-/, (.var 5 /-onCluster-/) /-OnCluster-/]), .nil])
    (.ite 50407 (.matchKinds [(.str b!"<string>")])
      (.call 50408 .parseString [.pos] [6, 7] ;;
      .ite 50409 (.not (.isNil (.var 7 /-err-/)))
        (.ret 50410 [.nil, (.var 7 /-err-/)])
        .skip ;;
      .call 50412 .tryParseClusterClause [.pos] [8, 7] ;;
      .ite 50413 (.not (.isNil (.var 7 /-err-/)))
        (.ret 50414 [.nil, (.var 7 /-err-/)])
        .skip ;;
      .ret 50416 [(.mk .RoleName [(.var 6 /-name-/) /-Name-/, .nil /-Scope-/, (.var 8 /-onCluster-/) /-OnCluster-/]), .nil])
      (.ret 50421 [.nil, (.error b!"expected <ident> or <string>" [])]))⟩

/-- `tryParseRoleSettings`, parser/parse_system.go:425-430. -/
def tryParseRoleSettings : Func Fn := ⟨4,
  .prim 50426 (.tryKws [b!"SETTINGS"]) [1] ;;
  .ite 50426 (.not (.var 1 /-tmp-/))
    (.ret 50427 [.nil, .nil])
    .skip ;;
  .call 50429 .parseRoleSettings [(.var 0 /-pos-/)] [2, 3] ;;
  .ret 50429 [(.var 2 /-tmp-/), (.var 3 /-tmp-/)]⟩

/-- `parseRoleSetting`, parser/parse_system.go:432-480. -/
def parseRoleSetting : Func Fn := ⟨9,
  .set 50433 1 .empty /-pairs-/ ;;
  .loop
    (.ite 50434 (.matchKinds [(.str b!"<ident>")])
      .skip
      .brk ;;
    .call 50435 .parseIdent [] [2, 3] ;;
    .ite 50436 (.not (.isNil (.var 3 /-err-/)))
      (.ret 50437 [.nil, (.var 3 /-err-/)])
      .skip ;;
    .set 50439 4 (.fld (.var 2 /-name-/) 0 /-Name-/) ;;
    .ite 50440 (.or (.or (.or (.or (.eqStr (.var 4 /-tag-/) (.str b!"NONE")) (.eqStr (.var 4 /-tag-/) (.str b!"READABLE"))) (.eqStr (.var 4 /-tag-/) (.str b!"WRITABLE"))) (.eqStr (.var 4 /-tag-/) (.str b!"CONST"))) (.eqStr (.var 4 /-tag-/) (.str b!"CHANGEABLE_IN_READONLY")))
      (.ret 50441 [(.mk .RoleSetting [(.var 1 /-pairs-/) /-SettingPairs-/, (.var 2 /-name-/) /-Modifier-/]), .nil])
      .skip ;;
    .ite 50447 (.or (.or (.or (.matchKinds [(.str b!"=")]) (.matchKinds [(.str b!"<int>")])) (.matchKinds [(.str b!"<float>")])) (.matchKinds [(.str b!"<string>")]))
      (.set 50451 5 (.str []) /-op-/ ;;
      .prim 50452 (.tryKind (.str b!"=")) [6] ;;
      .ite 50452 (.not (.isNil (.var 6 /-token-/)))
        (.set 50453 5 (.fld (.var 6 /-token-/) 2 /-Kind-/) /-op-/)
        .skip ;;
      .call 50455 .parseLiteral [.pos] [7, 8] ;;
      .ite 50456 (.not (.isNil (.var 8 /-err-/)))
        (.ret 50457 [.nil, (.var 8 /-err-/)])
        .skip ;;
      .ite 50462 (.and (.and (.and (.and (.not (.isNil (.var 7 /-value-/))) (.not (.eqStr (.fld (.var 2 /-name-/) 0 /-Name-/) (.str b!"MIN")))) (.not (.eqStr (.fld (.var 2 /-name-/) 0 /-Name-/) (.str b!"MAX")))) (.not (.eqStr (.fld (.var 2 /-name-/) 0 /-Name-/) (.str b!"PROFILE")))) (.not (.eqStr (.var 5 /-op-/) (.str b!"="))))
        (.ret 50463 [.nil, (.error b!"expected operator = or no value, but got %s" [(.var 5 /-op-/)])])
        .skip ;;
      .set 50465 1 (.append (.var 1 /-pairs-/) (.mk .SettingPair [(.var 2 /-name-/) /-Name-/, (.var 5 /-op-/) /-Operation-/, (.var 7 /-value-/) /-Value-/])) /-pairs-/)
      (.set 50471 1 (.append (.var 1 /-pairs-/) (.mk .SettingPair [(.var 2 /-name-/) /-Name-/, (.str []) /-Operation-/, .nil /-Value-/])) /-pairs-/)) ;;
  .ret 50477 [(.mk .RoleSetting [(.var 1 /-pairs-/) /-SettingPairs-/, .nil /-Modifier-/]), .nil]⟩

/-- `parseRoleSettings`, parser/parse_system.go:482-495. -/
def parseRoleSettings : Func Fn := ⟨5,
  .set 50483 1 .empty /-settings-/ ;;
  .loop
    (.call 50485 .parseRoleSetting [.pos] [2, 3] ;;
    .ite 50486 (.not (.isNil (.var 3 /-err-/)))
      (.ret 50487 [.nil, (.var 3 /-err-/)])
      .skip ;;
    .set 50489 1 (.append (.var 1 /-settings-/) (.var 2 /-setting-/)) /-settings-/ ;;
    .prim 50490 (.tryKind (.str b!",")) [4] ;;
    .ite 50490 (.isNil (.var 4 /-tmp-/))
      .brk
      .skip) ;;
  .ret 50494 [(.var 1 /-settings-/), .nil]⟩

/-- `parseCreateRole`, parser/parse_system.go:497-563. -/
def parseCreateRole : Func Fn := ⟨17,
  .prim 50498 (.expectKw (.str b!"ROLE")) [1] ;;
  .ite 50498 (.not (.isNil (.var 1 /-err-/)))
    (.ret 50499 [.nil, (.var 1 /-err-/)])
    .skip ;;
  .set 50502 2 (.bool false) /-ifNotExists-/ ;;
  .set 50503 3 (.bool false) /-orReplace-/ ;;
  .ite 50505 (.matchKw (.str b!"IF"))
    (.prim 50506 .consume [9999] ;;
    .prim 50507 (.expectKw (.str b!"NOT")) [4] ;;
    .ite 50507 (.not (.isNil (.var 4 /-err-/)))
      (.ret 50508 [.nil, (.var 4 /-err-/)])
      .skip ;;
    .prim 50510 (.expectKw (.str b!"EXISTS")) [5] ;;
    .ite 50510 (.not (.isNil (.var 5 /-err-/)))
      (.ret 50511 [.nil, (.var 5 /-err-/)])
      .skip ;;
    .set 50513 2 (.bool true) /-ifNotExists-/)
    (.ite 50514 (.matchKw (.str b!"OR"))
      (.prim 50515 .consume [9999] ;;
      .prim 50516 (.expectKw (.str b!"REPLACE")) [6] ;;
      .ite 50516 (.not (.isNil (.var 6 /-err-/)))
        (.ret 50517 [.nil, (.var 6 /-err-/)])
        .skip ;;
      .set 50519 3 (.bool true) /-orReplace-/)
      .skip) ;;
  .set 50522 7 .empty /-roleNames-/ ;;
  .call 50523 .parseRoleName [.pos] [8, 9] ;;
  .ite 50524 (.not (.isNil (.var 9 /-err-/)))
    (.ret 50525 [.nil, (.var 9 /-err-/)])
    .skip ;;
  .set 50527 7 (.append (.var 7 /-roleNames-/) (.var 8 /-roleName-/)) /-roleNames-/ ;;
  .loop
    (.prim 50528 (.tryKind (.str b!",")) [10] ;;
    .ite 50528 (.not (.isNil (.var 10 /-tmp-/)))
      .skip
      .brk ;;
    .call 50529 .parseRoleName [.pos] [11, 12] ;;
    .ite 50530 (.not (.isNil (.var 12 /-err-/)))
      (.ret 50531 [.nil, (.var 12 /-err-/)])
      .skip ;;
    .set 50533 7 (.append (.var 7 /-roleNames-/) (.var 11 /-roleName-/)) /-roleNames-/) ;;
  .set 50535 13 (.endOf (.last (.var 7 /-roleNames-/)) (.ptr .RoleName)) /-statementEnd-/ ;;
  .set 50537 14 .nil /-accessStorageType-/ ;;
  .prim 50538 (.tryKws [b!"IN"]) [15] ;;
  .ite 50538 (.var 15 /-tmp-/)
    (.call 50539 .parseIdent [] [14, 9] ;;
    .ite 50540 (.not (.isNil (.var 9 /-err-/)))
      (.ret 50541 [.nil, (.var 9 /-err-/)])
      .skip ;;
    .set 50543 13 (.fld (.var 14 /-accessStorageType-/) 3 /-NameEnd-/) /-statementEnd-/)
    .skip ;;
  .call 50546 .tryParseRoleSettings [.pos] [16, 9] ;;
  .ite 50547 (.not (.isNil (.var 9 /-err-/)))
    (.ret 50548 [.nil, (.var 9 /-err-/)])
    .skip ;;
  .ite 50550 (.not (.isNil (.var 16 /-settings-/)))
    (.set 50551 13 (.endOf (.last (.var 16 /-settings-/)) (.ptr .RoleSetting)) /-statementEnd-/)
    .skip ;;
  .ret 50554 [(.mk .CreateRole [(.var 0 /-pos-/) /-CreatePos-/, (.var 13 /-statementEnd-/) /-StatementEnd-/, (.var 2 /-ifNotExists-/) /-IfNotExists-/, (.var 3 /-orReplace-/) /-OrReplace-/, (.var 7 /-roleNames-/) /-RoleNames-/, (.var 14 /-accessStorageType-/) /-AccessStorageType-/, (.var 16 /-settings-/) /-Settings-/]), .nil]⟩

/-- `parseAuthenticationClause`, parser/parse_system.go:565-625. -/
def parseAuthenticationClause : Func Fn := ⟨16,
  .set 50566 1 (.mk .AuthenticationClause [(.var 0 /-pos-/) /-AuthPos-/, (.nat 0) /-AuthEnd-/, (.bool false) /-NotIdentified-/, (.str []) /-AuthType-/, .nil /-AuthValue-/, .nil /-LdapServer-/, .nil /-KerberosRealm-/, (.bool false) /-IsKerberos-/]) /-auth-/ ;;
  .prim 50568 (.tryKws [b!"NOT"]) [2] ;;
  .ite 50568 (.var 2 /-tmp-/)
    (.prim 50569 (.expectKw (.str b!"IDENTIFIED")) [3] ;;
    .ite 50569 (.not (.isNil (.var 3 /-err-/)))
      (.ret 50570 [.nil, (.var 3 /-err-/)])
      .skip ;;
    .setF 50572 1 [2] (.bool true) /-auth.NotIdentified-/ ;;
    .setF 50573 1 [1] (.fld .cur 1 /-End-/) /-auth.AuthEnd-/ ;;
    .ret 50574 [(.var 1 /-auth-/), .nil])
    .skip ;;
  .prim 50577 (.expectKw (.str b!"IDENTIFIED")) [4] ;;
  .ite 50577 (.not (.isNil (.var 4 /-err-/)))
    (.ret 50578 [.nil, (.var 4 /-err-/)])
    .skip ;;
  .setF 50580 1 [1] (.fld .cur 1 /-End-/) /-auth.AuthEnd-/ ;;
  .prim 50582 (.tryKws [b!"WITH"]) [5] ;;
  .ite 50582 (.var 5 /-tmp-/)
    (.ite 50583 (.matchKw (.str b!"LDAP"))
      (.prim 50584 .consume [9999] ;;
      .prim 50585 (.expectKw (.str b!"SERVER")) [6] ;;
      .ite 50585 (.not (.isNil (.var 6 /-err-/)))
        (.ret 50586 [.nil, (.var 6 /-err-/)])
        .skip ;;
      .call 50588 .parseString [.pos] [7, 8] ;;
      .ite 50589 (.not (.isNil (.var 8 /-err-/)))
        (.ret 50590 [.nil, (.var 8 /-err-/)])
        .skip ;;
      .setF 50592 1 [5] (.var 7 /-server-/) /-auth.LdapServer-/ ;;
      .setF 50593 1 [1] (.endOf (.var 7 /-server-/) (.ptr .StringLiteral)) /-auth.AuthEnd-/)
      (.ite 50594 (.matchKw (.str b!"KERBEROS"))
        (.prim 50595 .consume [9999] ;;
        .setF 50596 1 [7] (.bool true) /-auth.IsKerberos-/ ;;
        .setF 50597 1 [1] (.fld .cur 1 /-End-/) /-auth.AuthEnd-/ ;;
        .prim 50598 (.tryKws [b!"REALM"]) [9] ;;
        .ite 50598 (.var 9 /-tmp-/)
          (.call 50599 .parseString [.pos] [10, 11] ;;
          .ite 50600 (.not (.isNil (.var 11 /-err-/)))
            (.ret 50601 [.nil, (.var 11 /-err-/)])
            .skip ;;
          .setF 50603 1 [6] (.var 10 /-realm-/) /-auth.KerberosRealm-/ ;;
          .setF 50604 1 [1] (.endOf (.var 10 /-realm-/) (.ptr .StringLiteral)) /-auth.AuthEnd-/)
          .skip)
        (.ite 50606 (.matchKinds [(.str b!"<ident>")])
          (.set 50608 12 (.fld .cur 3 /-String-/) /-authType-/ ;;
          .prim 50609 .consume [9999] ;;
          .setF 50610 1 [3] (.var 12 /-authType-/) /-auth.AuthType-/ ;;
          .setF 50611 1 [1] (.fld .cur 1 /-End-/) /-auth.AuthEnd-/ ;;
          .prim 50613 (.tryKws [b!"BY"]) [13] ;;
          .ite 50613 (.var 13 /-tmp-/)
            (.call 50614 .parseString [.pos] [14, 15] ;;
            .ite 50615 (.not (.isNil (.var 15 /-err-/)))
              (.ret 50616 [.nil, (.var 15 /-err-/)])
              .skip ;;
            .setF 50618 1 [4] (.var 14 /-value-/) /-auth.AuthValue-/ ;;
            .setF 50619 1 [1] (.endOf (.var 14 /-value-/) (.ptr .StringLiteral)) /-auth.AuthEnd-/)
            .skip)
          .skip)))
    .skip ;;
  .ret 50624 [(.var 1 /-auth-/), .nil]⟩

/-- `parseHostClause`, parser/parse_system.go:627-655. -/
def parseHostClause : Func Fn := ⟨7,
  .prim 50628 (.expectKw (.str b!"HOST")) [1] ;;
  .ite 50628 (.not (.isNil (.var 1 /-err-/)))
    (.ret 50629 [.nil, (.var 1 /-err-/)])
    .skip ;;
  .set 50632 2 (.mk .HostClause [(.var 0 /-pos-/) /-HostPos-/, (.nat 0) /-HostEnd-/, (.str []) /-HostType-/, .nil /-HostValue-/]) /-host-/ ;;
  .ite 50635 (.matchOneOf (.strs [b!"LOCAL", b!"ANY", b!"NONE"]))
    (.set 50636 3 (.fld .cur 3 /-String-/) /-hostType-/ ;;
    .prim 50637 .consume [9999] ;;
    .setF 50638 2 [2] (.var 3 /-hostType-/) /-host.HostType-/ ;;
    .setF 50639 2 [1] (.fld .cur 1 /-End-/) /-host.HostEnd-/)
    (.ite 50640 (.matchOneOf (.strs [b!"NAME", b!"REGEXP", b!"IP", b!"LIKE"]))
      (.set 50641 4 (.fld .cur 3 /-String-/) /-hostType-/ ;;
      .prim 50642 .consume [9999] ;;
      .setF 50643 2 [2] (.var 4 /-hostType-/) /-host.HostType-/ ;;
      .call 50644 .parseString [.pos] [5, 6] ;;
      .ite 50645 (.not (.isNil (.var 6 /-err-/)))
        (.ret 50646 [.nil, (.var 6 /-err-/)])
        .skip ;;
      .setF 50648 2 [3] (.var 5 /-value-/) /-host.HostValue-/ ;;
      .setF 50649 2 [1] (.endOf (.var 5 /-value-/) (.ptr .StringLiteral)) /-host.HostEnd-/)
      (.ret 50651 [.nil, (.error b!"expected LOCAL|NAME|REGEXP|IP|LIKE|ANY|NONE" [])])) ;;
  .ret 50654 [(.var 2 /-host-/), .nil]⟩

/-- `parseDefaultRoleClause`, parser/parse_system.go:657-691. -/
def parseDefaultRoleClause : Func Fn := ⟨11,
  .prim 50658 (.expectKw (.str b!"DEFAULT")) [1] ;;
  .ite 50658 (.not (.isNil (.var 1 /-err-/)))
    (.ret 50659 [.nil, (.var 1 /-err-/)])
    .skip ;;
  .prim 50661 (.expectKw (.str b!"ROLE")) [2] ;;
  .ite 50661 (.not (.isNil (.var 2 /-err-/)))
    (.ret 50662 [.nil, (.var 2 /-err-/)])
    .skip ;;
  .set 50665 3 (.mk .DefaultRoleClause [(.var 0 /-pos-/) /-DefaultPos-/, (.nat 0) /-DefaultEnd-/, .nil /-Roles-/, (.bool false) /-None-/]) /-defaultRole-/ ;;
  .prim 50667 (.tryKws [b!"NONE"]) [4] ;;
  .ite 50667 (.var 4 /-tmp-/)
    (.setF 50668 3 [3] (.bool true) /-defaultRole.None-/ ;;
    .setF 50669 3 [1] (.fld .cur 1 /-End-/) /-defaultRole.DefaultEnd-/ ;;
    .ret 50670 [(.var 3 /-defaultRole-/), .nil])
    .skip ;;
  .set 50673 5 .empty /-roles-/ ;;
  .call 50674 .parseRoleName [.pos] [6, 7] ;;
  .ite 50675 (.not (.isNil (.var 7 /-err-/)))
    (.ret 50676 [.nil, (.var 7 /-err-/)])
    .skip ;;
  .set 50678 5 (.append (.var 5 /-roles-/) (.var 6 /-role-/)) /-roles-/ ;;
  .loop
    (.prim 50680 (.tryKind (.str b!",")) [8] ;;
    .ite 50680 (.not (.isNil (.var 8 /-tmp-/)))
      .skip
      .brk ;;
    .call 50681 .parseRoleName [.pos] [9, 10] ;;
    .ite 50682 (.not (.isNil (.var 10 /-err-/)))
      (.ret 50683 [.nil, (.var 10 /-err-/)])
      .skip ;;
    .set 50685 5 (.append (.var 5 /-roles-/) (.var 9 /-role-/)) /-roles-/) ;;
  .setF 50688 3 [2] (.var 5 /-roles-/) /-defaultRole.Roles-/ ;;
  .setF 50689 3 [1] (.endOf (.last (.var 5 /-roles-/)) (.ptr .RoleName)) /-defaultRole.DefaultEnd-/ ;;
  .ret 50690 [(.var 3 /-defaultRole-/), .nil]⟩

/-- `parseGranteesClause`, parser/parse_system.go:693-749. -/
def parseGranteesClause : Func Fn := ⟨18,
  .prim 50694 (.expectKw (.str b!"GRANTEES")) [1] ;;
  .ite 50694 (.not (.isNil (.var 1 /-err-/)))
    (.ret 50695 [.nil, (.var 1 /-err-/)])
    .skip ;;
  .set 50698 2 (.mk .GranteesClause [(.var 0 /-pos-/) /-GranteesPos-/, (.nat 0) /-GranteesEnd-/, .nil /-Grantees-/, .nil /-ExceptUsers-/, (.bool false) /-Any-/, (.bool false) /-None-/]) /-grantees-/ ;;
  .prim 50700 (.tryKws [b!"ANY"]) [3] ;;
  .ite 50700 (.var 3 /-tmp-/)
    (.setF 50701 2 [4] (.bool true) /-grantees.Any-/ ;;
    .setF 50702 2 [1] (.fld .cur 1 /-End-/) /-grantees.GranteesEnd-/)
    (.prim 50703 (.tryKws [b!"NONE"]) [4] ;;
    .ite 50703 (.var 4 /-tmp-/)
      (.setF 50704 2 [5] (.bool true) /-grantees.None-/ ;;
      .setF 50705 2 [1] (.fld .cur 1 /-End-/) /-grantees.GranteesEnd-/)
      (.set 50708 5 .empty /-granteeList-/ ;;
      .call 50709 .parseRoleName [.pos] [6, 7] ;;
      .ite 50710 (.not (.isNil (.var 7 /-err-/)))
        (.ret 50711 [.nil, (.var 7 /-err-/)])
        .skip ;;
      .set 50713 5 (.append (.var 5 /-granteeList-/) (.var 6 /-grantee-/)) /-granteeList-/ ;;
      .loop
        (.prim 50715 (.tryKind (.str b!",")) [8] ;;
        .ite 50715 (.not (.isNil (.var 8 /-tmp-/)))
          .skip
          .brk ;;
        .call 50716 .parseRoleName [.pos] [9, 10] ;;
        .ite 50717 (.not (.isNil (.var 10 /-err-/)))
          (.ret 50718 [.nil, (.var 10 /-err-/)])
          .skip ;;
        .set 50720 5 (.append (.var 5 /-granteeList-/) (.var 9 /-grantee-/)) /-granteeList-/) ;;
      .setF 50723 2 [2] (.var 5 /-granteeList-/) /-grantees.Grantees-/ ;;
      .setF 50724 2 [1] (.endOf (.last (.var 5 /-granteeList-/)) (.ptr .RoleName)) /-grantees.GranteesEnd-/)) ;;
  .prim 50728 (.tryKws [b!"EXCEPT"]) [11] ;;
  .ite 50728 (.var 11 /-tmp-/)
    (.set 50729 12 .empty /-exceptList-/ ;;
    .call 50730 .parseRoleName [.pos] [13, 14] ;;
    .ite 50731 (.not (.isNil (.var 14 /-err-/)))
      (.ret 50732 [.nil, (.var 14 /-err-/)])
      .skip ;;
    .set 50734 12 (.append (.var 12 /-exceptList-/) (.var 13 /-except-/)) /-exceptList-/ ;;
    .loop
      (.prim 50736 (.tryKind (.str b!",")) [15] ;;
      .ite 50736 (.not (.isNil (.var 15 /-tmp-/)))
        .skip
        .brk ;;
      .call 50737 .parseRoleName [.pos] [16, 17] ;;
      .ite 50738 (.not (.isNil (.var 17 /-err-/)))
        (.ret 50739 [.nil, (.var 17 /-err-/)])
        .skip ;;
      .set 50741 12 (.append (.var 12 /-exceptList-/) (.var 16 /-except-/)) /-exceptList-/) ;;
    .setF 50744 2 [3] (.var 12 /-exceptList-/) /-grantees.ExceptUsers-/ ;;
    .setF 50745 2 [1] (.endOf (.last (.var 12 /-exceptList-/)) (.ptr .RoleName)) /-grantees.GranteesEnd-/)
    .skip ;;
  .ret 50748 [(.var 2 /-grantees-/), .nil]⟩

/-- `parseCreateUserModifiers`, parser/parse_system.go:751-770. -/
def parseCreateUserModifiers : Func Fn := ⟨4,
  .ite 50753 (.matchKw (.str b!"IF"))
    (.prim 50754 .consume [9999] ;;
    .prim 50755 (.expectKw (.str b!"NOT")) [1] ;;
    .ite 50755 (.not (.isNil (.var 1 /-err-/)))
      (.ret 50756 [(.var 1 /-err-/), (.var 0 /-createUser-/)])
      .skip ;;
    .prim 50758 (.expectKw (.str b!"EXISTS")) [2] ;;
    .ite 50758 (.not (.isNil (.var 2 /-err-/)))
      (.ret 50759 [(.var 2 /-err-/), (.var 0 /-createUser-/)])
      .skip ;;
    .setF 50761 0 [2] (.bool true) /-createUser.IfNotExists-/)
    (.ite 50762 (.matchKw (.str b!"OR"))
      (.prim 50763 .consume [9999] ;;
      .prim 50764 (.expectKw (.str b!"REPLACE")) [3] ;;
      .ite 50764 (.not (.isNil (.var 3 /-err-/)))
        (.ret 50765 [(.var 3 /-err-/), (.var 0 /-createUser-/)])
        .skip ;;
      .setF 50767 0 [3] (.bool true) /-createUser.OrReplace-/)
      .skip) ;;
  .ret 50769 [.nil, (.var 0 /-createUser-/)]⟩

/-- `parseUserNames`, parser/parse_system.go:772-788. -/
def parseUserNames : Func Fn := ⟨6,
  .set 50773 0 .empty /-userNames-/ ;;
  .call 50774 .parseRoleName [.pos] [1, 2] ;;
  .ite 50775 (.not (.isNil (.var 2 /-err-/)))
    (.ret 50776 [.nil, (.var 2 /-err-/)])
    .skip ;;
  .set 50778 0 (.append (.var 0 /-userNames-/) (.var 1 /-userName-/)) /-userNames-/ ;;
  .loop
    (.prim 50780 (.tryKind (.str b!",")) [3] ;;
    .ite 50780 (.not (.isNil (.var 3 /-tmp-/)))
      .skip
      .brk ;;
    .call 50781 .parseRoleName [.pos] [4, 5] ;;
    .ite 50782 (.not (.isNil (.var 5 /-err-/)))
      (.ret 50783 [.nil, (.var 5 /-err-/)])
      .skip ;;
    .set 50785 0 (.append (.var 0 /-userNames-/) (.var 4 /-userName-/)) /-userNames-/) ;;
  .ret 50787 [(.var 0 /-userNames-/), .nil]⟩

/-- `parseHostClauses`, parser/parse_system.go:790-806. -/
def parseHostClauses : Func Fn := ⟨6,
  .set 50791 0 .empty /-hosts-/ ;;
  .call 50792 .parseHostClause [.pos] [1, 2] ;;
  .ite 50793 (.not (.isNil (.var 2 /-err-/)))
    (.ret 50794 [.nil, (.var 2 /-err-/)])
    .skip ;;
  .set 50796 0 (.append (.var 0 /-hosts-/) (.var 1 /-host-/)) /-hosts-/ ;;
  .loop
    (.prim 50798 (.tryKind (.str b!",")) [3] ;;
    .ite 50798 (.not (.isNil (.var 3 /-tmp-/)))
      .skip
      .brk ;;
    .call 50799 .parseHostClause [.pos] [4, 5] ;;
    .ite 50800 (.not (.isNil (.var 5 /-err-/)))
      (.ret 50801 [.nil, (.var 5 /-err-/)])
      .skip ;;
    .set 50803 0 (.append (.var 0 /-hosts-/) (.var 4 /-host-/)) /-hosts-/) ;;
  .ret 50805 [(.var 0 /-hosts-/), .nil]⟩

/-- `parseDefaultClause`, parser/parse_system.go:808-839. -/
def parseDefaultClause : Func Fn := ⟨8,
  .prim 50809 .peek [1, 2] ;;
  .ite 50810 (.not (.isNil (.var 2 /-err-/)))
    (.ret 50811 [(.bool false), (.var 2 /-err-/), (.var 0 /-createUser-/)])
    .skip ;;
  .ite 50814 (.eqStr (.fld (.var 1 /-nextToken-/) 3 /-String-/) (.str b!"ROLE"))
    (.call 50815 .parseDefaultRoleClause [.pos] [3, 4] ;;
    .ite 50816 (.not (.isNil (.var 4 /-err-/)))
      (.ret 50817 [(.bool false), (.var 4 /-err-/), (.var 0 /-createUser-/)])
      .skip ;;
    .setF 50819 0 [8] (.var 3 /-defaultRole-/) /-createUser.DefaultRole-/ ;;
    .setF 50820 0 [1] (.endOf (.var 3 /-defaultRole-/) (.ptr .DefaultRoleClause)) /-createUser.StatementEnd-/ ;;
    .ret 50821 [(.bool true), .nil, (.var 0 /-createUser-/)])
    (.ite 50822 (.eqStr (.fld (.var 1 /-nextToken-/) 3 /-String-/) (.str b!"DATABASE"))
      (.prim 50823 .consume [9999] ;;
      .prim 50824 .consume [9999] ;;
      .prim 50825 (.tryKws [b!"NONE"]) [5] ;;
      .ite 50825 (.var 5 /-tmp-/)
        (.setF 50826 0 [10] (.bool true) /-createUser.DefaultDbNone-/ ;;
        .setF 50827 0 [1] (.fld .cur 1 /-End-/) /-createUser.StatementEnd-/)
        (.call 50829 .parseIdent [] [6, 7] ;;
        .ite 50830 (.not (.isNil (.var 7 /-err-/)))
          (.ret 50831 [(.bool false), (.var 7 /-err-/), (.var 0 /-createUser-/)])
          .skip ;;
        .setF 50833 0 [9] (.var 6 /-db-/) /-createUser.DefaultDatabase-/ ;;
        .setF 50834 0 [1] (.endOf (.var 6 /-db-/) (.ptr .Ident)) /-createUser.StatementEnd-/) ;;
      .ret 50836 [(.bool true), .nil, (.var 0 /-createUser-/)])
      .skip) ;;
  .ret 50838 [(.bool false), .nil, (.var 0 /-createUser-/)]⟩

/-- `parseOptionalClauses`, parser/parse_system.go:841-906. -/
def parseOptionalClauses : Func Fn := ⟨15,
  .set 50842 1 (.bool true) /-continueParsing-/ ;;
  .loop
    (.ite 50843 (.var 1 /-continueParsing-/)
      .skip
      .brk ;;
    .ite 50845 (.matchOneOf (.strs [b!"NOT", b!"IDENTIFIED"]))
      (.call 50846 .parseAuthenticationClause [.pos] [2, 3] ;;
      .ite 50847 (.not (.isNil (.var 3 /-err-/)))
        (.ret 50848 [(.var 3 /-err-/), (.var 0 /-createUser-/)])
        .skip ;;
      .setF 50850 0 [5] (.var 2 /-auth-/) /-createUser.Authentication-/ ;;
      .setF 50851 0 [1] (.endOf (.var 2 /-auth-/) (.ptr .AuthenticationClause)) /-createUser.StatementEnd-/)
      (.ite 50853 (.matchKw (.str b!"VALID"))
        (.prim 50854 .consume [9999] ;;
        .prim 50855 (.expectKw (.str b!"UNTIL")) [4] ;;
        .ite 50855 (.not (.isNil (.var 4 /-err-/)))
          (.ret 50856 [(.var 4 /-err-/), (.var 0 /-createUser-/)])
          .skip ;;
        .call 50858 .parseString [.pos] [5, 6] ;;
        .ite 50859 (.not (.isNil (.var 6 /-err-/)))
          (.ret 50860 [(.var 6 /-err-/), (.var 0 /-createUser-/)])
          .skip ;;
        .setF 50862 0 [6] (.var 5 /-validUntil-/) /-createUser.ValidUntil-/ ;;
        .setF 50863 0 [1] (.endOf (.var 5 /-validUntil-/) (.ptr .StringLiteral)) /-createUser.StatementEnd-/)
        (.ite 50865 (.matchKw (.str b!"HOST"))
          (.call 50866 .parseHostClauses [] [7, 8] ;;
          .ite 50867 (.not (.isNil (.var 8 /-err-/)))
            (.ret 50868 [(.var 8 /-err-/), (.var 0 /-createUser-/)])
            .skip ;;
          .setF 50870 0 [7] (.var 7 /-hosts-/) /-createUser.Hosts-/ ;;
          .setF 50871 0 [1] (.endOf (.last (.var 7 /-hosts-/)) (.ptr .HostClause)) /-createUser.StatementEnd-/)
          (.ite 50873 (.matchKw (.str b!"DEFAULT"))
            (.call 50874 .parseDefaultClause [(.var 0 /-createUser-/)] [9, 10, 0] ;;
            .ite 50875 (.not (.isNil (.var 10 /-err-/)))
              (.ret 50876 [(.var 10 /-err-/), (.var 0 /-createUser-/)])
              .skip ;;
            .ite 50878 (.not (.var 9 /-parsed-/))
              (.set 50879 1 (.bool false) /-continueParsing-/)
              .skip)
            (.ite 50882 (.matchKw (.str b!"GRANTEES"))
              (.call 50883 .parseGranteesClause [.pos] [11, 12] ;;
              .ite 50884 (.not (.isNil (.var 12 /-err-/)))
                (.ret 50885 [(.var 12 /-err-/), (.var 0 /-createUser-/)])
                .skip ;;
              .setF 50887 0 [11] (.var 11 /-grantees-/) /-createUser.Grantees-/ ;;
              .setF 50888 0 [1] (.endOf (.var 11 /-grantees-/) (.ptr .GranteesClause)) /-createUser.StatementEnd-/)
              (.ite 50890 (.matchKw (.str b!"SETTINGS"))
                (.prim 50891 .consume [9999] ;;
                .call 50892 .parseRoleSettings [.pos] [13, 14] ;;
                .ite 50893 (.not (.isNil (.var 14 /-err-/)))
                  (.ret 50894 [(.var 14 /-err-/), (.var 0 /-createUser-/)])
                  .skip ;;
                .setF 50896 0 [12] (.var 13 /-settings-/) /-createUser.Settings-/ ;;
                .ite 50897 (.lt (.nat 0) (.len (.var 13 /-settings-/)))
                  (.setF 50898 0 [1] (.endOf (.last (.var 13 /-settings-/)) (.ptr .RoleSetting)) /-createUser.StatementEnd-/)
                  .skip)
                (.set 50902 1 (.bool false) /-continueParsing-/))))))) ;;
  .ret 50905 [.nil, (.var 0 /-createUser-/)]⟩

/-- `parseCreateUser`, parser/parse_system.go:908-934. -/
def parseCreateUser : Func Fn := ⟨7,
  .prim 50909 (.expectKw (.str b!"USER")) [1] ;;
  .ite 50909 (.not (.isNil (.var 1 /-err-/)))
    (.ret 50910 [.nil, (.var 1 /-err-/)])
    .skip ;;
  .set 50913 2 (.mk .CreateUser [(.var 0 /-pos-/) /-CreatePos-/, (.nat 0) /-StatementEnd-/, (.bool false) /-IfNotExists-/, (.bool false) /-OrReplace-/, .nil /-UserNames-/, .nil /-Authentication-/, .nil /-ValidUntil-/, .nil /-Hosts-/, .nil /-DefaultRole-/, .nil /-DefaultDatabase-/, (.bool false) /-DefaultDbNone-/, .nil /-Grantees-/, .nil /-Settings-/]) /-createUser-/ ;;
  .call 50916 .parseCreateUserModifiers [(.var 2 /-createUser-/)] [3, 2] ;;
  .ite 50916 (.not (.isNil (.var 3 /-err-/)))
    (.ret 50917 [.nil, (.var 3 /-err-/)])
    .skip ;;
  .call 50921 .parseUserNames [] [4, 5] ;;
  .ite 50922 (.not (.isNil (.var 5 /-err-/)))
    (.ret 50923 [.nil, (.var 5 /-err-/)])
    .skip ;;
  .setF 50925 2 [4] (.var 4 /-userNames-/) /-createUser.UserNames-/ ;;
  .setF 50926 2 [1] (.endOf (.last (.var 4 /-userNames-/)) (.ptr .RoleName)) /-createUser.StatementEnd-/ ;;
  .call 50929 .parseOptionalClauses [(.var 2 /-createUser-/)] [6, 2] ;;
  .ite 50929 (.not (.isNil (.var 6 /-err-/)))
    (.ret 50930 [.nil, (.var 6 /-err-/)])
    .skip ;;
  .ret 50933 [(.var 2 /-createUser-/), .nil]⟩

/-- `parserDropUserOrRole`, parser/parse_system.go:936-996. -/
def parserDropUserOrRole : Func Fn := ⟨14,
  .set 50937 1 (.str []) /-target-/ ;;
  .ite 50939 (.matchOneOf (.strs [b!"USER", b!"ROLE"]))
    (.set 50940 1 (.fld .cur 3 /-String-/) /-target-/ ;;
    .prim 50941 .consume [9999])
    (.ret 50943 [.nil, (.error b!"expected USER|ROLE" [])]) ;;
  .call 50946 .tryParseIfExists [] [2, 3] ;;
  .ite 50947 (.not (.isNil (.var 3 /-err-/)))
    (.ret 50948 [.nil, (.var 3 /-err-/)])
    .skip ;;
  .set 50951 4 .empty /-names-/ ;;
  .call 50952 .parseRoleName [.pos] [5, 3] ;;
  .ite 50953 (.not (.isNil (.var 3 /-err-/)))
    (.ret 50954 [.nil, (.var 3 /-err-/)])
    .skip ;;
  .set 50956 4 (.append (.var 4 /-names-/) (.var 5 /-name-/)) /-names-/ ;;
  .loop
    (.prim 50957 (.tryKind (.str b!",")) [6] ;;
    .ite 50957 (.not (.isNil (.var 6 /-tmp-/)))
      .skip
      .brk ;;
    .call 50958 .parseRoleName [.pos] [7, 8] ;;
    .ite 50959 (.not (.isNil (.var 8 /-err-/)))
      (.ret 50960 [.nil, (.var 8 /-err-/)])
      .skip ;;
    .set 50962 4 (.append (.var 4 /-names-/) (.var 7 /-name-/)) /-names-/) ;;
  .set 50964 9 (.endOf (.last (.var 4 /-names-/)) (.ptr .RoleName)) /-statementEnd-/ ;;
  .call 50966 .tryParseClusterClause [.pos] [10, 3] ;;
  .ite 50967 (.not (.isNil (.var 3 /-err-/)))
    (.ret 50968 [.nil, (.var 3 /-err-/)])
    .skip ;;
  .ite 50970 (.not (.isNil (.var 10 /-onCluster-/)))
    (.set 50971 9 (.endOf (.var 10 /-onCluster-/) (.ptr .ClusterClause)) /-statementEnd-/)
    .skip ;;
  .set 50974 11 .nil /-from-/ ;;
  .prim 50975 (.tryKws [b!"FROM"]) [12] ;;
  .ite 50975 (.var 12 /-tmp-/)
    (.call 50976 .parseIdent [] [11, 3] ;;
    .ite 50977 (.not (.isNil (.var 3 /-err-/)))
      (.ret 50978 [.nil, (.var 3 /-err-/)])
      .skip)
    .skip ;;
  .call 50982 .tryParseModifier [] [13, 3] ;;
  .ite 50983 (.not (.isNil (.var 3 /-err-/)))
    (.ret 50984 [.nil, (.var 3 /-err-/)])
    .skip ;;
  .ret 50987 [(.mk .DropUserOrRole [(.var 0 /-pos-/) /-DropPos-/, (.var 1 /-target-/) /-Target-/, (.var 9 /-statementEnd-/) /-StatementEnd-/, (.var 4 /-names-/) /-Names-/, (.var 2 /-ifExists-/) /-IfExists-/, (.var 13 /-modifier-/) /-Modifier-/, (.var 11 /-from-/) /-From-/]), .nil]⟩

/-- `parsePrivilegeSelectOrInsert`, parser/parse_system.go:998-1015. -/
def parsePrivilegeSelectOrInsert : Func Fn := ⟨4,
  .set 50999 1 (.fld .cur 3 /-String-/) /-keyword-/ ;;
  .prim 51000 .consume [9999] ;;
  .set 51002 2 .nil /-err-/ ;;
  .set 51003 3 .nil /-params-/ ;;
  .ite 51004 (.matchKinds [(.str b!"(")])
    (.call 51005 .parseFunctionParams [.pos] [3, 2] ;;
    .ite 51006 (.not (.isNil (.var 2 /-err-/)))
      (.ret 51007 [.nil, (.var 2 /-err-/)])
      .skip)
    .skip ;;
  .ret 51010 [(.mk .PrivilegeClause [(.var 0 /-pos-/) /-PrivilegePos-/, (.nat 0) /-PrivilegeEnd-/, (.append .empty (.var 1 /-keyword-/)) /-Keywords-/, (.var 3 /-params-/) /-Params-/]), .nil]⟩

/-- `parsePrivilegeAlter`, parser/parse_system.go:1017-1078. -/
def parsePrivilegeAlter : Func Fn := ⟨18,
  .set 51018 1 (.strs [b!"ALTER"]) /-keywords-/ ;;
  .prim 51020 (.tryKws [b!"INDEX"]) [2] ;;
  .ite 51020 (.var 2 /-tmp-/)
    (.set 51021 1 (.append (.var 1 /-keywords-/) (.str b!"INDEX")) /-keywords-/)
    (.ite 51022 (.matchOneOf (.strs [b!"UPDATE", b!"DELETE", b!"USER", b!"ROLE", b!"QUOTA"]))
      (.set 51023 3 (.fld .cur 3 /-String-/) /-keyword-/ ;;
      .prim 51024 .consume [9999] ;;
      .set 51025 1 (.append (.var 1 /-keywords-/) (.var 3 /-keyword-/)) /-keywords-/)
      (.ite 51026 (.matchOneOf (.strs [b!"ADD", b!"DROP", b!"MODIFY", b!"CLEAR", b!"COMMENT", b!"RENAME", b!"MATERIALIZED"]))
        (.set 51027 4 (.fld .cur 3 /-String-/) /-keyword-/ ;;
        .prim 51028 .consume [9999] ;;
        .set 51029 1 (.append (.var 1 /-keywords-/) (.var 4 /-keyword-/)) /-keywords-/ ;;
        .prim 51031 (.tryKws [b!"COLUMN"]) [5] ;;
        .ite 51031 (.var 5 /-tmp-/)
          (.set 51032 1 (.append (.var 1 /-keywords-/) (.str b!"COLUMN")) /-keywords-/)
          (.prim 51033 (.tryKws [b!"INDEX"]) [6] ;;
          .ite 51033 (.var 6 /-tmp-/)
            (.set 51034 1 (.append (.var 1 /-keywords-/) (.str b!"INDEX")) /-keywords-/ ;;
            .set 51035 1 (.append (.var 1 /-keywords-/) (.str b!"CONSTRAINT")) /-keywords-/)
            (.prim 51036 (.tryKws [b!"TTL"]) [7] ;;
            .ite 51036 (.var 7 /-tmp-/)
              (.set 51037 1 (.append (.var 1 /-keywords-/) (.str b!"TTL")) /-keywords-/)
              (.ret 51039 [.nil, (.error b!"expected COLUMN|INDEX" [])]))))
        (.prim 51041 (.tryKws [b!"ORDER"]) [8] ;;
        .ite 51041 (.var 8 /-tmp-/)
          (.prim 51042 (.expectKw (.str b!"BY")) [9] ;;
          .ite 51042 (.not (.isNil (.var 9 /-err-/)))
            (.ret 51043 [.nil, (.var 9 /-err-/)])
            .skip ;;
          .set 51045 1 (.append (.append (.var 1 /-keywords-/) (.str b!"ORDER")) (.str b!"BY")) /-keywords-/)
          (.prim 51046 (.tryKws [b!"SAMPLE"]) [10] ;;
          .ite 51046 (.var 10 /-tmp-/)
            (.prim 51047 (.expectKw (.str b!"BY")) [11] ;;
            .ite 51047 (.not (.isNil (.var 11 /-err-/)))
              (.ret 51048 [.nil, (.var 11 /-err-/)])
              .skip ;;
            .set 51050 1 (.append (.append (.var 1 /-keywords-/) (.str b!"SAMPLE")) (.str b!"BY")) /-keywords-/)
            (.prim 51051 (.tryKws [b!"SETTINGS"]) [12] ;;
            .ite 51051 (.var 12 /-tmp-/)
              (.set 51052 1 (.append (.var 1 /-keywords-/) (.str b!"SETTINGS")) /-keywords-/)
              (.prim 51053 (.tryKws [b!"VIEW"]) [13] ;;
              .ite 51053 (.var 13 /-tmp-/)
                (.set 51054 1 (.append (.var 1 /-keywords-/) (.str b!"VIEW")) /-keywords-/ ;;
                .prim 51056 (.tryKws [b!"MODIFY"]) [14] ;;
                .ite 51056 (.var 14 /-tmp-/)
                  (.set 51057 1 (.append (.var 1 /-keywords-/) (.str b!"MODIFY")) /-keywords-/)
                  (.prim 51058 (.tryKws [b!"REFRESH"]) [15] ;;
                  .ite 51058 (.var 15 /-tmp-/)
                    (.set 51059 1 (.append (.var 1 /-keywords-/) (.str b!"REFRESH")) /-keywords-/)
                    (.ret 51061 [.nil, (.error b!"expected MODIFY|REFRESH" [])])))
                (.ite 51063 (.matchOneOf (.strs [b!"MOVE", b!"FREEZE"]))
                  (.set 51064 16 (.fld .cur 3 /-String-/) /-keyword-/ ;;
                  .prim 51065 .consume [9999] ;;
                  .set 51066 1 (.append (.var 1 /-keywords-/) (.var 16 /-keyword-/)) /-keywords-/ ;;
                  .prim 51067 (.expectKw (.str b!"PARTITION")) [17] ;;
                  .ite 51067 (.not (.isNil (.var 17 /-err-/)))
                    (.ret 51068 [.nil, (.var 17 /-err-/)])
                    .skip ;;
                  .set 51070 1 (.append (.var 1 /-keywords-/) (.str b!"PARTITION")) /-keywords-/)
                  (.ret 51072 [.nil, (.error b!"expected UPDATE|DELETE|ADD|DROP|MODIFY|CLEAR|COMMENT|RENAME|MATERIALIZED|ORDER|SAMPLE|SETTINGS|VIEW|MOVE|FREEZE" [])])))))))) ;;
  .ret 51074 [(.mk .PrivilegeClause [(.var 0 /-pos-/) /-PrivilegePos-/, (.nat 0) /-PrivilegeEnd-/, (.var 1 /-keywords-/) /-Keywords-/, .nil /-Params-/]), .nil]⟩

/-- `parsePrivilegeCreate`, parser/parse_system.go:1080-1104. -/
def parsePrivilegeCreate : Func Fn := ⟨7,
  .set 51081 1 (.strs [b!"CREATE"]) /-keywords-/ ;;
  .ite 51083 (.matchOneOf (.strs [b!"DATABASE", b!"DICTIONARY", b!"TABLE", b!"FUNCTION", b!"VIEW", b!"USER", b!"ROLE", b!"QUOTA"]))
    (.set 51084 2 (.fld .cur 3 /-String-/) /-keyword-/ ;;
    .prim 51085 .consume [9999] ;;
    .set 51086 1 (.append (.var 1 /-keywords-/) (.var 2 /-keyword-/)) /-keywords-/)
    (.prim 51087 (.tryKws [b!"TEMPORARY"]) [3] ;;
    .ite 51087 (.var 3 /-tmp-/)
      (.prim 51088 (.expectKw (.str b!"TABLE")) [4] ;;
      .ite 51088 (.not (.isNil (.var 4 /-err-/)))
        (.ret 51089 [.nil, (.var 4 /-err-/)])
        .skip ;;
      .set 51091 1 (.append (.append (.var 1 /-keywords-/) (.str b!"TEMPORARY")) (.str b!"TABLE")) /-keywords-/)
      (.prim 51092 (.tryKws [b!"ROWS"]) [5] ;;
      .ite 51092 (.var 5 /-tmp-/)
        (.prim 51093 (.expectKw (.str b!"POLICY")) [6] ;;
        .ite 51093 (.not (.isNil (.var 6 /-err-/)))
          (.ret 51094 [.nil, (.var 6 /-err-/)])
          .skip ;;
        .set 51096 1 (.append (.append (.var 1 /-keywords-/) (.str b!"ROWS")) (.str b!"POLICY")) /-keywords-/)
        (.ret 51098 [.nil, (.error b!"expected DATABASE|DICTIONARY|TABLE|FUNCTION|VIEW|USER|ROLE|ROWS" [])]))) ;;
  .ret 51100 [(.mk .PrivilegeClause [(.var 0 /-pos-/) /-PrivilegePos-/, (.nat 0) /-PrivilegeEnd-/, (.var 1 /-keywords-/) /-Keywords-/, .nil /-Params-/]), .nil]⟩

/-- `parsePrivilegeDrop`, parser/parse_system.go:1106-1120. -/
def parsePrivilegeDrop : Func Fn := ⟨3,
  .set 51107 1 (.strs [b!"DROP"]) /-keywords-/ ;;
  .ite 51109 (.matchOneOf (.strs [b!"DATABASE", b!"DICTIONARY", b!"USER", b!"ROLE", b!"QUOTA", b!"TABLE", b!"FUNCTION", b!"VIEW"]))
    (.set 51110 2 (.fld .cur 3 /-String-/) /-keyword-/ ;;
    .prim 51111 .consume [9999] ;;
    .set 51112 1 (.append (.var 1 /-keywords-/) (.var 2 /-keyword-/)) /-keywords-/)
    (.ret 51114 [.nil, (.error b!"expected DATABASE|DICTIONARY|TABLE|FUNCTION|VIEW" [])]) ;;
  .ret 51116 [(.mk .PrivilegeClause [(.var 0 /-pos-/) /-PrivilegePos-/, (.nat 0) /-PrivilegeEnd-/, (.var 1 /-keywords-/) /-Keywords-/, .nil /-Params-/]), .nil]⟩

/-- `parsePrivilegeShow`, parser/parse_system.go:1122-1136. -/
def parsePrivilegeShow : Func Fn := ⟨3,
  .set 51123 1 (.strs [b!"SHOW"]) /-keywords-/ ;;
  .ite 51125 (.matchOneOf (.strs [b!"DATABASES", b!"DICTIONARIES", b!"TABLES", b!"COLUMNS"]))
    (.set 51126 2 (.fld .cur 3 /-String-/) /-keyword-/ ;;
    .prim 51127 .consume [9999] ;;
    .set 51128 1 (.append (.var 1 /-keywords-/) (.var 2 /-keyword-/)) /-keywords-/)
    (.ret 51130 [.nil, (.error b!"expected DATABASES|DICTIONARIES|TABLES|COLUMNS" [])]) ;;
  .ret 51132 [(.mk .PrivilegeClause [(.var 0 /-pos-/) /-PrivilegePos-/, (.nat 0) /-PrivilegeEnd-/, (.var 1 /-keywords-/) /-Keywords-/, .nil /-Params-/]), .nil]⟩

/-- `parsePrivilegeSystem`, parser/parse_system.go:1138-1208. -/
def parsePrivilegeSystem : Func Fn := ⟨17,
  .set 51139 1 (.strs [b!"SHOW"]) /-keywords-/ ;;
  .ite 51141 (.matchOneOf (.strs [b!"SHUTDOWN", b!"MERGES", b!"FETCHES", b!"SENDS", b!"MOVES", b!"CLUSTER"]))
    (.set 51142 2 (.fld .cur 3 /-String-/) /-keyword-/ ;;
    .prim 51143 .consume [9999] ;;
    .set 51144 1 (.append (.var 1 /-keywords-/) (.var 2 /-keyword-/)) /-keywords-/)
    (.prim 51145 (.tryKws [b!"DROP"]) [3] ;;
    .ite 51145 (.var 3 /-tmp-/)
      (.set 51146 1 (.append (.var 1 /-keywords-/) (.str b!"DROP")) /-keywords-/ ;;
      .prim 51148 (.tryKws [b!"CACHE"]) [4] ;;
      .ite 51148 (.var 4 /-tmp-/)
        (.set 51149 1 (.append (.var 1 /-keywords-/) (.str b!"CACHE")) /-keywords-/)
        (.ite 51150 (.matchOneOf (.strs [b!"MARK", b!"DNS", b!"UNCOMPRESSED"]))
          (.set 51151 5 (.fld .cur 3 /-String-/) /-keyword-/ ;;
          .prim 51152 .consume [9999] ;;
          .set 51153 1 (.append (.var 1 /-keywords-/) (.var 5 /-keyword-/)) /-keywords-/ ;;
          .prim 51154 (.expectKw (.str b!"CACHE")) [6] ;;
          .ite 51154 (.not (.isNil (.var 6 /-err-/)))
            (.ret 51155 [.nil, (.var 6 /-err-/)])
            .skip ;;
          .set 51157 1 (.append (.var 1 /-keywords-/) (.str b!"CACHE")) /-keywords-/)
          (.ret 51159 [.nil, (.error b!"expected CACHE|MARK|DNS|UNCOMPRESSED" [])])))
      (.prim 51161 (.tryKws [b!"RELOAD"]) [7] ;;
      .ite 51161 (.var 7 /-tmp-/)
        (.set 51162 1 (.append (.var 1 /-keywords-/) (.str b!"RELOAD")) /-keywords-/ ;;
        .ite 51164 (.matchOneOf (.strs [b!"DICTIONARY", b!"FUNCTION", b!"FUNCTIONS", b!"CONFIG"]))
          (.set 51165 8 (.fld .cur 3 /-String-/) /-keyword-/ ;;
          .prim 51166 .consume [9999] ;;
          .set 51167 1 (.append (.var 1 /-keywords-/) (.var 8 /-keyword-/)) /-keywords-/)
          (.ret 51169 [.nil, (.error b!"expected DICTIONARY|FUNCTION|FUNCTIONS|CONFIG" [])]))
        (.prim 51171 (.tryKws [b!"FLUSH"]) [9] ;;
        .ite 51171 (.var 9 /-tmp-/)
          (.set 51172 1 (.append (.var 1 /-keywords-/) (.str b!"FLUSH")) /-keywords-/ ;;
          .ite 51174 (.matchOneOf (.strs [b!"LOGS", b!"DISTRIBUTED"]))
            (.set 51175 10 (.fld .cur 3 /-String-/) /-keyword-/ ;;
            .prim 51176 .consume [9999] ;;
            .set 51177 1 (.append (.var 1 /-keywords-/) (.var 10 /-keyword-/)) /-keywords-/)
            (.ret 51179 [.nil, (.error b!"expected LOGS|DISTRIBUTED" [])]))
          (.prim 51181 (.tryKws [b!"TTL"]) [11] ;;
          .ite 51181 (.var 11 /-tmp-/)
            (.set 51182 1 (.append (.var 1 /-keywords-/) (.str b!"TTL")) /-keywords-/ ;;
            .prim 51183 (.expectKw (.str b!"MERGES")) [12] ;;
            .ite 51183 (.not (.isNil (.var 12 /-err-/)))
              (.ret 51184 [.nil, (.var 12 /-err-/)])
              .skip ;;
            .set 51186 1 (.append (.var 1 /-keywords-/) (.str b!"MERGES")) /-keywords-/)
            (.ite 51187 (.matchOneOf (.strs [b!"SYNC", b!"RESTART"]))
              (.set 51188 13 (.fld .cur 3 /-String-/) /-keyword-/ ;;
              .prim 51189 .consume [9999] ;;
              .set 51190 1 (.append (.var 1 /-keywords-/) (.var 13 /-keyword-/)) /-keywords-/ ;;
              .prim 51191 (.expectKw (.str b!"REPLICA")) [14] ;;
              .ite 51191 (.not (.isNil (.var 14 /-err-/)))
                (.ret 51192 [.nil, (.var 14 /-err-/)])
                .skip ;;
              .set 51194 1 (.append (.var 1 /-keywords-/) (.str b!"REPLICA")) /-keywords-/)
              (.prim 51195 (.tryKws [b!"REPLICATION"]) [15] ;;
              .ite 51195 (.var 15 /-tmp-/)
                (.set 51196 1 (.append (.var 1 /-keywords-/) (.str b!"REPLICATION")) /-keywords-/ ;;
                .prim 51197 (.expectKw (.str b!"QUEUES")) [16] ;;
                .ite 51197 (.not (.isNil (.var 16 /-err-/)))
                  (.ret 51198 [.nil, (.var 16 /-err-/)])
                  .skip ;;
                .set 51200 1 (.append (.var 1 /-keywords-/) (.str b!"QUEUES")) /-keywords-/)
                (.ret 51202 [.nil, (.error b!"expected QUEUES|SHUTDOWN|MERGES|FETCHES|SENDS|MOVES|CLUSTER|DROP|RELOAD|FLUSH|TTL|SYNC|RESTART|REPLICATION" [])]))))))) ;;
  .ret 51204 [(.mk .PrivilegeClause [(.var 0 /-pos-/) /-PrivilegePos-/, (.nat 0) /-PrivilegeEnd-/, (.var 1 /-keywords-/) /-Keywords-/, .nil /-Params-/]), .nil]⟩

/-- `parsePrivilegeClause`, parser/parse_system.go:1210-1272. -/
def parsePrivilegeClause : Func Fn := ⟨25,
  .ite 51211 (.matchKinds [(.str b!"<ident>")])
    (.ite 51212 (.eqStr (.fld .cur 3 /-String-/) (.str b!"dictGet"))
      (.prim 51213 .consume [9999] ;;
      .ret 51214 [(.mk .PrivilegeClause [(.var 0 /-pos-/) /-PrivilegePos-/, (.nat 0) /-PrivilegeEnd-/, (.strs [b!"dictGet"]) /-Keywords-/, .nil /-Params-/]), .nil])
      .skip)
    .skip ;;
  .ite 51221 (.matchOneOf (.strs [b!"SELECT", b!"INSERT"]))
    (.call 51222 .parsePrivilegeSelectOrInsert [(.var 0 /-pos-/)] [1, 2] ;;
    .ret 51222 [(.var 1 /-tmp-/), (.var 2 /-tmp-/)])
    (.prim 51223 (.tryKws [b!"ALTER"]) [3] ;;
    .ite 51223 (.var 3 /-tmp-/)
      (.call 51224 .parsePrivilegeAlter [(.var 0 /-pos-/)] [4, 5] ;;
      .ret 51224 [(.var 4 /-tmp-/), (.var 5 /-tmp-/)])
      (.prim 51225 (.tryKws [b!"CREATE"]) [6] ;;
      .ite 51225 (.var 6 /-tmp-/)
        (.call 51226 .parsePrivilegeCreate [(.var 0 /-pos-/)] [7, 8] ;;
        .ret 51226 [(.var 7 /-tmp-/), (.var 8 /-tmp-/)])
        (.prim 51227 (.tryKws [b!"DROP"]) [9] ;;
        .ite 51227 (.var 9 /-tmp-/)
          (.call 51228 .parsePrivilegeDrop [(.var 0 /-pos-/)] [10, 11] ;;
          .ret 51228 [(.var 10 /-tmp-/), (.var 11 /-tmp-/)])
          (.prim 51229 (.tryKws [b!"SHOW"]) [12] ;;
          .ite 51229 (.var 12 /-tmp-/)
            (.call 51230 .parsePrivilegeShow [(.var 0 /-pos-/)] [13, 14] ;;
            .ret 51230 [(.var 13 /-tmp-/), (.var 14 /-tmp-/)])
            (.ite 51231 (.or (.matchKw (.str b!"ALL")) (.matchKinds [(.str b!"NONE")]))
              (.prim 51232 .consume [9999] ;;
              .ret 51233 [(.mk .PrivilegeClause [(.var 0 /-pos-/) /-PrivilegePos-/, (.nat 0) /-PrivilegeEnd-/, (.strs [b!"ALL"]) /-Keywords-/, .nil /-Params-/]), .nil])
              (.prim 51237 (.tryKws [b!"KILL"]) [15] ;;
              .ite 51237 (.var 15 /-tmp-/)
                (.prim 51238 (.expectKw (.str b!"QUERY")) [16] ;;
                .ite 51238 (.not (.isNil (.var 16 /-err-/)))
                  (.ret 51239 [.nil, (.var 16 /-err-/)])
                  .skip ;;
                .ret 51241 [(.mk .PrivilegeClause [(.var 0 /-pos-/) /-PrivilegePos-/, (.nat 0) /-PrivilegeEnd-/, (.strs [b!"KILL", b!"QUERY"]) /-Keywords-/, .nil /-Params-/]), .nil])
                (.prim 51245 (.tryKws [b!"SYSTEM"]) [17] ;;
                .ite 51245 (.var 17 /-tmp-/)
                  (.call 51246 .parsePrivilegeSystem [(.var 0 /-pos-/)] [18, 19] ;;
                  .ret 51246 [(.var 18 /-tmp-/), (.var 19 /-tmp-/)])
                  (.prim 51247 (.tryKws [b!"ADMIN"]) [20] ;;
                  .ite 51247 (.var 20 /-tmp-/)
                    (.prim 51248 (.expectKw (.str b!"OPTION")) [21] ;;
                    .ite 51248 (.not (.isNil (.var 21 /-err-/)))
                      (.ret 51249 [.nil, (.var 21 /-err-/)])
                      .skip ;;
                    .ret 51251 [(.mk .PrivilegeClause [(.var 0 /-pos-/) /-PrivilegePos-/, (.nat 0) /-PrivilegeEnd-/, (.strs [b!"ADMIN", b!"OPTION"]) /-Keywords-/, .nil /-Params-/]), .nil])
                    (.ite 51255 (.matchOneOf (.strs [b!"OPTIMIZE", b!"TRUNCATE"]))
                      (.set 51256 22 (.fld .cur 3 /-String-/) /-keyword-/ ;;
                      .prim 51257 .consume [9999] ;;
                      .ret 51258 [(.mk .PrivilegeClause [(.var 0 /-pos-/) /-PrivilegePos-/, (.nat 0) /-PrivilegeEnd-/, (.append .empty (.var 22 /-keyword-/)) /-Keywords-/, .nil /-Params-/]), .nil])
                      (.prim 51262 (.tryKws [b!"ROLE"]) [23] ;;
                      .ite 51262 (.var 23 /-tmp-/)
                        (.prim 51263 (.expectKw (.str b!"ADMIN")) [24] ;;
                        .ite 51263 (.not (.isNil (.var 24 /-err-/)))
                          (.ret 51264 [.nil, (.var 24 /-err-/)])
                          .skip ;;
                        .ret 51266 [(.mk .PrivilegeClause [(.var 0 /-pos-/) /-PrivilegePos-/, (.nat 0) /-PrivilegeEnd-/, (.strs [b!"ROLE", b!"ADMIN"]) /-Keywords-/, .nil /-Params-/]), .nil])
                        .skip)))))))))) ;;
  .ret 51271 [.nil, (.error b!"expected SELECT|INSERT|ALTER|CREATE|DROP|SHOW|KILL|SYSTEM|OPTIMIZE|TRUNCATE" [])]⟩

/-- `parsePrivilegeRoles`, parser/parse_system.go:1274-1289. -/
def parsePrivilegeRoles : Func Fn := ⟨7,
  .set 51275 1 .empty /-roles-/ ;;
  .call 51276 .parseIdent [] [2, 3] ;;
  .ite 51277 (.not (.isNil (.var 3 /-err-/)))
    (.ret 51278 [.nil, (.var 3 /-err-/)])
    .skip ;;
  .set 51280 1 (.append (.var 1 /-roles-/) (.var 2 /-role-/)) /-roles-/ ;;
  .loop
    (.prim 51281 (.tryKind (.str b!",")) [4] ;;
    .ite 51281 (.not (.isNil (.var 4 /-tmp-/)))
      .skip
      .brk ;;
    .call 51282 .parseIdent [] [5, 6] ;;
    .ite 51283 (.not (.isNil (.var 6 /-err-/)))
      (.ret 51284 [.nil, (.var 6 /-err-/)])
      .skip ;;
    .set 51286 1 (.append (.var 1 /-roles-/) (.var 5 /-role-/)) /-roles-/) ;;
  .ret 51288 [(.var 1 /-roles-/), .nil]⟩

/-- `parseGrantOptions`, parser/parse_system.go:1291-1301. -/
def parseGrantOptions : Func Fn := ⟨4,
  .set 51292 1 .empty /-options-/ ;;
  .loop
    (.ite 51293 (.matchKw (.str b!"WITH"))
      .skip
      .brk ;;
    .call 51294 .parseGrantOption [.pos] [2, 3] ;;
    .ite 51295 (.not (.isNil (.var 3 /-err-/)))
      (.ret 51296 [.nil, (.var 3 /-err-/)])
      .skip ;;
    .set 51298 1 (.append (.var 1 /-options-/) (.var 2 /-option-/)) /-options-/) ;;
  .ret 51300 [(.var 1 /-options-/), .nil]⟩

/-- `parseGrantOption`, parser/parse_system.go:1303-1317. -/
def parseGrantOption : Func Fn := ⟨5,
  .prim 51304 (.expectKw (.str b!"WITH")) [1] ;;
  .ite 51304 (.not (.isNil (.var 1 /-err-/)))
    (.ret 51305 [(.str b!""), (.var 1 /-err-/)])
    .skip ;;
  .call 51309 .parseAnyKeyword [] [2, 3] ;;
  .ite 51310 (.not (.isNil (.var 3 /-err-/)))
    (.ret 51311 [(.str b!""), (.var 3 /-err-/)])
    .skip ;;
  .prim 51313 (.expectKw (.str b!"OPTION")) [4] ;;
  .ite 51313 (.not (.isNil (.var 4 /-err-/)))
    (.ret 51314 [(.str b!""), (.var 4 /-err-/)])
    .skip ;;
  .ret 51316 [(.fld (.var 2 /-ident-/) 0 /-Name-/), .nil]⟩

/-- `parseGrantSource`, parser/parse_system.go:1319-1343. -/
def parseGrantSource : Func Fn := ⟨5,
  .call 51320 .parseIdentOrStar [] [1, 2] ;;
  .ite 51321 (.not (.isNil (.var 2 /-err-/)))
    (.ret 51322 [.nil, (.var 2 /-err-/)])
    .skip ;;
  .prim 51325 (.tryKind (.str b!".")) [3] ;;
  .ite 51325 (.isNil (.var 3 /-tmp-/))
    (.ret 51326 [(.mk .TableIdentifier [.nil /-Database-/, (.var 1 /-ident-/) /-Table-/]), .nil])
    .skip ;;
  .set 51330 4 .nil /-dotIdent-/ ;;
  .ite 51331 (.matchKinds [(.str b!"*")])
    (.call 51332 .parseIdentOrStar [] [4, 2])
    (.call 51334 .parseAnyKeyword [] [4, 2]) ;;
  .ite 51336 (.not (.isNil (.var 2 /-err-/)))
    (.ret 51337 [.nil, (.var 2 /-err-/)])
    .skip ;;
  .ret 51339 [(.mk .TableIdentifier [(.var 1 /-ident-/) /-Database-/, (.var 4 /-dotIdent-/) /-Table-/]), .nil]⟩

/-- `parseGrantPrivilegeStmt`, parser/parse_system.go:1345-1403. -/
def parseGrantPrivilegeStmt : Func Fn := ⟨15,
  .prim 51346 (.expectKw (.str b!"GRANT")) [1] ;;
  .ite 51346 (.not (.isNil (.var 1 /-err-/)))
    (.ret 51347 [.nil, (.var 1 /-err-/)])
    .skip ;;
  .call 51349 .tryParseClusterClause [.pos] [2, 3] ;;
  .ite 51350 (.not (.isNil (.var 3 /-err-/)))
    (.ret 51351 [.nil, (.var 3 /-err-/)])
    .skip ;;
  .set 51353 4 .nil /-privileges-/ ;;
  .call 51354 .parsePrivilegeClause [.pos] [5, 3] ;;
  .ite 51355 (.not (.isNil (.var 3 /-err-/)))
    (.ret 51356 [.nil, (.var 3 /-err-/)])
    .skip ;;
  .set 51358 4 (.append (.var 4 /-privileges-/) (.var 5 /-privilege-/)) /-privileges-/ ;;
  .loop
    (.prim 51359 (.tryKind (.str b!",")) [6] ;;
    .ite 51359 (.not (.isNil (.var 6 /-tmp-/)))
      .skip
      .brk ;;
    .call 51360 .parsePrivilegeClause [.pos] [7, 8] ;;
    .ite 51361 (.not (.isNil (.var 8 /-err-/)))
      (.ret 51362 [.nil, (.var 8 /-err-/)])
      .skip ;;
    .set 51364 4 (.append (.var 4 /-privileges-/) (.var 7 /-privilege-/)) /-privileges-/) ;;
  .set 51366 9 (.endOf (.last (.var 4 /-privileges-/)) (.ptr .PrivilegeClause)) /-statementEnd-/ ;;
  .prim 51368 (.expectKw (.str b!"ON")) [10] ;;
  .ite 51368 (.not (.isNil (.var 10 /-err-/)))
    (.ret 51369 [.nil, (.var 10 /-err-/)])
    .skip ;;
  .call 51371 .parseGrantSource [.pos] [11, 3] ;;
  .ite 51372 (.not (.isNil (.var 3 /-err-/)))
    (.ret 51373 [.nil, (.var 3 /-err-/)])
    .skip ;;
  .prim 51376 (.expectKw (.str b!"TO")) [12] ;;
  .ite 51376 (.not (.isNil (.var 12 /-err-/)))
    (.ret 51377 [.nil, (.var 12 /-err-/)])
    .skip ;;
  .call 51379 .parsePrivilegeRoles [.pos] [13, 3] ;;
  .ite 51380 (.not (.isNil (.var 3 /-err-/)))
    (.ret 51381 [.nil, (.var 3 /-err-/)])
    .skip ;;
  .ite 51383 (.not (.eqNat (.len (.var 13 /-toRoles-/)) (.nat 0)))
    (.set 51384 9 (.fld (.last (.var 13 /-toRoles-/)) 3 /-NameEnd-/) /-statementEnd-/)
    .skip ;;
  .call 51386 .parseGrantOptions [.pos] [14, 3] ;;
  .ite 51387 (.not (.isNil (.var 3 /-err-/)))
    (.ret 51388 [.nil, (.var 3 /-err-/)])
    .skip ;;
  .ite 51390 (.not (.eqNat (.len (.var 14 /-options-/)) (.nat 0)))
    (.set 51391 9 .end_ /-statementEnd-/)
    .skip ;;
  .ret 51394 [(.mk .GrantPrivilegeStmt [(.var 0 /-pos-/) /-GrantPos-/, (.var 9 /-statementEnd-/) /-StatementEnd-/, (.var 2 /-onCluster-/) /-OnCluster-/, (.var 4 /-privileges-/) /-Privileges-/, (.var 11 /-on-/) /-On-/, (.var 13 /-toRoles-/) /-To-/, (.var 14 /-options-/) /-WithOptions-/]), .nil]⟩

/-- `parseAlterRole`, parser/parse_system.go:1405-1445. -/
def parseAlterRole : Func Fn := ⟨11,
  .prim 51406 (.expectKw (.str b!"ROLE")) [1] ;;
  .ite 51406 (.not (.isNil (.var 1 /-err-/)))
    (.ret 51407 [.nil, (.var 1 /-err-/)])
    .skip ;;
  .call 51410 .tryParseIfExists [] [2, 3] ;;
  .ite 51411 (.not (.isNil (.var 3 /-err-/)))
    (.ret 51412 [.nil, (.var 3 /-err-/)])
    .skip ;;
  .set 51415 4 .empty /-roleRenamePairs-/ ;;
  .call 51416 .parseRoleRenamePair [.pos] [5, 3] ;;
  .ite 51417 (.not (.isNil (.var 3 /-err-/)))
    (.ret 51418 [.nil, (.var 3 /-err-/)])
    .skip ;;
  .set 51420 4 (.append (.var 4 /-roleRenamePairs-/) (.var 5 /-roleRenamePair-/)) /-roleRenamePairs-/ ;;
  .loop
    (.prim 51421 (.tryKind (.str b!",")) [6] ;;
    .ite 51421 (.not (.isNil (.var 6 /-tmp-/)))
      .skip
      .brk ;;
    .call 51422 .parseRoleRenamePair [.pos] [7, 8] ;;
    .ite 51423 (.not (.isNil (.var 8 /-err-/)))
      (.ret 51424 [.nil, (.var 8 /-err-/)])
      .skip ;;
    .set 51426 4 (.append (.var 4 /-roleRenamePairs-/) (.var 7 /-roleRenamePair-/)) /-roleRenamePairs-/) ;;
  .set 51428 9 (.endOf (.last (.var 4 /-roleRenamePairs-/)) (.ptr .RoleRenamePair)) /-statementEnd-/ ;;
  .call 51430 .tryParseRoleSettings [.pos] [10, 3] ;;
  .ite 51431 (.not (.isNil (.var 3 /-err-/)))
    (.ret 51432 [.nil, (.var 3 /-err-/)])
    .skip ;;
  .ite 51434 (.not (.isNil (.var 10 /-settings-/)))
    (.set 51435 9 (.endOf (.last (.var 10 /-settings-/)) (.ptr .RoleSetting)) /-statementEnd-/)
    .skip ;;
  .ret 51438 [(.mk .AlterRole [(.var 0 /-pos-/) /-AlterPos-/, (.var 9 /-statementEnd-/) /-StatementEnd-/, (.var 2 /-ifExists-/) /-IfExists-/, (.var 4 /-roleRenamePairs-/) /-RoleRenamePairs-/, (.var 10 /-settings-/) /-Settings-/]), .nil]⟩

/-- `parseRoleRenamePair`, parser/parse_system.go:1447-1468. -/
def parseRoleRenamePair : Func Fn := ⟨8,
  .call 51448 .parseRoleName [.pos] [1, 2] ;;
  .ite 51449 (.not (.isNil (.var 2 /-err-/)))
    (.ret 51450 [.nil, (.var 2 /-err-/)])
    .skip ;;
  .set 51452 3 (.mk .RoleRenamePair [(.var 1 /-roleName-/) /-RoleName-/, .nil /-NewName-/, (.endOf (.var 1 /-roleName-/) (.ptr .RoleName)) /-StatementEnd-/]) /-roleRenamePair-/ ;;
  .prim 51456 (.tryKws [b!"RENAME"]) [4] ;;
  .ite 51456 (.var 4 /-tmp-/)
    (.prim 51457 (.expectKw (.str b!"TO")) [5] ;;
    .ite 51457 (.not (.isNil (.var 5 /-err-/)))
      (.ret 51458 [.nil, (.var 5 /-err-/)])
      .skip ;;
    .call 51460 .parseIdent [] [6, 7] ;;
    .ite 51461 (.not (.isNil (.var 7 /-err-/)))
      (.ret 51462 [.nil, (.var 7 /-err-/)])
      .skip ;;
    .setF 51464 3 [1] (.var 6 /-newName-/) /-roleRenamePair.NewName-/ ;;
    .setF 51465 3 [2] (.fld (.var 6 /-newName-/) 3 /-NameEnd-/) /-roleRenamePair.StatementEnd-/)
    .skip ;;
  .ret 51467 [(.var 3 /-roleRenamePair-/), .nil]⟩

end Verif.Body

/-
The methods of parser/parser_view.go.
Written by tools/genparser.py from the Go text.
-/
import Verif.Parser.Lang
import Verif.Parser.Fn

namespace Verif.Body

/-- `parseCreateMaterializedView`, parser/parser_view.go:19-188. -/
def parseCreateMaterializedView : Func Fn := ⟨41,
  .prim 80020 (.expectKw (.str b!"MATERIALIZED")) [1] ;;
  .ite 80020 (.not (.isNil (.var 1 /-err-/)))
    (.ret 80021 [.nil, (.var 1 /-err-/)])
    .skip ;;
  .prim 80023 (.expectKw (.str b!"VIEW")) [2] ;;
  .ite 80023 (.not (.isNil (.var 2 /-err-/)))
    (.ret 80024 [.nil, (.var 2 /-err-/)])
    .skip ;;
  .set 80027 3 (.mk .CreateMaterializedView [(.var 0 /-pos-/) /-CreatePos-/, (.nat 0) /-StatementEnd-/, .nil /-Name-/, (.bool false) /-IfNotExists-/, .nil /-OnCluster-/, .nil /-Refresh-/, .nil /-RandomizeFor-/, .nil /-DependsOn-/, .nil /-Settings-/, (.bool false) /-HasAppend-/, .nil /-Engine-/, .nil /-TableSchema-/, (.bool false) /-HasEmpty-/, .nil /-Destination-/, .nil /-SubQuery-/, (.bool false) /-Populate-/, .nil /-Comment-/, .nil /-Definer-/, (.str []) /-SQLSecurity-/]) /-createMaterializedView-/ ;;
  .set 80030 4 .nil /-err-/ ;;
  .call 80031 .tryParseIfNotExists [] [5, 6] ;;
  .setF 80031 3 [3] (.var 5 /-tmp-/) /-createMaterializedView.IfNotExists-/ ;;
  .set 80031 4 (.var 6 /-tmp-/) /-err-/ ;;
  .ite 80032 (.not (.isNil (.var 4 /-err-/)))
    (.ret 80033 [.nil, (.var 4 /-err-/)])
    .skip ;;
  .call 80036 .parseTableIdentifier [.pos] [7, 4] ;;
  .ite 80037 (.not (.isNil (.var 4 /-err-/)))
    (.ret 80038 [.nil, (.var 4 /-err-/)])
    .skip ;;
  .setF 80040 3 [2] (.var 7 /-tableIdentifier-/) /-createMaterializedView.Name-/ ;;
  .call 80042 .tryParseClusterClause [.pos] [8, 4] ;;
  .ite 80043 (.not (.isNil (.var 4 /-err-/)))
    (.ret 80044 [.nil, (.var 4 /-err-/)])
    .skip ;;
  .setF 80046 3 [4] (.var 8 /-onCluster-/) /-createMaterializedView.OnCluster-/ ;;
  .call 80048 .tryParseRefreshExpr [.pos] [9, 4] ;;
  .ite 80049 (.not (.isNil (.var 4 /-err-/)))
    (.ret 80050 [.nil, (.var 4 /-err-/)])
    .skip ;;
  .setF 80052 3 [5] (.var 9 /-refreshExpr-/) /-createMaterializedView.Refresh-/ ;;
  .prim 80054 (.tryKws [b!"RANDOMIZE", b!"FOR"]) [10] ;;
  .ite 80054 (.var 10 /-tmp-/)
    (.call 80055 .parseInterval [(.bool false)] [11, 12] ;;
    .ite 80056 (.not (.isNil (.var 12 /-err-/)))
      (.ret 80057 [.nil, (.var 12 /-err-/)])
      .skip ;;
    .setF 80059 3 [6] (.var 11 /-randomizeFor-/) /-createMaterializedView.RandomizeFor-/)
    .skip ;;
  .prim 80061 (.tryKws [b!"DEPENDS", b!"ON"]) [13] ;;
  .ite 80061 (.var 13 /-tmp-/)
    (.set 80062 14 .empty /-dependsOnTables-/ ;;
    .call 80063 .parseTableIdentifier [.pos] [15, 16] ;;
    .ite 80064 (.not (.isNil (.var 16 /-err-/)))
      (.ret 80065 [.nil, (.var 16 /-err-/)])
      .skip ;;
    .set 80067 14 (.append (.var 14 /-dependsOnTables-/) (.var 15 /-table-/)) /-dependsOnTables-/ ;;
    .loop
      (.ite 80068 (.matchKinds [(.str b!",")])
        .skip
        .brk ;;
      .prim 80069 .consume [9999] ;;
      .call 80070 .parseTableIdentifier [.pos] [17, 18] ;;
      .ite 80071 (.not (.isNil (.var 18 /-err-/)))
        (.ret 80072 [.nil, (.var 18 /-err-/)])
        .skip ;;
      .set 80074 14 (.append (.var 14 /-dependsOnTables-/) (.var 17 /-table-/)) /-dependsOnTables-/) ;;
    .setF 80076 3 [7] (.var 14 /-dependsOnTables-/) /-createMaterializedView.DependsOn-/)
    .skip ;;
  .call 80078 .tryParseSettingsClause [.pos] [19, 4] ;;
  .ite 80079 (.not (.isNil (.var 4 /-err-/)))
    (.ret 80080 [.nil, (.var 4 /-err-/)])
    .skip ;;
  .setF 80082 3 [8] (.var 19 /-settings-/) /-createMaterializedView.Settings-/ ;;
  .prim 80083 (.tryKws [b!"APPEND"]) [20] ;;
  .setF 80083 3 [9] (.var 20 /-tmp-/) /-createMaterializedView.HasAppend-/ ;;
  .ite 80086 (.matchKw (.str b!"TO"))
    (.call 80087 .parseDestinationClause [.pos] [21, 22] ;;
    .ite 80088 (.not (.isNil (.var 22 /-err-/)))
      (.ret 80089 [.nil, (.var 22 /-err-/)])
      .skip ;;
    .setF 80091 3 [13] (.var 21 /-destination-/) /-createMaterializedView.Destination-/ ;;
    .setF 80092 3 [1] (.endOf (.var 21 /-destination-/) (.ptr .DestinationClause)) /-createMaterializedView.StatementEnd-/ ;;
    .ite 80093 (.matchKinds [(.str b!"(")])
      (.call 80094 .parseTableSchemaClause [.pos] [23, 24] ;;
      .ite 80095 (.not (.isNil (.var 24 /-err-/)))
        (.ret 80096 [.nil, (.var 24 /-err-/)])
        .skip ;;
      .setF 80098 3 [13, 2] (.var 23 /-tableSchema-/) /-createMaterializedView.Destination.TableSchema-/)
      .skip)
    (.ite 80100 (.matchKinds [(.str b!"(")])
      (.call 80102 .parseTableSchemaClause [.pos] [25, 26] ;;
      .ite 80103 (.not (.isNil (.var 26 /-err-/)))
        (.ret 80104 [.nil, (.var 26 /-err-/)])
        .skip ;;
      .setF 80106 3 [11] (.var 25 /-tableSchema-/) /-createMaterializedView.TableSchema-/ ;;
      .ite 80107 (.not (.matchKw (.str b!"ENGINE")))
        (.ret 80108 [.nil, (.error b!"unexpected token: %q, expected ENGINE after column list" [.curKind])])
        .skip ;;
      .call 80110 .parseEngineExpr [.pos] [27, 26] ;;
      .ite 80111 (.not (.isNil (.var 26 /-err-/)))
        (.ret 80112 [.nil, (.var 26 /-err-/)])
        .skip ;;
      .setF 80114 3 [10] (.var 27 /-engineExpr-/) /-createMaterializedView.Engine-/ ;;
      .setF 80115 3 [1] (.endOf (.var 27 /-engineExpr-/) (.ptr .EngineExpr)) /-createMaterializedView.StatementEnd-/)
      (.ite 80116 (.matchKw (.str b!"ENGINE"))
        (.call 80117 .parseEngineExpr [.pos] [28, 29] ;;
        .ite 80118 (.not (.isNil (.var 29 /-err-/)))
          (.ret 80119 [.nil, (.var 29 /-err-/)])
          .skip ;;
        .setF 80121 3 [10] (.var 28 /-engineExpr-/) /-createMaterializedView.Engine-/ ;;
        .setF 80122 3 [1] (.endOf (.var 28 /-engineExpr-/) (.ptr .EngineExpr)) /-createMaterializedView.StatementEnd-/)
        (.ret 80124 [.nil, (.error b!"unexpected token: %q, expected TO or ENGINE" [.curKind])]))) ;;
  .prim 80126 (.tryKws [b!"EMPTY"]) [30] ;;
  .setF 80126 3 [12] (.var 30 /-tmp-/) /-createMaterializedView.HasEmpty-/ ;;
  .prim 80129 (.tryKws [b!"DEFINER"]) [31] ;;
  .ite 80129 (.var 31 /-tmp-/)
    (.prim 80130 (.expectKind (.str b!"=")) [32] ;;
    .ite 80130 (.not (.isNil (.var 32 /-err-/)))
      (.ret 80131 [.nil, (.var 32 /-err-/)])
      .skip ;;
    .call 80133 .parseIdent [] [33, 34] ;;
    .ite 80134 (.not (.isNil (.var 34 /-err-/)))
      (.ret 80135 [.nil, (.var 34 /-err-/)])
      .skip ;;
    .setF 80137 3 [17] (.var 33 /-definer-/) /-createMaterializedView.Definer-/)
    .skip ;;
  .prim 80141 (.tryKws [b!"SQL", b!"SECURITY"]) [35] ;;
  .ite 80141 (.var 35 /-tmp-/)
    (.ite 80142 (.not (.matchOneOf (.strs [b!"DEFINER", b!"NONE"])))
      (.ret 80143 [.nil, (.error b!"expected DEFINER or NONE after SQL SECURITY, got %q" [.curKind])])
      .skip ;;
    .setF 80145 3 [18] (.fld .cur 3 /-String-/) /-createMaterializedView.SQLSecurity-/ ;;
    .prim 80146 .consume [9999])
    .skip ;;
  .prim 80150 (.tryKws [b!"POPULATE"]) [36] ;;
  .ite 80150 (.var 36 /-tmp-/)
    (.ite 80151 (.not (.isNil (.fld (.var 3 /-createMaterializedView-/) 13 /-Destination-/)))
      (.ret 80152 [.nil, (.error b!"POPULATE is only allowed when using ENGINE, not with TO clause" [])])
      .skip ;;
    .ite 80154 (.isNil (.fld (.var 3 /-createMaterializedView-/) 10 /-Engine-/))
      (.ret 80155 [.nil, (.error b!"POPULATE requires ENGINE to be specified" [])])
      .skip ;;
    .setF 80157 3 [15] (.bool true) /-createMaterializedView.Populate-/ ;;
    .setF 80158 3 [1] .pos /-createMaterializedView.StatementEnd-/)
    .skip ;;
  .call 80164 .tryParseComment [] [37, 4] ;;
  .ite 80165 (.not (.isNil (.var 4 /-err-/)))
    (.ret 80166 [.nil, (.var 4 /-err-/)])
    .skip ;;
  .setF 80168 3 [16] (.var 37 /-comment-/) /-createMaterializedView.Comment-/ ;;
  .prim 80170 (.tryKws [b!"AS"]) [38] ;;
  .ite 80170 (.var 38 /-tmp-/)
    (.call 80171 .parseSubQuery [.pos] [39, 40] ;;
    .ite 80172 (.not (.isNil (.var 40 /-err-/)))
      (.ret 80173 [.nil, (.var 40 /-err-/)])
      .skip ;;
    .setF 80175 3 [14] (.var 39 /-subQuery-/) /-createMaterializedView.SubQuery-/ ;;
    .setF 80176 3 [1] (.endOf (.var 39 /-subQuery-/) (.ptr .SubQuery)) /-createMaterializedView.StatementEnd-/)
    .skip ;;
  .ite 80180 (.isNil (.fld (.var 3 /-createMaterializedView-/) 16 /-Comment-/))
    (.call 80181 .tryParseComment [] [37, 4] ;;
    .ite 80182 (.not (.isNil (.var 4 /-err-/)))
      (.ret 80183 [.nil, (.var 4 /-err-/)])
      .skip ;;
    .setF 80185 3 [16] (.var 37 /-comment-/) /-createMaterializedView.Comment-/)
    .skip ;;
  .ret 80187 [(.var 3 /-createMaterializedView-/), .nil]⟩

/-- `tryParseRefreshExpr`, parser/parser_view.go:190-219. -/
def tryParseRefreshExpr : Func Fn := ⟨8,
  .prim 80191 (.tryKws [b!"REFRESH"]) [1] ;;
  .ite 80191 (.not (.var 1 /-tmp-/))
    (.ret 80192 [.nil, .nil])
    .skip ;;
  .set 80196 2 (.mk .RefreshExpr [(.var 0 /-pos-/) /-RefreshPos-/, (.str []) /-Frequency-/, .nil /-Interval-/, .nil /-Offset-/]) /-refreshExpr-/ ;;
  .ite 80197 (.not (.matchOneOf (.strs [b!"EVERY", b!"AFTER"])))
    (.ret 80198 [.nil, (.error b!"expected EVERY or AFTER, but got %q" [.curKind])])
    .skip ;;
  .setF 80200 2 [1] (.fld .cur 3 /-String-/) /-refreshExpr.Frequency-/ ;;
  .prim 80201 .consume [9999] ;;
  .call 80203 .parseInterval [(.bool false)] [3, 4] ;;
  .ite 80204 (.not (.isNil (.var 4 /-err-/)))
    (.ret 80205 [.nil, (.var 4 /-err-/)])
    .skip ;;
  .setF 80207 2 [2] (.var 3 /-interval-/) /-refreshExpr.Interval-/ ;;
  .prim 80210 (.tryKws [b!"OFFSET"]) [5] ;;
  .ite 80210 (.var 5 /-tmp-/)
    (.call 80211 .parseInterval [(.bool false)] [6, 7] ;;
    .ite 80212 (.not (.isNil (.var 7 /-err-/)))
      (.ret 80213 [.nil, (.var 7 /-err-/)])
      .skip ;;
    .setF 80215 2 [3] (.var 6 /-offset-/) /-refreshExpr.Offset-/)
    .skip ;;
  .ret 80218 [(.var 2 /-refreshExpr-/), .nil]⟩

/-- `parseCreateView`, parser/parser_view.go:222-277. -/
def parseCreateView : Func Fn := ⟨16,
  .set 80223 2 (.mk .CreateView [(.var 0 /-pos-/) /-CreatePos-/, (.nat 0) /-StatementEnd-/, (.var 1 /-orReplace-/) /-OrReplace-/, .nil /-Name-/, (.bool false) /-IfNotExists-/, .nil /-UUID-/, .nil /-OnCluster-/, .nil /-TableSchema-/, .nil /-Comment-/, .nil /-SubQuery-/]) /-createView-/ ;;
  .prim 80224 (.expectKw (.str b!"VIEW")) [3] ;;
  .ite 80224 (.not (.isNil (.var 3 /-err-/)))
    (.ret 80225 [.nil, (.var 3 /-err-/)])
    .skip ;;
  .set 80228 4 .nil /-err-/ ;;
  .call 80229 .tryParseIfNotExists [] [5, 6] ;;
  .setF 80229 2 [4] (.var 5 /-tmp-/) /-createView.IfNotExists-/ ;;
  .set 80229 4 (.var 6 /-tmp-/) /-err-/ ;;
  .ite 80230 (.not (.isNil (.var 4 /-err-/)))
    (.ret 80231 [.nil, (.var 4 /-err-/)])
    .skip ;;
  .call 80234 .parseTableIdentifier [.pos] [7, 4] ;;
  .ite 80235 (.not (.isNil (.var 4 /-err-/)))
    (.ret 80236 [.nil, (.var 4 /-err-/)])
    .skip ;;
  .setF 80238 2 [3] (.var 7 /-tableIdentifier-/) /-createView.Name-/ ;;
  .call 80240 .tryParseUUID [] [8, 4] ;;
  .ite 80241 (.not (.isNil (.var 4 /-err-/)))
    (.ret 80242 [.nil, (.var 4 /-err-/)])
    .skip ;;
  .setF 80244 2 [5] (.var 8 /-uuid-/) /-createView.UUID-/ ;;
  .call 80246 .tryParseClusterClause [.pos] [9, 4] ;;
  .ite 80247 (.not (.isNil (.var 4 /-err-/)))
    (.ret 80248 [.nil, (.var 4 /-err-/)])
    .skip ;;
  .setF 80250 2 [6] (.var 9 /-onCluster-/) /-createView.OnCluster-/ ;;
  .ite 80252 (.matchKinds [(.str b!"(")])
    (.call 80253 .parseTableSchemaClause [.pos] [10, 11] ;;
    .ite 80254 (.not (.isNil (.var 11 /-err-/)))
      (.ret 80255 [.nil, (.var 11 /-err-/)])
      .skip ;;
    .setF 80257 2 [7] (.var 10 /-tableSchema-/) /-createView.TableSchema-/)
    .skip ;;
  .call 80261 .tryParseComment [] [12, 4] ;;
  .ite 80262 (.not (.isNil (.var 4 /-err-/)))
    (.ret 80263 [.nil, (.var 4 /-err-/)])
    .skip ;;
  .setF 80265 2 [8] (.var 12 /-comment-/) /-createView.Comment-/ ;;
  .prim 80267 (.tryKws [b!"AS"]) [13] ;;
  .ite 80267 (.var 13 /-tmp-/)
    (.call 80268 .parseSubQuery [.pos] [14, 15] ;;
    .ite 80269 (.not (.isNil (.var 15 /-err-/)))
      (.ret 80270 [.nil, (.var 15 /-err-/)])
      .skip ;;
    .setF 80272 2 [9] (.var 14 /-subQuery-/) /-createView.SubQuery-/ ;;
    .setF 80273 2 [1] (.endOf (.var 14 /-subQuery-/) (.ptr .SubQuery)) /-createView.StatementEnd-/)
    .skip ;;
  .ret 80276 [(.var 2 /-createView-/), .nil]⟩

/-- `parseCreateLiveView`, parser/parser_view.go:282-350. -/
def parseCreateLiveView : Func Fn := ⟨18,
  .prim 80283 (.expectKw (.str b!"LIVE")) [1] ;;
  .ite 80283 (.not (.isNil (.var 1 /-err-/)))
    (.ret 80284 [.nil, (.var 1 /-err-/)])
    .skip ;;
  .prim 80287 (.expectKw (.str b!"VIEW")) [2] ;;
  .ite 80287 (.not (.isNil (.var 2 /-err-/)))
    (.ret 80288 [.nil, (.var 2 /-err-/)])
    .skip ;;
  .set 80291 3 (.mk .CreateLiveView [(.var 0 /-pos-/) /-CreatePos-/, (.nat 0) /-StatementEnd-/, .nil /-Name-/, (.bool false) /-IfNotExists-/, .nil /-UUID-/, .nil /-OnCluster-/, .nil /-Destination-/, .nil /-TableSchema-/, .nil /-WithTimeout-/, .nil /-SubQuery-/]) /-createLiveView-/ ;;
  .set 80293 4 .nil /-err-/ ;;
  .call 80294 .tryParseIfNotExists [] [5, 6] ;;
  .setF 80294 3 [3] (.var 5 /-tmp-/) /-createLiveView.IfNotExists-/ ;;
  .set 80294 4 (.var 6 /-tmp-/) /-err-/ ;;
  .ite 80295 (.not (.isNil (.var 4 /-err-/)))
    (.ret 80296 [.nil, (.var 4 /-err-/)])
    .skip ;;
  .call 80299 .parseTableIdentifier [.pos] [7, 4] ;;
  .ite 80300 (.not (.isNil (.var 4 /-err-/)))
    (.ret 80301 [.nil, (.var 4 /-err-/)])
    .skip ;;
  .setF 80303 3 [2] (.var 7 /-tableIdentifier-/) /-createLiveView.Name-/ ;;
  .call 80306 .tryParseUUID [] [8, 4] ;;
  .ite 80307 (.not (.isNil (.var 4 /-err-/)))
    (.ret 80308 [.nil, (.var 4 /-err-/)])
    .skip ;;
  .setF 80310 3 [4] (.var 8 /-uuid-/) /-createLiveView.UUID-/ ;;
  .call 80312 .tryParseClusterClause [.pos] [9, 4] ;;
  .ite 80313 (.not (.isNil (.var 4 /-err-/)))
    (.ret 80314 [.nil, (.var 4 /-err-/)])
    .skip ;;
  .setF 80316 3 [5] (.var 9 /-onCluster-/) /-createLiveView.OnCluster-/ ;;
  .call 80318 .tryParseWithTimeout [.pos] [10, 4] ;;
  .ite 80319 (.not (.isNil (.var 4 /-err-/)))
    (.ret 80320 [.nil, (.var 4 /-err-/)])
    .skip ;;
  .setF 80322 3 [8] (.var 10 /-withTimeout-/) /-createLiveView.WithTimeout-/ ;;
  .ite 80324 (.matchKw (.str b!"TO"))
    (.call 80325 .parseDestinationClause [.pos] [11, 12] ;;
    .ite 80326 (.not (.isNil (.var 12 /-err-/)))
      (.ret 80327 [.nil, (.var 12 /-err-/)])
      .skip ;;
    .setF 80329 3 [6] (.var 11 /-destination-/) /-createLiveView.Destination-/)
    .skip ;;
  .ite 80332 (.matchKinds [(.str b!"(")])
    (.call 80333 .parseTableSchemaClause [.pos] [13, 14] ;;
    .ite 80334 (.not (.isNil (.var 14 /-err-/)))
      (.ret 80335 [.nil, (.var 14 /-err-/)])
      .skip ;;
    .setF 80337 3 [7] (.var 13 /-tableSchema-/) /-createLiveView.TableSchema-/)
    .skip ;;
  .prim 80340 (.tryKws [b!"AS"]) [15] ;;
  .ite 80340 (.var 15 /-tmp-/)
    (.call 80341 .parseSubQuery [.pos] [16, 17] ;;
    .ite 80342 (.not (.isNil (.var 17 /-err-/)))
      (.ret 80343 [.nil, (.var 17 /-err-/)])
      .skip ;;
    .setF 80345 3 [9] (.var 16 /-subQuery-/) /-createLiveView.SubQuery-/ ;;
    .setF 80346 3 [1] (.endOf (.var 16 /-subQuery-/) (.ptr .SubQuery)) /-createLiveView.StatementEnd-/)
    .skip ;;
  .ret 80349 [(.var 3 /-createLiveView-/), .nil]⟩

/-- `tryParseWithTimeout`, parser/parser_view.go:352-371. -/
def tryParseWithTimeout : Func Fn := ⟨6,
  .prim 80353 (.tryKws [b!"WITH"]) [1] ;;
  .ite 80353 (.not (.var 1 /-tmp-/))
    (.ret 80354 [.nil, .nil])
    .skip ;;
  .prim 80356 (.expectKw (.str b!"TIMEOUT")) [2] ;;
  .ite 80356 (.not (.isNil (.var 2 /-err-/)))
    (.ret 80357 [.nil, (.var 2 /-err-/)])
    .skip ;;
  .set 80360 3 (.mk .WithTimeoutClause [(.var 0 /-pos-/) /-WithTimeoutPos-/, .nil /-Expr-/, .nil /-Number-/]) /-withTimeout-/ ;;
  .ite 80362 (.matchKinds [(.str b!"<int>")])
    (.call 80363 .parseDecimal [.pos] [4, 5] ;;
    .ite 80364 (.not (.isNil (.var 5 /-err-/)))
      (.ret 80365 [.nil, (.var 5 /-err-/)])
      .skip ;;
    .setF 80367 3 [2] (.var 4 /-decimalNumber-/) /-withTimeout.Number-/)
    .skip ;;
  .ret 80370 [(.var 3 /-withTimeout-/), .nil]⟩

end Verif.Body

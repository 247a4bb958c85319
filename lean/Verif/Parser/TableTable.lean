/-
The methods of parser/parser_table.go.
Written by tools/genparser.py from the Go text.
-/
import Verif.Parser.Lang
import Verif.Parser.Fn

namespace Verif.Body

/-- `parseDDL`, parser/parser_table.go:9-77. -/
def parseDDL : Func Fn := ⟨36,
  .ite 40011 (.or (.matchKw (.str b!"CREATE")) (.matchKw (.str b!"ATTACH")))
    (.prim 40013 .consume [9999] ;;
    .prim 40014 (.tryKws [b!"OR", b!"REPLACE"]) [1] ;;
    .ite 40015 (.and (.var 1 /-orReplace-/) (.not (.matchOneOf (.strs [b!"TEMPORARY", b!"TABLE", b!"VIEW", b!"FUNCTION", b!"DICTIONARY"]))))
      (.ret 40016 [.nil, (.error b!"expected keyword: TEMPORARY|TABLE|VIEW|FUNCTION|DICTIONARY, but got %q" [.curString])])
      .skip ;;
    .ite 40019 (.matchKw (.str b!"NAMED"))
      (.call 40020 .parseCreateNamedCollection [(.var 0 /-pos-/)] [2, 3] ;;
      .ret 40020 [(.var 2 /-tmp-/), (.var 3 /-tmp-/)])
      (.ite 40021 (.matchKw (.str b!"DATABASE"))
        (.call 40022 .parseCreateDatabase [(.var 0 /-pos-/)] [4, 5] ;;
        .ret 40022 [(.var 4 /-tmp-/), (.var 5 /-tmp-/)])
        (.ite 40023 (.matchKw (.str b!"DICTIONARY"))
          (.call 40024 .parseCreateDictionary [(.var 0 /-pos-/), (.var 1 /-orReplace-/)] [6, 7] ;;
          .ret 40024 [(.var 6 /-tmp-/), (.var 7 /-tmp-/)])
          (.ite 40025 (.or (.matchKw (.str b!"TABLE")) (.matchKw (.str b!"TEMPORARY")))
            (.call 40027 .parseCreateTable [(.var 0 /-pos-/), (.var 1 /-orReplace-/)] [8, 9] ;;
            .ret 40027 [(.var 8 /-tmp-/), (.var 9 /-tmp-/)])
            (.ite 40028 (.matchKw (.str b!"FUNCTION"))
              (.call 40029 .parseCreateFunction [(.var 0 /-pos-/), (.var 1 /-orReplace-/)] [10, 11] ;;
              .ret 40029 [(.var 10 /-tmp-/), (.var 11 /-tmp-/)])
              (.ite 40030 (.matchKw (.str b!"MATERIALIZED"))
                (.call 40031 .parseCreateMaterializedView [(.var 0 /-pos-/)] [12, 13] ;;
                .ret 40031 [(.var 12 /-tmp-/), (.var 13 /-tmp-/)])
                (.ite 40032 (.matchKw (.str b!"LIVE"))
                  (.call 40033 .parseCreateLiveView [(.var 0 /-pos-/)] [14, 15] ;;
                  .ret 40033 [(.var 14 /-tmp-/), (.var 15 /-tmp-/)])
                  (.ite 40034 (.matchKw (.str b!"VIEW"))
                    (.call 40035 .parseCreateView [(.var 0 /-pos-/), (.var 1 /-orReplace-/)] [16, 17] ;;
                    .ret 40035 [(.var 16 /-tmp-/), (.var 17 /-tmp-/)])
                    (.ite 40036 (.matchKw (.str b!"ROLE"))
                      (.call 40037 .parseCreateRole [(.var 0 /-pos-/)] [18, 19] ;;
                      .ret 40037 [(.var 18 /-tmp-/), (.var 19 /-tmp-/)])
                      (.ite 40038 (.matchKw (.str b!"USER"))
                        (.call 40039 .parseCreateUser [(.var 0 /-pos-/)] [20, 21] ;;
                        .ret 40039 [(.var 20 /-tmp-/), (.var 21 /-tmp-/)])
                        (.ret 40041 [.nil, (.error b!"expected keyword: NAMED|DATABASE|DICTIONARY|TABLE|VIEW|ROLE|USER|FUNCTION|MATERIALIZED, but got %q" [.curKind])])))))))))))
    (.ite 40044 (.matchKw (.str b!"ALTER"))
      (.prim 40045 .consume [9999] ;;
      .ite 40047 (.matchKw (.str b!"ROLE"))
        (.call 40048 .parseAlterRole [(.var 0 /-pos-/)] [22, 23] ;;
        .ret 40048 [(.var 22 /-tmp-/), (.var 23 /-tmp-/)])
        (.ite 40049 (.matchKw (.str b!"TABLE"))
          (.call 40050 .parseAlterTable [(.var 0 /-pos-/)] [24, 25] ;;
          .ret 40050 [(.var 24 /-tmp-/), (.var 25 /-tmp-/)])
          (.ret 40052 [.nil, (.error b!"expected keyword: TABLE|ROLE, but got %q" [.curString])])))
      (.ite 40054 (.or (.matchKw (.str b!"DROP")) (.matchKw (.str b!"DETACH")))
        (.prim 40056 .consume [9999] ;;
        .ite 40058 (.matchKw (.str b!"DATABASE"))
          (.call 40059 .parseDropDatabase [(.var 0 /-pos-/)] [26, 27] ;;
          .ret 40059 [(.var 26 /-tmp-/), (.var 27 /-tmp-/)])
          (.ite 40060 (.or (.or (.or (.matchKw (.str b!"TEMPORARY")) (.matchKw (.str b!"VIEW"))) (.matchKw (.str b!"DICTIONARY"))) (.matchKw (.str b!"TABLE")))
            (.call 40064 .parseDropStmt [(.var 0 /-pos-/)] [28, 29] ;;
            .ret 40064 [(.var 28 /-tmp-/), (.var 29 /-tmp-/)])
            (.ite 40065 (.or (.matchKw (.str b!"USER")) (.matchKw (.str b!"ROLE")))
              (.call 40067 .parserDropUserOrRole [(.var 0 /-pos-/)] [30, 31] ;;
              .ret 40067 [(.var 30 /-tmp-/), (.var 31 /-tmp-/)])
              (.ret 40069 [.nil, (.error b!"expected keyword: DATABASE|TABLE, but got %q" [.curString])]))))
        (.ite 40071 (.matchKw (.str b!"TRUNCATE"))
          (.call 40072 .parseTruncateTable [(.var 0 /-pos-/)] [32, 33] ;;
          .ret 40072 [(.var 32 /-tmp-/), (.var 33 /-tmp-/)])
          (.ite 40073 (.matchKw (.str b!"RENAME"))
            (.call 40074 .parseRenameStmt [(.var 0 /-pos-/)] [34, 35] ;;
            .ret 40074 [(.var 34 /-tmp-/), (.var 35 /-tmp-/)])
            .skip)))) ;;
  .ret 40076 [.nil, .nil]⟩

/-- `parseCreateDatabase`, parser/parser_table.go:79-122. -/
def parseCreateDatabase : Func Fn := ⟨9,
  .prim 40080 (.expectKw (.str b!"DATABASE")) [1] ;;
  .ite 40080 (.not (.isNil (.var 1 /-err-/)))
    (.ret 40081 [.nil, (.var 1 /-err-/)])
    .skip ;;
  .call 40085 .tryParseIfNotExists [] [2, 3] ;;
  .ite 40086 (.not (.isNil (.var 3 /-err-/)))
    (.ret 40087 [.nil, (.var 3 /-err-/)])
    .skip ;;
  .call 40090 .parseIdent [] [4, 3] ;;
  .ite 40091 (.not (.isNil (.var 3 /-err-/)))
    (.ret 40092 [.nil, (.var 3 /-err-/)])
    .skip ;;
  .set 40094 5 (.endOf (.var 4 /-name-/) (.ptr .Ident)) /-StatementEnd-/ ;;
  .call 40095 .tryParseClusterClause [.pos] [6, 3] ;;
  .ite 40096 (.not (.isNil (.var 3 /-err-/)))
    (.ret 40097 [.nil, (.var 3 /-err-/)])
    .skip ;;
  .ite 40099 (.not (.isNil (.var 6 /-onCluster-/)))
    (.set 40100 5 (.endOf (.var 6 /-onCluster-/) (.ptr .ClusterClause)) /-StatementEnd-/)
    .skip ;;
  .call 40102 .tryParseEngineExpr [.pos] [7, 3] ;;
  .ite 40103 (.not (.isNil (.var 3 /-err-/)))
    (.ret 40104 [.nil, (.var 3 /-err-/)])
    .skip ;;
  .ite 40106 (.not (.isNil (.var 7 /-engineExpr-/)))
    (.set 40107 5 (.endOf (.var 7 /-engineExpr-/) (.ptr .EngineExpr)) /-StatementEnd-/)
    .skip ;;
  .call 40109 .tryParseComment [] [8, 3] ;;
  .ite 40110 (.not (.isNil (.var 3 /-err-/)))
    (.ret 40111 [.nil, (.var 3 /-err-/)])
    .skip ;;
  .ret 40113 [(.mk .CreateDatabase [(.var 0 /-pos-/) /-CreatePos-/, (.var 5 /-StatementEnd-/) /-StatementEnd-/, (.var 4 /-name-/) /-Name-/, (.var 2 /-ifNotExists-/) /-IfNotExists-/, (.var 6 /-onCluster-/) /-OnCluster-/, (.var 7 /-engineExpr-/) /-Engine-/, (.var 8 /-commentExpr-/) /-Comment-/]), .nil]⟩

/-- `parseCreateDictionary`, parser/parser_table.go:124-188. -/
def parseCreateDictionary : Func Fn := ⟨13,
  .prim 40125 (.expectKw (.str b!"DICTIONARY")) [2] ;;
  .ite 40125 (.not (.isNil (.var 2 /-err-/)))
    (.ret 40126 [.nil, (.var 2 /-err-/)])
    .skip ;;
  .set 40129 3 (.mk .CreateDictionary [(.var 0 /-pos-/) /-CreatePos-/, (.nat 0) /-StatementEnd-/, (.var 1 /-orReplace-/) /-OrReplace-/, .nil /-Name-/, (.bool false) /-IfNotExists-/, .nil /-UUID-/, .nil /-OnCluster-/, .nil /-Schema-/, .nil /-Engine-/, .nil /-Comment-/]) /-createDict-/ ;;
  .set 40135 4 .nil /-err-/ ;;
  .call 40136 .tryParseIfNotExists [] [5, 6] ;;
  .setF 40136 3 [4] (.var 5 /-tmp-/) /-createDict.IfNotExists-/ ;;
  .set 40136 4 (.var 6 /-tmp-/) /-err-/ ;;
  .ite 40137 (.not (.isNil (.var 4 /-err-/)))
    (.ret 40138 [.nil, (.var 4 /-err-/)])
    .skip ;;
  .call 40142 .parseTableIdentifier [.pos] [7, 4] ;;
  .ite 40143 (.not (.isNil (.var 4 /-err-/)))
    (.ret 40144 [.nil, (.var 4 /-err-/)])
    .skip ;;
  .setF 40146 3 [3] (.var 7 /-name-/) /-createDict.Name-/ ;;
  .call 40149 .tryParseUUID [] [8, 4] ;;
  .ite 40150 (.not (.isNil (.var 4 /-err-/)))
    (.ret 40151 [.nil, (.var 4 /-err-/)])
    .skip ;;
  .setF 40153 3 [5] (.var 8 /-uuid-/) /-createDict.UUID-/ ;;
  .call 40156 .tryParseClusterClause [.pos] [9, 4] ;;
  .ite 40157 (.not (.isNil (.var 4 /-err-/)))
    (.ret 40158 [.nil, (.var 4 /-err-/)])
    .skip ;;
  .setF 40160 3 [6] (.var 9 /-onCluster-/) /-createDict.OnCluster-/ ;;
  .call 40163 .parseDictionarySchemaClause [.pos] [10, 4] ;;
  .ite 40164 (.not (.isNil (.var 4 /-err-/)))
    (.ret 40165 [.nil, (.var 4 /-err-/)])
    .skip ;;
  .setF 40167 3 [7] (.var 10 /-schema-/) /-createDict.Schema-/ ;;
  .call 40170 .parseDictionaryEngineClause [.pos] [11, 4] ;;
  .ite 40171 (.not (.isNil (.var 4 /-err-/)))
    (.ret 40172 [.nil, (.var 4 /-err-/)])
    .skip ;;
  .setF 40174 3 [8] (.var 11 /-engine-/) /-createDict.Engine-/ ;;
  .setF 40175 3 [1] (.endOf (.var 11 /-engine-/) (.ptr .DictionaryEngineClause)) /-createDict.StatementEnd-/ ;;
  .call 40178 .tryParseComment [] [12, 4] ;;
  .ite 40179 (.not (.isNil (.var 4 /-err-/)))
    (.ret 40180 [.nil, (.var 4 /-err-/)])
    .skip ;;
  .setF 40182 3 [9] (.var 12 /-comment-/) /-createDict.Comment-/ ;;
  .ite 40183 (.not (.isNil (.var 12 /-comment-/)))
    (.setF 40184 3 [1] (.endOf (.var 12 /-comment-/) (.ptr .StringLiteral)) /-createDict.StatementEnd-/)
    .skip ;;
  .ret 40187 [(.var 3 /-createDict-/), .nil]⟩

/-- `parseCreateNamedCollection`, parser/parser_table.go:190-254. -/
def parseCreateNamedCollection : Func Fn := ⟨14,
  .prim 40191 (.expectKw (.str b!"NAMED")) [1] ;;
  .ite 40191 (.not (.isNil (.var 1 /-err-/)))
    (.ret 40192 [.nil, (.var 1 /-err-/)])
    .skip ;;
  .prim 40195 (.expectKw (.str b!"COLLECTION")) [2] ;;
  .ite 40195 (.not (.isNil (.var 2 /-err-/)))
    (.ret 40196 [.nil, (.var 2 /-err-/)])
    .skip ;;
  .set 40199 3 (.mk .CreateNamedCollection [(.var 0 /-pos-/) /-CreatePos-/, (.nat 0) /-StatementEnd-/, .nil /-Name-/, (.bool false) /-IfNotExists-/, .nil /-OnCluster-/, .nil /-Params-/]) /-createCollection-/ ;;
  .set 40204 4 .nil /-err-/ ;;
  .call 40205 .tryParseIfNotExists [] [5, 6] ;;
  .setF 40205 3 [3] (.var 5 /-tmp-/) /-createCollection.IfNotExists-/ ;;
  .set 40205 4 (.var 6 /-tmp-/) /-err-/ ;;
  .ite 40206 (.not (.isNil (.var 4 /-err-/)))
    (.ret 40207 [.nil, (.var 4 /-err-/)])
    .skip ;;
  .call 40211 .parseIdent [] [7, 4] ;;
  .ite 40212 (.not (.isNil (.var 4 /-err-/)))
    (.ret 40213 [.nil, (.var 4 /-err-/)])
    .skip ;;
  .setF 40215 3 [2] (.var 7 /-name-/) /-createCollection.Name-/ ;;
  .call 40218 .tryParseClusterClause [.pos] [8, 4] ;;
  .ite 40219 (.not (.isNil (.var 4 /-err-/)))
    (.ret 40220 [.nil, (.var 4 /-err-/)])
    .skip ;;
  .setF 40222 3 [4] (.var 8 /-onCluster-/) /-createCollection.OnCluster-/ ;;
  .prim 40225 (.expectKw (.str b!"AS")) [9] ;;
  .ite 40225 (.not (.isNil (.var 9 /-err-/)))
    (.ret 40226 [.nil, (.var 9 /-err-/)])
    .skip ;;
  .set 40230 10 .empty /-params-/ ;;
  .loop
    (.ite 40231 (.not .isEOF)
      .skip
      .brk ;;
    .call 40232 .parseNamedCollectionParam [.pos] [11, 12] ;;
    .ite 40233 (.not (.isNil (.var 12 /-err-/)))
      (.ret 40234 [.nil, (.var 12 /-err-/)])
      .skip ;;
    .set 40236 10 (.append (.var 10 /-params-/) (.var 11 /-param-/)) /-params-/ ;;
    .prim 40239 (.tryKind (.str b!",")) [13] ;;
    .ite 40239 (.isNil (.var 13 /-tmp-/))
      .brk
      .skip) ;;
  .setF 40243 3 [5] (.var 10 /-params-/) /-createCollection.Params-/ ;;
  .ite 40245 (.lt (.nat 0) (.len (.var 10 /-params-/)))
    (.setF 40246 3 [1] (.endOf (.last (.var 10 /-params-/)) (.ptr .NamedCollectionParam)) /-createCollection.StatementEnd-/)
    (.ite 40247 (.not (.isNil (.var 8 /-onCluster-/)))
      (.setF 40248 3 [1] (.endOf (.var 8 /-onCluster-/) (.ptr .ClusterClause)) /-createCollection.StatementEnd-/)
      (.setF 40250 3 [1] (.endOf (.var 7 /-name-/) (.ptr .Ident)) /-createCollection.StatementEnd-/)) ;;
  .ret 40253 [(.var 3 /-createCollection-/), .nil]⟩

/-- `parseNamedCollectionParam`, parser/parser_table.go:256-308. -/
def parseNamedCollectionParam : Func Fn := ⟨15,
  .call 40257 .parseIdent [] [1, 2] ;;
  .ite 40258 (.not (.isNil (.var 2 /-err-/)))
    (.ret 40259 [.nil, (.var 2 /-err-/)])
    .skip ;;
  .prim 40262 (.expectKind (.str b!"=")) [3] ;;
  .ite 40262 (.not (.isNil (.var 3 /-err-/)))
    (.ret 40263 [.nil, (.var 3 /-err-/)])
    .skip ;;
  .set 40267 4 .nil /-value-/ ;;
  .ite 40269 (.matchKinds [(.str b!"<string>")])
    (.call 40270 .parseLiteral [.pos] [5, 6] ;;
    .ite 40271 (.not (.isNil (.var 6 /-err-/)))
      (.ret 40272 [.nil, (.var 6 /-err-/)])
      .skip ;;
    .set 40274 4 (.var 5 /-literal-/) /-value-/)
    (.ite 40275 (.or (.matchKinds [(.str b!"<int>")]) (.matchKinds [(.str b!"<float>")]))
      (.call 40276 .parseLiteral [.pos] [7, 8] ;;
      .ite 40277 (.not (.isNil (.var 8 /-err-/)))
        (.ret 40278 [.nil, (.var 8 /-err-/)])
        .skip ;;
      .set 40280 4 (.var 7 /-literal-/) /-value-/)
      (.ite 40281 (.matchKinds [(.str b!"<ident>")])
        (.call 40282 .parseIdent [] [9, 10] ;;
        .ite 40283 (.not (.isNil (.var 10 /-err-/)))
          (.ret 40284 [.nil, (.var 10 /-err-/)])
          .skip ;;
        .set 40286 4 (.var 9 /-ident-/) /-value-/)
        (.ret 40288 [.nil, (.error b!"expected string, number or identifier in named collection parameter, got %s" [.curKind])]))) ;;
  .set 40291 11 (.mk .NamedCollectionParam [(.var 0 /-pos-/) /-ParamPos-/, (.var 1 /-name-/) /-Name-/, (.var 4 /-value-/) /-Value-/, (.bool false) /-Overridable-/, (.bool false) /-NotOverridable-/]) /-param-/ ;;
  .prim 40298 (.tryKws [b!"NOT"]) [12] ;;
  .ite 40298 (.var 12 /-tmp-/)
    (.setF 40299 11 [4] (.bool true) /-param.NotOverridable-/ ;;
    .prim 40300 (.expectKw (.str b!"OVERRIDABLE")) [13] ;;
    .ite 40300 (.not (.isNil (.var 13 /-err-/)))
      (.ret 40301 [.nil, (.var 13 /-err-/)])
      .skip)
    (.prim 40303 (.tryKws [b!"OVERRIDABLE"]) [14] ;;
    .ite 40303 (.var 14 /-tmp-/)
      (.setF 40304 11 [3] (.bool true) /-param.Overridable-/)
      .skip) ;;
  .ret 40307 [(.var 11 /-param-/), .nil]⟩

/-- `parseCreateTable`, parser/parser_table.go:310-401. -/
def parseCreateTable : Func Fn := ⟨22,
  .set 40311 2 (.mk .CreateTable [(.var 0 /-pos-/) /-CreatePos-/, (.nat 0) /-StatementEnd-/, (.var 1 /-orReplace-/) /-OrReplace-/, .nil /-Name-/, (.bool false) /-IfNotExists-/, .nil /-UUID-/, .nil /-OnCluster-/, .nil /-TableSchema-/, .nil /-Engine-/, .nil /-SubQuery-/, .nil /-TableFunction-/, (.bool false) /-HasTemporary-/, .nil /-Comment-/]) /-createTable-/ ;;
  .prim 40312 (.tryKws [b!"TEMPORARY"]) [3] ;;
  .setF 40312 2 [11] (.var 3 /-tmp-/) /-createTable.HasTemporary-/ ;;
  .prim 40314 (.expectKw (.str b!"TABLE")) [4] ;;
  .ite 40314 (.not (.isNil (.var 4 /-err-/)))
    (.ret 40315 [.nil, (.var 4 /-err-/)])
    .skip ;;
  .set 40319 5 .nil /-err-/ ;;
  .call 40320 .tryParseIfNotExists [] [6, 7] ;;
  .setF 40320 2 [4] (.var 6 /-tmp-/) /-createTable.IfNotExists-/ ;;
  .set 40320 5 (.var 7 /-tmp-/) /-err-/ ;;
  .ite 40321 (.not (.isNil (.var 5 /-err-/)))
    (.ret 40322 [.nil, (.var 5 /-err-/)])
    .skip ;;
  .call 40325 .parseTableIdentifier [.pos] [8, 5] ;;
  .ite 40326 (.not (.isNil (.var 5 /-err-/)))
    (.ret 40327 [.nil, (.var 5 /-err-/)])
    .skip ;;
  .setF 40329 2 [3] (.var 8 /-tableIdentifier-/) /-createTable.Name-/ ;;
  .call 40332 .tryParseUUID [] [9, 5] ;;
  .ite 40333 (.not (.isNil (.var 5 /-err-/)))
    (.ret 40334 [.nil, (.var 5 /-err-/)])
    .skip ;;
  .setF 40336 2 [5] (.var 9 /-uuid-/) /-createTable.UUID-/ ;;
  .call 40338 .tryParseClusterClause [.pos] [10, 5] ;;
  .ite 40339 (.not (.isNil (.var 5 /-err-/)))
    (.ret 40340 [.nil, (.var 5 /-err-/)])
    .skip ;;
  .setF 40342 2 [6] (.var 10 /-onCluster-/) /-createTable.OnCluster-/ ;;
  .call 40344 .parseTableSchemaClause [.pos] [11, 5] ;;
  .ite 40345 (.not (.isNil (.var 5 /-err-/)))
    (.ret 40346 [.nil, (.var 5 /-err-/)])
    .skip ;;
  .setF 40348 2 [7] (.var 11 /-tableSchema-/) /-createTable.TableSchema-/ ;;
  .call 40350 .tryParseEngineExpr [.pos] [12, 5] ;;
  .ite 40351 (.not (.isNil (.var 5 /-err-/)))
    (.ret 40352 [.nil, (.var 5 /-err-/)])
    .skip ;;
  .ite 40354 (.not (.isNil (.var 12 /-engineExpr-/)))
    (.setF 40355 2 [8] (.var 12 /-engineExpr-/) /-createTable.Engine-/ ;;
    .setF 40356 2 [1] (.endOf (.var 12 /-engineExpr-/) (.ptr .EngineExpr)) /-createTable.StatementEnd-/)
    .skip ;;
  .prim 40359 (.tryKws [b!"AS"]) [13] ;;
  .ite 40359 (.var 13 /-tmp-/)
    (.ite 40362 (.or (.or (.matchKw (.str b!"SELECT")) (.matchKw (.str b!"WITH"))) (.matchKinds [(.str b!"(")]))
      (.call 40364 .parseSubQuery [.pos] [14, 15] ;;
      .ite 40365 (.not (.isNil (.var 15 /-err-/)))
        (.ret 40366 [.nil, (.var 15 /-err-/)])
        .skip ;;
      .setF 40368 2 [9] (.var 14 /-subQuery-/) /-createTable.SubQuery-/ ;;
      .setF 40369 2 [1] (.endOf (.var 14 /-subQuery-/) (.ptr .SubQuery)) /-createTable.StatementEnd-/)
      (.ite 40370 (.matchKinds [(.str b!"<ident>")])
        (.call 40372 .parseIdent [] [16, 17] ;;
        .ite 40373 (.not (.isNil (.var 17 /-err-/)))
          (.ret 40374 [.nil, (.var 17 /-err-/)])
          .skip ;;
        .ite 40376 (.matchKinds [(.str b!"(")])
          (.call 40377 .parseTableArgList [.pos] [18, 19] ;;
          .ite 40378 (.not (.isNil (.var 19 /-err-/)))
            (.ret 40379 [.nil, (.var 19 /-err-/)])
            .skip ;;
          .set 40381 20 (.mk .TableFunctionExpr [(.var 16 /-ident-/) /-Name-/, (.var 18 /-argsExpr-/) /-Args-/]) /-tableFunc-/ ;;
          .setF 40385 2 [10] (.var 20 /-tableFunc-/) /-createTable.TableFunction-/ ;;
          .setF 40386 2 [1] (.endOf (.var 20 /-tableFunc-/) (.ptr .TableFunctionExpr)) /-createTable.StatementEnd-/)
          (.ret 40388 [.nil, (.error b!"expected ( after identifier in AS clause, got %q" [.curKind])]))
        (.ret 40391 [.nil, (.error b!"expected SELECT, WITH or identifier after AS, got %q" [.curKind])])))
    .skip ;;
  .call 40395 .tryParseComment [] [21, 5] ;;
  .ite 40396 (.not (.isNil (.var 5 /-err-/)))
    (.ret 40397 [.nil, (.var 5 /-err-/)])
    .skip ;;
  .setF 40399 2 [12] (.var 21 /-comment-/) /-createTable.Comment-/ ;;
  .ret 40400 [(.var 2 /-createTable-/), .nil]⟩

/-- `parseIdentOrFunction`, parser/parser_table.go:403-510. -/
def parseIdentOrFunction : Func Fn := ⟨23,
  .set 40404 1 .nil /-ident-/ ;;
  .set 40405 2 .nil /-err-/ ;;
  .set 40406 3 (.matchKinds [(.str b!"<keyword>")]) ;;
  .ite 40406 (.var 3 /-cond-/)
    (.call 40406 .peekTokenKind [(.str b!"(")] [4] ;;
    .set 40406 3 (.var 4 /-tmp-/))
    .skip ;;
  .ite 40406 (.var 3 /-cond-/)
    (.call 40409 .parseAnyKeyword [] [1, 2])
    (.call 40411 .parseIdent [] [1, 2]) ;;
  .ite 40413 (.not (.isNil (.var 2 /-err-/)))
    (.ret 40414 [.nil, (.var 2 /-err-/)])
    .skip ;;
  .ite 40417 (.matchKinds [(.str b!"[")])
    (.call 40418 .parseArrayParams [.pos] [5, 6] ;;
    .ite 40419 (.not (.isNil (.var 6 /-err-/)))
      (.ret 40420 [.nil, (.var 6 /-err-/)])
      .skip ;;
    .ret 40422 [(.mk .ObjectParams [(.var 1 /-ident-/) /-Object-/, (.var 5 /-params-/) /-Params-/]), .nil])
    (.ite 40426 (.matchKinds [(.str b!"(")])
      (.set 40427 7 .nil /-params-/ ;;
      .ite 40428 (.eqStr (.upper (.fld (.var 1 /-ident-/) 0 /-Name-/)) (.str b!"TRIM"))
        (.set 40428 8 (.mk .KeywordArgForm [(.strs [b!"BOTH", b!"LEADING", b!"TRAILING"]), (.bool true), (.strs [b!"FROM"]), (.nat 1), (.bool false), (.nat 0)]) /-form-/ ;;
        .set 40428 9 (.bool true) /-ok-/)
        (.ite 40428 (.eqStr (.upper (.fld (.var 1 /-ident-/) 0 /-Name-/)) (.str b!"SUBSTRING"))
          (.set 40428 8 (.mk .KeywordArgForm [.nil, (.bool false), (.strs [b!"FROM", b!"FOR"]), (.nat 1), (.bool false), (.nat 3)]) /-form-/ ;;
          .set 40428 9 (.bool true) /-ok-/)
          (.ite 40428 (.eqStr (.upper (.fld (.var 1 /-ident-/) 0 /-Name-/)) (.str b!"OVERLAY"))
            (.set 40428 8 (.mk .KeywordArgForm [.nil, (.bool false), (.strs [b!"PLACING", b!"FROM", b!"FOR"]), (.nat 2), (.bool true), (.nat 0)]) /-form-/ ;;
            .set 40428 9 (.bool true) /-ok-/)
            (.ite 40428 (.eqStr (.upper (.fld (.var 1 /-ident-/) 0 /-Name-/)) (.str b!"OVERLAYUTF8"))
              (.set 40428 8 (.mk .KeywordArgForm [.nil, (.bool false), (.strs [b!"PLACING", b!"FROM", b!"FOR"]), (.nat 2), (.bool true), (.nat 0)]) /-form-/ ;;
              .set 40428 9 (.bool true) /-ok-/)
              (.set 40428 8 (.mk .KeywordArgForm [.nil, (.bool false), .nil, (.nat 0), (.bool false), (.nat 0)]) /-form-/ ;;
              .set 40428 9 (.bool false) /-ok-/)))) ;;
      .ite 40428 (.var 9 /-ok-/)
        (.call 40429 .parseKeywordArgFunctionParams [.pos, (.var 8 /-form-/)] [7, 2])
        (.call 40431 .parseFunctionParams [.pos] [7, 2]) ;;
      .ite 40433 (.not (.isNil (.var 2 /-err-/)))
        (.ret 40434 [.nil, (.var 2 /-err-/)])
        .skip ;;
      .set 40436 10 (.mk .FunctionExpr [(.var 1 /-ident-/) /-Name-/, (.var 7 /-params-/) /-Params-/]) /-funcExpr-/ ;;
      .set 40441 11 .pos /-overPos-/ ;;
      .prim 40442 (.tryKws [b!"OVER"]) [12] ;;
      .ite 40442 (.var 12 /-tmp-/)
        (.set 40443 13 .nil /-overExpr-/ ;;
        .ite 40445 (.matchKinds [(.str b!"<ident>"), (.str b!"<keyword>")])
          (.call 40449 .parseAnyKeyword [] [13, 2])
          (.ite 40450 (.matchKinds [(.str b!"(")])
            (.call 40451 .parseWindowCondition [.pos] [13, 2] ;;
            .ite 40452 (.not (.isNil (.var 2 /-err-/)))
              (.ret 40453 [.nil, (.var 2 /-err-/)])
              .skip)
            (.ret 40456 [.nil, (.error b!"expected window name or (, but got %q" [.curKind])])) ;;
        .ite 40459 (.not (.isNil (.var 2 /-err-/)))
          (.ret 40460 [.nil, (.var 2 /-err-/)])
          .skip ;;
        .ret 40462 [(.mk .WindowFunctionExpr [(.var 10 /-funcExpr-/) /-Function-/, (.var 11 /-overPos-/) /-OverPos-/, (.var 13 /-overExpr-/) /-OverExpr-/]), .nil])
        .skip ;;
      .ret 40468 [(.var 10 /-funcExpr-/), .nil])
      (.prim 40469 (.tryKind (.str b!".")) [14] ;;
      .ite 40469 (.not (.isNil (.var 14 /-tmp-/)))
        (.ite 40471 (.matchKinds [(.str b!"<ident>"), (.str b!"<keyword>")])
          (.set 40472 15 (.append .empty (.var 1 /-ident-/)) /-fields-/ ;;
          .loop
            (.call 40476 .parseAnyKeyword [] [16, 17] ;;
            .ite 40477 (.not (.isNil (.var 17 /-err-/)))
              (.ret 40478 [.nil, (.var 17 /-err-/)])
              .skip ;;
            .set 40480 15 (.append (.var 15 /-fields-/) (.var 16 /-child-/)) /-fields-/ ;;
            .prim 40481 (.tryKind (.str b!".")) [18] ;;
            .ite 40481 (.isNil (.var 18 /-tmp-/))
              .brk
              .skip) ;;
          .ret 40485 [(.mk .Path [(.var 15 /-fields-/) /-Fields-/]), .nil])
          (.ite 40486 (.matchKinds [(.str b!"*")])
            (.call 40487 .parseColumnStar [.pos] [19, 20] ;;
            .ite 40488 (.not (.isNil (.var 20 /-err-/)))
              (.ret 40489 [.nil, (.var 20 /-err-/)])
              .skip ;;
            .ret 40491 [(.mk .NestedIdentifier [(.var 1 /-ident-/) /-Ident-/, (.var 19 /-nextIdent-/) /-DotIdent-/]), .nil])
            (.ite 40495 (.matchKinds [(.str b!"<int>")])
              (.call 40496 .parseNumber [.pos] [21, 22] ;;
              .ite 40497 (.not (.isNil (.var 22 /-err-/)))
                (.ret 40498 [.nil, (.var 22 /-err-/)])
                .skip ;;
              .ret 40500 [(.mk .IndexOperation [(.var 1 /-ident-/) /-Object-/, (.str b!".") /-Operation-/, (.var 21 /-i-/) /-Index-/]), .nil])
              (.ret 40506 [.nil, (.error b!"expected IDENT, NUMBER or *, but got %q" [.curKind])]))))
        .skip)) ;;
  .ret 40509 [(.var 1 /-ident-/), .nil]⟩

/-- `parseTableIdentifier`, parser/parser_table.go:512-530. -/
def parseTableIdentifier : Func Fn := ⟨4,
  .call 40513 .parseIdentOrString [] [1, 2] ;;
  .ite 40514 (.not (.isNil (.var 2 /-err-/)))
    (.ret 40515 [.nil, (.var 2 /-err-/)])
    .skip ;;
  .call 40517 .tryParseDotIdentOrString [.pos] [3, 2] ;;
  .ite 40518 (.not (.isNil (.var 2 /-err-/)))
    (.ret 40519 [.nil, (.var 2 /-err-/)])
    .skip ;;
  .ite 40521 (.not (.isNil (.var 3 /-dotIdent-/)))
    (.ret 40522 [(.mk .TableIdentifier [(.var 1 /-ident-/) /-Database-/, (.var 3 /-dotIdent-/) /-Table-/]), .nil])
    .skip ;;
  .ret 40527 [(.mk .TableIdentifier [.nil /-Database-/, (.var 1 /-ident-/) /-Table-/]), .nil]⟩

/-- `parseTableSchemaClause`, parser/parser_table.go:532-605. -/
def parseTableSchemaClause : Func Fn := ⟨18,
  .ite 40534 (.matchKinds [(.str b!"(")])
    (.prim 40536 (.expectKind (.str b!"(")) [1] ;;
    .ite 40536 (.not (.isNil (.var 1 /-err-/)))
      (.ret 40537 [.nil, (.var 1 /-err-/)])
      .skip ;;
    .call 40540 .parseTableColumns [] [2, 3] ;;
    .ite 40541 (.not (.isNil (.var 3 /-err-/)))
      (.ret 40542 [.nil, (.var 3 /-err-/)])
      .skip ;;
    .set 40545 4 .pos /-rightParenPos-/ ;;
    .prim 40546 (.expectKind (.str b!")")) [5] ;;
    .ite 40546 (.not (.isNil (.var 5 /-err-/)))
      (.ret 40547 [.nil, (.var 5 /-err-/)])
      .skip ;;
    .ret 40549 [(.mk .TableSchemaClause [(.var 0 /-pos-/) /-SchemaPos-/, (.var 4 /-rightParenPos-/) /-SchemaEnd-/, (.var 2 /-columns-/) /-Columns-/, .nil /-AliasTable-/, .nil /-TableFunction-/]), .nil])
    (.set 40554 8 (.matchKw (.str b!"AS")) ;;
    .ite 40554 (.var 8 /-cond-/)
      (.call 40554 .peekKeyword [(.str b!"SELECT")] [9] ;;
      .set 40554 8 (.not (.var 9 /-tmp-/)))
      .skip ;;
    .set 40554 7 (.var 8 /-cond-/) ;;
    .ite 40554 (.var 7 /-cond-/)
      (.call 40554 .peekKeyword [(.str b!"WITH")] [10] ;;
      .set 40554 7 (.not (.var 10 /-tmp-/)))
      .skip ;;
    .set 40554 6 (.var 7 /-cond-/) ;;
    .ite 40554 (.var 6 /-cond-/)
      (.call 40554 .peekTokenKind [(.str b!"(")] [11] ;;
      .set 40554 6 (.not (.var 11 /-tmp-/)))
      .skip ;;
    .ite 40554 (.var 6 /-cond-/)
      (.prim 40558 (.tryKws [b!"AS"]) [9999, 9999, 9999] ;;
      .call 40560 .parseIdent [] [12, 13] ;;
      .ite 40561 (.not (.isNil (.var 13 /-err-/)))
        (.ret 40562 [.nil, (.var 13 /-err-/)])
        .skip ;;
      .ite 40565 (.matchKinds [(.str b!".")])
        (.call 40567 .tryParseDotIdent [.pos] [14, 15] ;;
        .ite 40568 (.not (.isNil (.var 15 /-err-/)))
          (.ret 40569 [.nil, (.var 15 /-err-/)])
          .skip ;;
        .ret 40571 [(.mk .TableSchemaClause [(.var 0 /-pos-/) /-SchemaPos-/, (.endOf (.var 14 /-dotIdent-/) (.ptr .Ident)) /-SchemaEnd-/, .nil /-Columns-/, (.mk .TableIdentifier [(.var 12 /-ident-/) /-Database-/, (.var 14 /-dotIdent-/) /-Table-/]) /-AliasTable-/, .nil /-TableFunction-/]), .nil])
        (.ite 40579 (.matchKinds [(.str b!"(")])
          (.call 40581 .parseTableArgList [(.var 0 /-pos-/)] [16, 17] ;;
          .ite 40582 (.not (.isNil (.var 17 /-err-/)))
            (.ret 40583 [.nil, (.var 17 /-err-/)])
            .skip ;;
          .ret 40585 [(.mk .TableSchemaClause [(.var 0 /-pos-/) /-SchemaPos-/, .end_ /-SchemaEnd-/, .nil /-Columns-/, .nil /-AliasTable-/, (.mk .TableFunctionExpr [(.var 12 /-ident-/) /-Name-/, (.var 16 /-argsExpr-/) /-Args-/]) /-TableFunction-/]), .nil])
          (.ret 40594 [(.mk .TableSchemaClause [(.var 0 /-pos-/) /-SchemaPos-/, .end_ /-SchemaEnd-/, .nil /-Columns-/, (.mk .TableIdentifier [.nil /-Database-/, (.var 12 /-ident-/) /-Table-/]) /-AliasTable-/, .nil /-TableFunction-/]), .nil])))
      .skip) ;;
  .ret 40604 [.nil, .nil]⟩

/-- `parseTableColumns`, parser/parser_table.go:607-660. -/
def parseTableColumns : Func Fn := ⟨14,
  .set 40608 0 .empty /-columns-/ ;;
  .loop
    (.ite 40609 (.not .isEOF)
      .skip
      .brk ;;
    .ite 40611 (.matchKw (.str b!"INDEX"))
      (.set 40612 1 .pos /-indexPos-/ ;;
      .prim 40613 .consume [9999] ;;
      .call 40614 .parseTableIndex [(.var 1 /-indexPos-/)] [2, 3] ;;
      .ite 40615 (.not (.isNil (.var 3 /-err-/)))
        (.ret 40616 [.nil, (.var 3 /-err-/)])
        .skip ;;
      .set 40618 0 (.append (.var 0 /-columns-/) (.var 2 /-index-/)) /-columns-/)
      (.ite 40619 (.matchKw (.str b!"CONSTRAINT"))
        (.set 40620 4 .pos /-constraintPos-/ ;;
        .prim 40621 .consume [9999] ;;
        .call 40622 .parseIdent [] [5, 6] ;;
        .ite 40623 (.not (.isNil (.var 6 /-err-/)))
          (.ret 40624 [.nil, (.var 6 /-err-/)])
          .skip ;;
        .prim 40626 (.expectKw (.str b!"CHECK")) [7] ;;
        .ite 40626 (.not (.isNil (.var 7 /-err-/)))
          (.ret 40627 [.nil, (.var 7 /-err-/)])
          .skip ;;
        .call 40629 .parseExpr [.pos] [8, 6] ;;
        .ite 40630 (.not (.isNil (.var 6 /-err-/)))
          (.ret 40631 [.nil, (.var 6 /-err-/)])
          .skip ;;
        .set 40633 0 (.append (.var 0 /-columns-/) (.mk .ConstraintClause [(.var 4 /-constraintPos-/) /-ConstraintPos-/, (.var 5 /-ident-/) /-Constraint-/, (.var 8 /-expr-/) /-Expr-/])) /-columns-/)
        (.ite 40638 (.matchKw (.str b!"PROJECTION"))
          (.call 40639 .parseTableProjection [.pos, (.bool true)] [9, 10] ;;
          .ite 40640 (.not (.isNil (.var 10 /-err-/)))
            (.ret 40641 [.nil, (.var 10 /-err-/)])
            .skip ;;
          .set 40643 0 (.append (.var 0 /-columns-/) (.var 9 /-projection-/)) /-columns-/)
          (.call 40645 .tryParseTableColumnExpr [.pos] [11, 12] ;;
          .ite 40646 (.not (.isNil (.var 12 /-err-/)))
            (.ret 40647 [.nil, (.var 12 /-err-/)])
            .skip ;;
          .ite 40649 (.not (.isNil (.var 11 /-column-/)))
            (.set 40652 0 (.append (.var 0 /-columns-/) (.var 11 /-column-/)) /-columns-/)
            .skip))) ;;
    .prim 40654 (.tryKind (.str b!",")) [13] ;;
    .ite 40654 (.isNil (.var 13 /-tmp-/))
      .brk
      .skip) ;;
  .ret 40659 [(.var 0 /-columns-/), .nil]⟩

/-- `tryParseTableColumnExpr`, parser/parser_table.go:662-667. -/
def tryParseTableColumnExpr : Func Fn := ⟨3,
  .ite 40663 (.not (.matchKinds [(.str b!"<ident>")]))
    (.ret 40664 [.nil, .nil])
    .skip ;;
  .call 40666 .parseTableColumnExpr [(.var 0 /-pos-/)] [1, 2] ;;
  .ret 40666 [(.var 1 /-tmp-/), (.var 2 /-tmp-/)]⟩

/-- `parseTableColumnExpr`, parser/parser_table.go:669-750. -/
def parseTableColumnExpr : Func Fn := ⟨22,
  .set 40671 1 (.mk .ColumnDef [(.var 0 /-pos-/) /-NamePos-/, (.nat 0) /-ColumnEnd-/, .nil /-Name-/, .nil /-Type-/, .nil /-NotNull-/, .nil /-Nullable-/, .nil /-DefaultExpr-/, .nil /-MaterializedExpr-/, .nil /-AliasExpr-/, .nil /-Codec-/, .nil /-TTL-/, .nil /-Comment-/, .nil /-CompressionCodec-/]) /-column-/ ;;
  .call 40673 .ParseNestedIdentifier [.pos] [2, 3] ;;
  .ite 40674 (.not (.isNil (.var 3 /-err-/)))
    (.ret 40675 [.nil, (.var 3 /-err-/)])
    .skip ;;
  .setF 40677 1 [2] (.var 2 /-name-/) /-column.Name-/ ;;
  .set 40678 4 (.endOf (.var 2 /-name-/) (.ptr .NestedIdentifier)) /-columnEnd-/ ;;
  .ite 40680 (.and (.matchKinds [(.str b!"<ident>")]) (.not (.matchKw (.str b!"REMOVE"))))
    (.call 40681 .parseColumnType [.pos] [5, 6] ;;
    .ite 40682 (.not (.isNil (.var 6 /-err-/)))
      (.ret 40683 [.nil, (.var 6 /-err-/)])
      .skip ;;
    .setF 40685 1 [3] (.var 5 /-columnType-/) /-column.Type-/ ;;
    .set 40686 4 (.endOf (.var 5 /-columnType-/) .iface) /-columnEnd-/)
    .skip ;;
  .call 40689 .tryParseNull [.pos] [7] ;;
  .ite 40690 (.not (.isNil (.var 7 /-nullable-/)))
    (.set 40691 4 (.endOf (.var 7 /-nullable-/) (.ptr .NullLiteral)) /-columnEnd-/)
    .skip ;;
  .call 40693 .tryParseNotNull [.pos] [8, 3] ;;
  .ite 40694 (.not (.isNil (.var 3 /-err-/)))
    (.ret 40695 [.nil, (.var 3 /-err-/)])
    .skip ;;
  .ite 40697 (.not (.isNil (.var 8 /-notNull-/)))
    (.set 40698 4 (.endOf (.var 8 /-notNull-/) (.ptr .NotNullLiteral)) /-columnEnd-/)
    .skip ;;
  .set 40701 9 .nil /-valueExpr-/ ;;
  .prim 40703 (.tryKws [b!"DEFAULT"]) [10] ;;
  .ite 40703 (.var 10 /-tmp-/)
    (.call 40704 .parseExpr [.pos] [11, 12] ;;
    .setF 40704 1 [6] (.var 11 /-tmp-/) /-column.DefaultExpr-/ ;;
    .set 40704 3 (.var 12 /-tmp-/) /-err-/ ;;
    .set 40705 9 (.fld (.var 1 /-column-/) 6 /-DefaultExpr-/) /-valueExpr-/)
    (.prim 40706 (.tryKws [b!"MATERIALIZED"]) [13] ;;
    .ite 40706 (.var 13 /-tmp-/)
      (.call 40707 .parseExpr [.pos] [14, 15] ;;
      .setF 40707 1 [7] (.var 14 /-tmp-/) /-column.MaterializedExpr-/ ;;
      .set 40707 3 (.var 15 /-tmp-/) /-err-/ ;;
      .set 40708 9 (.fld (.var 1 /-column-/) 7 /-MaterializedExpr-/) /-valueExpr-/)
      (.prim 40709 (.tryKws [b!"ALIAS"]) [16] ;;
      .ite 40709 (.var 16 /-tmp-/)
        (.call 40710 .parseExpr [.pos] [17, 18] ;;
        .setF 40710 1 [8] (.var 17 /-tmp-/) /-column.AliasExpr-/ ;;
        .set 40710 3 (.var 18 /-tmp-/) /-err-/ ;;
        .set 40711 9 (.fld (.var 1 /-column-/) 8 /-AliasExpr-/) /-valueExpr-/)
        .skip)) ;;
  .ite 40713 (.not (.isNil (.var 3 /-err-/)))
    (.ret 40714 [.nil, (.var 3 /-err-/)])
    .skip ;;
  .ite 40716 (.not (.isNil (.var 9 /-valueExpr-/)))
    (.set 40717 4 (.endOf (.var 9 /-valueExpr-/) .iface) /-columnEnd-/)
    .skip ;;
  .call 40720 .tryParseColumnComment [.pos] [19, 3] ;;
  .ite 40721 (.not (.isNil (.var 3 /-err-/)))
    (.ret 40722 [.nil, (.var 3 /-err-/)])
    .skip ;;
  .ite 40724 (.not (.isNil (.var 19 /-comment-/)))
    (.set 40725 4 (.endOf (.var 19 /-comment-/) (.ptr .StringLiteral)) /-columnEnd-/)
    .skip ;;
  .call 40728 .tryParseCompressionCodecs [.pos] [20, 3] ;;
  .ite 40729 (.not (.isNil (.var 3 /-err-/)))
    (.ret 40730 [.nil, (.var 3 /-err-/)])
    .skip ;;
  .ite 40732 (.not (.isNil (.var 20 /-codec-/)))
    (.set 40733 4 (.endOf (.var 20 /-codec-/) (.ptr .CompressionCodec)) /-columnEnd-/)
    .skip ;;
  .call 40735 .tryParseTTLClause [.pos, (.bool false)] [21, 3] ;;
  .ite 40736 (.not (.isNil (.var 3 /-err-/)))
    (.ret 40737 [.nil, (.var 3 /-err-/)])
    .skip ;;
  .ite 40739 (.not (.isNil (.var 21 /-ttl-/)))
    (.set 40740 4 (.endOf (.var 21 /-ttl-/) (.ptr .TTLClause)) /-columnEnd-/)
    .skip ;;
  .setF 40742 1 [10] (.var 21 /-ttl-/) /-column.TTL-/ ;;
  .setF 40744 1 [1] (.var 4 /-columnEnd-/) /-column.ColumnEnd-/ ;;
  .setF 40745 1 [11] (.var 19 /-comment-/) /-column.Comment-/ ;;
  .setF 40746 1 [9] (.var 20 /-codec-/) /-column.Codec-/ ;;
  .setF 40747 1 [5] (.var 7 /-nullable-/) /-column.Nullable-/ ;;
  .setF 40748 1 [4] (.var 8 /-notNull-/) /-column.NotNull-/ ;;
  .ret 40749 [(.var 1 /-column-/), .nil]⟩

/-- `parseTableArgExpr`, parser/parser_table.go:752-759. -/
def parseTableArgExpr : Func Fn := ⟨5,
  .call 40753 .parseTableArgPrimaryExpr [(.var 0 /-pos-/)] [1, 2] ;;
  .ite 40754 (.not (.isNil (.var 2 /-err-/)))
    (.ret 40755 [.nil, (.var 2 /-err-/)])
    .skip ;;
  .call 40758 .parseInfixLoop [(.var 1 /-expr-/), (.nat 0)] [3, 4] ;;
  .ret 40758 [(.var 3 /-tmp-/), (.var 4 /-tmp-/)]⟩

/-- `parseTableArgPrimaryExpr`, parser/parser_table.go:761-812. -/
def parseTableArgPrimaryExpr : Func Fn := ⟨18,
  .ite 40763 (.matchKw (.str b!"CAST"))
    (.call 40768 .parseColumnCastExpr [(.var 0 /-pos-/)] [1, 2] ;;
    .ret 40768 [(.var 1 /-tmp-/), (.var 2 /-tmp-/)])
    (.ite 40769 (.matchKinds [(.str b!"<ident>")])
      (.call 40770 .parseIdent [] [3, 4] ;;
      .ite 40771 (.not (.isNil (.var 4 /-err-/)))
        (.ret 40772 [.nil, (.var 4 /-err-/)])
        .skip ;;
      .ite 40776 (.matchKinds [(.str b!".")])
        (.call 40777 .tryParseDotIdent [.pos] [5, 6] ;;
        .ite 40778 (.not (.isNil (.var 6 /-err-/)))
          (.ret 40779 [.nil, (.var 6 /-err-/)])
          .skip ;;
        .ret 40781 [(.mk .NestedIdentifier [(.var 3 /-ident-/) /-Ident-/, (.var 5 /-dotIdent-/) /-DotIdent-/]), .nil])
        (.ite 40785 (.matchKinds [(.str b!"(")])
          (.call 40786 .parseTableArgList [(.var 0 /-pos-/)] [7, 8] ;;
          .ite 40787 (.not (.isNil (.var 8 /-err-/)))
            (.ret 40788 [.nil, (.var 8 /-err-/)])
            .skip ;;
          .ret 40790 [(.mk .TableFunctionExpr [(.var 3 /-ident-/) /-Name-/, (.var 7 /-argsExpr-/) /-Args-/]), .nil])
          (.ret 40795 [(.var 3 /-ident-/), .nil])))
      (.ite 40797 (.matchKinds [(.str b!"(")])
        (.call 40801 .peekKeyword [(.str b!"SELECT")] [10] ;;
        .set 40801 9 (.var 10 /-tmp-/) ;;
        .ite 40801 (.var 9 /-cond-/)
          .skip
          (.call 40801 .peekKeyword [(.str b!"WITH")] [11] ;;
          .set 40801 9 (.var 11 /-tmp-/)) ;;
        .ite 40801 (.var 9 /-cond-/)
          (.call 40802 .parseSubQuery [.pos] [12, 13] ;;
          .ret 40802 [(.var 12 /-tmp-/), (.var 13 /-tmp-/)])
          .skip ;;
        .call 40805 .parseFunctionParams [.pos] [14, 15] ;;
        .ret 40805 [(.var 14 /-tmp-/), (.var 15 /-tmp-/)])
        (.ite 40806 (.or (.or (.or (.matchKinds [(.str b!"<int>")]) (.matchKinds [(.str b!"<float>")])) (.matchKinds [(.str b!"<string>")])) (.matchKw (.str b!"NULL")))
          (.call 40808 .parseLiteral [.pos] [16, 17] ;;
          .ret 40808 [(.var 16 /-tmp-/), (.var 17 /-tmp-/)])
          (.ret 40810 [.nil, (.error b!"unexpected token: %q, expected <Name>, <literal>" [.curString])]))))⟩

/-- `parseTableArgList`, parser/parser_table.go:814-886. -/
def parseTableArgList : Func Fn := ⟨17,
  .prim 40815 (.expectKind (.str b!"(")) [1] ;;
  .ite 40815 (.not (.isNil (.var 1 /-err-/)))
    (.ret 40816 [.nil, (.var 1 /-err-/)])
    .skip ;;
  .set 40819 2 .empty /-args-/ ;;
  .loop
    (.ite 40820 (.and (.not .isEOF) (.not (.matchKinds [(.str b!")")])))
      .skip
      .brk ;;
    .set 40822 3 .nil /-arg-/ ;;
    .set 40823 4 .nil /-err-/ ;;
    .set 40826 5 (.bool false) /-isNamedParam-/ ;;
    .set 40827 6 .curKind /-lastKind-/ ;;
    .ite 40828 (.or (.eqStr (.var 6 /-lastKind-/) (.str b!"<ident>")) (.eqStr (.var 6 /-lastKind-/) (.str b!"<keyword>")))
      (.prim 40830 .peek [7, 8] ;;
      .ite 40832 (.and (.and (.isNil (.var 8 /-peekErr-/)) (.not (.isNil (.var 7 /-nextToken-/)))) (.eqStr (.fld (.var 7 /-nextToken-/) 2 /-Kind-/) (.str b!"=")))
        (.set 40833 5 (.bool true) /-isNamedParam-/)
        .skip)
      .skip ;;
    .ite 40837 (.var 5 /-isNamedParam-/)
      (.set 40840 9 (.mk .Ident [(.fld .cur 3 /-String-/) /-Name-/, (.nat 0) /-QuoteType-/, (.fld .cur 0 /-Pos-/) /-NamePos-/, (.fld .cur 1 /-End-/) /-NameEnd-/]) /-name-/ ;;
      .prim 40846 .consume [10] ;;
      .ite 40846 (.not (.isNil (.var 10 /-err-/)))
        (.ret 40847 [.nil, (.var 10 /-err-/)])
        .skip ;;
      .prim 40849 (.expectKind (.str b!"=")) [11] ;;
      .ite 40849 (.not (.isNil (.var 11 /-err-/)))
        (.ret 40850 [.nil, (.var 11 /-err-/)])
        .skip ;;
      .call 40853 .parseTableArgExpr [.pos] [12, 13] ;;
      .ite 40854 (.not (.isNil (.var 13 /-err-/)))
        (.ret 40855 [.nil, (.var 13 /-err-/)])
        .skip ;;
      .set 40857 3 (.mk .NamedParameterExpr [(.fld (.var 9 /-name-/) 2 /-NamePos-/) /-NamePos-/, (.var 9 /-name-/) /-Name-/, (.var 12 /-value-/) /-Value-/]) /-arg-/)
      (.call 40864 .parseTableArgExpr [.pos] [3, 4]) ;;
    .ite 40867 (.not (.isNil (.var 4 /-err-/)))
      (.ret 40868 [.nil, (.var 4 /-err-/)])
      .skip ;;
    .set 40870 2 (.append (.var 2 /-args-/) (.var 3 /-arg-/)) /-args-/ ;;
    .prim 40871 (.tryKind (.str b!",")) [14] ;;
    .ite 40871 (.isNil (.var 14 /-tmp-/))
      .brk
      .skip) ;;
  .set 40876 15 .pos /-rightParenPos-/ ;;
  .prim 40877 (.expectKind (.str b!")")) [16] ;;
  .ite 40877 (.not (.isNil (.var 16 /-err-/)))
    (.ret 40878 [.nil, (.var 16 /-err-/)])
    .skip ;;
  .ret 40881 [(.mk .TableArgListExpr [(.var 0 /-pos-/) /-LeftParenPos-/, (.var 15 /-rightParenPos-/) /-RightParenPos-/, (.var 2 /-args-/) /-Args-/]), .nil]⟩

/-- `tryParseClusterClause`, parser/parser_table.go:888-913. -/
def tryParseClusterClause : Func Fn := ⟨5,
  .prim 40889 (.tryKws [b!"ON"]) [1] ;;
  .ite 40889 (.not (.var 1 /-tmp-/))
    (.ret 40890 [.nil, .nil])
    .skip ;;
  .prim 40892 (.expectKw (.str b!"CLUSTER")) [2] ;;
  .ite 40892 (.not (.isNil (.var 2 /-err-/)))
    (.ret 40893 [.nil, (.var 2 /-err-/)])
    .skip ;;
  .set 40896 3 .nil /-expr-/ ;;
  .set 40897 4 .nil /-err-/ ;;
  .ite 40899 (.matchKinds [(.str b!"<ident>")])
    (.call 40900 .parseIdent [] [3, 4])
    (.ite 40901 (.matchKinds [(.str b!"<string>")])
      (.call 40902 .parseString [.pos] [3, 4])
      (.ret 40904 [.nil, (.error b!"unexpected token: %q, expected <IDENT> or <STRING>" [.curString])])) ;;
  .ite 40906 (.not (.isNil (.var 4 /-err-/)))
    (.ret 40907 [.nil, (.var 4 /-err-/)])
    .skip ;;
  .ret 40909 [(.mk .ClusterClause [(.var 0 /-pos-/) /-OnPos-/, (.var 3 /-expr-/) /-Expr-/]), .nil]⟩

/-- `tryParsePartitionByClause`, parser/parser_table.go:915-933. -/
def tryParsePartitionByClause : Func Fn := ⟨5,
  .prim 40916 (.tryKws [b!"PARTITION"]) [1] ;;
  .ite 40916 (.not (.var 1 /-tmp-/))
    (.ret 40917 [.nil, .nil])
    .skip ;;
  .prim 40920 (.expectKw (.str b!"BY")) [2] ;;
  .ite 40920 (.not (.isNil (.var 2 /-err-/)))
    (.ret 40921 [.nil, (.var 2 /-err-/)])
    .skip ;;
  .call 40925 .parseColumnExprListWithLParen [.pos] [3, 4] ;;
  .ite 40926 (.not (.isNil (.var 4 /-err-/)))
    (.ret 40927 [.nil, (.var 4 /-err-/)])
    .skip ;;
  .ret 40929 [(.mk .PartitionByClause [(.var 0 /-pos-/) /-PartitionPos-/, (.var 3 /-columnExpr-/) /-Expr-/]), .nil]⟩

/-- `tryParsePrimaryKeyClause`, parser/parser_table.go:935-953. -/
def tryParsePrimaryKeyClause : Func Fn := ⟨5,
  .prim 40936 (.tryKws [b!"PRIMARY"]) [1] ;;
  .ite 40936 (.not (.var 1 /-tmp-/))
    (.ret 40937 [.nil, .nil])
    .skip ;;
  .prim 40940 (.expectKw (.str b!"KEY")) [2] ;;
  .ite 40940 (.not (.isNil (.var 2 /-err-/)))
    (.ret 40941 [.nil, (.var 2 /-err-/)])
    .skip ;;
  .call 40945 .parseExpr [.pos] [3, 4] ;;
  .ite 40946 (.not (.isNil (.var 4 /-err-/)))
    (.ret 40947 [.nil, (.var 4 /-err-/)])
    .skip ;;
  .ret 40949 [(.mk .PrimaryKeyClause [(.var 0 /-pos-/) /-PrimaryPos-/, (.var 3 /-columnExpr-/) /-Expr-/]), .nil]⟩

/-- `tryParseOrderByClause`, parser/parser_table.go:955-964. -/
def tryParseOrderByClause : Func Fn := ⟨5,
  .prim 40956 (.tryKws [b!"ORDER"]) [1] ;;
  .ite 40956 (.not (.var 1 /-tmp-/))
    (.ret 40957 [.nil, .nil])
    .skip ;;
  .prim 40960 (.expectKw (.str b!"BY")) [2] ;;
  .ite 40960 (.not (.isNil (.var 2 /-err-/)))
    (.ret 40961 [.nil, (.var 2 /-err-/)])
    .skip ;;
  .call 40963 .parseOrderByClause [(.var 0 /-pos-/)] [3, 4] ;;
  .ret 40963 [(.var 3 /-tmp-/), (.var 4 /-tmp-/)]⟩

/-- `tryParseTableOrderByClause`, parser/parser_table.go:969-987. -/
def tryParseTableOrderByClause : Func Fn := ⟨5,
  .prim 40970 (.tryKws [b!"ORDER"]) [1] ;;
  .ite 40970 (.not (.var 1 /-tmp-/))
    (.ret 40971 [.nil, .nil])
    .skip ;;
  .prim 40974 (.expectKw (.str b!"BY")) [2] ;;
  .ite 40974 (.not (.isNil (.var 2 /-err-/)))
    (.ret 40975 [.nil, (.var 2 /-err-/)])
    .skip ;;
  .call 40978 .parseOrderExpr [(.var 0 /-pos-/)] [3, 4] ;;
  .ite 40979 (.not (.isNil (.var 4 /-err-/)))
    (.ret 40980 [.nil, (.var 4 /-err-/)])
    .skip ;;
  .ret 40982 [(.mk .OrderByClause [(.var 0 /-pos-/) /-OrderPos-/, (.endOf (.var 3 /-sortingKey-/) (.ptr .OrderExpr)) /-ListEnd-/, (.append .empty (.var 3 /-sortingKey-/)) /-Items-/, .nil /-Interpolate-/]), .nil]⟩

/-- `parseOrderByClause`, parser/parser_table.go:989-1024. -/
def parseOrderByClause : Func Fn := ⟨10,
  .set 40990 1 (.mk .OrderByClause [(.var 0 /-pos-/) /-OrderPos-/, (.var 0 /-pos-/) /-ListEnd-/, .nil /-Items-/, .nil /-Interpolate-/]) /-orderByListExpr-/ ;;
  .set 40991 2 .empty /-items-/ ;;
  .loop
    (.call 40993 .parseOrderExpr [(.var 0 /-pos-/)] [3, 4] ;;
    .ite 40994 (.not (.isNil (.var 4 /-err-/)))
      (.ret 40995 [.nil, (.var 4 /-err-/)])
      .skip ;;
    .ite 40997 (.isNil (.var 3 /-expr-/))
      .brk
      .skip ;;
    .set 41000 2 (.append (.var 2 /-items-/) (.var 3 /-expr-/)) /-items-/ ;;
    .set 41002 5 .isEOF ;;
    .ite 41002 (.var 5 /-cond-/)
      .skip
      (.prim 41002 (.tryKind (.str b!",")) [6] ;;
      .set 41002 5 (.isNil (.var 6 /-tmp-/))) ;;
    .ite 41002 (.var 5 /-cond-/)
      .brk
      .skip) ;;
  .ite 41006 (.lt (.nat 0) (.len (.var 2 /-items-/)))
    (.setF 41007 1 [1] (.endOf (.last (.var 2 /-items-/)) .iface) /-orderByListExpr.ListEnd-/)
    .skip ;;
  .setF 41009 1 [2] (.var 2 /-items-/) /-orderByListExpr.Items-/ ;;
  .ite 41012 (.matchKw (.str b!"INTERPOLATE"))
    (.set 41013 7 .pos /-interpolatePos-/ ;;
    .prim 41014 .consume [9999] ;;
    .call 41015 .parseInterpolateClause [(.var 7 /-interpolatePos-/)] [8, 9] ;;
    .ite 41016 (.not (.isNil (.var 9 /-err-/)))
      (.ret 41017 [.nil, (.var 9 /-err-/)])
      .skip ;;
    .setF 41019 1 [3] (.var 8 /-interpolate-/) /-orderByListExpr.Interpolate-/ ;;
    .setF 41020 1 [1] (.endOf (.var 8 /-interpolate-/) (.ptr .InterpolateClause)) /-orderByListExpr.ListEnd-/)
    .skip ;;
  .ret 41023 [(.var 1 /-orderByListExpr-/), .nil]⟩

/-- `parseOrderExpr`, parser/parser_table.go:1026-1083. -/
def parseOrderExpr : Func Fn := ⟨10,
  .call 41028 .parseExpr [(.var 0 /-pos-/)] [1, 2] ;;
  .ite 41029 (.not (.isNil (.var 2 /-err-/)))
    (.ret 41030 [.nil, (.var 2 /-err-/)])
    .skip ;;
  .set 41033 3 .nil /-alias-/ ;;
  .ite 41034 (.matchKw (.str b!"AS"))
    (.prim 41036 .peek [4, 5] ;;
    .ite 41036 (.and (.isNil (.var 5 /-err-/)) (.eqStr (.tokText (.var 4 /-nextToken-/)) (.str b!"SELECT")))
      (.ret 41037 [(.mk .OrderExpr [(.var 0 /-pos-/) /-OrderPos-/, (.var 1 /-columnExpr-/) /-Expr-/, .nil /-Alias-/, (.str []) /-Direction-/, .nil /-Fill-/]), .nil])
      .skip ;;
    .prim 41043 .consume [9999] ;;
    .call 41045 .parseAnyKeyword [] [3, 2] ;;
    .ite 41046 (.not (.isNil (.var 2 /-err-/)))
      (.ret 41047 [.nil, (.var 2 /-err-/)])
      .skip)
    (.ite 41049 (.matchKw (.str b!"TTL"))
      (.ret 41050 [(.mk .OrderExpr [(.var 0 /-pos-/) /-OrderPos-/, (.var 1 /-columnExpr-/) /-Expr-/, .nil /-Alias-/, (.str []) /-Direction-/, .nil /-Fill-/]), .nil])
      .skip) ;;
  .set 41056 6 (.str b!"") /-direction-/ ;;
  .ite 41058 (.or (.matchKw (.str b!"ASC")) (.matchKw (.str b!"ASCENDING")))
    (.set 41059 6 (.str b!"ASC") /-direction-/ ;;
    .prim 41060 .consume [9999])
    (.ite 41061 (.or (.matchKw (.str b!"DESC")) (.matchKw (.str b!"DESCENDING")))
      (.set 41062 6 (.str b!"DESC") /-direction-/ ;;
      .prim 41063 .consume [9999])
      .skip) ;;
  .set 41067 7 .nil /-fill-/ ;;
  .prim 41068 (.tryKws [b!"WITH", b!"FILL"]) [8] ;;
  .ite 41068 (.var 8 /-tmp-/)
    (.set 41069 9 .pos /-fillPos-/ ;;
    .call 41070 .parseFillClause [(.var 9 /-fillPos-/)] [7, 2] ;;
    .ite 41071 (.not (.isNil (.var 2 /-err-/)))
      (.ret 41072 [.nil, (.var 2 /-err-/)])
      .skip)
    .skip ;;
  .ret 41076 [(.mk .OrderExpr [(.var 0 /-pos-/) /-OrderPos-/, (.var 1 /-columnExpr-/) /-Expr-/, (.var 3 /-alias-/) /-Alias-/, (.var 6 /-direction-/) /-Direction-/, (.var 7 /-fill-/) /-Fill-/]), .nil]⟩

/-- `parseFillClause`, parser/parser_table.go:1085-1125. -/
def parseFillClause : Func Fn := ⟨14,
  .set 41086 1 (.mk .Fill [(.var 0 /-fillPos-/) /-FillPos-/, .nil /-From-/, .nil /-To-/, .nil /-Step-/, .nil /-Staleness-/]) /-fill-/ ;;
  .prim 41089 (.tryKws [b!"FROM"]) [2] ;;
  .ite 41089 (.var 2 /-tmp-/)
    (.call 41090 .parseExpr [(.var 0 /-fillPos-/)] [3, 4] ;;
    .ite 41091 (.not (.isNil (.var 4 /-err-/)))
      (.ret 41092 [.nil, (.var 4 /-err-/)])
      .skip ;;
    .setF 41094 1 [1] (.var 3 /-fromExpr-/) /-fill.From-/)
    .skip ;;
  .prim 41098 (.tryKws [b!"TO"]) [5] ;;
  .ite 41098 (.var 5 /-tmp-/)
    (.call 41099 .parseExpr [(.var 0 /-fillPos-/)] [6, 7] ;;
    .ite 41100 (.not (.isNil (.var 7 /-err-/)))
      (.ret 41101 [.nil, (.var 7 /-err-/)])
      .skip ;;
    .setF 41103 1 [2] (.var 6 /-toExpr-/) /-fill.To-/)
    .skip ;;
  .prim 41107 (.tryKws [b!"STEP"]) [8] ;;
  .ite 41107 (.var 8 /-tmp-/)
    (.call 41108 .parseExpr [(.var 0 /-fillPos-/)] [9, 10] ;;
    .ite 41109 (.not (.isNil (.var 10 /-err-/)))
      (.ret 41110 [.nil, (.var 10 /-err-/)])
      .skip ;;
    .setF 41112 1 [3] (.var 9 /-stepExpr-/) /-fill.Step-/)
    .skip ;;
  .prim 41116 (.tryKws [b!"STALENESS"]) [11] ;;
  .ite 41116 (.var 11 /-tmp-/)
    (.call 41117 .parseExpr [(.var 0 /-fillPos-/)] [12, 13] ;;
    .ite 41118 (.not (.isNil (.var 13 /-err-/)))
      (.ret 41119 [.nil, (.var 13 /-err-/)])
      .skip ;;
    .setF 41121 1 [4] (.var 12 /-stalenessExpr-/) /-fill.Staleness-/)
    .skip ;;
  .ret 41124 [(.var 1 /-fill-/), .nil]⟩

/-- `parseInterpolateClause`, parser/parser_table.go:1127-1171. -/
def parseInterpolateClause : Func Fn := ⟨12,
  .set 41128 1 (.mk .InterpolateClause [(.var 0 /-interpolatePos-/) /-InterpolatePos-/, (.add (.var 0 /-interpolatePos-/) (.len (.str b!"INTERPOLATE"))) /-ListEnd-/, .nil /-Items-/]) /-interpolate-/ ;;
  .prim 41133 (.tryKind (.str b!"(")) [2] ;;
  .ite 41133 (.isNil (.var 2 /-tmp-/))
    (.ret 41135 [(.var 1 /-interpolate-/), .nil])
    .skip ;;
  .set 41138 3 .empty /-items-/ ;;
  .loop
    (.call 41140 .parseIdent [] [4, 5] ;;
    .ite 41141 (.not (.isNil (.var 5 /-err-/)))
      (.ret 41142 [.nil, (.var 5 /-err-/)])
      .skip ;;
    .set 41145 6 (.mk .InterpolateItem [(.var 4 /-column-/) /-Column-/, .nil /-Expr-/]) /-item-/ ;;
    .prim 41147 (.tryKws [b!"AS"]) [7] ;;
    .ite 41147 (.var 7 /-tmp-/)
      (.call 41148 .parseExpr [(.var 0 /-interpolatePos-/)] [8, 9] ;;
      .ite 41149 (.not (.isNil (.var 9 /-err-/)))
        (.ret 41150 [.nil, (.var 9 /-err-/)])
        .skip ;;
      .setF 41152 6 [1] (.var 8 /-expr-/) /-item.Expr-/)
      .skip ;;
    .set 41155 3 (.append (.var 3 /-items-/) (.var 6 /-item-/)) /-items-/ ;;
    .prim 41157 (.tryKind (.str b!",")) [10] ;;
    .ite 41157 (.isNil (.var 10 /-tmp-/))
      .brk
      .skip) ;;
  .prim 41162 (.tryKind (.str b!")")) [11] ;;
  .ite 41163 (.isNil (.var 11 /-rparen-/))
    (.ret 41164 [.nil, (.error b!"expected ')' after INTERPOLATE column list" [])])
    .skip ;;
  .setF 41167 1 [2] (.var 3 /-items-/) /-interpolate.Items-/ ;;
  .setF 41168 1 [1] (.fld (.var 11 /-rparen-/) 1 /-End-/) /-interpolate.ListEnd-/ ;;
  .ret 41170 [(.var 1 /-interpolate-/), .nil]⟩

/-- `tryParseTTLClause`, parser/parser_table.go:1173-1188. -/
def tryParseTTLClause : Func Fn := ⟨6,
  .prim 41174 (.tryKws [b!"TTL"]) [2] ;;
  .ite 41174 (.not (.var 2 /-tmp-/))
    (.ret 41175 [.nil, .nil])
    .skip ;;
  .set 41177 3 (.mk .TTLClause [(.var 0 /-pos-/) /-TTLPos-/, (.var 0 /-pos-/) /-ListEnd-/, .nil /-Items-/]) /-ttlExprList-/ ;;
  .call 41179 .parseTTLClause [(.var 0 /-pos-/), (.var 1 /-allowMultiValues-/)] [4, 5] ;;
  .ite 41180 (.not (.isNil (.var 5 /-err-/)))
    (.ret 41181 [.nil, (.var 5 /-err-/)])
    .skip ;;
  .ite 41183 (.lt (.nat 0) (.len (.var 4 /-items-/)))
    (.setF 41184 3 [1] (.endOf (.last (.var 4 /-items-/)) (.ptr .TTLExpr)) /-ttlExprList.ListEnd-/)
    .skip ;;
  .setF 41186 3 [2] (.var 4 /-items-/) /-ttlExprList.Items-/ ;;
  .ret 41187 [(.var 3 /-ttlExprList-/), .nil]⟩

/-- `parseTTLClause`, parser/parser_table.go:1192-1207. -/
def parseTTLClause : Func Fn := ⟨7,
  .set 41193 2 .empty /-items-/ ;;
  .call 41194 .parseTTLExpr [(.var 0 /-pos-/)] [3, 4] ;;
  .ite 41195 (.not (.isNil (.var 4 /-err-/)))
    (.ret 41196 [.nil, (.var 4 /-err-/)])
    .skip ;;
  .set 41198 2 (.append (.var 2 /-items-/) (.var 3 /-expr-/)) /-items-/ ;;
  .loop
    (.set 41199 5 (.and (.var 1 /-allowMultiValues-/) (.not .isEOF)) ;;
    .ite 41199 (.var 5 /-cond-/)
      (.prim 41199 (.tryKind (.str b!",")) [6] ;;
      .set 41199 5 (.not (.isNil (.var 6 /-tmp-/))))
      .skip ;;
    .ite 41199 (.var 5 /-cond-/)
      .skip
      .brk ;;
    .call 41200 .parseTTLExpr [(.var 0 /-pos-/)] [3, 4] ;;
    .ite 41201 (.not (.isNil (.var 4 /-err-/)))
      (.ret 41202 [.nil, (.var 4 /-err-/)])
      .skip ;;
    .set 41204 2 (.append (.var 2 /-items-/) (.var 3 /-expr-/)) /-items-/) ;;
  .ret 41206 [(.var 2 /-items-/), .nil]⟩

/-- `tryParseTTLPolicy`, parser/parser_table.go:1209-1259. -/
def tryParseTTLPolicy : Func Fn := ⟨17,
  .set 41210 1 .nil /-rule-/ ;;
  .prim 41212 (.tryKws [b!"TO"]) [2] ;;
  .ite 41212 (.var 2 /-tmp-/)
    (.prim 41213 (.tryKws [b!"DISK"]) [3] ;;
    .ite 41213 (.var 3 /-tmp-/)
      (.call 41214 .parseString [.pos] [4, 5] ;;
      .ite 41215 (.not (.isNil (.var 5 /-err-/)))
        (.ret 41216 [.nil, (.var 5 /-err-/)])
        .skip ;;
      .set 41218 1 (.mk .TTLPolicyRule [(.var 0 /-pos-/) /-RulePos-/, .nil /-ToVolume-/, (.var 4 /-value-/) /-ToDisk-/, .nil /-Action-/]) /-rule-/)
      (.prim 41219 (.tryKws [b!"VOLUME"]) [6] ;;
      .ite 41219 (.var 6 /-tmp-/)
        (.call 41220 .parseString [.pos] [7, 8] ;;
        .ite 41221 (.not (.isNil (.var 8 /-err-/)))
          (.ret 41222 [.nil, (.var 8 /-err-/)])
          .skip ;;
        .set 41224 1 (.mk .TTLPolicyRule [(.var 0 /-pos-/) /-RulePos-/, (.var 7 /-value-/) /-ToVolume-/, .nil /-ToDisk-/, .nil /-Action-/]) /-rule-/)
        (.ret 41226 [.nil, (.error b!"unexpected token: %q, expected DISK or VOLUME" [.curKind])])))
    (.ite 41228 (.or (.matchKw (.str b!"DELETE")) (.matchKw (.str b!"RECOMPRESS")))
      (.set 41229 9 .cur /-token-/ ;;
      .prim 41230 .consume [9999] ;;
      .set 41231 10 (.mk .TTLPolicyRuleAction [(.fld (.var 9 /-token-/) 0 /-Pos-/) /-ActionPos-/, (.fld (.var 9 /-token-/) 1 /-End-/) /-ActionEnd-/, (.tokText (.var 9 /-token-/)) /-Action-/, .nil /-Codec-/]) /-action-/ ;;
      .call 41236 .tryParseCompressionCodecs [.pos] [11, 12] ;;
      .ite 41237 (.not (.isNil (.var 12 /-err-/)))
        (.ret 41238 [.nil, (.var 12 /-err-/)])
        .skip ;;
      .setF 41240 10 [3] (.var 11 /-codec-/) /-action.Codec-/ ;;
      .set 41241 1 (.mk .TTLPolicyRule [(.var 0 /-pos-/) /-RulePos-/, .nil /-ToVolume-/, .nil /-ToDisk-/, (.var 10 /-action-/) /-Action-/]) /-rule-/)
      (.ret 41243 [.nil, .nil])) ;;
  .set 41245 13 (.mk .TTLPolicy [(.var 1 /-rule-/) /-Item-/, .nil /-Where-/, .nil /-GroupBy-/]) /-policy-/ ;;
  .call 41247 .tryParseWhereClause [.pos] [14, 15] ;;
  .ite 41248 (.not (.isNil (.var 15 /-err-/)))
    (.ret 41249 [.nil, (.var 15 /-err-/)])
    .skip ;;
  .setF 41251 13 [1] (.var 14 /-where-/) /-policy.Where-/ ;;
  .call 41253 .tryParseGroupByClause [.pos] [16, 15] ;;
  .ite 41254 (.not (.isNil (.var 15 /-err-/)))
    (.ret 41255 [.nil, (.var 15 /-err-/)])
    .skip ;;
  .setF 41257 13 [2] (.var 16 /-groupBy-/) /-policy.GroupBy-/ ;;
  .ret 41258 [(.var 13 /-policy-/), .nil]⟩

/-- `parseTTLExpr`, parser/parser_table.go:1261-1275. -/
def parseTTLExpr : Func Fn := ⟨4,
  .call 41262 .parseExpr [(.var 0 /-pos-/)] [1, 2] ;;
  .ite 41263 (.not (.isNil (.var 2 /-err-/)))
    (.ret 41264 [.nil, (.var 2 /-err-/)])
    .skip ;;
  .call 41266 .tryParseTTLPolicy [.pos] [3, 2] ;;
  .ite 41267 (.not (.isNil (.var 2 /-err-/)))
    (.ret 41268 [.nil, (.var 2 /-err-/)])
    .skip ;;
  .ret 41270 [(.mk .TTLExpr [(.var 0 /-pos-/) /-TTLPos-/, (.var 1 /-columnExpr-/) /-Expr-/, (.var 3 /-policy-/) /-Policy-/]), .nil]⟩

/-- `tryParseSampleByClause`, parser/parser_table.go:1277-1295. -/
def tryParseSampleByClause : Func Fn := ⟨5,
  .prim 41278 (.tryKws [b!"SAMPLE"]) [1] ;;
  .ite 41278 (.not (.var 1 /-tmp-/))
    (.ret 41279 [.nil, .nil])
    .skip ;;
  .prim 41282 (.expectKw (.str b!"BY")) [2] ;;
  .ite 41282 (.not (.isNil (.var 2 /-err-/)))
    (.ret 41283 [.nil, (.var 2 /-err-/)])
    .skip ;;
  .call 41287 .parseExpr [.pos] [3, 4] ;;
  .ite 41288 (.not (.isNil (.var 4 /-err-/)))
    (.ret 41289 [.nil, (.var 4 /-err-/)])
    .skip ;;
  .ret 41291 [(.mk .SampleByClause [(.var 0 /-pos-/) /-SamplePos-/, (.var 3 /-columnExpr-/) /-Expr-/]), .nil]⟩

/-- `tryParseSettingsClause`, parser/parser_table.go:1297-1302. -/
def tryParseSettingsClause : Func Fn := ⟨4,
  .prim 41298 (.tryKws [b!"SETTINGS"]) [1] ;;
  .ite 41298 (.not (.var 1 /-tmp-/))
    (.ret 41299 [.nil, .nil])
    .skip ;;
  .call 41301 .parseSettingsClause [(.var 0 /-pos-/)] [2, 3] ;;
  .ret 41301 [(.var 2 /-tmp-/), (.var 3 /-tmp-/)]⟩

/-- `parseSettingsClause`, parser/parser_table.go:1304-1317. -/
def parseSettingsClause : Func Fn := ⟨4,
  .set 41305 1 (.mk .SettingsClause [(.var 0 /-pos-/) /-SettingsPos-/, (.var 0 /-pos-/) /-ListEnd-/, .nil /-Items-/]) /-settings-/ ;;
  .call 41306 .parseSettingsList [.pos] [2, 3] ;;
  .ite 41307 (.not (.isNil (.var 3 /-err-/)))
    (.ret 41308 [.nil, (.var 3 /-err-/)])
    .skip ;;
  .ite 41311 (.eqNat (.len (.var 2 /-items-/)) (.nat 0))
    (.ret 41312 [.nil, (.error b!"settings list is empty" [])])
    .skip ;;
  .setF 41314 1 [1] (.endOf (.last (.var 2 /-items-/)) (.ptr .SettingExpr)) /-settings.ListEnd-/ ;;
  .setF 41315 1 [2] (.var 2 /-items-/) /-settings.Items-/ ;;
  .ret 41316 [(.var 1 /-settings-/), .nil]⟩

/-- `parseSettingsList`, parser/parser_table.go:1319-1334. -/
def parseSettingsList : Func Fn := ⟨5,
  .set 41320 1 .empty /-items-/ ;;
  .call 41321 .parseSettingsExpr [(.var 0 /-pos-/)] [2, 3] ;;
  .ite 41322 (.not (.isNil (.var 3 /-err-/)))
    (.ret 41323 [.nil, (.var 3 /-err-/)])
    .skip ;;
  .set 41325 1 (.append (.var 1 /-items-/) (.var 2 /-expr-/)) /-items-/ ;;
  .loop
    (.prim 41326 (.tryKind (.str b!",")) [4] ;;
    .ite 41326 (.not (.isNil (.var 4 /-tmp-/)))
      .skip
      .brk ;;
    .call 41327 .parseSettingsExpr [.pos] [2, 3] ;;
    .ite 41328 (.not (.isNil (.var 3 /-err-/)))
      (.ret 41329 [.nil, (.var 3 /-err-/)])
      .skip ;;
    .set 41331 1 (.append (.var 1 /-items-/) (.var 2 /-expr-/)) /-items-/) ;;
  .ret 41333 [(.var 1 /-items-/), .nil]⟩

/-- `parseSettingsExpr`, parser/parser_table.go:1336-1384. -/
def parseSettingsExpr : Func Fn := ⟨12,
  .call 41337 .parseIdent [] [1, 2] ;;
  .ite 41338 (.not (.isNil (.var 2 /-err-/)))
    (.ret 41339 [.nil, (.var 2 /-err-/)])
    .skip ;;
  .prim 41342 (.expectKind (.str b!"=")) [3] ;;
  .ite 41342 (.not (.isNil (.var 3 /-err-/)))
    (.ret 41343 [.nil, (.var 3 /-err-/)])
    .skip ;;
  .set 41346 4 .nil /-expr-/ ;;
  .ite 41348 (.matchKinds [(.str b!"<int>")])
    (.call 41349 .parseNumber [.pos] [5, 6] ;;
    .ite 41350 (.not (.isNil (.var 6 /-err-/)))
      (.ret 41351 [.nil, (.var 6 /-err-/)])
      .skip ;;
    .set 41353 4 (.var 5 /-number-/) /-expr-/)
    (.ite 41354 (.matchKinds [(.str b!"<string>")])
      (.call 41355 .parseString [.pos] [7, 8] ;;
      .set 41356 4 (.var 7 /-str-/) /-expr-/ ;;
      .ite 41357 (.not (.isNil (.var 8 /-err-/)))
        (.ret 41358 [.nil, (.var 8 /-err-/)])
        .skip)
      (.ite 41360 (.matchKinds [(.str b!"{")])
        (.call 41361 .parseMapLiteral [.pos] [9, 10] ;;
        .ite 41362 (.not (.isNil (.var 10 /-err-/)))
          (.ret 41363 [.nil, (.var 10 /-err-/)])
          .skip ;;
        .set 41365 4 (.var 9 /-m-/) /-expr-/)
        (.ite 41366 (.or (.matchKw (.str b!"TRUE")) (.matchKw (.str b!"FALSE")))
          (.set 41368 11 .cur /-curToken-/ ;;
          .prim 41369 .consume [9999] ;;
          .set 41370 4 (.mk .BoolLiteral [(.fld (.var 11 /-curToken-/) 0 /-Pos-/) /-LiteralPos-/, (.fld (.var 11 /-curToken-/) 1 /-End-/) /-LiteralEnd-/, (.fld (.var 11 /-curToken-/) 3 /-String-/) /-Literal-/]) /-expr-/)
          (.ret 41376 [.nil, (.error b!"unexpected token: %q, expected <number>, <bool> or <string>" [.curString])])))) ;;
  .ret 41379 [(.mk .SettingExpr [(.var 0 /-pos-/) /-SettingsPos-/, (.var 1 /-ident-/) /-Name-/, (.var 4 /-expr-/) /-Expr-/]), .nil]⟩

/-- `parseDestinationClause`, parser/parser_table.go:1386-1399. -/
def parseDestinationClause : Func Fn := ⟨4,
  .prim 41387 (.expectKw (.str b!"TO")) [1] ;;
  .ite 41387 (.not (.isNil (.var 1 /-err-/)))
    (.ret 41388 [.nil, (.var 1 /-err-/)])
    .skip ;;
  .call 41391 .parseTableIdentifier [.pos] [2, 3] ;;
  .ite 41392 (.not (.isNil (.var 3 /-err-/)))
    (.ret 41393 [.nil, (.var 3 /-err-/)])
    .skip ;;
  .ret 41395 [(.mk .DestinationClause [(.var 0 /-pos-/) /-ToPos-/, (.var 2 /-tableIdentifier-/) /-TableIdentifier-/, .nil /-TableSchema-/]), .nil]⟩

/-- `tryParseEngineExpr`, parser/parser_table.go:1401-1406. -/
def tryParseEngineExpr : Func Fn := ⟨3,
  .ite 41402 (.not (.matchKw (.str b!"ENGINE")))
    (.ret 41403 [.nil, .nil])
    .skip ;;
  .call 41405 .parseEngineExpr [(.var 0 /-pos-/)] [1, 2] ;;
  .ret 41405 [(.var 1 /-tmp-/), (.var 2 /-tmp-/)]⟩

/-- `parseEngineExpr`, parser/parser_table.go:1408-1487. -/
def parseEngineExpr : Func Fn := ⟨20,
  .prim 41409 (.expectKw (.str b!"ENGINE")) [1] ;;
  .ite 41409 (.not (.isNil (.var 1 /-err-/)))
    (.ret 41410 [.nil, (.var 1 /-err-/)])
    .skip ;;
  .prim 41412 (.tryKind (.str b!"=")) [9999] ;;
  .set 41414 2 (.mk .EngineExpr [(.var 0 /-pos-/) /-EnginePos-/, (.nat 0) /-EngineEnd-/, (.str []) /-Name-/, .nil /-Params-/, .nil /-PrimaryKey-/, .nil /-PartitionBy-/, .nil /-SampleBy-/, .nil /-TTL-/, .nil /-Settings-/, .nil /-OrderBy-/]) /-engineExpr-/ ;;
  .set 41415 3 (.nat 0) /-engineEnd-/ ;;
  .ite 41417 (.matchKinds [(.str b!"<ident>")])
    (.call 41418 .parseIdent [] [4, 5] ;;
    .ite 41419 (.not (.isNil (.var 5 /-err-/)))
      (.ret 41420 [.nil, (.var 5 /-err-/)])
      .skip ;;
    .setF 41422 2 [2] (.fld (.var 4 /-ident-/) 0 /-Name-/) /-engineExpr.Name-/ ;;
    .set 41423 3 (.endOf (.var 4 /-ident-/) (.ptr .Ident)) /-engineEnd-/ ;;
    .ite 41424 (.matchKinds [(.str b!"(")])
      (.call 41425 .parseFunctionParams [.pos] [6, 7] ;;
      .ite 41426 (.not (.isNil (.var 7 /-err-/)))
        (.ret 41427 [.nil, (.var 7 /-err-/)])
        .skip ;;
      .setF 41429 2 [3] (.var 6 /-params-/) /-engineExpr.Params-/ ;;
      .setF 41430 2 [1] (.endOf (.var 6 /-params-/) (.ptr .ParamExprList)) /-engineExpr.EngineEnd-/)
      .skip)
    (.ret 41433 [.nil, (.error b!"unexpected token: %s" [.curKind])]) ;;
  .loop
    (.ite 41436 (.not .isEOF)
      .skip
      .brk ;;
    .ite 41438 (.matchKw (.str b!"ORDER"))
      (.call 41439 .tryParseTableOrderByClause [.pos] [8, 9] ;;
      .ite 41440 (.not (.isNil (.var 9 /-err-/)))
        (.ret 41441 [.nil, (.var 9 /-err-/)])
        .skip ;;
      .setF 41443 2 [9] (.var 8 /-orderBy-/) /-engineExpr.OrderBy-/ ;;
      .set 41444 3 (.endOf (.var 8 /-orderBy-/) (.ptr .OrderByClause)) /-engineEnd-/)
      (.ite 41445 (.matchKw (.str b!"PARTITION"))
        (.call 41446 .tryParsePartitionByClause [.pos] [10, 11] ;;
        .ite 41447 (.not (.isNil (.var 11 /-err-/)))
          (.ret 41448 [.nil, (.var 11 /-err-/)])
          .skip ;;
        .setF 41450 2 [5] (.var 10 /-partitionBy-/) /-engineExpr.PartitionBy-/ ;;
        .set 41451 3 (.endOf (.var 10 /-partitionBy-/) (.ptr .PartitionByClause)) /-engineEnd-/)
        (.ite 41452 (.matchKw (.str b!"PRIMARY"))
          (.call 41453 .tryParsePrimaryKeyClause [.pos] [12, 13] ;;
          .ite 41454 (.not (.isNil (.var 13 /-err-/)))
            (.ret 41455 [.nil, (.var 13 /-err-/)])
            .skip ;;
          .setF 41457 2 [4] (.var 12 /-primaryKey-/) /-engineExpr.PrimaryKey-/ ;;
          .set 41458 3 (.endOf (.var 12 /-primaryKey-/) (.ptr .PrimaryKeyClause)) /-engineEnd-/)
          (.ite 41459 (.matchKw (.str b!"SAMPLE"))
            (.call 41460 .tryParseSampleByClause [.pos] [14, 15] ;;
            .ite 41461 (.not (.isNil (.var 15 /-err-/)))
              (.ret 41462 [.nil, (.var 15 /-err-/)])
              .skip ;;
            .setF 41464 2 [6] (.var 14 /-sampleBy-/) /-engineExpr.SampleBy-/ ;;
            .set 41465 3 (.endOf (.var 14 /-sampleBy-/) (.ptr .SampleByClause)) /-engineEnd-/)
            (.ite 41466 (.matchKw (.str b!"TTL"))
              (.call 41467 .tryParseTTLClause [.pos, (.bool true)] [16, 17] ;;
              .ite 41468 (.not (.isNil (.var 17 /-err-/)))
                (.ret 41469 [.nil, (.var 17 /-err-/)])
                .skip ;;
              .setF 41471 2 [7] (.var 16 /-ttl-/) /-engineExpr.TTL-/ ;;
              .set 41472 3 (.endOf (.var 16 /-ttl-/) (.ptr .TTLClause)) /-engineEnd-/)
              (.ite 41473 (.matchKw (.str b!"SETTINGS"))
                (.call 41474 .tryParseSettingsClause [.pos] [18, 19] ;;
                .ite 41475 (.not (.isNil (.var 19 /-err-/)))
                  (.ret 41476 [.nil, (.var 19 /-err-/)])
                  .skip ;;
                .setF 41478 2 [8] (.var 18 /-settingsClause-/) /-engineExpr.Settings-/ ;;
                .set 41479 3 (.endOf (.var 18 /-settingsClause-/) (.ptr .SettingsClause)) /-engineEnd-/)
                (.setF 41481 2 [1] (.var 3 /-engineEnd-/) /-engineExpr.EngineEnd-/ ;;
                .ret 41482 [(.var 2 /-engineExpr-/), .nil]))))))) ;;
  .setF 41485 2 [1] (.var 3 /-engineEnd-/) /-engineExpr.EngineEnd-/ ;;
  .ret 41486 [(.var 2 /-engineExpr-/), .nil]⟩

/-- `parseStmt`, parser/parser_table.go:1489-1546. -/
def parseStmt : Func Fn := ⟨3,
  .set 41490 1 .nil /-err-/ ;;
  .set 41491 2 .nil /-expr-/ ;;
  .ite 41493 (.or (.or (.or (.or (.or (.or (.matchKw (.str b!"CREATE")) (.matchKw (.str b!"ATTACH"))) (.matchKw (.str b!"ALTER"))) (.matchKw (.str b!"DROP"))) (.matchKw (.str b!"DETACH"))) (.matchKw (.str b!"TRUNCATE"))) (.matchKw (.str b!"RENAME")))
    (.call 41500 .parseDDL [(.var 0 /-pos-/)] [2, 1])
    (.ite 41501 (.or (.matchKw (.str b!"SELECT")) (.matchKw (.str b!"WITH")))
      (.call 41502 .parseSelectQuery [(.var 0 /-pos-/)] [2, 1])
      (.ite 41503 (.matchKw (.str b!"DELETE"))
        (.call 41504 .parseDeleteClause [(.var 0 /-pos-/)] [2, 1])
        (.ite 41505 (.matchKw (.str b!"INSERT"))
          (.call 41506 .parseInsertStmt [.pos] [2, 1])
          (.ite 41507 (.matchKw (.str b!"USE"))
            (.call 41508 .parseUseStmt [(.var 0 /-pos-/)] [2, 1])
            (.ite 41509 (.matchKw (.str b!"SET"))
              (.call 41510 .parseSetStmt [(.var 0 /-pos-/)] [2, 1])
              (.ite 41511 (.matchKw (.str b!"SETTINGS"))
                (.call 41512 .parseSettingsStmt [(.var 0 /-pos-/)] [2, 1])
                (.ite 41513 (.matchKw (.str b!"SYSTEM"))
                  (.call 41514 .parseSystemStmt [(.var 0 /-pos-/)] [2, 1])
                  (.ite 41515 (.matchKw (.str b!"OPTIMIZE"))
                    (.call 41516 .parseOptimizeStmt [(.var 0 /-pos-/)] [2, 1])
                    (.ite 41517 (.matchKw (.str b!"CHECK"))
                      (.call 41518 .parseCheckStmt [(.var 0 /-pos-/)] [2, 1])
                      (.ite 41519 (.matchKw (.str b!"EXPLAIN"))
                        (.call 41520 .parseExplainStmt [(.var 0 /-pos-/)] [2, 1])
                        (.ite 41521 (.matchKw (.str b!"GRANT"))
                          (.call 41522 .parseGrantPrivilegeStmt [(.var 0 /-pos-/)] [2, 1])
                          (.ite 41523 (.matchKw (.str b!"SHOW"))
                            (.call 41524 .parseShowStmt [(.var 0 /-pos-/)] [2, 1])
                            (.ite 41525 (.or (.matchKw (.str b!"DESC")) (.matchKw (.str b!"DESCRIBE")))
                              (.call 41526 .parseDescribeStmt [(.var 0 /-pos-/)] [2, 1])
                              (.ite 41528 (.isNil .cur)
                                (.ret 41529 [.nil, (.error b!"unexpected end of input" [])])
                                .skip ;;
                              .ret 41531 [.nil, (.error b!"unexpected token: %q" [.curString])])))))))))))))) ;;
  .ite 41533 (.not (.isNil (.var 1 /-err-/)))
    (.ret 41534 [.nil, (.var 1 /-err-/)])
    .skip ;;
  .call 41536 .tryParseFormat [.pos] [9999, 1] ;;
  .ite 41537 (.not (.isNil (.var 1 /-err-/)))
    (.ret 41538 [.nil, (.var 1 /-err-/)])
    .skip ;;
  .ite 41542 (.and (.not (.isNil .cur)) (.not (.matchKinds [(.str b!";")])))
    (.ret 41543 [.nil, (.error b!"<EOF> or ';' was expected, but got: %q" [.curString])])
    .skip ;;
  .ret 41545 [(.var 2 /-expr-/), .nil]⟩

/-- `ParseStmts`, parser/parser_table.go:1548-1567. -/
def ParseStmts : Func Fn := ⟨6,
  .set 41549 0 .nil /-stmts-/ ;;
  .loop
    (.prim 41551 .consume [1] ;;
    .ite 41551 (.not (.isNil (.var 1 /-err-/)))
      (.prim 41552 (.wrap (.var 1 /-err-/)) [2] ;;
      .ret 41552 [.nil, (.var 2 /-tmp-/)])
      .skip ;;
    .ite 41554 .isEOF
      .brk
      .skip ;;
    .ite 41557 (.matchKinds [(.str b!";")])
      .cont
      .skip ;;
    .call 41560 .parseStmt [.pos] [3, 4] ;;
    .ite 41561 (.not (.isNil (.var 4 /-err-/)))
      (.prim 41562 (.wrap (.var 4 /-err-/)) [5] ;;
      .ret 41562 [.nil, (.var 5 /-tmp-/)])
      .skip ;;
    .set 41564 0 (.append (.var 0 /-stmts-/) (.var 3 /-stmt-/)) /-stmts-/) ;;
  .ret 41566 [(.var 0 /-stmts-/), .nil]⟩

/-- `parseUseStmt`, parser/parser_table.go:1569-1584. -/
def parseUseStmt : Func Fn := ⟨4,
  .prim 41570 (.expectKw (.str b!"USE")) [1] ;;
  .ite 41570 (.not (.isNil (.var 1 /-err-/)))
    (.ret 41571 [.nil, (.var 1 /-err-/)])
    .skip ;;
  .call 41574 .parseIdent [] [2, 3] ;;
  .ite 41575 (.not (.isNil (.var 3 /-err-/)))
    (.ret 41576 [.nil, (.var 3 /-err-/)])
    .skip ;;
  .ret 41579 [(.mk .UseStmt [(.var 0 /-pos-/) /-UsePos-/, (.endOf (.var 2 /-database-/) (.ptr .Ident)) /-StatementEnd-/, (.var 2 /-database-/) /-Database-/]), .nil]⟩

/-- `parseShowStmt`, parser/parser_table.go:1586-1711. -/
def parseShowStmt : Func Fn := ⟨18,
  .prim 41587 (.expectKw (.str b!"SHOW")) [1] ;;
  .ite 41587 (.not (.isNil (.var 1 /-err-/)))
    (.ret 41588 [.nil, (.var 1 /-err-/)])
    .skip ;;
  .set 41591 2 (.str []) /-showType-/ ;;
  .set 41592 3 .nil /-target-/ ;;
  .ite 41596 (.matchKw (.str b!"CREATE"))
    (.set 41598 2 (.str b!"CREATE") /-showType-/ ;;
    .prim 41599 .consume [9999] ;;
    .prim 41601 (.expectKw (.str b!"TABLE")) [4] ;;
    .ite 41601 (.not (.isNil (.var 4 /-err-/)))
      (.ret 41602 [.nil, (.var 4 /-err-/)])
      .skip ;;
    .set 41604 2 (.cat (.var 2 /-showType-/) (.str b!" TABLE")) /-showType-/ ;;
    .call 41606 .parseTableIdentifier [.pos] [5, 6] ;;
    .ite 41607 (.not (.isNil (.var 6 /-err-/)))
      (.ret 41608 [.nil, (.var 6 /-err-/)])
      .skip ;;
    .set 41610 3 (.var 5 /-tableIdent-/) /-target-/)
    (.ite 41612 (.matchKw (.str b!"DATABASES"))
      (.set 41614 2 (.str b!"DATABASES") /-showType-/ ;;
      .prim 41615 .consume [9999])
      (.ite 41617 (.matchKw (.str b!"TABLES"))
        (.set 41619 2 (.str b!"TABLES") /-showType-/ ;;
        .prim 41620 .consume [9999])
        (.ret 41623 [.nil, (.error b!"expected CREATE, DATABASES, or TABLES after SHOW, got %q" [.curString])]))) ;;
  .set 41626 7 (.mk .ShowStmt [(.var 0 /-pos-/) /-ShowPos-/, (.nat 0) /-StatementEnd-/, (.var 2 /-showType-/) /-ShowType-/, (.var 3 /-target-/) /-Target-/, (.bool false) /-NotLike-/, (.str []) /-LikeType-/, .nil /-LikePattern-/, .nil /-Limit-/, .nil /-OutFile-/, .nil /-Format-/]) /-stmt-/ ;;
  .ite 41633 (.eqStr (.var 2 /-showType-/) (.str b!"DATABASES"))
    (.ite 41635 (.matchKw (.str b!"NOT"))
      (.setF 41636 7 [4] (.bool true) /-stmt.NotLike-/ ;;
      .prim 41637 .consume [9999])
      .skip ;;
    .ite 41640 (.or (.matchKw (.str b!"LIKE")) (.matchKw (.str b!"ILIKE")))
      (.ite 41641 (.matchKw (.str b!"LIKE"))
        (.setF 41642 7 [5] (.str b!"LIKE") /-stmt.LikeType-/)
        (.setF 41644 7 [5] (.str b!"ILIKE") /-stmt.LikeType-/) ;;
      .prim 41646 .consume [9999] ;;
      .call 41649 .parseExpr [.pos] [8, 9] ;;
      .ite 41650 (.not (.isNil (.var 9 /-err-/)))
        (.ret 41651 [.nil, (.var 9 /-err-/)])
        .skip ;;
      .setF 41653 7 [6] (.var 8 /-pattern-/) /-stmt.LikePattern-/)
      .skip ;;
    .ite 41657 (.matchKw (.str b!"LIMIT"))
      (.prim 41658 .consume [9999] ;;
      .call 41659 .parseExpr [.pos] [10, 11] ;;
      .ite 41660 (.not (.isNil (.var 11 /-err-/)))
        (.ret 41661 [.nil, (.var 11 /-err-/)])
        .skip ;;
      .setF 41663 7 [7] (.var 10 /-limit-/) /-stmt.Limit-/)
      .skip ;;
    .ite 41667 (.matchKw (.str b!"INTO"))
      (.prim 41668 .consume [9999] ;;
      .prim 41669 (.expectKw (.str b!"OUTFILE")) [12] ;;
      .ite 41669 (.not (.isNil (.var 12 /-err-/)))
        (.ret 41670 [.nil, (.var 12 /-err-/)])
        .skip ;;
      .call 41674 .parseString [.pos] [13, 14] ;;
      .ite 41675 (.not (.isNil (.var 14 /-err-/)))
        (.ret 41676 [.nil, (.var 14 /-err-/)])
        .skip ;;
      .setF 41678 7 [8] (.var 13 /-outFile-/) /-stmt.OutFile-/)
      .skip ;;
    .ite 41682 (.matchKw (.str b!"FORMAT"))
      (.prim 41683 .consume [9999] ;;
      .ite 41686 (.matchKinds [(.str b!"<string>")])
        (.call 41687 .parseString [.pos] [15, 16] ;;
        .ite 41688 (.not (.isNil (.var 16 /-err-/)))
          (.ret 41689 [.nil, (.var 16 /-err-/)])
          .skip ;;
        .setF 41691 7 [9] (.var 15 /-format-/) /-stmt.Format-/)
        (.ite 41692 (.matchKinds [(.str b!"<ident>")])
          (.set 41694 17 .cur /-token-/ ;;
          .prim 41695 .consume [9999] ;;
          .setF 41696 7 [9] (.mk .StringLiteral [(.fld (.var 17 /-token-/) 0 /-Pos-/) /-LiteralPos-/, (.fld (.var 17 /-token-/) 1 /-End-/) /-LiteralEnd-/, (.fld (.var 17 /-token-/) 3 /-String-/) /-Literal-/]) /-stmt.Format-/)
          (.ret 41702 [.nil, (.error b!"expected format specification after FORMAT, got %q" [.curString])])))
      .skip)
    .skip ;;
  .setF 41708 7 [1] .end_ /-stmt.StatementEnd-/ ;;
  .ret 41710 [(.var 7 /-stmt-/), .nil]⟩

/-- `parseDescribeStmt`, parser/parser_table.go:1713-1738. -/
def parseDescribeStmt : Func Fn := ⟨4,
  .ite 41715 (.and (.not (.matchKw (.str b!"DESC"))) (.not (.matchKw (.str b!"DESCRIBE"))))
    (.ret 41716 [.nil, (.error b!"expected DESC or DESCRIBE" [])])
    .skip ;;
  .prim 41718 .consume [9999] ;;
  .set 41721 1 (.str []) /-describeType-/ ;;
  .ite 41722 (.matchKw (.str b!"TABLE"))
    (.prim 41723 .consume [9999] ;;
    .set 41724 1 (.str b!"TABLE") /-describeType-/)
    .skip ;;
  .call 41727 .parseTableIdentifier [.pos] [2, 3] ;;
  .ite 41728 (.not (.isNil (.var 3 /-err-/)))
    (.ret 41729 [.nil, (.var 3 /-err-/)])
    .skip ;;
  .ret 41732 [(.mk .DescribeStmt [(.var 0 /-pos-/) /-DescribePos-/, (.endOf (.var 2 /-tableIdent-/) (.ptr .TableIdentifier)) /-StatementEnd-/, (.var 1 /-describeType-/) /-DescribeType-/, (.var 2 /-tableIdent-/) /-Target-/]), .nil]⟩

/-- `parseTruncateTable`, parser/parser_table.go:1741-1781. -/
def parseTruncateTable : Func Fn := ⟨9,
  .prim 41742 (.expectKw (.str b!"TRUNCATE")) [1] ;;
  .ite 41742 (.not (.isNil (.var 1 /-err-/)))
    (.ret 41743 [.nil, (.var 1 /-err-/)])
    .skip ;;
  .prim 41746 (.tryKws [b!"TEMPORARY"]) [2] ;;
  .prim 41748 (.expectKw (.str b!"TABLE")) [3] ;;
  .ite 41748 (.not (.isNil (.var 3 /-err-/)))
    (.ret 41749 [.nil, (.var 3 /-err-/)])
    .skip ;;
  .call 41752 .tryParseIfExists [] [4, 5] ;;
  .ite 41753 (.not (.isNil (.var 5 /-err-/)))
    (.ret 41754 [.nil, (.var 5 /-err-/)])
    .skip ;;
  .call 41757 .parseTableIdentifier [.pos] [6, 5] ;;
  .ite 41758 (.not (.isNil (.var 5 /-err-/)))
    (.ret 41759 [.nil, (.var 5 /-err-/)])
    .skip ;;
  .call 41762 .tryParseClusterClause [.pos] [7, 5] ;;
  .ite 41763 (.not (.isNil (.var 5 /-err-/)))
    (.ret 41764 [.nil, (.var 5 /-err-/)])
    .skip ;;
  .set 41767 8 (.mk .TruncateTable [(.var 0 /-pos-/) /-TruncatePos-/, (.endOf (.var 6 /-tableName-/) (.ptr .TableIdentifier)) /-StatementEnd-/, (.var 2 /-isTemporary-/) /-IsTemporary-/, (.var 4 /-ifExists-/) /-IfExists-/, (.var 6 /-tableName-/) /-Name-/, (.var 7 /-onCluster-/) /-OnCluster-/]) /-truncateTable-/ ;;
  .ite 41776 (.not (.isNil (.var 7 /-onCluster-/)))
    (.setF 41777 8 [1] (.endOf (.var 7 /-onCluster-/) (.ptr .ClusterClause)) /-truncateTable.StatementEnd-/)
    .skip ;;
  .ret 41780 [(.var 8 /-truncateTable-/), .nil]⟩

/-- `parseDeleteClause`, parser/parser_table.go:1783-1813. -/
def parseDeleteClause : Func Fn := ⟨8,
  .prim 41784 (.expectKw (.str b!"DELETE")) [1] ;;
  .ite 41784 (.not (.isNil (.var 1 /-err-/)))
    (.ret 41785 [.nil, (.var 1 /-err-/)])
    .skip ;;
  .prim 41787 (.expectKw (.str b!"FROM")) [2] ;;
  .ite 41787 (.not (.isNil (.var 2 /-err-/)))
    (.ret 41788 [.nil, (.var 2 /-err-/)])
    .skip ;;
  .call 41790 .parseTableIdentifier [.pos] [3, 4] ;;
  .ite 41791 (.not (.isNil (.var 4 /-err-/)))
    (.ret 41792 [.nil, (.var 4 /-err-/)])
    .skip ;;
  .call 41794 .tryParseClusterClause [.pos] [5, 4] ;;
  .ite 41795 (.not (.isNil (.var 4 /-err-/)))
    (.ret 41796 [.nil, (.var 4 /-err-/)])
    .skip ;;
  .prim 41799 (.expectKw (.str b!"WHERE")) [6] ;;
  .ite 41799 (.not (.isNil (.var 6 /-err-/)))
    (.ret 41800 [.nil, (.var 6 /-err-/)])
    .skip ;;
  .call 41802 .parseExpr [.pos] [7, 4] ;;
  .ite 41803 (.not (.isNil (.var 4 /-err-/)))
    (.ret 41804 [.nil, (.var 4 /-err-/)])
    .skip ;;
  .ret 41807 [(.mk .DeleteClause [(.var 0 /-pos-/) /-DeletePos-/, (.var 3 /-tableIdentifier-/) /-Table-/, (.var 5 /-onCluster-/) /-OnCluster-/, (.var 7 /-whereExpr-/) /-WhereExpr-/]), .nil]⟩

/-- `parseColumnNamesExpr`, parser/parser_table.go:1815-1841. -/
def parseColumnNamesExpr : Func Fn := ⟨10,
  .prim 41816 (.expectKind (.str b!"(")) [1] ;;
  .ite 41816 (.not (.isNil (.var 1 /-err-/)))
    (.ret 41817 [.nil, (.var 1 /-err-/)])
    .skip ;;
  .set 41820 2 .nil /-columnNames-/ ;;
  .loop
    (.set 41821 3 (.not .isEOF) ;;
    .ite 41821 (.var 3 /-cond-/)
      (.prim 41821 (.tryKind (.str b!")")) [4] ;;
      .set 41821 3 (.isNil (.var 4 /-tmp-/)))
      .skip ;;
    .ite 41821 (.var 3 /-cond-/)
      .skip
      .brk ;;
    .call 41822 .ParseNestedIdentifier [.pos] [5, 6] ;;
    .ite 41823 (.not (.isNil (.var 6 /-err-/)))
      (.ret 41824 [.nil, (.var 6 /-err-/)])
      .skip ;;
    .set 41827 2 (.append (.var 2 /-columnNames-/) (.deref (.var 5 /-name-/))) /-columnNames-/ ;;
    .prim 41828 (.tryKind (.str b!",")) [7] ;;
    .ite 41828 (.isNil (.var 7 /-tmp-/))
      .brk
      .skip) ;;
  .set 41832 8 .pos /-rightParenPos-/ ;;
  .prim 41833 (.expectKind (.str b!")")) [9] ;;
  .ite 41833 (.not (.isNil (.var 9 /-err-/)))
    (.ret 41834 [.nil, (.var 9 /-err-/)])
    .skip ;;
  .ret 41836 [(.mk .ColumnNamesExpr [(.var 0 /-pos-/) /-LeftParenPos-/, (.var 8 /-rightParenPos-/) /-RightParenPos-/, (.var 2 /-columnNames-/) /-ColumnNames-/]), .nil]⟩

/-- `parseTypedPlaceholder`, parser/parser_table.go:1843-1869. -/
def parseTypedPlaceholder : Func Fn := ⟨7,
  .prim 41844 (.expectKind (.str b!"{")) [1] ;;
  .ite 41844 (.not (.isNil (.var 1 /-err-/)))
    (.ret 41845 [.nil, (.var 1 /-err-/)])
    .skip ;;
  .call 41848 .parseIdent [] [2, 3] ;;
  .ite 41849 (.not (.isNil (.var 3 /-err-/)))
    (.ret 41850 [.nil, (.var 3 /-err-/)])
    .skip ;;
  .prim 41852 (.expectKind (.str b!":")) [4] ;;
  .ite 41852 (.not (.isNil (.var 4 /-err-/)))
    (.ret 41853 [.nil, (.var 4 /-err-/)])
    .skip ;;
  .call 41855 .parseColumnType [.pos] [5, 3] ;;
  .ite 41856 (.not (.isNil (.var 3 /-err-/)))
    (.ret 41857 [.nil, (.var 3 /-err-/)])
    .skip ;;
  .prim 41860 (.expectKind (.str b!"}")) [6] ;;
  .ite 41860 (.not (.isNil (.var 6 /-err-/)))
    (.ret 41861 [.nil, (.var 6 /-err-/)])
    .skip ;;
  .ret 41863 [(.mk .TypedPlaceholder [(.var 0 /-pos-/) /-LeftBracePos-/, .pos /-RightBracePos-/, (.var 2 /-name-/) /-Name-/, (.var 5 /-columnType-/) /-Type-/]), .nil]⟩

/-- `parseAssignmentValues`, parser/parser_table.go:1871-1907. -/
def parseAssignmentValues : Func Fn := ⟨10,
  .prim 41872 (.expectKind (.str b!"(")) [1] ;;
  .ite 41872 (.not (.isNil (.var 1 /-err-/)))
    (.ret 41873 [.nil, (.var 1 /-err-/)])
    .skip ;;
  .set 41876 2 .nil /-value-/ ;;
  .set 41877 3 .nil /-err-/ ;;
  .set 41878 4 .empty /-values-/ ;;
  .loop
    (.set 41879 5 (.not .isEOF) ;;
    .ite 41879 (.var 5 /-cond-/)
      (.prim 41879 (.tryKind (.str b!")")) [6] ;;
      .set 41879 5 (.isNil (.var 6 /-tmp-/)))
      .skip ;;
    .ite 41879 (.var 5 /-cond-/)
      .skip
      .brk ;;
    .ite 41881 (.matchKinds [(.str b!"(")])
      (.call 41882 .parseAssignmentValues [.pos] [2, 3])
      (.ite 41883 (.matchKinds [(.str b!"{")])
        (.call 41885 .parseTypedPlaceholder [.pos] [2, 3])
        (.call 41887 .parseExpr [.pos] [2, 3])) ;;
    .ite 41889 (.not (.isNil (.var 3 /-err-/)))
      (.ret 41890 [.nil, (.var 3 /-err-/)])
      .skip ;;
    .set 41892 4 (.append (.var 4 /-values-/) (.var 2 /-value-/)) /-values-/ ;;
    .prim 41893 (.tryKind (.str b!",")) [7] ;;
    .ite 41893 (.isNil (.var 7 /-tmp-/))
      .brk
      .skip) ;;
  .set 41897 8 .pos /-rightParenPos-/ ;;
  .prim 41898 (.expectKind (.str b!")")) [9] ;;
  .ite 41898 (.not (.isNil (.var 9 /-err-/)))
    (.ret 41899 [.nil, (.var 9 /-err-/)])
    .skip ;;
  .ret 41902 [(.mk .AssignmentValues [(.var 0 /-pos-/) /-LeftParenPos-/, (.var 8 /-rightParenPos-/) /-RightParenPos-/, (.var 4 /-values-/) /-Values-/]), .nil]⟩

/-- `parseInsertStmt`, parser/parser_table.go:1909-1968. -/
def parseInsertStmt : Func Fn := ⟨18,
  .prim 41910 (.expectKw (.str b!"INSERT")) [1] ;;
  .ite 41910 (.not (.isNil (.var 1 /-err-/)))
    (.ret 41911 [.nil, (.var 1 /-err-/)])
    .skip ;;
  .prim 41913 (.expectKw (.str b!"INTO")) [2] ;;
  .ite 41913 (.not (.isNil (.var 2 /-err-/)))
    (.ret 41914 [.nil, (.var 2 /-err-/)])
    .skip ;;
  .set 41917 3 (.mk .InsertStmt [(.var 0 /-pos-/) /-InsertPos-/, .nil /-Format-/, (.bool false) /-HasTableKeyword-/, .nil /-Table-/, .nil /-ColumnNames-/, .nil /-Values-/, .nil /-SelectExpr-/]) /-insertExpr-/ ;;
  .prim 41918 (.tryKws [b!"TABLE"]) [4] ;;
  .setF 41918 3 [2] (.var 4 /-tmp-/) /-insertExpr.HasTableKeyword-/ ;;
  .set 41920 5 .nil /-table-/ ;;
  .set 41921 6 .nil /-err-/ ;;
  .prim 41922 (.tryKws [b!"FUNCTION"]) [7] ;;
  .ite 41922 (.var 7 /-tmp-/)
    (.call 41923 .parseFunctionExpr [.pos] [5, 6])
    (.call 41925 .parseTableIdentifier [.pos] [5, 6]) ;;
  .ite 41927 (.not (.isNil (.var 6 /-err-/)))
    (.ret 41928 [.nil, (.var 6 /-err-/)])
    .skip ;;
  .setF 41930 3 [3] (.var 5 /-table-/) /-insertExpr.Table-/ ;;
  .ite 41932 (.matchKinds [(.str b!"(")])
    (.call 41934 .parseColumnNamesExpr [.pos] [8, 9] ;;
    .setF 41934 3 [4] (.var 8 /-tmp-/) /-insertExpr.ColumnNames-/ ;;
    .set 41934 6 (.var 9 /-tmp-/) /-err-/ ;;
    .ite 41935 (.not (.isNil (.var 6 /-err-/)))
      (.ret 41936 [.nil, (.var 6 /-err-/)])
      .skip)
    .skip ;;
  .ite 41941 (.matchKw (.str b!"FORMAT"))
    (.call 41942 .parseFormat [.pos] [10, 11] ;;
    .setF 41942 3 [1] (.var 10 /-tmp-/) /-insertExpr.Format-/ ;;
    .set 41942 6 (.var 11 /-tmp-/) /-err-/)
    (.ite 41943 (.matchKw (.str b!"VALUES"))
      (.prim 41945 .consume [9999] ;;
      .set 41946 12 .empty /-values-/ ;;
      .loop
        (.ite 41947 (.not .isEOF)
          .skip
          .brk ;;
        .call 41948 .parseAssignmentValues [.pos] [13, 14] ;;
        .ite 41949 (.not (.isNil (.var 14 /-err-/)))
          (.ret 41950 [.nil, (.var 14 /-err-/)])
          .skip ;;
        .set 41952 12 (.append (.var 12 /-values-/) (.var 13 /-value-/)) /-values-/ ;;
        .prim 41953 (.tryKind (.str b!",")) [15] ;;
        .ite 41953 (.isNil (.var 15 /-tmp-/))
          .brk
          .skip) ;;
      .setF 41957 3 [5] (.var 12 /-values-/) /-insertExpr.Values-/)
      (.ite 41958 (.matchKw (.str b!"SELECT"))
        (.call 41959 .parseSelectQuery [.pos] [16, 17] ;;
        .setF 41959 3 [6] (.var 16 /-tmp-/) /-insertExpr.SelectExpr-/ ;;
        .set 41959 6 (.var 17 /-tmp-/) /-err-/)
        .skip)) ;;
  .ite 41964 (.not (.isNil (.var 6 /-err-/)))
    (.ret 41965 [.nil, (.var 6 /-err-/)])
    .skip ;;
  .ret 41967 [(.var 3 /-insertExpr-/), .nil]⟩

/-- `parseRenameStmt`, parser/parser_table.go:1970-2018. -/
def parseRenameStmt : Func Fn := ⟨14,
  .prim 41971 (.expectKw (.str b!"RENAME")) [1] ;;
  .ite 41971 (.not (.isNil (.var 1 /-err-/)))
    (.ret 41972 [.nil, (.var 1 /-err-/)])
    .skip ;;
  .set 41975 2 (.str b!"TABLE") /-renameTarget-/ ;;
  .prim 41977 (.tryKws [b!"DICTIONARY"]) [3] ;;
  .ite 41977 (.var 3 /-tmp-/)
    (.set 41978 2 (.str b!"DICTIONARY") /-renameTarget-/)
    (.prim 41979 (.tryKws [b!"DATABASE"]) [4] ;;
    .ite 41979 (.var 4 /-tmp-/)
      (.set 41980 2 (.str b!"DATABASE") /-renameTarget-/)
      (.prim 41982 (.expectKw (.str b!"TABLE")) [5] ;;
      .ite 41982 (.not (.isNil (.var 5 /-err-/)))
        (.ret 41983 [.nil, (.var 5 /-err-/)])
        .skip)) ;;
  .call 41987 .parseTargetPair [.pos] [6, 7] ;;
  .ite 41988 (.not (.isNil (.var 7 /-err-/)))
    (.ret 41989 [.nil, (.var 7 /-err-/)])
    .skip ;;
  .set 41991 8 (.append .empty (.var 6 /-targetPair-/)) /-tablePairList-/ ;;
  .loop
    (.prim 41992 (.tryKind (.str b!",")) [9] ;;
    .ite 41992 (.not (.isNil (.var 9 /-tmp-/)))
      .skip
      .brk ;;
    .call 41993 .parseTargetPair [.pos] [10, 11] ;;
    .ite 41994 (.not (.isNil (.var 11 /-err-/)))
      (.ret 41995 [.nil, (.var 11 /-err-/)])
      .skip ;;
    .set 41997 8 (.append (.var 8 /-tablePairList-/) (.var 10 /-tablePair-/)) /-tablePairList-/) ;;
  .set 42000 12 (.mk .RenameStmt [(.var 0 /-pos-/) /-RenamePos-/, (.endOf (.last (.var 8 /-tablePairList-/)) (.ptr .TargetPair)) /-StatementEnd-/, (.var 2 /-renameTarget-/) /-RenameTarget-/, (.var 8 /-tablePairList-/) /-TargetPairList-/, .nil /-OnCluster-/]) /-renameStmt-/ ;;
  .call 42008 .tryParseClusterClause [.pos] [13, 7] ;;
  .ite 42009 (.not (.isNil (.var 7 /-err-/)))
    (.ret 42010 [.nil, (.var 7 /-err-/)])
    .skip ;;
  .ite 42012 (.not (.isNil (.var 13 /-onCluster-/)))
    (.setF 42013 12 [4] (.var 13 /-onCluster-/) /-renameStmt.OnCluster-/ ;;
    .setF 42014 12 [1] (.endOf (.var 13 /-onCluster-/) (.ptr .ClusterClause)) /-renameStmt.StatementEnd-/)
    .skip ;;
  .ret 42017 [(.var 12 /-renameStmt-/), .nil]⟩

/-- `parseTargetPair`, parser/parser_table.go:2020-2037. -/
def parseTargetPair : Func Fn := ⟨4,
  .call 42021 .parseTableIdentifier [.pos] [1, 2] ;;
  .ite 42022 (.not (.isNil (.var 2 /-err-/)))
    (.ret 42023 [.nil, (.var 2 /-err-/)])
    .skip ;;
  .prim 42025 (.expectKw (.str b!"TO")) [2] ;;
  .ite 42025 (.not (.isNil (.var 2 /-err-/)))
    (.ret 42026 [.nil, (.var 2 /-err-/)])
    .skip ;;
  .call 42028 .parseTableIdentifier [.pos] [3, 2] ;;
  .ite 42029 (.not (.isNil (.var 2 /-err-/)))
    (.ret 42030 [.nil, (.var 2 /-err-/)])
    .skip ;;
  .ret 42033 [(.mk .TargetPair [(.var 1 /-oldTable-/) /-Old-/, (.var 3 /-newTable-/) /-New-/]), .nil]⟩

/-- `parseCreateFunction`, parser/parser_table.go:2039-2078. -/
def parseCreateFunction : Func Fn := ⟨11,
  .prim 42040 (.expectKw (.str b!"FUNCTION")) [2] ;;
  .ite 42040 (.not (.isNil (.var 2 /-err-/)))
    (.ret 42041 [.nil, (.var 2 /-err-/)])
    .skip ;;
  .call 42043 .tryParseIfNotExists [] [3, 4] ;;
  .ite 42044 (.not (.isNil (.var 4 /-err-/)))
    (.ret 42045 [.nil, (.var 4 /-err-/)])
    .skip ;;
  .call 42047 .parseIdent [] [5, 4] ;;
  .ite 42048 (.not (.isNil (.var 4 /-err-/)))
    (.ret 42049 [.nil, (.var 4 /-err-/)])
    .skip ;;
  .call 42051 .tryParseClusterClause [.pos] [6, 4] ;;
  .ite 42052 (.not (.isNil (.var 4 /-err-/)))
    (.ret 42053 [.nil, (.var 4 /-err-/)])
    .skip ;;
  .prim 42055 (.expectKw (.str b!"AS")) [7] ;;
  .ite 42055 (.not (.isNil (.var 7 /-err-/)))
    (.ret 42056 [.nil, (.var 7 /-err-/)])
    .skip ;;
  .call 42058 .parseFunctionParams [.pos] [8, 4] ;;
  .ite 42059 (.not (.isNil (.var 4 /-err-/)))
    (.ret 42060 [.nil, (.var 4 /-err-/)])
    .skip ;;
  .prim 42062 (.expectKind (.str b!"->")) [9] ;;
  .ite 42062 (.not (.isNil (.var 9 /-err-/)))
    (.ret 42063 [.nil, (.var 9 /-err-/)])
    .skip ;;
  .call 42065 .parseExpr [.pos] [10, 4] ;;
  .ite 42066 (.not (.isNil (.var 4 /-err-/)))
    (.ret 42067 [.nil, (.var 4 /-err-/)])
    .skip ;;
  .ret 42069 [(.mk .CreateFunction [(.var 0 /-pos-/) /-CreatePos-/, (.var 1 /-orReplace-/) /-OrReplace-/, (.var 3 /-ifNotExists-/) /-IfNotExists-/, (.var 5 /-functionName-/) /-FunctionName-/, (.var 6 /-onCluster-/) /-OnCluster-/, (.var 8 /-params-/) /-Params-/, (.var 10 /-expr-/) /-Expr-/]), .nil]⟩

/-- `parseDictionarySchemaClause`, parser/parser_table.go:2082-2114. -/
def parseDictionarySchemaClause : Func Fn := ⟨10,
  .prim 42083 (.expectKind (.str b!"(")) [1] ;;
  .ite 42083 (.not (.isNil (.var 1 /-err-/)))
    (.ret 42084 [.nil, (.var 1 /-err-/)])
    .skip ;;
  .set 42087 2 (.mk .DictionarySchemaClause [(.var 0 /-pos-/) /-SchemaPos-/, .nil /-Attributes-/, (.nat 0) /-RParenPos-/]) /-schema-/ ;;
  .call 42092 .parseDictionaryAttribute [.pos] [3, 4] ;;
  .ite 42093 (.not (.isNil (.var 4 /-err-/)))
    (.ret 42094 [.nil, (.var 4 /-err-/)])
    .skip ;;
  .setF 42096 2 [1] (.append (.fld (.var 2 /-schema-/) 1 /-Attributes-/) (.var 3 /-attr-/)) /-schema.Attributes-/ ;;
  .loop
    (.prim 42099 (.tryKind (.str b!",")) [5] ;;
    .ite 42099 (.not (.isNil (.var 5 /-tmp-/)))
      .skip
      .brk ;;
    .call 42100 .parseDictionaryAttribute [.pos] [6, 7] ;;
    .ite 42101 (.not (.isNil (.var 7 /-err-/)))
      (.ret 42102 [.nil, (.var 7 /-err-/)])
      .skip ;;
    .setF 42104 2 [1] (.append (.fld (.var 2 /-schema-/) 1 /-Attributes-/) (.var 6 /-attr-/)) /-schema.Attributes-/) ;;
  .set 42107 8 .pos /-rParenPos-/ ;;
  .prim 42108 (.expectKind (.str b!")")) [9] ;;
  .ite 42108 (.not (.isNil (.var 9 /-err-/)))
    (.ret 42109 [.nil, (.var 9 /-err-/)])
    .skip ;;
  .setF 42111 2 [2] (.var 8 /-rParenPos-/) /-schema.RParenPos-/ ;;
  .ret 42113 [(.var 2 /-schema-/), .nil]⟩

/-- `parseDictionaryAttribute`, parser/parser_table.go:2116-2183. -/
def parseDictionaryAttribute : Func Fn := ⟨15,
  .call 42117 .parseIdent [] [1, 2] ;;
  .ite 42118 (.not (.isNil (.var 2 /-err-/)))
    (.ret 42119 [.nil, (.var 2 /-err-/)])
    .skip ;;
  .call 42122 .parseColumnType [.pos] [3, 2] ;;
  .ite 42123 (.not (.isNil (.var 2 /-err-/)))
    (.ret 42124 [.nil, (.var 2 /-err-/)])
    .skip ;;
  .set 42127 4 (.mk .DictionaryAttribute [(.var 0 /-pos-/) /-NamePos-/, (.endOf (.var 3 /-columnType-/) .iface) /-AttrEnd-/, (.var 1 /-name-/) /-Name-/, (.var 3 /-columnType-/) /-Type-/, .nil /-Default-/, .nil /-Expression-/, (.bool false) /-Hierarchical-/, (.bool false) /-Injective-/, (.bool false) /-IsObjectId-/]) /-attr-/ ;;
  .loop
    (.set 42138 5 .end_ /-keywordEnd-/ ;;
    .prim 42140 (.tryKws [b!"DEFAULT"]) [6] ;;
    .ite 42140 (.var 6 /-tmp-/)
      (.ite 42141 (.not (.isNil (.fld (.var 4 /-attr-/) 4 /-Default-/)))
        (.ret 42142 [.nil, (.error b!"duplicate DEFAULT clause" [])])
        .skip ;;
      .call 42144 .parseLiteral [.pos] [7, 8] ;;
      .ite 42145 (.not (.isNil (.var 8 /-err-/)))
        (.ret 42146 [.nil, (.var 8 /-err-/)])
        .skip ;;
      .setF 42148 4 [4] (.var 7 /-literal-/) /-attr.Default-/ ;;
      .setF 42149 4 [1] (.endOf (.var 7 /-literal-/) .iface) /-attr.AttrEnd-/)
      (.prim 42150 (.tryKws [b!"EXPRESSION"]) [9] ;;
      .ite 42150 (.var 9 /-tmp-/)
        (.ite 42151 (.not (.isNil (.fld (.var 4 /-attr-/) 5 /-Expression-/)))
          (.ret 42152 [.nil, (.error b!"duplicate EXPRESSION clause" [])])
          .skip ;;
        .call 42154 .parseExpr [.pos] [10, 11] ;;
        .ite 42155 (.not (.isNil (.var 11 /-err-/)))
          (.ret 42156 [.nil, (.var 11 /-err-/)])
          .skip ;;
        .setF 42158 4 [5] (.var 10 /-expr-/) /-attr.Expression-/ ;;
        .setF 42159 4 [1] (.endOf (.var 10 /-expr-/) .iface) /-attr.AttrEnd-/)
        (.prim 42160 (.tryKws [b!"HIERARCHICAL"]) [12] ;;
        .ite 42160 (.var 12 /-tmp-/)
          (.ite 42161 (.fld (.var 4 /-attr-/) 6 /-Hierarchical-/)
            (.ret 42162 [.nil, (.error b!"duplicate HIERARCHICAL clause" [])])
            .skip ;;
          .setF 42164 4 [6] (.bool true) /-attr.Hierarchical-/ ;;
          .setF 42165 4 [1] (.var 5 /-keywordEnd-/) /-attr.AttrEnd-/)
          (.prim 42166 (.tryKws [b!"INJECTIVE"]) [13] ;;
          .ite 42166 (.var 13 /-tmp-/)
            (.ite 42167 (.fld (.var 4 /-attr-/) 7 /-Injective-/)
              (.ret 42168 [.nil, (.error b!"duplicate INJECTIVE clause" [])])
              .skip ;;
            .setF 42170 4 [7] (.bool true) /-attr.Injective-/ ;;
            .setF 42171 4 [1] (.var 5 /-keywordEnd-/) /-attr.AttrEnd-/)
            (.prim 42172 (.tryKws [b!"IS_OBJECT_ID"]) [14] ;;
            .ite 42172 (.var 14 /-tmp-/)
              (.ite 42173 (.fld (.var 4 /-attr-/) 8 /-IsObjectId-/)
                (.ret 42174 [.nil, (.error b!"duplicate IS_OBJECT_ID clause" [])])
                .skip ;;
              .setF 42176 4 [8] (.bool true) /-attr.IsObjectId-/ ;;
              .setF 42177 4 [1] (.var 5 /-keywordEnd-/) /-attr.AttrEnd-/)
              (.ret 42180 [(.var 4 /-attr-/), .nil]))))))⟩

/-- `parseDictionaryEngineClause`, parser/parser_table.go:2185-2255. -/
def parseDictionaryEngineClause : Func Fn := ⟨14,
  .set 42186 1 (.mk .DictionaryEngineClause [(.var 0 /-pos-/) /-EnginePos-/, .nil /-PrimaryKey-/, .nil /-Source-/, .nil /-Lifetime-/, .nil /-Layout-/, .nil /-Range-/, .nil /-Settings-/]) /-engine-/ ;;
  .ite 42191 (.matchKw (.str b!"PRIMARY"))
    (.call 42192 .parseDictionaryPrimaryKeyClause [.pos] [2, 3] ;;
    .ite 42193 (.not (.isNil (.var 3 /-err-/)))
      (.ret 42194 [.nil, (.var 3 /-err-/)])
      .skip ;;
    .setF 42196 1 [1] (.var 2 /-primaryKey-/) /-engine.PrimaryKey-/)
    .skip ;;
  .loop
    (.ite 42202 (.matchKw (.str b!"SOURCE"))
      (.ite 42203 (.not (.isNil (.fld (.var 1 /-engine-/) 2 /-Source-/)))
        (.ret 42204 [.nil, (.error b!"duplicate SOURCE clause" [])])
        .skip ;;
      .call 42206 .parseDictionarySourceClause [.pos] [4, 5] ;;
      .ite 42207 (.not (.isNil (.var 5 /-err-/)))
        (.ret 42208 [.nil, (.var 5 /-err-/)])
        .skip ;;
      .setF 42210 1 [2] (.var 4 /-source-/) /-engine.Source-/)
      (.ite 42211 (.matchKw (.str b!"LIFETIME"))
        (.ite 42212 (.not (.isNil (.fld (.var 1 /-engine-/) 3 /-Lifetime-/)))
          (.ret 42213 [.nil, (.error b!"duplicate LIFETIME clause" [])])
          .skip ;;
        .call 42215 .parseDictionaryLifetimeClause [.pos] [6, 7] ;;
        .ite 42216 (.not (.isNil (.var 7 /-err-/)))
          (.ret 42217 [.nil, (.var 7 /-err-/)])
          .skip ;;
        .setF 42219 1 [3] (.var 6 /-lifetime-/) /-engine.Lifetime-/)
        (.ite 42220 (.matchKw (.str b!"LAYOUT"))
          (.ite 42221 (.not (.isNil (.fld (.var 1 /-engine-/) 4 /-Layout-/)))
            (.ret 42222 [.nil, (.error b!"duplicate LAYOUT clause" [])])
            .skip ;;
          .call 42224 .parseDictionaryLayoutClause [.pos] [8, 9] ;;
          .ite 42225 (.not (.isNil (.var 9 /-err-/)))
            (.ret 42226 [.nil, (.var 9 /-err-/)])
            .skip ;;
          .setF 42228 1 [4] (.var 8 /-layout-/) /-engine.Layout-/)
          (.ite 42229 (.matchKw (.str b!"RANGE"))
            (.ite 42230 (.not (.isNil (.fld (.var 1 /-engine-/) 5 /-Range-/)))
              (.ret 42231 [.nil, (.error b!"duplicate RANGE clause" [])])
              .skip ;;
            .call 42233 .parseDictionaryRangeClause [.pos] [10, 11] ;;
            .ite 42234 (.not (.isNil (.var 11 /-err-/)))
              (.ret 42235 [.nil, (.var 11 /-err-/)])
              .skip ;;
            .setF 42237 1 [5] (.var 10 /-rangeClause-/) /-engine.Range-/)
            (.ite 42238 (.matchKw (.str b!"SETTINGS"))
              (.ite 42239 (.not (.isNil (.fld (.var 1 /-engine-/) 6 /-Settings-/)))
                (.ret 42240 [.nil, (.error b!"duplicate SETTINGS clause" [])])
                .skip ;;
              .call 42242 .parseDictionarySettingsClause [.pos] [12, 13] ;;
              .ite 42243 (.not (.isNil (.var 13 /-err-/)))
                (.ret 42244 [.nil, (.var 13 /-err-/)])
                .skip ;;
              .setF 42246 1 [6] (.var 12 /-settings-/) /-engine.Settings-/)
              (.ite 42249 (.isNil (.fld (.var 1 /-engine-/) 2 /-Source-/))
                (.ret 42250 [.nil, (.error b!"SOURCE clause is required for dictionary" [])])
                .skip ;;
              .ret 42252 [(.var 1 /-engine-/), .nil]))))))⟩

/-- `parseDictionaryPrimaryKeyClause`, parser/parser_table.go:2257-2275. -/
def parseDictionaryPrimaryKeyClause : Func Fn := ⟨5,
  .prim 42258 (.expectKw (.str b!"PRIMARY")) [1] ;;
  .ite 42258 (.not (.isNil (.var 1 /-err-/)))
    (.ret 42259 [.nil, (.var 1 /-err-/)])
    .skip ;;
  .prim 42261 (.expectKw (.str b!"KEY")) [2] ;;
  .ite 42261 (.not (.isNil (.var 2 /-err-/)))
    (.ret 42262 [.nil, (.var 2 /-err-/)])
    .skip ;;
  .call 42265 .parseColumnExprList [.pos] [3, 4] ;;
  .ite 42266 (.not (.isNil (.var 4 /-err-/)))
    (.ret 42267 [.nil, (.var 4 /-err-/)])
    .skip ;;
  .ret 42270 [(.mk .DictionaryPrimaryKeyClause [(.var 0 /-pos-/) /-PrimaryKeyPos-/, (.var 3 /-keys-/) /-Keys-/, (.sub (.endOf (.var 3 /-keys-/) (.ptr .ColumnExprList)) (.nat 1)) /-RParenPos-/]), .nil]⟩

/-- `parseDictionarySourceClause`, parser/parser_table.go:2277-2315. -/
def parseDictionarySourceClause : Func Fn := ⟨10,
  .prim 42278 (.expectKw (.str b!"SOURCE")) [1] ;;
  .ite 42278 (.not (.isNil (.var 1 /-err-/)))
    (.ret 42279 [.nil, (.var 1 /-err-/)])
    .skip ;;
  .prim 42282 (.expectKind (.str b!"(")) [2] ;;
  .ite 42282 (.not (.isNil (.var 2 /-err-/)))
    (.ret 42283 [.nil, (.var 2 /-err-/)])
    .skip ;;
  .call 42286 .parseIdent [] [3, 4] ;;
  .ite 42287 (.not (.isNil (.var 4 /-err-/)))
    (.ret 42288 [.nil, (.var 4 /-err-/)])
    .skip ;;
  .prim 42291 (.expectKind (.str b!"(")) [5] ;;
  .ite 42291 (.not (.isNil (.var 5 /-err-/)))
    (.ret 42292 [.nil, (.var 5 /-err-/)])
    .skip ;;
  .call 42295 .parseDictionaryArgExprs [] [6, 4] ;;
  .ite 42296 (.not (.isNil (.var 4 /-err-/)))
    (.ret 42297 [.nil, (.var 4 /-err-/)])
    .skip ;;
  .prim 42300 (.expectKind (.str b!")")) [7] ;;
  .ite 42300 (.not (.isNil (.var 7 /-err-/)))
    (.ret 42301 [.nil, (.var 7 /-err-/)])
    .skip ;;
  .set 42304 8 .pos /-rParenPos-/ ;;
  .prim 42305 (.expectKind (.str b!")")) [9] ;;
  .ite 42305 (.not (.isNil (.var 9 /-err-/)))
    (.ret 42306 [.nil, (.var 9 /-err-/)])
    .skip ;;
  .ret 42309 [(.mk .DictionarySourceClause [(.var 0 /-pos-/) /-SourcePos-/, (.var 3 /-sourceName-/) /-Source-/, (.var 6 /-args-/) /-Args-/, (.var 8 /-rParenPos-/) /-RParenPos-/]), .nil]⟩

/-- `parseDictionaryArgExprs`, parser/parser_table.go:2320-2330. -/
def parseDictionaryArgExprs : Func Fn := ⟨3,
  .set 42321 0 .nil /-args-/ ;;
  .loop
    (.ite 42322 (.not (.matchKinds [(.str b!")")]))
      .skip
      .brk ;;
    .call 42323 .parseDictionaryArgExpr [.pos] [1, 2] ;;
    .ite 42324 (.not (.isNil (.var 2 /-err-/)))
      (.ret 42325 [.nil, (.var 2 /-err-/)])
      .skip ;;
    .set 42327 0 (.append (.var 0 /-args-/) (.var 1 /-arg-/)) /-args-/) ;;
  .ret 42329 [(.var 0 /-args-/), .nil]⟩

/-- `parseDictionaryArgExpr`, parser/parser_table.go:2332-2406. -/
def parseDictionaryArgExpr : Func Fn := ⟨16,
  .call 42335 .parseAnyKeyword [] [1, 2] ;;
  .ite 42336 (.not (.isNil (.var 2 /-err-/)))
    (.ret 42337 [.nil, (.var 2 /-err-/)])
    .skip ;;
  .ite 42342 (.matchKinds [(.str b!"(")])
    (.set 42343 3 .pos /-lParenPos-/ ;;
    .prim 42344 .consume [9999] ;;
    .call 42346 .parseDictionaryArgExprs [] [4, 5] ;;
    .ite 42347 (.not (.isNil (.var 5 /-err-/)))
      (.ret 42348 [.nil, (.var 5 /-err-/)])
      .skip ;;
    .set 42351 6 .pos /-rParenPos-/ ;;
    .prim 42352 (.expectKind (.str b!")")) [7] ;;
    .ite 42352 (.not (.isNil (.var 7 /-err-/)))
      (.ret 42353 [.nil, (.var 7 /-err-/)])
      .skip ;;
    .ret 42356 [(.mk .DictionaryArgExpr [(.var 0 /-pos-/) /-ArgPos-/, (.var 1 /-name-/) /-Name-/, .nil /-Value-/, (.var 4 /-args-/) /-Args-/, (.var 3 /-lParenPos-/) /-LParenPos-/, (.var 6 /-rParenPos-/) /-RParenPos-/]), .nil])
    .skip ;;
  .set 42365 8 .nil /-value-/ ;;
  .ite 42368 (.matchKinds [(.str b!"<string>")])
    (.call 42369 .parseLiteral [.pos] [9, 10] ;;
    .ite 42370 (.not (.isNil (.var 10 /-err-/)))
      (.ret 42371 [.nil, (.var 10 /-err-/)])
      .skip ;;
    .set 42373 8 (.var 9 /-literal-/) /-value-/)
    (.ite 42374 (.or (.matchKinds [(.str b!"<int>")]) (.matchKinds [(.str b!"<float>")]))
      (.call 42375 .parseLiteral [.pos] [11, 12] ;;
      .ite 42376 (.not (.isNil (.var 12 /-err-/)))
        (.ret 42377 [.nil, (.var 12 /-err-/)])
        .skip ;;
      .set 42379 8 (.var 11 /-literal-/) /-value-/)
      (.ite 42380 (.matchKinds [(.str b!"<ident>")])
        (.call 42381 .parseIdent [] [13, 14] ;;
        .ite 42382 (.not (.isNil (.var 14 /-err-/)))
          (.ret 42383 [.nil, (.var 14 /-err-/)])
          .skip ;;
        .ite 42386 (.matchKinds [(.str b!"(")])
          (.prim 42387 .consume [9999] ;;
          .prim 42388 (.expectKind (.str b!")")) [15] ;;
          .ite 42388 (.not (.isNil (.var 15 /-err-/)))
            (.ret 42389 [.nil, (.var 15 /-err-/)])
            .skip ;;
          .set 42391 8 (.mk .FunctionExpr [(.var 13 /-ident-/) /-Name-/, .nil /-Params-/]) /-value-/)
          (.set 42395 8 (.var 13 /-ident-/) /-value-/))
        (.ret 42398 [.nil, (.error b!"expected identifier, string or number in dictionary argument, got %s" [.curKind])]))) ;;
  .ret 42401 [(.mk .DictionaryArgExpr [(.var 0 /-pos-/) /-ArgPos-/, (.var 1 /-name-/) /-Name-/, (.var 8 /-value-/) /-Value-/, .nil /-Args-/, (.nat 0) /-LParenPos-/, (.nat 0) /-RParenPos-/]), .nil]⟩

/-- `parseDictionaryLifetimeClause`, parser/parser_table.go:2408-2470. -/
def parseDictionaryLifetimeClause : Func Fn := ⟨14,
  .prim 42409 (.expectKw (.str b!"LIFETIME")) [1] ;;
  .ite 42409 (.not (.isNil (.var 1 /-err-/)))
    (.ret 42410 [.nil, (.var 1 /-err-/)])
    .skip ;;
  .prim 42413 (.expectKind (.str b!"(")) [2] ;;
  .ite 42413 (.not (.isNil (.var 2 /-err-/)))
    (.ret 42414 [.nil, (.var 2 /-err-/)])
    .skip ;;
  .set 42417 3 (.mk .DictionaryLifetimeClause [(.var 0 /-pos-/) /-LifetimePos-/, .nil /-Min-/, .nil /-Max-/, .nil /-Value-/, (.nat 0) /-RParenPos-/]) /-lifetime-/ ;;
  .ite 42422 (.or (.matchKw (.str b!"MIN")) (.matchKw (.str b!"MAX")))
    (.set 42423 4 (.matchKw (.str b!"MIN")) /-isMinFirst-/ ;;
    .prim 42424 .consume [9999] ;;
    .call 42426 .parseNumber [.pos] [5, 6] ;;
    .ite 42427 (.not (.isNil (.var 6 /-err-/)))
      (.ret 42428 [.nil, (.var 6 /-err-/)])
      .skip ;;
    .ite 42432 (.var 4 /-isMinFirst-/)
      (.prim 42433 (.expectKw (.str b!"MAX")) [7] ;;
      .ite 42433 (.not (.isNil (.var 7 /-err-/)))
        (.ret 42434 [.nil, (.var 7 /-err-/)])
        .skip)
      (.prim 42437 (.expectKw (.str b!"MIN")) [8] ;;
      .ite 42437 (.not (.isNil (.var 8 /-err-/)))
        (.ret 42438 [.nil, (.var 8 /-err-/)])
        .skip) ;;
    .call 42442 .parseNumber [.pos] [9, 6] ;;
    .ite 42443 (.not (.isNil (.var 6 /-err-/)))
      (.ret 42444 [.nil, (.var 6 /-err-/)])
      .skip ;;
    .ite 42447 (.var 4 /-isMinFirst-/)
      (.setF 42448 3 [1] (.var 5 /-first-/) /-lifetime.Min-/ ;;
      .setF 42449 3 [2] (.var 9 /-second-/) /-lifetime.Max-/)
      (.setF 42451 3 [1] (.var 9 /-second-/) /-lifetime.Min-/ ;;
      .setF 42452 3 [2] (.var 5 /-first-/) /-lifetime.Max-/))
    (.call 42456 .parseNumber [.pos] [10, 11] ;;
    .ite 42457 (.not (.isNil (.var 11 /-err-/)))
      (.ret 42458 [.nil, (.var 11 /-err-/)])
      .skip ;;
    .setF 42460 3 [3] (.var 10 /-value-/) /-lifetime.Value-/) ;;
  .set 42463 12 .pos /-rParenPos-/ ;;
  .prim 42464 (.expectKind (.str b!")")) [13] ;;
  .ite 42464 (.not (.isNil (.var 13 /-err-/)))
    (.ret 42465 [.nil, (.var 13 /-err-/)])
    .skip ;;
  .setF 42467 3 [4] (.var 12 /-rParenPos-/) /-lifetime.RParenPos-/ ;;
  .ret 42469 [(.var 3 /-lifetime-/), .nil]⟩

/-- `parseDictionaryLayoutClause`, parser/parser_table.go:2472-2510. -/
def parseDictionaryLayoutClause : Func Fn := ⟨10,
  .prim 42473 (.expectKw (.str b!"LAYOUT")) [1] ;;
  .ite 42473 (.not (.isNil (.var 1 /-err-/)))
    (.ret 42474 [.nil, (.var 1 /-err-/)])
    .skip ;;
  .prim 42477 (.expectKind (.str b!"(")) [2] ;;
  .ite 42477 (.not (.isNil (.var 2 /-err-/)))
    (.ret 42478 [.nil, (.var 2 /-err-/)])
    .skip ;;
  .call 42481 .parseIdent [] [3, 4] ;;
  .ite 42482 (.not (.isNil (.var 4 /-err-/)))
    (.ret 42483 [.nil, (.var 4 /-err-/)])
    .skip ;;
  .prim 42486 (.expectKind (.str b!"(")) [5] ;;
  .ite 42486 (.not (.isNil (.var 5 /-err-/)))
    (.ret 42487 [.nil, (.var 5 /-err-/)])
    .skip ;;
  .call 42490 .parseDictionaryArgExprs [] [6, 4] ;;
  .ite 42491 (.not (.isNil (.var 4 /-err-/)))
    (.ret 42492 [.nil, (.var 4 /-err-/)])
    .skip ;;
  .prim 42495 (.expectKind (.str b!")")) [7] ;;
  .ite 42495 (.not (.isNil (.var 7 /-err-/)))
    (.ret 42496 [.nil, (.var 7 /-err-/)])
    .skip ;;
  .set 42499 8 .pos /-rParenPos-/ ;;
  .prim 42500 (.expectKind (.str b!")")) [9] ;;
  .ite 42500 (.not (.isNil (.var 9 /-err-/)))
    (.ret 42501 [.nil, (.var 9 /-err-/)])
    .skip ;;
  .ret 42504 [(.mk .DictionaryLayoutClause [(.var 0 /-pos-/) /-LayoutPos-/, (.var 3 /-layoutName-/) /-Layout-/, (.var 6 /-args-/) /-Args-/, (.var 8 /-rParenPos-/) /-RParenPos-/]), .nil]⟩

/-- `parseDictionaryRangeClause`, parser/parser_table.go:2512-2571. -/
def parseDictionaryRangeClause : Func Fn := ⟨16,
  .prim 42513 (.expectKw (.str b!"RANGE")) [1] ;;
  .ite 42513 (.not (.isNil (.var 1 /-err-/)))
    (.ret 42514 [.nil, (.var 1 /-err-/)])
    .skip ;;
  .prim 42517 (.expectKind (.str b!"(")) [2] ;;
  .ite 42517 (.not (.isNil (.var 2 /-err-/)))
    (.ret 42518 [.nil, (.var 2 /-err-/)])
    .skip ;;
  .set 42521 3 (.mk .DictionaryRangeClause [(.var 0 /-pos-/) /-RangePos-/, .nil /-Min-/, .nil /-Max-/, (.nat 0) /-RParenPos-/]) /-rangeClause-/ ;;
  .ite 42526 (.matchKw (.str b!"MIN"))
    (.prim 42527 (.expectKw (.str b!"MIN")) [4] ;;
    .ite 42527 (.not (.isNil (.var 4 /-err-/)))
      (.ret 42528 [.nil, (.var 4 /-err-/)])
      .skip ;;
    .call 42530 .parseIdent [] [5, 6] ;;
    .ite 42531 (.not (.isNil (.var 6 /-err-/)))
      (.ret 42532 [.nil, (.var 6 /-err-/)])
      .skip ;;
    .prim 42534 (.expectKw (.str b!"MAX")) [7] ;;
    .ite 42534 (.not (.isNil (.var 7 /-err-/)))
      (.ret 42535 [.nil, (.var 7 /-err-/)])
      .skip ;;
    .call 42537 .parseIdent [] [8, 6] ;;
    .ite 42538 (.not (.isNil (.var 6 /-err-/)))
      (.ret 42539 [.nil, (.var 6 /-err-/)])
      .skip ;;
    .setF 42541 3 [1] (.var 5 /-min-/) /-rangeClause.Min-/ ;;
    .setF 42542 3 [2] (.var 8 /-max-/) /-rangeClause.Max-/)
    (.ite 42543 (.matchKw (.str b!"MAX"))
      (.prim 42544 (.expectKw (.str b!"MAX")) [9] ;;
      .ite 42544 (.not (.isNil (.var 9 /-err-/)))
        (.ret 42545 [.nil, (.var 9 /-err-/)])
        .skip ;;
      .call 42547 .parseIdent [] [10, 11] ;;
      .ite 42548 (.not (.isNil (.var 11 /-err-/)))
        (.ret 42549 [.nil, (.var 11 /-err-/)])
        .skip ;;
      .prim 42551 (.expectKw (.str b!"MIN")) [12] ;;
      .ite 42551 (.not (.isNil (.var 12 /-err-/)))
        (.ret 42552 [.nil, (.var 12 /-err-/)])
        .skip ;;
      .call 42554 .parseIdent [] [13, 11] ;;
      .ite 42555 (.not (.isNil (.var 11 /-err-/)))
        (.ret 42556 [.nil, (.var 11 /-err-/)])
        .skip ;;
      .setF 42558 3 [1] (.var 13 /-min-/) /-rangeClause.Min-/ ;;
      .setF 42559 3 [2] (.var 10 /-max-/) /-rangeClause.Max-/)
      (.ret 42561 [.nil, (.error b!"expected MIN or MAX in RANGE clause" [])])) ;;
  .set 42564 14 .pos /-rParenPos-/ ;;
  .prim 42565 (.expectKind (.str b!")")) [15] ;;
  .ite 42565 (.not (.isNil (.var 15 /-err-/)))
    (.ret 42566 [.nil, (.var 15 /-err-/)])
    .skip ;;
  .setF 42568 3 [3] (.var 14 /-rParenPos-/) /-rangeClause.RParenPos-/ ;;
  .ret 42570 [(.var 3 /-rangeClause-/), .nil]⟩

/-- `parseDictionarySettingsClause`, parser/parser_table.go:2573-2610. -/
def parseDictionarySettingsClause : Func Fn := ⟨11,
  .prim 42574 (.expectKw (.str b!"SETTINGS")) [1] ;;
  .ite 42574 (.not (.isNil (.var 1 /-err-/)))
    (.ret 42575 [.nil, (.var 1 /-err-/)])
    .skip ;;
  .prim 42578 (.expectKind (.str b!"(")) [2] ;;
  .ite 42578 (.not (.isNil (.var 2 /-err-/)))
    (.ret 42579 [.nil, (.var 2 /-err-/)])
    .skip ;;
  .set 42582 3 (.mk .SettingsClause [(.var 0 /-pos-/) /-SettingsPos-/, (.var 0 /-pos-/) /-ListEnd-/, .nil /-Items-/]) /-settings-/ ;;
  .set 42583 4 .empty /-items-/ ;;
  .call 42585 .parseSettingsExpr [.pos] [5, 6] ;;
  .ite 42586 (.not (.isNil (.var 6 /-err-/)))
    (.ret 42587 [.nil, (.var 6 /-err-/)])
    .skip ;;
  .set 42589 4 (.append (.var 4 /-items-/) (.var 5 /-expr-/)) /-items-/ ;;
  .loop
    (.prim 42592 (.tryKind (.str b!",")) [7] ;;
    .ite 42592 (.not (.isNil (.var 7 /-tmp-/)))
      .skip
      .brk ;;
    .call 42593 .parseSettingsExpr [.pos] [8, 9] ;;
    .ite 42594 (.not (.isNil (.var 9 /-err-/)))
      (.ret 42595 [.nil, (.var 9 /-err-/)])
      .skip ;;
    .set 42597 4 (.append (.var 4 /-items-/) (.var 8 /-expr-/)) /-items-/) ;;
  .ite 42600 (.lt (.nat 0) (.len (.var 4 /-items-/)))
    (.setF 42601 3 [1] (.endOf (.last (.var 4 /-items-/)) (.ptr .SettingExpr)) /-settings.ListEnd-/)
    .skip ;;
  .setF 42603 3 [2] (.var 4 /-items-/) /-settings.Items-/ ;;
  .prim 42605 (.expectKind (.str b!")")) [10] ;;
  .ite 42605 (.not (.isNil (.var 10 /-err-/)))
    (.ret 42606 [.nil, (.var 10 /-err-/)])
    .skip ;;
  .ret 42609 [(.var 3 /-settings-/), .nil]⟩

end Verif.Body

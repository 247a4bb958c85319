/-
The methods of parser/parser_column.go.
Written by tools/genparser.py from the Go text.
-/
import Verif.Parser.Lang
import Verif.Parser.Fn

namespace Verif.Body

/-- `tryParseColumnComment`, parser/parser_column.go:32-37. -/
def tryParseColumnComment : Func Fn := ⟨4,
  .prim 30033 (.tryKws [b!"COMMENT"]) [1] ;;
  .ite 30033 (.not (.var 1 /-tmp-/))
    (.ret 30034 [.nil, .nil])
    .skip ;;
  .call 30036 .parseString [(.var 0 /-pos-/)] [2, 3] ;;
  .ret 30036 [(.var 2 /-tmp-/), (.var 3 /-tmp-/)]⟩

/-- `getNextPrecedence`, parser/parser_column.go:39-94. -/
def getNextPrecedence : Func Fn := ⟨7,
  .ite 30041 (.matchKw (.str b!"OR"))
    (.ret 30042 [(.nat 3)])
    (.ite 30043 (.matchKw (.str b!"AND"))
      (.ret 30044 [(.nat 4)])
      (.ite 30045 (.matchKw (.str b!"IS"))
        (.ret 30046 [(.nat 7)])
        (.ite 30047 (.matchKw (.str b!"NOT"))
          (.call 30052 .peekKeyword [(.str b!"IN")] [0] ;;
          .ite 30052 (.var 0 /-tmp-/)
            (.ret 30053 [(.nat 10)])
            (.call 30054 .peekKeyword [(.str b!"LIKE")] [3] ;;
            .set 30054 2 (.var 3 /-tmp-/) ;;
            .ite 30054 (.var 2 /-cond-/)
              .skip
              (.call 30054 .peekKeyword [(.str b!"ILIKE")] [4] ;;
              .set 30054 2 (.var 4 /-tmp-/)) ;;
            .set 30054 1 (.var 2 /-cond-/) ;;
            .ite 30054 (.var 1 /-cond-/)
              .skip
              (.call 30054 .peekKeyword [(.str b!"BETWEEN")] [5] ;;
              .set 30054 1 (.var 5 /-tmp-/)) ;;
            .ite 30054 (.var 1 /-cond-/)
              (.ret 30055 [(.nat 9)])
              (.ret 30057 [(.nat 5)])))
          (.ite 30059 (.matchKinds [(.str b!".")])
            (.ret 30060 [(.nat 15)])
            (.ite 30061 (.matchKinds [(.str b!"::")])
              (.ret 30062 [(.nat 16)])
              (.ite 30063 (.or (.or (.or (.or (.or (.or (.or (.matchKinds [(.str b!"=")]) (.matchKinds [(.str b!"<")])) (.matchKinds [(.str b!"<=")])) (.matchKinds [(.str b!">=")])) (.matchKinds [(.str b!">")])) (.matchKinds [(.str b!"==")])) (.matchKinds [(.str b!"!=")])) (.matchKinds [(.str b!"<>")]))
                (.ret 30066 [(.nat 8)])
                (.ite 30067 (.matchKinds [(.str b!"||")])
                  (.ret 30068 [(.nat 11)])
                  (.ite 30069 (.or (.matchKinds [(.str b!"+")]) (.matchKinds [(.str b!"-")]))
                    (.ret 30070 [(.nat 12)])
                    (.ite 30071 (.or (.or (.matchKinds [(.str b!"*")]) (.matchKinds [(.str b!"/")])) (.matchKinds [(.str b!"%")]))
                      (.ret 30072 [(.nat 13)])
                      (.ite 30073 (.matchKinds [(.str b!"->")])
                        (.ret 30074 [(.nat 1)])
                        (.ite 30075 (.or (.matchKinds [(.str b!"(")]) (.matchKinds [(.str b!"[")]))
                          (.ret 30076 [(.nat 14)])
                          (.ite 30077 (.or (.or (.or (.matchKw (.str b!"BETWEEN")) (.matchKw (.str b!"LIKE"))) (.matchKw (.str b!"ILIKE"))) (.matchKw (.str b!"REGEXP")))
                            (.ret 30078 [(.nat 9)])
                            (.ite 30079 (.matchKw (.str b!"IN"))
                              (.ret 30080 [(.nat 10)])
                              (.ite 30081 (.matchKw (.str b!"GLOBAL"))
                                (.call 30084 .peekJoinAfterLocality [] [6] ;;
                                .ite 30084 (.var 6 /-tmp-/)
                                  (.ret 30085 [(.nat 0)])
                                  .skip ;;
                                .ret 30088 [(.nat 10)])
                                (.ite 30089 (.matchKinds [(.str b!"?")])
                                  (.ret 30090 [(.nat 2)])
                                  (.ret 30092 [(.nat 0)]))))))))))))))))⟩

/-- `parseInfix`, parser/parser_column.go:96-267. -/
def parseInfix : Func Fn := ⟨34,
  .ite 30098 (.or (.or (.or (.or (.or (.or (.or (.or (.or (.or (.or (.or (.or (.or (.or (.or (.or (.or (.or (.matchKinds [(.str b!"=")]) (.matchKinds [(.str b!"<")])) (.matchKinds [(.str b!"<=")])) (.matchKinds [(.str b!">=")])) (.matchKinds [(.str b!">")])) (.matchKinds [(.str b!"!=")])) (.matchKinds [(.str b!"<>")])) (.matchKinds [(.str b!"-")])) (.matchKinds [(.str b!"+")])) (.matchKinds [(.str b!"*")])) (.matchKinds [(.str b!"/")])) (.matchKinds [(.str b!"%")])) (.matchKinds [(.str b!"||")])) (.matchKw (.str b!"IN"))) (.matchKw (.str b!"LIKE"))) (.matchKw (.str b!"ILIKE"))) (.matchKw (.str b!"REGEXP"))) (.matchKw (.str b!"AND"))) (.matchKw (.str b!"OR"))) (.matchKinds [(.str b!"==")]))
    (.set 30107 2 (.tokText .cur) /-op-/ ;;
    .prim 30108 .consume [9999] ;;
    .call 30109 .parseSubExpr [.pos, (.var 1 /-precedence-/)] [3, 4] ;;
    .ite 30110 (.not (.isNil (.var 4 /-err-/)))
      (.ret 30111 [.nil, (.var 4 /-err-/)])
      .skip ;;
    .ret 30113 [(.mk .BinaryOperation [(.var 0 /-expr-/) /-LeftExpr-/, (.var 2 /-op-/) /-Operation-/, (.var 3 /-rightExpr-/) /-RightExpr-/, (.bool false) /-HasGlobal-/, (.bool false) /-HasNot-/]), .nil])
    (.ite 30118 (.matchKinds [(.str b!"->")])
      (.prim 30119 .consume [9999] ;;
      .call 30122 .parseSubExpr [.pos, (.sub (.var 1 /-precedence-/) (.nat 1))] [5, 6] ;;
      .ite 30123 (.not (.isNil (.var 6 /-err-/)))
        (.ret 30124 [.nil, (.var 6 /-err-/)])
        .skip ;;
      .ret 30126 [(.mk .BinaryOperation [(.var 0 /-expr-/) /-LeftExpr-/, (.str b!"->") /-Operation-/, (.var 5 /-rightExpr-/) /-RightExpr-/, (.bool false) /-HasGlobal-/, (.bool false) /-HasNot-/]), .nil])
      (.ite 30131 (.matchKinds [(.str b!"::")])
        (.prim 30132 .consume [9999] ;;
        .ite 30134 (.and (.matchKinds [(.str b!"<ident>")]) (.eqStr (.fld .cur 3 /-String-/) (.str b!"Tuple")))
          (.call 30135 .parseIdent [] [7, 8] ;;
          .ite 30136 (.not (.isNil (.var 8 /-err-/)))
            (.ret 30137 [.nil, (.var 8 /-err-/)])
            .skip ;;
          .prim 30139 (.expectKind (.str b!"(")) [9] ;;
          .ite 30139 (.not (.isNil (.var 9 /-err-/)))
            (.ret 30140 [.nil, (.var 9 /-err-/)])
            .skip ;;
          .call 30143 .parseNestedType [(.var 7 /-name-/), .pos] [10, 8] ;;
          .ite 30144 (.not (.isNil (.var 8 /-err-/)))
            (.ret 30145 [.nil, (.var 8 /-err-/)])
            .skip ;;
          .ret 30147 [(.mk .BinaryOperation [(.var 0 /-expr-/) /-LeftExpr-/, (.str b!"::") /-Operation-/, (.var 10 /-rightExpr-/) /-RightExpr-/, (.bool false) /-HasGlobal-/, (.bool false) /-HasNot-/]), .nil])
          .skip ;;
        .call 30154 .parseSubExpr [.pos, (.var 1 /-precedence-/)] [11, 12] ;;
        .ite 30155 (.not (.isNil (.var 12 /-err-/)))
          (.ret 30156 [.nil, (.var 12 /-err-/)])
          .skip ;;
        .ret 30158 [(.mk .BinaryOperation [(.var 0 /-expr-/) /-LeftExpr-/, (.str b!"::") /-Operation-/, (.var 11 /-rightExpr-/) /-RightExpr-/, (.bool false) /-HasGlobal-/, (.bool false) /-HasNot-/]), .nil])
        (.ite 30163 (.matchKw (.str b!"BETWEEN"))
          (.call 30164 .parseBetweenClause [(.var 0 /-expr-/), (.bool false)] [13, 14] ;;
          .ret 30164 [(.var 13 /-tmp-/), (.var 14 /-tmp-/)])
          (.ite 30165 (.matchKw (.str b!"GLOBAL"))
            (.prim 30166 .consume [9999] ;;
            .prim 30167 (.tryKws [b!"NOT"]) [15] ;;
            .prim 30168 (.expectKw (.str b!"IN")) [16] ;;
            .ite 30168 (.not (.isNil (.var 16 /-tmp-/)))
              (.ret 30169 [.nil, (.error b!"expected IN after GLOBAL, got %s" [.curString])])
              .skip ;;
            .call 30172 .parseSubExpr [.pos, (.var 1 /-precedence-/)] [17, 18] ;;
            .ite 30173 (.not (.isNil (.var 18 /-err-/)))
              (.ret 30174 [.nil, (.var 18 /-err-/)])
              .skip ;;
            .ret 30181 [(.mk .BinaryOperation [(.var 0 /-expr-/) /-LeftExpr-/, (.str b!"IN") /-Operation-/, (.var 17 /-rightExpr-/) /-RightExpr-/, (.bool true) /-HasGlobal-/, (.var 15 /-hasNot-/) /-HasNot-/]), .nil])
            (.ite 30188 (.matchKinds [(.str b!".")])
              (.prim 30189 .consume [9999] ;;
              .set 30191 19 .nil /-rightExpr-/ ;;
              .set 30192 20 .nil /-err-/ ;;
              .ite 30193 (.matchKinds [(.str b!"<ident>"), (.str b!"<keyword>")])
                (.call 30196 .parseAnyKeyword [] [19, 20])
                (.call 30198 .parseDecimal [.pos] [19, 20]) ;;
              .ite 30200 (.not (.isNil (.var 20 /-err-/)))
                (.ret 30201 [.nil, (.var 20 /-err-/)])
                .skip ;;
              .ret 30203 [(.mk .IndexOperation [(.var 0 /-expr-/) /-Object-/, (.str b!".") /-Operation-/, (.var 19 /-rightExpr-/) /-Index-/]), .nil])
              (.ite 30208 (.matchKw (.str b!"NOT"))
                (.prim 30209 .consume [9999] ;;
                .ite 30210 (.matchKw (.str b!"BETWEEN"))
                  (.call 30211 .parseBetweenClause [(.var 0 /-expr-/), (.bool true)] [21, 22] ;;
                  .ret 30211 [(.var 21 /-tmp-/), (.var 22 /-tmp-/)])
                  .skip ;;
                .ite 30214 (.matchKw (.str b!"IN"))
                  .skip
                  (.ite 30215 (.matchKw (.str b!"LIKE"))
                    .skip
                    (.ite 30216 (.matchKw (.str b!"ILIKE"))
                      .skip
                      (.ret 30218 [.nil, (.error b!"expected IN, LIKE, ILIKE or BETWEEN after NOT, got %s" [.curKind])]))) ;;
                .set 30220 23 (.tokText .cur) /-op-/ ;;
                .prim 30221 .consume [9999] ;;
                .call 30222 .parseSubExpr [.pos, (.var 1 /-precedence-/)] [24, 25] ;;
                .ite 30223 (.not (.isNil (.var 25 /-err-/)))
                  (.ret 30224 [.nil, (.var 25 /-err-/)])
                  .skip ;;
                .ret 30226 [(.mk .BinaryOperation [(.var 0 /-expr-/) /-LeftExpr-/, (.cat (.str b!"NOT ") (.var 23 /-op-/)) /-Operation-/, (.var 24 /-rightExpr-/) /-RightExpr-/, (.bool false) /-HasGlobal-/, (.bool false) /-HasNot-/]), .nil])
                (.ite 30231 (.matchKinds [(.str b!"[")])
                  (.call 30232 .parseArrayParams [.pos] [26, 27] ;;
                  .ite 30233 (.not (.isNil (.var 27 /-err-/)))
                    (.ret 30234 [.nil, (.var 27 /-err-/)])
                    .skip ;;
                  .ret 30236 [(.mk .ObjectParams [(.var 0 /-expr-/) /-Object-/, (.var 26 /-params-/) /-Params-/]), .nil])
                  (.ite 30240 (.matchKinds [(.str b!"?")])
                    (.call 30241 .parseTernaryExpr [(.var 0 /-expr-/)] [28, 29] ;;
                    .ret 30241 [(.var 28 /-tmp-/), (.var 29 /-tmp-/)])
                    (.ite 30242 (.matchKw (.str b!"IS"))
                      (.set 30243 30 .pos /-isPos-/ ;;
                      .prim 30244 .consume [9999] ;;
                      .prim 30245 (.tryKws [b!"NOT"]) [31] ;;
                      .set 30248 32 .end_ /-nullEnd-/ ;;
                      .prim 30249 (.expectKw (.str b!"NULL")) [33] ;;
                      .ite 30249 (.not (.isNil (.var 33 /-err-/)))
                        (.ret 30250 [.nil, (.var 33 /-err-/)])
                        .skip ;;
                      .ite 30252 (.var 31 /-isNotNull-/)
                        (.ret 30253 [(.mk .IsNotNullExpr [(.var 30 /-isPos-/) /-IsPos-/, (.var 32 /-nullEnd-/) /-NullEnd-/, (.var 0 /-expr-/) /-Expr-/]), .nil])
                        .skip ;;
                      .ret 30259 [(.mk .IsNullExpr [(.var 30 /-isPos-/) /-IsPos-/, (.var 32 /-nullEnd-/) /-NullEnd-/, (.var 0 /-expr-/) /-Expr-/]), .nil])
                      (.ret 30265 [.nil, (.error b!"unexpected token kind: %s" [.curKind])]))))))))))⟩

/-- `parseExpr`, parser/parser_column.go:269-271. -/
def parseExpr : Func Fn := ⟨3,
  .call 30270 .parseSubExpr [(.var 0 /-pos-/), (.nat 0)] [1, 2] ;;
  .ret 30270 [(.var 1 /-tmp-/), (.var 2 /-tmp-/)]⟩

/-- `parseSubExpr`, parser/parser_column.go:273-280. -/
def parseSubExpr : Func Fn := ⟨6,
  .call 30274 .parseUnaryExpr [(.var 0 /-pos-/)] [2, 3] ;;
  .ite 30275 (.not (.isNil (.var 3 /-err-/)))
    (.ret 30276 [.nil, (.var 3 /-err-/)])
    .skip ;;
  .call 30279 .parseInfixLoop [(.var 2 /-expr-/), (.var 1 /-precedence-/)] [4, 5] ;;
  .ret 30279 [(.var 4 /-tmp-/), (.var 5 /-tmp-/)]⟩

/-- `parseInfixLoop`, parser/parser_column.go:292-306. -/
def parseInfixLoop : Func Fn := ⟨4,
  .loop
    (.ite 30293 (.or (.not .isEOF) (.not (.isNil .cur)))
      .skip
      .brk ;;
    .call 30294 .getNextPrecedence [] [2] ;;
    .ite 30295 (.not (.lt (.var 1 /-precedence-/) (.var 2 /-nextPrecedence-/)))
      (.ret 30296 [(.var 0 /-expr-/), .nil])
      .skip ;;
    .set 30299 3 .nil /-err-/ ;;
    .call 30300 .parseInfix [(.var 0 /-expr-/), (.var 2 /-nextPrecedence-/)] [0, 3] ;;
    .ite 30301 (.not (.isNil (.var 3 /-err-/)))
      (.ret 30302 [.nil, (.var 3 /-err-/)])
      .skip) ;;
  .ret 30305 [(.var 0 /-expr-/), .nil]⟩

/-- `parseTernaryExpr`, parser/parser_column.go:308-328. -/
def parseTernaryExpr : Func Fn := ⟨6,
  .prim 30309 (.expectKind (.str b!"?")) [1] ;;
  .ite 30309 (.not (.isNil (.var 1 /-err-/)))
    (.ret 30310 [.nil, (.var 1 /-err-/)])
    .skip ;;
  .call 30312 .parseExpr [.pos] [2, 3] ;;
  .ite 30313 (.not (.isNil (.var 3 /-err-/)))
    (.ret 30314 [.nil, (.var 3 /-err-/)])
    .skip ;;
  .prim 30316 (.expectKind (.str b!":")) [4] ;;
  .ite 30316 (.not (.isNil (.var 4 /-err-/)))
    (.ret 30317 [.nil, (.var 4 /-err-/)])
    .skip ;;
  .call 30319 .parseExpr [.pos] [5, 3] ;;
  .ite 30320 (.not (.isNil (.var 3 /-err-/)))
    (.ret 30321 [.nil, (.var 3 /-err-/)])
    .skip ;;
  .ret 30323 [(.mk .TernaryOperation [(.var 0 /-condition-/) /-Condition-/, (.var 2 /-trueExpr-/) /-TrueExpr-/, (.var 5 /-falseExpr-/) /-FalseExpr-/]), .nil]⟩

/-- `parseExtractFrom`, parser/parser_column.go:330-345. -/
def parseExtractFrom : Func Fn := ⟨5,
  .set 30331 1 .pos /-fromPos-/ ;;
  .prim 30332 (.expectKw (.str b!"FROM")) [2] ;;
  .ite 30332 (.not (.isNil (.var 2 /-err-/)))
    (.ret 30333 [.nil, (.var 2 /-err-/)])
    .skip ;;
  .call 30336 .parseExpr [.pos] [3, 4] ;;
  .ite 30337 (.not (.isNil (.var 4 /-err-/)))
    (.ret 30338 [.nil, (.var 4 /-err-/)])
    .skip ;;
  .ret 30340 [(.mk .IntervalFrom [(.var 0 /-ident-/) /-Interval-/, (.var 1 /-fromPos-/) /-FromPos-/, (.var 3 /-expr-/) /-FromExpr-/]), .nil]⟩

/-- `parseColumnExtractExpr`, parser/parser_column.go:347-395. -/
def parseColumnExtractExpr : Func Fn := ⟨12,
  .prim 30348 (.expectKw (.str b!"EXTRACT")) [1] ;;
  .ite 30348 (.not (.isNil (.var 1 /-err-/)))
    (.ret 30349 [.nil, (.var 1 /-err-/)])
    .skip ;;
  .prim 30351 (.expectKind (.str b!"(")) [2] ;;
  .ite 30351 (.not (.isNil (.var 2 /-err-/)))
    (.ret 30352 [.nil, (.var 2 /-err-/)])
    .skip ;;
  .set 30355 3 .empty /-parameters-/ ;;
  .loop
    (.ite 30356 (.not .isEOF)
      .skip
      .brk ;;
    .call 30357 .parseExpr [.pos] [4, 5] ;;
    .ite 30358 (.not (.isNil (.var 5 /-err-/)))
      (.ret 30359 [.nil, (.var 5 /-err-/)])
      .skip ;;
    .set 30362 6 .nil /-param-/ ;;
    .set 30363 7 (.isTy (.var 4 /-expr-/) .Ident) /-ok-/ ;;
    .ite 30363 (.var 7 /-ok-/)
      (.set 30363 8 (.var 4 /-expr-/) /-ident-/)
      (.set 30363 8 .nil /-ident-/) ;;
    .ite 30363 (.var 7 /-ok-/)
      (.ite 30364 (.and (.isUnit (.upper (.fld (.var 8 /-ident-/) 0 /-Name-/))) (.matchKw (.str b!"FROM")))
        (.call 30365 .parseExtractFrom [(.var 8 /-ident-/)] [6, 5] ;;
        .ite 30366 (.not (.isNil (.var 5 /-err-/)))
          (.ret 30367 [.nil, (.var 5 /-err-/)])
          .skip ;;
        .set 30369 3 (.append (.var 3 /-parameters-/) (.var 6 /-param-/)) /-parameters-/)
        (.set 30371 3 (.append (.var 3 /-parameters-/) (.var 4 /-expr-/)) /-parameters-/))
      (.set 30374 3 (.append (.var 3 /-parameters-/) (.var 4 /-expr-/)) /-parameters-/) ;;
    .prim 30377 (.tryKind (.str b!",")) [9] ;;
    .ite 30377 (.isNil (.var 9 /-tmp-/))
      .brk
      .skip) ;;
  .ite 30382 (.eqNat (.len (.var 3 /-parameters-/)) (.nat 0))
    (.ret 30383 [.nil, (.error b!"EXTRACT requires at least one parameter" [])])
    .skip ;;
  .set 30386 10 .pos /-extractEnd-/ ;;
  .prim 30387 (.expectKind (.str b!")")) [11] ;;
  .ite 30387 (.not (.isNil (.var 11 /-err-/)))
    (.ret 30388 [.nil, (.var 11 /-err-/)])
    .skip ;;
  .ret 30390 [(.mk .ExtractExpr [(.var 0 /-pos-/) /-ExtractPos-/, (.var 10 /-extractEnd-/) /-ExtractEnd-/, (.var 3 /-parameters-/) /-Parameters-/]), .nil]⟩

/-- `parseUnaryExpr`, parser/parser_column.go:397-425. -/
def parseUnaryExpr : Func Fn := ⟨6,
  .set 30398 1 .cur /-op-/ ;;
  .set 30399 2 .nil /-expr-/ ;;
  .set 30400 3 .nil /-err-/ ;;
  .ite 30402 (.or (.matchKinds [(.str b!"+")]) (.matchKinds [(.str b!"-")]))
    (.prim 30404 .consume [9999] ;;
    .call 30405 .parseColumnExpr [.pos] [2, 3])
    (.ite 30406 (.matchKw (.str b!"NOT"))
      (.prim 30407 .consume [9999] ;;
      .call 30411 .parseSubExpr [.pos, (.nat 5)] [2, 3])
      (.call 30413 .parseColumnExpr [(.var 0 /-pos-/)] [4, 5] ;;
      .ret 30413 [(.var 4 /-tmp-/), (.var 5 /-tmp-/)])) ;;
  .ite 30415 (.not (.isNil (.var 3 /-err-/)))
    (.ret 30416 [.nil, (.var 3 /-err-/)])
    .skip ;;
  .ret 30419 [(.mk .UnaryExpr [(.var 0 /-pos-/) /-UnaryPos-/, (.tokText (.var 1 /-op-/)) /-Kind-/, (.var 2 /-expr-/) /-Expr-/]), .nil]⟩

/-- `peekTokenKind`, parser/parser_column.go:427-436. -/
def peekTokenKind : Func Fn := ⟨3,
  .ite 30428 .isEOF
    (.ret 30429 [(.bool false)])
    .skip ;;
  .prim 30431 .peek [1, 2] ;;
  .ite 30432 (.or (.not (.isNil (.var 2 /-err-/))) (.isNil (.var 1 /-token-/)))
    (.ret 30433 [(.bool false)])
    .skip ;;
  .ret 30435 [(.eqStr (.fld (.var 1 /-token-/) 2 /-Kind-/) (.var 0 /-kind-/))]⟩

/-- `peekKeyword`, parser/parser_column.go:438-447. -/
def peekKeyword : Func Fn := ⟨3,
  .ite 30439 .isEOF
    (.ret 30440 [(.bool false)])
    .skip ;;
  .prim 30442 .peek [1, 2] ;;
  .ite 30443 (.or (.not (.isNil (.var 2 /-err-/))) (.isNil (.var 1 /-token-/)))
    (.ret 30444 [(.bool false)])
    .skip ;;
  .ret 30446 [(.and (.eqStr (.fld (.var 1 /-token-/) 2 /-Kind-/) (.str b!"<keyword>")) (.equalFold (.fld (.var 1 /-token-/) 3 /-String-/) (.var 0 /-keyword-/)))]⟩

/-- `matchClauseStarterKeyword`, parser/parser_column.go:461-468. -/
def matchClauseStarterKeyword : Func Fn := ⟨0,
  .ite 30463 (.matchKw (.str b!"FROM"))
    (.ret 30464 [(.bool true)])
    .skip ;;
  .ite 30463 (.matchKw (.str b!"WHERE"))
    (.ret 30464 [(.bool true)])
    .skip ;;
  .ite 30463 (.matchKw (.str b!"PREWHERE"))
    (.ret 30464 [(.bool true)])
    .skip ;;
  .ite 30463 (.matchKw (.str b!"GROUP"))
    (.ret 30464 [(.bool true)])
    .skip ;;
  .ite 30463 (.matchKw (.str b!"HAVING"))
    (.ret 30464 [(.bool true)])
    .skip ;;
  .ite 30463 (.matchKw (.str b!"WINDOW"))
    (.ret 30464 [(.bool true)])
    .skip ;;
  .ite 30463 (.matchKw (.str b!"ORDER"))
    (.ret 30464 [(.bool true)])
    .skip ;;
  .ite 30463 (.matchKw (.str b!"LIMIT"))
    (.ret 30464 [(.bool true)])
    .skip ;;
  .ite 30463 (.matchKw (.str b!"OFFSET"))
    (.ret 30464 [(.bool true)])
    .skip ;;
  .ite 30463 (.matchKw (.str b!"SETTINGS"))
    (.ret 30464 [(.bool true)])
    .skip ;;
  .ite 30463 (.matchKw (.str b!"FORMAT"))
    (.ret 30464 [(.bool true)])
    .skip ;;
  .ite 30463 (.matchKw (.str b!"UNION"))
    (.ret 30464 [(.bool true)])
    .skip ;;
  .ite 30463 (.matchKw (.str b!"EXCEPT"))
    (.ret 30464 [(.bool true)])
    .skip ;;
  .ite 30463 (.matchKw (.str b!"INTERSECT"))
    (.ret 30464 [(.bool true)])
    .skip ;;
  .ret 30467 [(.bool false)]⟩

/-- `peekIsClauseStarterKeyword`, parser/parser_column.go:472-479. -/
def peekIsClauseStarterKeyword : Func Fn := ⟨14,
  .call 30474 .peekKeyword [(.str b!"FROM")] [0] ;;
  .ite 30474 (.var 0 /-tmp-/)
    (.ret 30475 [(.bool true)])
    .skip ;;
  .call 30474 .peekKeyword [(.str b!"WHERE")] [1] ;;
  .ite 30474 (.var 1 /-tmp-/)
    (.ret 30475 [(.bool true)])
    .skip ;;
  .call 30474 .peekKeyword [(.str b!"PREWHERE")] [2] ;;
  .ite 30474 (.var 2 /-tmp-/)
    (.ret 30475 [(.bool true)])
    .skip ;;
  .call 30474 .peekKeyword [(.str b!"GROUP")] [3] ;;
  .ite 30474 (.var 3 /-tmp-/)
    (.ret 30475 [(.bool true)])
    .skip ;;
  .call 30474 .peekKeyword [(.str b!"HAVING")] [4] ;;
  .ite 30474 (.var 4 /-tmp-/)
    (.ret 30475 [(.bool true)])
    .skip ;;
  .call 30474 .peekKeyword [(.str b!"WINDOW")] [5] ;;
  .ite 30474 (.var 5 /-tmp-/)
    (.ret 30475 [(.bool true)])
    .skip ;;
  .call 30474 .peekKeyword [(.str b!"ORDER")] [6] ;;
  .ite 30474 (.var 6 /-tmp-/)
    (.ret 30475 [(.bool true)])
    .skip ;;
  .call 30474 .peekKeyword [(.str b!"LIMIT")] [7] ;;
  .ite 30474 (.var 7 /-tmp-/)
    (.ret 30475 [(.bool true)])
    .skip ;;
  .call 30474 .peekKeyword [(.str b!"OFFSET")] [8] ;;
  .ite 30474 (.var 8 /-tmp-/)
    (.ret 30475 [(.bool true)])
    .skip ;;
  .call 30474 .peekKeyword [(.str b!"SETTINGS")] [9] ;;
  .ite 30474 (.var 9 /-tmp-/)
    (.ret 30475 [(.bool true)])
    .skip ;;
  .call 30474 .peekKeyword [(.str b!"FORMAT")] [10] ;;
  .ite 30474 (.var 10 /-tmp-/)
    (.ret 30475 [(.bool true)])
    .skip ;;
  .call 30474 .peekKeyword [(.str b!"UNION")] [11] ;;
  .ite 30474 (.var 11 /-tmp-/)
    (.ret 30475 [(.bool true)])
    .skip ;;
  .call 30474 .peekKeyword [(.str b!"EXCEPT")] [12] ;;
  .ite 30474 (.var 12 /-tmp-/)
    (.ret 30475 [(.bool true)])
    .skip ;;
  .call 30474 .peekKeyword [(.str b!"INTERSECT")] [13] ;;
  .ite 30474 (.var 13 /-tmp-/)
    (.ret 30475 [(.bool true)])
    .skip ;;
  .ret 30478 [(.bool false)]⟩

/-- `peekIsEndOfStatement`, parser/parser_column.go:482-488. -/
def peekIsEndOfStatement : Func Fn := ⟨2,
  .prim 30483 .peek [0, 1] ;;
  .ite 30484 (.or (.not (.isNil (.var 1 /-err-/))) (.isNil (.var 0 /-next-/)))
    (.ret 30485 [(.bool true)])
    .skip ;;
  .ret 30487 [(.eqStr (.fld (.var 0 /-next-/) 2 /-Kind-/) (.str b!";"))]⟩

/-- `peekIsExpressionContinuation`, parser/parser_column.go:503-515. -/
def peekIsExpressionContinuation : Func Fn := ⟨27,
  .call 30505 .peekTokenKind [(.str b!"=")] [0] ;;
  .ite 30505 (.var 0 /-tmp-/)
    (.ret 30506 [(.bool true)])
    .skip ;;
  .call 30505 .peekTokenKind [(.str b!"==")] [1] ;;
  .ite 30505 (.var 1 /-tmp-/)
    (.ret 30506 [(.bool true)])
    .skip ;;
  .call 30505 .peekTokenKind [(.str b!"!=")] [2] ;;
  .ite 30505 (.var 2 /-tmp-/)
    (.ret 30506 [(.bool true)])
    .skip ;;
  .call 30505 .peekTokenKind [(.str b!"<")] [3] ;;
  .ite 30505 (.var 3 /-tmp-/)
    (.ret 30506 [(.bool true)])
    .skip ;;
  .call 30505 .peekTokenKind [(.str b!"<=")] [4] ;;
  .ite 30505 (.var 4 /-tmp-/)
    (.ret 30506 [(.bool true)])
    .skip ;;
  .call 30505 .peekTokenKind [(.str b!">")] [5] ;;
  .ite 30505 (.var 5 /-tmp-/)
    (.ret 30506 [(.bool true)])
    .skip ;;
  .call 30505 .peekTokenKind [(.str b!">=")] [6] ;;
  .ite 30505 (.var 6 /-tmp-/)
    (.ret 30506 [(.bool true)])
    .skip ;;
  .call 30505 .peekTokenKind [(.str b!"+")] [7] ;;
  .ite 30505 (.var 7 /-tmp-/)
    (.ret 30506 [(.bool true)])
    .skip ;;
  .call 30505 .peekTokenKind [(.str b!"-")] [8] ;;
  .ite 30505 (.var 8 /-tmp-/)
    (.ret 30506 [(.bool true)])
    .skip ;;
  .call 30505 .peekTokenKind [(.str b!"*")] [9] ;;
  .ite 30505 (.var 9 /-tmp-/)
    (.ret 30506 [(.bool true)])
    .skip ;;
  .call 30505 .peekTokenKind [(.str b!"/")] [10] ;;
  .ite 30505 (.var 10 /-tmp-/)
    (.ret 30506 [(.bool true)])
    .skip ;;
  .call 30505 .peekTokenKind [(.str b!"%")] [11] ;;
  .ite 30505 (.var 11 /-tmp-/)
    (.ret 30506 [(.bool true)])
    .skip ;;
  .call 30505 .peekTokenKind [(.str b!"||")] [12] ;;
  .ite 30505 (.var 12 /-tmp-/)
    (.ret 30506 [(.bool true)])
    .skip ;;
  .call 30505 .peekTokenKind [(.str b!"::")] [13] ;;
  .ite 30505 (.var 13 /-tmp-/)
    (.ret 30506 [(.bool true)])
    .skip ;;
  .call 30505 .peekTokenKind [(.str b!")")] [14] ;;
  .ite 30505 (.var 14 /-tmp-/)
    (.ret 30506 [(.bool true)])
    .skip ;;
  .call 30505 .peekTokenKind [(.str b!"]")] [15] ;;
  .ite 30505 (.var 15 /-tmp-/)
    (.ret 30506 [(.bool true)])
    .skip ;;
  .call 30510 .peekKeyword [(.str b!"AND")] [16] ;;
  .ite 30510 (.var 16 /-tmp-/)
    (.ret 30511 [(.bool true)])
    .skip ;;
  .call 30510 .peekKeyword [(.str b!"OR")] [17] ;;
  .ite 30510 (.var 17 /-tmp-/)
    (.ret 30511 [(.bool true)])
    .skip ;;
  .call 30510 .peekKeyword [(.str b!"NOT")] [18] ;;
  .ite 30510 (.var 18 /-tmp-/)
    (.ret 30511 [(.bool true)])
    .skip ;;
  .call 30510 .peekKeyword [(.str b!"IN")] [19] ;;
  .ite 30510 (.var 19 /-tmp-/)
    (.ret 30511 [(.bool true)])
    .skip ;;
  .call 30510 .peekKeyword [(.str b!"LIKE")] [20] ;;
  .ite 30510 (.var 20 /-tmp-/)
    (.ret 30511 [(.bool true)])
    .skip ;;
  .call 30510 .peekKeyword [(.str b!"ILIKE")] [21] ;;
  .ite 30510 (.var 21 /-tmp-/)
    (.ret 30511 [(.bool true)])
    .skip ;;
  .call 30510 .peekKeyword [(.str b!"BETWEEN")] [22] ;;
  .ite 30510 (.var 22 /-tmp-/)
    (.ret 30511 [(.bool true)])
    .skip ;;
  .call 30510 .peekKeyword [(.str b!"IS")] [23] ;;
  .ite 30510 (.var 23 /-tmp-/)
    (.ret 30511 [(.bool true)])
    .skip ;;
  .call 30510 .peekKeyword [(.str b!"THEN")] [24] ;;
  .ite 30510 (.var 24 /-tmp-/)
    (.ret 30511 [(.bool true)])
    .skip ;;
  .call 30510 .peekKeyword [(.str b!"ELSE")] [25] ;;
  .ite 30510 (.var 25 /-tmp-/)
    (.ret 30511 [(.bool true)])
    .skip ;;
  .call 30510 .peekKeyword [(.str b!"END")] [26] ;;
  .ite 30510 (.var 26 /-tmp-/)
    (.ret 30511 [(.bool true)])
    .skip ;;
  .ret 30514 [(.bool false)]⟩

/-- `keywordIsSelectItemIdentifier`, parser/parser_column.go:538-546. -/
def keywordIsSelectItemIdentifier : Func Fn := ⟨7,
  .ite 30539 (.not (.matchKinds [(.str b!"<keyword>")]))
    (.ret 30540 [(.bool false)])
    .skip ;;
  .call 30542 .peekTokenKind [(.str b!",")] [3] ;;
  .set 30542 2 (.var 3 /-tmp-/) ;;
  .ite 30542 (.var 2 /-cond-/)
    .skip
    (.call 30542 .peekKeyword [(.str b!"AS")] [4] ;;
    .set 30542 2 (.var 4 /-tmp-/)) ;;
  .set 30542 1 (.var 2 /-cond-/) ;;
  .ite 30542 (.var 1 /-cond-/)
    .skip
    (.call 30542 .peekIsClauseStarterKeyword [] [5] ;;
    .set 30542 1 (.var 5 /-tmp-/)) ;;
  .set 30542 0 (.var 1 /-cond-/) ;;
  .ite 30542 (.var 0 /-cond-/)
    .skip
    (.call 30542 .peekIsExpressionContinuation [] [6] ;;
    .set 30542 0 (.var 6 /-tmp-/)) ;;
  .ret 30542 [(.var 0 /-cond-/)]⟩

/-- `isSelectItemTerminatorKeyword`, parser/parser_column.go:551-556. -/
def isSelectItemTerminatorKeyword : Func Fn := ⟨2,
  .call 30552 .keywordIsSelectItemIdentifier [] [0] ;;
  .ite 30552 (.var 0 /-tmp-/)
    (.ret 30553 [(.bool false)])
    .skip ;;
  .call 30555 .matchClauseStarterKeyword [] [1] ;;
  .ret 30555 [(.var 1 /-tmp-/)]⟩

/-- `parseColumnExpr`, parser/parser_column.go:558-668. -/
def parseColumnExpr : Func Fn := ⟨59,
  .call 30569 .keywordIsSelectItemIdentifier [] [2] ;;
  .set 30569 1 (.var 2 /-tmp-/) ;;
  .ite 30569 (.var 1 /-cond-/)
    .skip
    (.set 30569 3 (.matchKinds [(.str b!"<keyword>")]) ;;
    .ite 30569 (.var 3 /-cond-/)
      (.call 30569 .peekIsEndOfStatement [] [5] ;;
      .set 30569 4 (.var 5 /-tmp-/) ;;
      .ite 30569 (.var 4 /-cond-/)
        .skip
        (.call 30569 .peekIsExpressionContinuation [] [6] ;;
        .set 30569 4 (.var 6 /-tmp-/)) ;;
      .set 30569 3 (.var 4 /-cond-/))
      .skip ;;
    .set 30569 1 (.var 3 /-cond-/)) ;;
  .ite 30569 (.var 1 /-cond-/)
    (.call 30572 .parseAnyKeyword [] [7, 8] ;;
    .ret 30572 [(.var 7 /-tmp-/), (.var 8 /-tmp-/)])
    .skip ;;
  .ite 30575 (.matchKw (.str b!"INTERVAL"))
    (.set 30587 9 .pos /-intervalPos-/ ;;
    .set 30588 10 (.memoHas (.var 9 /-intervalPos-/)) /-failed-/ ;;
    .ite 30588 (.var 10 /-failed-/)
      (.call 30589 .parseAnyKeyword [] [11, 12] ;;
      .ret 30589 [(.var 11 /-tmp-/), (.var 12 /-tmp-/)])
      .skip ;;
    .save ;;
    .call 30593 .parseInterval [(.bool true)] [13, 14] ;;
    .ite 30594 (.not (.isNil (.var 14 /-err-/)))
      (.memoAdd 30598 (.var 9 /-intervalPos-/) ;;
      .restore ;;
      .call 30601 .parseAnyKeyword [] [15, 16] ;;
      .ret 30601 [(.var 15 /-tmp-/), (.var 16 /-tmp-/)])
      .skip ;;
    .ret 30604 [(.var 13 /-interval-/), .nil])
    (.ite 30605 (.or (.matchKw (.str b!"DATE")) (.matchKw (.str b!"TIMESTAMP")))
      (.prim 30606 .peek [17, 18] ;;
      .ite 30607 (.not (.isNil (.var 18 /-err-/)))
        (.ret 30608 [.nil, (.var 18 /-err-/)])
        .skip ;;
      .ite 30610 (.and (.not (.isNil (.var 17 /-nextToken-/))) (.eqStr (.fld (.var 17 /-nextToken-/) 2 /-Kind-/) (.str b!"<string>")))
        (.call 30611 .parseString [.pos] [19, 20] ;;
        .ret 30611 [(.var 19 /-tmp-/), (.var 20 /-tmp-/)])
        .skip ;;
      .call 30613 .parseIdentOrFunction [(.var 0 /-pos-/)] [21, 22] ;;
      .ret 30613 [(.var 21 /-tmp-/), (.var 22 /-tmp-/)])
      (.ite 30614 (.matchKw (.str b!"CAST"))
        (.call 30615 .parseColumnCastExpr [(.var 0 /-pos-/)] [23, 24] ;;
        .ret 30615 [(.var 23 /-tmp-/), (.var 24 /-tmp-/)])
        (.ite 30616 (.matchKw (.str b!"CASE"))
          (.call 30617 .parseColumnCaseExpr [(.var 0 /-pos-/)] [25, 26] ;;
          .ret 30617 [(.var 25 /-tmp-/), (.var 26 /-tmp-/)])
          (.ite 30618 (.matchKw (.str b!"SELECT"))
            (.call 30619 .parseSelectQuery [(.var 0 /-pos-/)] [27, 28] ;;
            .ret 30619 [(.var 27 /-tmp-/), (.var 28 /-tmp-/)])
            (.ite 30620 (.matchKw (.str b!"EXTRACT"))
              (.call 30621 .parseColumnExtractExpr [(.var 0 /-pos-/)] [29, 30] ;;
              .ret 30621 [(.var 29 /-tmp-/), (.var 30 /-tmp-/)])
              (.ite 30622 (.matchKinds [(.str b!"<ident>")])
                (.call 30623 .parseIdentOrFunction [(.var 0 /-pos-/)] [31, 32] ;;
                .ret 30623 [(.var 31 /-tmp-/), (.var 32 /-tmp-/)])
                (.set 30624 33 (.matchKinds [(.str b!"<keyword>")]) ;;
                .ite 30624 (.var 33 /-cond-/)
                  (.call 30624 .peekTokenKind [(.str b!"(")] [34] ;;
                  .set 30624 33 (.var 34 /-tmp-/))
                  .skip ;;
                .ite 30624 (.var 33 /-cond-/)
                  (.call 30629 .parseIdentOrFunction [(.var 0 /-pos-/)] [35, 36] ;;
                  .ret 30629 [(.var 35 /-tmp-/), (.var 36 /-tmp-/)])
                  (.ite 30630 (.matchKinds [(.str b!"<string>")])
                    (.call 30631 .parseString [(.var 0 /-pos-/)] [37, 38] ;;
                    .ret 30631 [(.var 37 /-tmp-/), (.var 38 /-tmp-/)])
                    (.ite 30632 (.or (.matchKinds [(.str b!"<int>")]) (.matchKinds [(.str b!"<float>")]))
                      (.call 30634 .parseNumber [(.var 0 /-pos-/)] [39, 40] ;;
                      .ret 30634 [(.var 39 /-tmp-/), (.var 40 /-tmp-/)])
                      (.ite 30635 (.matchKinds [(.str b!"(")])
                        (.prim 30636 .peek [41, 9999] ;;
                        .ite 30636 (.not (.isNil (.var 41 /-peek-/)))
                          (.ite 30637 (.and (.eqStr (.fld (.var 41 /-peek-/) 2 /-Kind-/) (.str b!"<keyword>")) (.equalFold (.fld (.var 41 /-peek-/) 3 /-String-/) (.str b!"SELECT")))
                            (.call 30638 .parseSubQuery [(.var 0 /-pos-/)] [42, 43] ;;
                            .ret 30638 [(.var 42 /-tmp-/), (.var 43 /-tmp-/)])
                            .skip)
                          .skip ;;
                        .call 30641 .parseFunctionParams [.pos] [44, 45] ;;
                        .ret 30641 [(.var 44 /-tmp-/), (.var 45 /-tmp-/)])
                        (.ite 30642 (.matchKinds [(.str b!"*")])
                          (.call 30643 .parseColumnStar [.pos] [46, 47] ;;
                          .ret 30643 [(.var 46 /-tmp-/), (.var 47 /-tmp-/)])
                          (.ite 30644 (.matchKinds [(.str b!"[")])
                            (.call 30645 .parseArrayParams [.pos] [48, 49] ;;
                            .ret 30645 [(.var 48 /-tmp-/), (.var 49 /-tmp-/)])
                            (.ite 30646 (.matchKinds [(.str b!"{")])
                              (.call 30651 .peekTokenKind [(.str b!"<ident>")] [51] ;;
                              .set 30651 50 (.var 51 /-tmp-/) ;;
                              .ite 30651 (.var 50 /-cond-/)
                                .skip
                                (.call 30651 .peekTokenKind [(.str b!"<keyword>")] [52] ;;
                                .set 30651 50 (.var 52 /-tmp-/)) ;;
                              .ite 30651 (.var 50 /-cond-/)
                                (.call 30652 .parseQueryParam [.pos] [53, 54] ;;
                                .ret 30652 [(.var 53 /-tmp-/), (.var 54 /-tmp-/)])
                                .skip ;;
                              .call 30654 .parseMapLiteral [.pos] [55, 56] ;;
                              .ret 30654 [(.var 55 /-tmp-/), (.var 56 /-tmp-/)])
                              (.ite 30655 (.matchKinds [(.str b!".")])
                                (.call 30656 .parseNumber [.pos] [57, 58] ;;
                                .ret 30656 [(.var 57 /-tmp-/), (.var 58 /-tmp-/)])
                                (.ite 30657 (.matchKinds [(.str b!"?")])
                                  (.prim 30659 .consume [9999] ;;
                                  .ret 30660 [(.mk .PlaceHolder [(.var 0 /-pos-/) /-PlaceholderPos-/, (.var 0 /-pos-/) /-PlaceHolderEnd-/, (.str b!"?") /-Type-/]), .nil])
                                  (.ret 30666 [.nil, (.error b!"unexpected token kind: %s" [.curKind])]))))))))))))))))⟩

/-- `parseColumnCastExpr`, parser/parser_column.go:670-717. -/
def parseColumnCastExpr : Func Fn := ⟨9,
  .prim 30671 (.expectKw (.str b!"CAST")) [1] ;;
  .ite 30671 (.not (.isNil (.var 1 /-err-/)))
    (.ret 30672 [.nil, (.var 1 /-err-/)])
    .skip ;;
  .prim 30675 (.expectKind (.str b!"(")) [2] ;;
  .ite 30675 (.not (.isNil (.var 2 /-err-/)))
    (.ret 30676 [.nil, (.var 2 /-err-/)])
    .skip ;;
  .call 30679 .parseExpr [.pos] [3, 4] ;;
  .ite 30680 (.not (.isNil (.var 4 /-err-/)))
    (.ret 30681 [.nil, (.var 4 /-err-/)])
    .skip ;;
  .set 30684 5 (.str []) /-separator-/ ;;
  .set 30685 6 .pos /-asPos-/ ;;
  .ite 30688 (.or (.matchKw (.str b!"AS")) (.matchKinds [(.str b!",")]))
    (.set 30689 5 (.fld .cur 3 /-String-/) /-separator-/ ;;
    .prim 30690 .consume [9999])
    (.ret 30692 [.nil, (.error b!"expected AS or , but got %s" [.curKind])]) ;;
  .set 30695 7 .nil /-asColumnType-/ ;;
  .ite 30697 (.matchKinds [(.str b!"<string>")])
    (.call 30698 .parseString [.pos] [7, 4])
    (.call 30700 .parseColumnType [.pos] [7, 4]) ;;
  .ite 30702 (.not (.isNil (.var 4 /-err-/)))
    (.ret 30703 [.nil, (.var 4 /-err-/)])
    .skip ;;
  .prim 30706 (.expectKind (.str b!")")) [8] ;;
  .ite 30706 (.not (.isNil (.var 8 /-err-/)))
    (.ret 30707 [.nil, (.var 8 /-err-/)])
    .skip ;;
  .ret 30710 [(.mk .CastExpr [(.var 0 /-pos-/) /-CastPos-/, (.var 3 /-columnExpr-/) /-Expr-/, (.var 5 /-separator-/) /-Separator-/, (.var 6 /-asPos-/) /-AsPos-/, (.var 7 /-asColumnType-/) /-AsType-/]), .nil]⟩

/-- `parseColumnExprListWithLParen`, parser/parser_column.go:719-721. -/
def parseColumnExprListWithLParen : Func Fn := ⟨3,
  .call 30720 .parseColumnExprListWithTerm [(.str b!")"), (.var 0 /-pos-/)] [1, 2] ;;
  .ret 30720 [(.var 1 /-tmp-/), (.var 2 /-tmp-/)]⟩

/-- `parseColumnExprListWithSquareBracket`, parser/parser_column.go:723-725. -/
def parseColumnExprListWithSquareBracket : Func Fn := ⟨3,
  .call 30724 .parseColumnExprListWithTerm [(.str b!"]"), (.var 0 /-pos-/)] [1, 2] ;;
  .ret 30724 [(.var 1 /-tmp-/), (.var 2 /-tmp-/)]⟩

/-- `parseColumnExprList`, parser/parser_column.go:727-729. -/
def parseColumnExprList : Func Fn := ⟨3,
  .call 30728 .parseColumnExprListWithTerm [(.str b!""), (.var 0 /-pos-/)] [1, 2] ;;
  .ret 30728 [(.var 1 /-tmp-/), (.var 2 /-tmp-/)]⟩

/-- `parseColumnExprListWithTerm`, parser/parser_column.go:731-759. -/
def parseColumnExprListWithTerm : Func Fn := ⟨8,
  .set 30732 2 (.mk .ColumnExprList [(.var 1 /-pos-/) /-ListPos-/, (.var 1 /-pos-/) /-ListEnd-/, (.bool false) /-HasDistinct-/, .nil /-Items-/]) /-columnExprList-/ ;;
  .prim 30736 (.tryKws [b!"DISTINCT"]) [3] ;;
  .setF 30736 2 [2] (.var 3 /-tmp-/) /-columnExprList.HasDistinct-/ ;;
  .set 30737 4 .empty /-columnList-/ ;;
  .loop
    (.ite 30738 (.or (.not .isEOF) (.not (.isNil .cur)))
      .skip
      .brk ;;
    .ite 30739 (.and (.not (.eqStr (.var 0 /-term-/) (.str b!""))) (.matchKinds [(.var 0 /-term-/)]))
      .brk
      .skip ;;
    .call 30742 .parseColumnsExpr [.pos] [5, 6] ;;
    .ite 30743 (.not (.isNil (.var 6 /-err-/)))
      (.ret 30744 [.nil, (.var 6 /-err-/)])
      .skip ;;
    .ite 30746 (.isNil (.var 5 /-columnExpr-/))
      .brk
      .skip ;;
    .set 30749 4 (.append (.var 4 /-columnList-/) (.var 5 /-columnExpr-/)) /-columnList-/ ;;
    .prim 30750 (.tryKind (.str b!",")) [7] ;;
    .ite 30750 (.isNil (.var 7 /-tmp-/))
      .brk
      .skip) ;;
  .setF 30754 2 [3] (.var 4 /-columnList-/) /-columnExprList.Items-/ ;;
  .ite 30755 (.lt (.nat 0) (.len (.var 4 /-columnList-/)))
    (.setF 30756 2 [1] (.endOf (.last (.var 4 /-columnList-/)) .iface) /-columnExprList.ListEnd-/)
    .skip ;;
  .ret 30758 [(.var 2 /-columnExprList-/), .nil]⟩

/-- `parseSelectItems`, parser/parser_column.go:761-780. -/
def parseSelectItems : Func Fn := ⟨5,
  .set 30762 0 .empty /-selectItems-/ ;;
  .loop
    (.ite 30763 (.or (.not .isEOF) (.not (.isNil .cur)))
      .skip
      .brk ;;
    .call 30764 .parseSelectItem [] [1, 2] ;;
    .ite 30765 (.not (.isNil (.var 2 /-err-/)))
      (.ret 30766 [.nil, (.var 2 /-err-/)])
      .skip ;;
    .ite 30768 (.isNil (.var 1 /-selectItem-/))
      .brk
      .skip ;;
    .set 30771 0 (.append (.var 0 /-selectItems-/) (.var 1 /-selectItem-/)) /-selectItems-/ ;;
    .prim 30772 (.tryKind (.str b!",")) [3] ;;
    .ite 30772 (.isNil (.var 3 /-tmp-/))
      .brk
      .skip ;;
    .call 30775 .isSelectItemTerminatorKeyword [] [4] ;;
    .ite 30775 (.var 4 /-tmp-/)
      .brk
      .skip) ;;
  .ret 30779 [(.var 0 /-selectItems-/), .nil]⟩

/-- `parseInterval`, parser/parser_column.go:782-807. -/
def parseInterval : Func Fn := ⟨6,
  .set 30783 1 (.nat 0) /-intervalPos-/ ;;
  .ite 30784 (.var 0 /-requireKeyword-/)
    (.set 30785 1 .pos /-intervalPos-/ ;;
    .prim 30786 (.expectKw (.str b!"INTERVAL")) [2] ;;
    .ite 30786 (.not (.isNil (.var 2 /-err-/)))
      (.ret 30787 [.nil, (.var 2 /-err-/)])
      .skip)
    .skip ;;
  .call 30790 .parseExpr [.pos] [3, 4] ;;
  .ite 30791 (.not (.isNil (.var 4 /-err-/)))
    (.ret 30792 [.nil, (.var 4 /-err-/)])
    .skip ;;
  .call 30795 .parseIdent [] [5, 4] ;;
  .ite 30796 (.not (.isNil (.var 4 /-err-/)))
    (.ret 30797 [.nil, (.var 4 /-err-/)])
    .skip ;;
  .ite 30799 (.not (.isUnit (.upper (.fld (.var 5 /-unit-/) 0 /-Name-/))))
    (.ret 30800 [.nil, (.error b!"unknown interval type: <%q>" [(.fld (.var 5 /-unit-/) 0 /-Name-/)])])
    .skip ;;
  .ret 30802 [(.mk .IntervalExpr [(.var 1 /-intervalPos-/) /-IntervalPos-/, (.var 3 /-expr-/) /-Expr-/, (.var 5 /-unit-/) /-Unit-/]), .nil]⟩

/-- `parseFunctionExpr`, parser/parser_column.go:809-826. -/
def parseFunctionExpr : Func Fn := ⟨4,
  .call 30813 .parseAnyKeyword [] [1, 2] ;;
  .ite 30814 (.not (.isNil (.var 2 /-err-/)))
    (.ret 30815 [.nil, (.var 2 /-err-/)])
    .skip ;;
  .call 30818 .parseFunctionParams [.pos] [3, 2] ;;
  .ite 30819 (.not (.isNil (.var 2 /-err-/)))
    (.ret 30820 [.nil, (.var 2 /-err-/)])
    .skip ;;
  .ret 30822 [(.mk .FunctionExpr [(.var 1 /-name-/) /-Name-/, (.var 3 /-params-/) /-Params-/]), .nil]⟩

/-- `parseColumnArgList`, parser/parser_column.go:828-855. -/
def parseColumnArgList : Func Fn := ⟨9,
  .prim 30829 (.expectKind (.str b!"(")) [1] ;;
  .ite 30829 (.not (.isNil (.var 1 /-err-/)))
    (.ret 30830 [.nil, (.var 1 /-err-/)])
    .skip ;;
  .prim 30832 (.tryKws [b!"DISTINCT"]) [2] ;;
  .set 30834 3 .nil /-items-/ ;;
  .loop
    (.ite 30835 (.and (.not .isEOF) (.not (.matchKinds [(.str b!")")])))
      .skip
      .brk ;;
    .call 30836 .parseExpr [.pos] [4, 5] ;;
    .ite 30837 (.not (.isNil (.var 5 /-err-/)))
      (.ret 30838 [.nil, (.var 5 /-err-/)])
      .skip ;;
    .set 30840 3 (.append (.var 3 /-items-/) (.var 4 /-item-/)) /-items-/ ;;
    .prim 30841 (.tryKind (.str b!",")) [6] ;;
    .ite 30841 (.isNil (.var 6 /-tmp-/))
      .brk
      .skip) ;;
  .set 30845 7 .pos /-rightParenPos-/ ;;
  .prim 30846 (.expectKind (.str b!")")) [8] ;;
  .ite 30846 (.not (.isNil (.var 8 /-err-/)))
    (.ret 30847 [.nil, (.var 8 /-err-/)])
    .skip ;;
  .ret 30849 [(.mk .ColumnArgList [(.var 2 /-distinct-/) /-Distinct-/, (.var 0 /-pos-/) /-LeftParenPos-/, (.var 7 /-rightParenPos-/) /-RightParenPos-/, (.var 3 /-items-/) /-Items-/]), .nil]⟩

/-- `parseKeywordArgItem`, parser/parser_column.go:894-935. -/
def parseKeywordArgItem : Func Fn := ⟨11,
  .call 30895 .parseKeywordArgModifier [(.var 0 /-form-/), (.var 1 /-slot-/)] [3, 4, 5] ;;
  .ite 30896 (.not (.isNil (.var 5 /-err-/)))
    (.ret 30897 [.nil, (.nat 0), (.var 5 /-err-/)])
    .skip ;;
  .set 30900 6 (.nat 0) /-consumed-/ ;;
  .loop
    (.ite 30901 (.and (.and (.var 2 /-allowSeparators-/) (.lt (.add (.var 1 /-slot-/) (.var 6 /-consumed-/)) (.len (.fld (.var 0 /-form-/) 2 /-Separators-/)))) (.matchKw (.idx (.fld (.var 0 /-form-/) 2 /-Separators-/) (.add (.var 1 /-slot-/) (.var 6 /-consumed-/)))))
      .skip
      .brk ;;
    .set 30903 7 (.tokText .cur) /-operation-/ ;;
    .prim 30904 .consume [8] ;;
    .ite 30904 (.not (.isNil (.var 8 /-err-/)))
      (.ret 30905 [.nil, (.nat 0), (.var 8 /-err-/)])
      .skip ;;
    .call 30908 .parseExpr [.pos] [9, 10] ;;
    .ite 30909 (.not (.isNil (.var 10 /-err-/)))
      (.ret 30910 [.nil, (.nat 0), (.var 10 /-err-/)])
      .skip ;;
    .set 30913 3 (.mk .BinaryOperation [(.var 3 /-expr-/) /-LeftExpr-/, (.var 7 /-operation-/) /-Operation-/, (.var 9 /-rightExpr-/) /-RightExpr-/, (.bool false) /-HasGlobal-/, (.bool false) /-HasNot-/]) /-expr-/ ;;
    .set 30918 6 (.add (.var 6 /-consumed-/) (.nat 1)) /-consumed-/) ;;
  .ite 30921 (.and (.not (.var 4 /-hasModifier-/)) (.eqNat (.var 6 /-consumed-/) (.nat 0)))
    (.ret 30922 [(.var 3 /-expr-/), (.nat 0), .nil])
    .skip ;;
  .ite 30925 (.and (.fld (.var 0 /-form-/) 1 /-RequireModifier-/) (.not (.var 4 /-hasModifier-/)))
    (.ret 30926 [.nil, (.nat 0), (.error b!"expected one of %s before %s" [(.len (.fld (.var 0 /-form-/) 0 /-Modifiers-/)), (.idx (.fld (.var 0 /-form-/) 2 /-Separators-/) (.nat 0))])])
    .skip ;;
  .ite 30930 (.lt (.add (.var 1 /-slot-/) (.var 6 /-consumed-/)) (.fld (.var 0 /-form-/) 3 /-RequiredSeparators-/))
    (.ret 30931 [.nil, (.nat 0), (.error b!"expected %s" [(.idx (.fld (.var 0 /-form-/) 2 /-Separators-/) (.add (.var 1 /-slot-/) (.var 6 /-consumed-/)))])])
    .skip ;;
  .ret 30934 [(.var 3 /-expr-/), (.var 6 /-consumed-/), .nil]⟩

/-- `parseKeywordArgModifier`, parser/parser_column.go:937-964. -/
def parseKeywordArgModifier : Func Fn := ⟨14,
  .ite 30938 (.or (.not (.eqNat (.var 1 /-slot-/) (.nat 0))) (.not (.matchOneOf (.fld (.var 0 /-form-/) 0 /-Modifiers-/))))
    (.call 30939 .parseExpr [.pos] [2, 3] ;;
    .ret 30940 [(.var 2 /-expr-/), (.bool false), (.var 3 /-err-/)])
    .skip ;;
  .call 30943 .peekTokenKind [(.str b!",")] [5] ;;
  .set 30943 4 (.var 5 /-tmp-/) ;;
  .ite 30943 (.var 4 /-cond-/)
    .skip
    (.call 30943 .peekTokenKind [(.str b!")")] [6] ;;
    .set 30943 4 (.var 6 /-tmp-/)) ;;
  .ite 30943 (.var 4 /-cond-/)
    (.call 30944 .parseExpr [.pos] [7, 8] ;;
    .ret 30945 [(.var 7 /-expr-/), (.bool false), (.var 8 /-err-/)])
    .skip ;;
  .set 30948 9 .pos /-unaryPos-/ ;;
  .set 30949 10 (.tokText .cur) /-kind-/ ;;
  .prim 30950 .consume [11] ;;
  .ite 30950 (.not (.isNil (.var 11 /-err-/)))
    (.ret 30951 [.nil, (.bool false), (.var 11 /-err-/)])
    .skip ;;
  .call 30954 .parseExpr [.pos] [12, 13] ;;
  .ite 30955 (.not (.isNil (.var 13 /-err-/)))
    (.ret 30956 [.nil, (.bool false), (.var 13 /-err-/)])
    .skip ;;
  .ret 30959 [(.mk .UnaryExpr [(.var 9 /-unaryPos-/) /-UnaryPos-/, (.var 10 /-kind-/) /-Kind-/, (.var 12 /-expr-/) /-Expr-/]), (.bool true), .nil]⟩

/-- `parseKeywordArgFunctionParams`, parser/parser_column.go:966-1041. -/
def parseKeywordArgFunctionParams : Func Fn := ⟨21,
  .prim 30967 (.expectKind (.str b!"(")) [2] ;;
  .ite 30967 (.not (.isNil (.var 2 /-err-/)))
    (.ret 30968 [.nil, (.var 2 /-err-/)])
    .skip ;;
  .set 30971 3 .pos /-itemsPos-/ ;;
  .prim 30972 (.tryKws [b!"DISTINCT"]) [4] ;;
  .set 30974 5 .empty /-items-/ ;;
  .set 30977 6 (.nat 0) /-slot-/ ;;
  .set 30978 7 (.bool false) /-usedSeparator-/ ;;
  .set 30978 8 (.bool false) /-usedComma-/ ;;
  .loop
    (.ite 30979 (.and (.not .isEOF) (.not (.matchKinds [(.str b!")")])))
      .skip
      .brk ;;
    .call 30980 .parseKeywordArgItem [(.var 1 /-form-/), (.var 6 /-slot-/), (.not (.and (.fld (.var 1 /-form-/) 4 /-ClosedKeywordForm-/) (.var 8 /-usedComma-/)))] [9, 10, 11] ;;
    .ite 30981 (.not (.isNil (.var 11 /-err-/)))
      (.ret 30982 [.nil, (.var 11 /-err-/)])
      .skip ;;
    .ite 30985 (.lt (.nat 0) (.var 10 /-consumed-/))
      (.set 30986 7 (.bool true) /-usedSeparator-/)
      .skip ;;
    .set 30988 6 (.add (.var 6 /-slot-/) (.var 10 /-consumed-/)) /-slot-/ ;;
    .set 30990 12 .nil /-alias-/ ;;
    .prim 30991 (.tryKws [b!"AS"]) [13] ;;
    .ite 30991 (.var 13 /-tmp-/)
      (.call 30992 .parseAnyKeyword [] [12, 11] ;;
      .ite 30992 (.not (.isNil (.var 11 /-err-/)))
        (.ret 30993 [.nil, (.var 11 /-err-/)])
        .skip)
      .skip ;;
    .set 30997 5 (.append (.var 5 /-items-/) (.mk .ColumnExpr [(.var 9 /-item-/) /-Expr-/, (.var 12 /-alias-/) /-Alias-/])) /-items-/ ;;
    .prim 30998 (.tryKind (.str b!",")) [14] ;;
    .ite 30998 (.isNil (.var 14 /-tmp-/))
      .brk
      .skip ;;
    .set 31002 8 (.bool true) /-usedComma-/ ;;
    .set 31003 6 (.add (.var 6 /-slot-/) (.nat 1)) /-slot-/ ;;
    .ite 31005 (.and (.var 7 /-usedSeparator-/) (.or (.fld (.var 1 /-form-/) 4 /-ClosedKeywordForm-/) (.and (.lt (.nat 0) (.fld (.var 1 /-form-/) 5 /-MaxSlots-/)) (.not (.lt (.var 6 /-slot-/) (.fld (.var 1 /-form-/) 5 /-MaxSlots-/))))))
      (.ret 31006 [.nil, (.error b!"expected ')', but got ','" [])])
      .skip) ;;
  .set 31010 15 (.mk .ColumnExprList [(.var 3 /-itemsPos-/) /-ListPos-/, (.var 3 /-itemsPos-/) /-ListEnd-/, (.var 4 /-hasDistinct-/) /-HasDistinct-/, (.var 5 /-items-/) /-Items-/]) /-itemList-/ ;;
  .ite 31016 (.lt (.nat 0) (.len (.var 5 /-items-/)))
    (.setF 31017 15 [1] (.endOf (.last (.var 5 /-items-/)) .iface) /-itemList.ListEnd-/)
    .skip ;;
  .set 31020 16 .pos /-rightParenPos-/ ;;
  .prim 31021 (.expectKind (.str b!")")) [17] ;;
  .ite 31021 (.not (.isNil (.var 17 /-err-/)))
    (.ret 31022 [.nil, (.var 17 /-err-/)])
    .skip ;;
  .set 31025 18 (.mk .ParamExprList [(.var 0 /-pos-/) /-LeftParenPos-/, (.var 16 /-rightParenPos-/) /-RightParenPos-/, (.var 15 /-itemList-/) /-Items-/, .nil /-ColumnArgList-/]) /-paramExprList-/ ;;
  .ite 31031 (.matchKinds [(.str b!"(")])
    (.call 31032 .parseColumnArgList [.pos] [19, 20] ;;
    .ite 31033 (.not (.isNil (.var 20 /-err-/)))
      (.ret 31034 [.nil, (.var 20 /-err-/)])
      .skip ;;
    .setF 31037 18 [3] (.var 19 /-columnArgList-/) /-paramExprList.ColumnArgList-/)
    .skip ;;
  .ret 31040 [(.var 18 /-paramExprList-/), .nil]⟩

/-- `parseFunctionParams`, parser/parser_column.go:1043-1072. -/
def parseFunctionParams : Func Fn := ⟨9,
  .prim 31044 (.expectKind (.str b!"(")) [1] ;;
  .ite 31044 (.not (.isNil (.var 1 /-err-/)))
    (.ret 31045 [.nil, (.var 1 /-err-/)])
    .skip ;;
  .call 31047 .parseColumnExprListWithLParen [.pos] [2, 3] ;;
  .ite 31048 (.not (.isNil (.var 3 /-err-/)))
    (.ret 31049 [.nil, (.var 3 /-err-/)])
    .skip ;;
  .set 31051 4 .pos /-rightParenPos-/ ;;
  .prim 31052 (.expectKind (.str b!")")) [5] ;;
  .ite 31052 (.not (.isNil (.var 5 /-err-/)))
    (.ret 31053 [.nil, (.var 5 /-err-/)])
    .skip ;;
  .set 31055 6 (.mk .ParamExprList [(.var 0 /-pos-/) /-LeftParenPos-/, (.var 4 /-rightParenPos-/) /-RightParenPos-/, (.var 2 /-params-/) /-Items-/, .nil /-ColumnArgList-/]) /-paramExprList-/ ;;
  .ite 31064 (.matchKinds [(.str b!"(")])
    (.call 31065 .parseColumnArgList [.pos] [7, 8] ;;
    .ite 31066 (.not (.isNil (.var 8 /-err-/)))
      (.ret 31067 [.nil, (.var 8 /-err-/)])
      .skip ;;
    .setF 31069 6 [3] (.var 7 /-columnArgList-/) /-paramExprList.ColumnArgList-/)
    .skip ;;
  .ret 31071 [(.var 6 /-paramExprList-/), .nil]⟩

/-- `parseMapLiteral`, parser/parser_column.go:1074-1109. -/
def parseMapLiteral : Func Fn := ⟨10,
  .prim 31075 (.expectKind (.str b!"{")) [1] ;;
  .ite 31075 (.not (.isNil (.var 1 /-err-/)))
    (.ret 31076 [.nil, (.var 1 /-err-/)])
    .skip ;;
  .set 31079 2 .empty /-keyValues-/ ;;
  .loop
    (.ite 31080 (.and (.not .isEOF) (.not (.matchKinds [(.str b!"}")])))
      .skip
      .brk ;;
    .call 31081 .parseString [.pos] [3, 4] ;;
    .ite 31082 (.not (.isNil (.var 4 /-err-/)))
      (.ret 31083 [.nil, (.var 4 /-err-/)])
      .skip ;;
    .prim 31085 (.expectKind (.str b!":")) [5] ;;
    .ite 31085 (.not (.isNil (.var 5 /-err-/)))
      (.ret 31086 [.nil, (.var 5 /-err-/)])
      .skip ;;
    .call 31088 .parseExpr [.pos] [6, 4] ;;
    .ite 31089 (.not (.isNil (.var 4 /-err-/)))
      (.ret 31090 [.nil, (.var 4 /-err-/)])
      .skip ;;
    .set 31092 2 (.append (.var 2 /-keyValues-/) (.mk .KeyValue [(.deref (.var 3 /-key-/)) /-Key-/, (.var 6 /-value-/) /-Value-/])) /-keyValues-/ ;;
    .prim 31096 (.tryKind (.str b!",")) [7] ;;
    .ite 31096 (.isNil (.var 7 /-tmp-/))
      .brk
      .skip) ;;
  .set 31100 8 .pos /-rightBracePos-/ ;;
  .prim 31101 (.expectKind (.str b!"}")) [9] ;;
  .ite 31101 (.not (.isNil (.var 9 /-err-/)))
    (.ret 31102 [.nil, (.var 9 /-err-/)])
    .skip ;;
  .ret 31104 [(.mk .MapLiteral [(.var 0 /-pos-/) /-LBracePos-/, (.var 8 /-rightBracePos-/) /-RBracePos-/, (.var 2 /-keyValues-/) /-KeyValues-/]), .nil]⟩

/-- `parseQueryParam`, parser/parser_column.go:1111-1139. -/
def parseQueryParam : Func Fn := ⟨8,
  .prim 31112 (.expectKind (.str b!"{")) [1] ;;
  .ite 31112 (.not (.isNil (.var 1 /-err-/)))
    (.ret 31113 [.nil, (.var 1 /-err-/)])
    .skip ;;
  .call 31118 .parseAnyKeyword [] [2, 3] ;;
  .ite 31119 (.not (.isNil (.var 3 /-err-/)))
    (.ret 31120 [.nil, (.var 3 /-err-/)])
    .skip ;;
  .prim 31122 (.expectKind (.str b!":")) [4] ;;
  .ite 31122 (.not (.isNil (.var 4 /-err-/)))
    (.ret 31123 [.nil, (.var 4 /-err-/)])
    .skip ;;
  .call 31125 .parseColumnType [.pos] [5, 3] ;;
  .ite 31126 (.not (.isNil (.var 3 /-err-/)))
    (.ret 31127 [.nil, (.var 3 /-err-/)])
    .skip ;;
  .set 31129 6 .pos /-rightBracePos-/ ;;
  .prim 31130 (.expectKind (.str b!"}")) [7] ;;
  .ite 31130 (.not (.isNil (.var 7 /-err-/)))
    (.ret 31131 [.nil, (.var 7 /-err-/)])
    .skip ;;
  .ret 31133 [(.mk .QueryParam [(.var 0 /-pos-/) /-LBracePos-/, (.var 6 /-rightBracePos-/) /-RBracePos-/, (.var 2 /-ident-/) /-Name-/, (.var 5 /-columnType-/) /-Type-/]), .nil]⟩

/-- `parseArrayParams`, parser/parser_column.go:1141-1158. -/
def parseArrayParams : Func Fn := ⟨6,
  .prim 31142 (.expectKind (.str b!"[")) [1] ;;
  .ite 31142 (.not (.isNil (.var 1 /-err-/)))
    (.ret 31143 [.nil, (.var 1 /-err-/)])
    .skip ;;
  .call 31145 .parseColumnExprListWithSquareBracket [.pos] [2, 3] ;;
  .ite 31146 (.not (.isNil (.var 3 /-err-/)))
    (.ret 31147 [.nil, (.var 3 /-err-/)])
    .skip ;;
  .set 31149 4 .pos /-rightBracketPos-/ ;;
  .prim 31150 (.expectKind (.str b!"]")) [5] ;;
  .ite 31150 (.not (.isNil (.var 5 /-err-/)))
    (.ret 31151 [.nil, (.var 5 /-err-/)])
    .skip ;;
  .ret 31153 [(.mk .ArrayParamList [(.var 0 /-pos-/) /-LeftBracketPos-/, (.var 4 /-rightBracketPos-/) /-RightBracketPos-/, (.var 2 /-params-/) /-Items-/]), .nil]⟩

/-- `parseColumnsExpr`, parser/parser_column.go:1160-1178. -/
def parseColumnsExpr : Func Fn := ⟨5,
  .call 31161 .parseExpr [(.var 0 /-pos-/)] [1, 2] ;;
  .ite 31162 (.not (.isNil (.var 2 /-err-/)))
    (.ret 31163 [.nil, (.var 2 /-err-/)])
    .skip ;;
  .set 31166 3 .nil /-alias-/ ;;
  .prim 31167 (.tryKws [b!"AS"]) [4] ;;
  .ite 31167 (.var 4 /-tmp-/)
    (.call 31169 .parseAnyKeyword [] [3, 2] ;;
    .ite 31170 (.not (.isNil (.var 2 /-err-/)))
      (.ret 31171 [.nil, (.var 2 /-err-/)])
      .skip)
    .skip ;;
  .ret 31174 [(.mk .ColumnExpr [(.var 1 /-expr-/) /-Expr-/, (.var 3 /-alias-/) /-Alias-/]), .nil]⟩

/-- `parseSelectItem`, parser/parser_column.go:1180-1224. -/
def parseSelectItem : Func Fn := ⟨9,
  .call 31181 .parseExpr [.pos] [0, 1] ;;
  .ite 31182 (.not (.isNil (.var 1 /-err-/)))
    (.ret 31183 [.nil, (.var 1 /-err-/)])
    .skip ;;
  .set 31186 2 .empty /-modifiers-/ ;;
  .loop
    (.ite 31188 (.or (.or (.matchKw (.str b!"EXCEPT")) (.matchKw (.str b!"APPLY"))) (.matchKw (.str b!"REPLACE")))
      (.call 31189 .parseFunctionExpr [.pos] [3, 4] ;;
      .ite 31190 (.not (.isNil (.var 4 /-err-/)))
        (.ret 31191 [.nil, (.var 4 /-err-/)])
        .skip ;;
      .set 31193 2 (.append (.var 2 /-modifiers-/) (.var 3 /-modifier-/)) /-modifiers-/)
      .brk) ;;
  .set 31199 5 .nil /-alias-/ ;;
  .prim 31201 (.tryKws [b!"AS"]) [6] ;;
  .ite 31201 (.var 6 /-tmp-/)
    (.call 31204 .parseAnyKeyword [] [5, 1] ;;
    .ite 31205 (.not (.isNil (.var 1 /-err-/)))
      (.ret 31206 [.nil, (.var 1 /-err-/)])
      .skip)
    (.set 31208 7 (.matchKinds [(.str b!"<ident>")]) ;;
    .ite 31208 (.var 7 /-cond-/)
      (.call 31208 .isSelectItemTerminatorKeyword [] [8] ;;
      .set 31208 7 (.not (.var 8 /-tmp-/)))
      .skip ;;
    .ite 31208 (.var 7 /-cond-/)
      (.call 31211 .parseIdent [] [5, 1] ;;
      .ite 31212 (.not (.isNil (.var 1 /-err-/)))
        (.ret 31213 [.nil, (.var 1 /-err-/)])
        .skip)
      (.set 31216 5 .nil /-alias-/)) ;;
  .ret 31219 [(.mk .SelectItem [(.var 0 /-expr-/) /-Expr-/, (.var 2 /-modifiers-/) /-Modifiers-/, (.var 5 /-alias-/) /-Alias-/]), .nil]⟩

/-- `parseColumnCaseExpr`, parser/parser_column.go:1226-1286. -/
def parseColumnCaseExpr : Func Fn := ⟨17,
  .set 31228 1 (.mk .CaseExpr [(.var 0 /-pos-/) /-CasePos-/, (.nat 0) /-EndPos-/, .nil /-Expr-/, .nil /-Whens-/, (.nat 0) /-ElsePos-/, .nil /-Else-/]) /-caseExpr-/ ;;
  .prim 31229 (.expectKw (.str b!"CASE")) [2] ;;
  .ite 31229 (.not (.isNil (.var 2 /-err-/)))
    (.ret 31230 [.nil, (.var 2 /-err-/)])
    .skip ;;
  .ite 31234 (.not (.matchKw (.str b!"WHEN")))
    (.call 31235 .parseExpr [.pos] [3, 4] ;;
    .ite 31236 (.not (.isNil (.var 4 /-err-/)))
      (.ret 31237 [.nil, (.var 4 /-err-/)])
      .skip ;;
    .setF 31239 1 [2] (.var 3 /-expr-/) /-caseExpr.Expr-/)
    .skip ;;
  .set 31243 5 .empty /-whenClauses-/ ;;
  .loop
    (.ite 31244 (.matchKw (.str b!"WHEN"))
      .skip
      .brk ;;
    .set 31245 6 .pos /-whenPos-/ ;;
    .prim 31246 .consume [9999] ;;
    .call 31247 .parseExpr [.pos] [7, 8] ;;
    .ite 31248 (.not (.isNil (.var 8 /-err-/)))
      (.ret 31249 [.nil, (.var 8 /-err-/)])
      .skip ;;
    .set 31252 9 .pos /-thenPos-/ ;;
    .prim 31253 (.expectKw (.str b!"THEN")) [10] ;;
    .ite 31253 (.not (.isNil (.var 10 /-err-/)))
      (.ret 31254 [.nil, (.var 10 /-err-/)])
      .skip ;;
    .call 31256 .parseExpr [.pos] [11, 8] ;;
    .ite 31257 (.not (.isNil (.var 8 /-err-/)))
      (.ret 31258 [.nil, (.var 8 /-err-/)])
      .skip ;;
    .set 31261 5 (.append (.var 5 /-whenClauses-/) (.mk .WhenClause [(.var 6 /-whenPos-/) /-WhenPos-/, (.var 9 /-thenPos-/) /-ThenPos-/, (.var 7 /-whenCondition-/) /-When-/, (.var 11 /-thenCondition-/) /-Then-/, (.nat 0) /-ElsePos-/, .nil /-Else-/])) /-whenClauses-/) ;;
  .setF 31268 1 [3] (.var 5 /-whenClauses-/) /-caseExpr.Whens-/ ;;
  .set 31271 12 .pos /-elsePos-/ ;;
  .prim 31272 (.tryKws [b!"ELSE"]) [13] ;;
  .ite 31272 (.var 13 /-tmp-/)
    (.call 31273 .parseExpr [.pos] [14, 15] ;;
    .ite 31274 (.not (.isNil (.var 15 /-err-/)))
      (.ret 31275 [.nil, (.var 15 /-err-/)])
      .skip ;;
    .setF 31277 1 [4] (.var 12 /-elsePos-/) /-caseExpr.ElsePos-/ ;;
    .setF 31278 1 [5] (.var 14 /-elseExpr-/) /-caseExpr.Else-/)
    .skip ;;
  .prim 31281 (.expectKw (.str b!"END")) [16] ;;
  .ite 31281 (.not (.isNil (.var 16 /-err-/)))
    (.ret 31282 [.nil, (.var 16 /-err-/)])
    .skip ;;
  .ret 31285 [(.var 1 /-caseExpr-/), .nil]⟩

/-- `parseColumnType`, parser/parser_column.go:1288-1295. -/
def parseColumnType : Func Fn := ⟨5,
  .call 31289 .parseIdent [] [1, 2] ;;
  .ite 31290 (.not (.isNil (.var 2 /-err-/)))
    (.ret 31291 [.nil, (.var 2 /-err-/)])
    .skip ;;
  .call 31294 .parseColumnTypeArgs [(.var 1 /-ident-/)] [3, 4] ;;
  .ret 31294 [(.var 3 /-tmp-/), (.var 4 /-tmp-/)]⟩

/-- `parseColumnTypeArgs`, parser/parser_column.go:1297-1336. -/
def parseColumnTypeArgs : Func Fn := ⟨21,
  .prim 31298 (.tryKind (.str b!"(")) [1] ;;
  .ite 31298 (.not (.isNil (.var 1 /-lParen-/)))
    (.ite 31300 (.matchKinds [(.str b!"<ident>")])
      (.ite 31302 (.equalFold (.fld (.var 0 /-ident-/) 0 /-Name-/) (.str b!"Nested"))
        (.call 31303 .parseNestedType [(.var 0 /-ident-/), .pos] [2, 3] ;;
        .ret 31303 [(.var 2 /-tmp-/), (.var 3 /-tmp-/)])
        (.ite 31304 (.equalFold (.fld (.var 0 /-ident-/) 0 /-Name-/) (.str b!"JSON"))
          (.call 31305 .parseJSONType [(.var 0 /-ident-/), .pos] [4, 5] ;;
          .ret 31305 [(.var 4 /-tmp-/), (.var 5 /-tmp-/)])
          (.ite 31306 (.equalFold (.fld (.var 0 /-ident-/) 0 /-Name-/) (.str b!"QBit"))
            (.call 31307 .parseColumnTypeWithParams [(.var 0 /-ident-/), .pos] [6, 7] ;;
            .ret 31307 [(.var 6 /-tmp-/), (.var 7 /-tmp-/)])
            (.ite 31308 (.equalFold (.fld (.var 0 /-ident-/) 0 /-Name-/) (.str b!"Tuple"))
              (.call 31309 .parseNestedType [(.var 0 /-ident-/), .pos] [8, 9] ;;
              .ret 31309 [(.var 8 /-tmp-/), (.var 9 /-tmp-/)])
              (.call 31311 .parseComplexType [(.var 0 /-ident-/), .pos] [10, 11] ;;
              .ret 31311 [(.var 10 /-tmp-/), (.var 11 /-tmp-/)])))))
      (.ite 31313 (.matchKinds [(.str b!"<string>")])
        (.prim 31314 .peek [12, 13] ;;
        .ite 31314 (.and (.isNil (.var 13 /-err-/)) (.eqStr (.fld (.var 12 /-peekToken-/) 2 /-Kind-/) (.str b!"=")))
          (.call 31316 .parseEnumType [(.var 0 /-ident-/), .pos] [14, 15] ;;
          .ret 31316 [(.var 14 /-tmp-/), (.var 15 /-tmp-/)])
          .skip ;;
        .call 31319 .parseColumnTypeWithParams [(.var 0 /-ident-/), .pos] [16, 17] ;;
        .ret 31319 [(.var 16 /-tmp-/), (.var 17 /-tmp-/)])
        (.ite 31320 (.or (.matchKinds [(.str b!"<int>")]) (.matchKinds [(.str b!"<float>")]))
          (.call 31322 .parseColumnTypeWithParams [(.var 0 /-ident-/), .pos] [18, 19] ;;
          .ret 31322 [(.var 18 /-tmp-/), (.var 19 /-tmp-/)])
          (.ite 31323 (.matchKinds [(.str b!")")])
            (.set 31324 20 .pos /-rightParenPos-/ ;;
            .prim 31325 .consume [9999] ;;
            .ret 31326 [(.mk .TypeWithParams [(.fld (.var 1 /-lParen-/) 0 /-Pos-/) /-LeftParenPos-/, (.var 20 /-rightParenPos-/) /-RightParenPos-/, (.var 0 /-ident-/) /-Name-/, .nil /-Params-/]), .nil])
            (.ret 31332 [.nil, (.error b!"unexpected token kind: %v" [.curKind])])))))
    .skip ;;
  .ret 31335 [(.mk .ScalarType [(.var 0 /-ident-/) /-Name-/]), .nil]⟩

/-- `parseColumnPropertyType`, parser/parser_column.go:1338-1346. -/
def parseColumnPropertyType : Func Fn := ⟨3,
  .call 31339 .parseIdent [] [1, 2] ;;
  .ite 31340 (.not (.isNil (.var 2 /-err-/)))
    (.ret 31341 [.nil, (.var 2 /-err-/)])
    .skip ;;
  .ret 31343 [(.mk .PropertyType [(.var 1 /-ident-/) /-Name-/]), .nil]⟩

/-- `parseComplexType`, parser/parser_column.go:1348-1370. -/
def parseComplexType : Func Fn := ⟨8,
  .set 31349 2 .empty /-subTypes-/ ;;
  .loop
    (.ite 31350 (.and (.not .isEOF) (.not (.matchKinds [(.str b!")")])))
      .skip
      .brk ;;
    .call 31351 .parseColumnType [.pos] [3, 4] ;;
    .ite 31352 (.not (.isNil (.var 4 /-err-/)))
      (.ret 31353 [.nil, (.var 4 /-err-/)])
      .skip ;;
    .set 31355 2 (.append (.var 2 /-subTypes-/) (.var 3 /-subExpr-/)) /-subTypes-/ ;;
    .prim 31356 (.tryKind (.str b!",")) [5] ;;
    .ite 31356 (.isNil (.var 5 /-tmp-/))
      .brk
      .skip) ;;
  .set 31360 6 .pos /-rightParenPos-/ ;;
  .prim 31361 (.expectKind (.str b!")")) [7] ;;
  .ite 31361 (.not (.isNil (.var 7 /-err-/)))
    (.ret 31362 [.nil, (.var 7 /-err-/)])
    .skip ;;
  .ret 31364 [(.mk .ComplexType [(.var 1 /-pos-/) /-LeftParenPos-/, (.var 6 /-rightParenPos-/) /-RightParenPos-/, (.var 0 /-name-/) /-Name-/, (.var 2 /-subTypes-/) /-Params-/]), .nil]⟩

/-- `parseEnumType`, parser/parser_column.go:1372-1398. -/
def parseEnumType : Func Fn := ⟨7,
  .set 31373 2 (.mk .EnumType [(.var 0 /-name-/) /-Name-/, (.var 1 /-pos-/) /-ListPos-/, (.nat 0) /-ListEnd-/, .empty /-Values-/]) /-enumType-/ ;;
  .loop
    (.ite 31378 (.and (.not .isEOF) (.not (.matchKinds [(.str b!")")])))
      .skip
      .brk ;;
    .call 31379 .parseEnumValueExpr [.pos] [3, 4] ;;
    .ite 31380 (.not (.isNil (.var 4 /-err-/)))
      (.ret 31381 [.nil, (.var 4 /-err-/)])
      .skip ;;
    .ite 31383 (.isNil (.var 3 /-enumValue-/))
      .brk
      .skip ;;
    .setF 31386 2 [3] (.append (.fld (.var 2 /-enumType-/) 3 /-Values-/) (.deref (.var 3 /-enumValue-/))) /-enumType.Values-/ ;;
    .prim 31387 (.tryKind (.str b!",")) [5] ;;
    .ite 31387 (.isNil (.var 5 /-tmp-/))
      .brk
      .skip) ;;
  .ite 31391 (.lt (.nat 0) (.len (.fld (.var 2 /-enumType-/) 3 /-Values-/)))
    (.setF 31392 2 [2] (.fld (.fld (.last (.fld (.var 2 /-enumType-/) 3 /-Values-/)) 1 /-Value-/) 1 /-NumEnd-/) /-enumType.ListEnd-/)
    .skip ;;
  .prim 31394 (.expectKind (.str b!")")) [6] ;;
  .ite 31394 (.not (.isNil (.var 6 /-err-/)))
    (.ret 31395 [.nil, (.var 6 /-err-/)])
    .skip ;;
  .ret 31397 [(.var 2 /-enumType-/), .nil]⟩

/-- `parseColumnTypeWithParams`, parser/parser_column.go:1400-1425. -/
def parseColumnTypeWithParams : Func Fn := ⟨11,
  .set 31401 2 .empty /-params-/ ;;
  .call 31402 .parseLiteral [.pos] [3, 4] ;;
  .ite 31403 (.not (.isNil (.var 4 /-err-/)))
    (.ret 31404 [.nil, (.var 4 /-err-/)])
    .skip ;;
  .set 31406 2 (.append (.var 2 /-params-/) (.var 3 /-param-/)) /-params-/ ;;
  .loop
    (.set 31407 5 (.not .isEOF) ;;
    .ite 31407 (.var 5 /-cond-/)
      (.prim 31407 (.tryKind (.str b!",")) [6] ;;
      .set 31407 5 (.not (.isNil (.var 6 /-tmp-/))))
      .skip ;;
    .ite 31407 (.var 5 /-cond-/)
      .skip
      .brk ;;
    .call 31408 .parseLiteral [.pos] [7, 8] ;;
    .ite 31409 (.not (.isNil (.var 8 /-err-/)))
      (.ret 31410 [.nil, (.var 8 /-err-/)])
      .skip ;;
    .set 31412 2 (.append (.var 2 /-params-/) (.var 7 /-size-/)) /-params-/) ;;
  .set 31415 9 .pos /-rightParenPos-/ ;;
  .prim 31416 (.expectKind (.str b!")")) [10] ;;
  .ite 31416 (.not (.isNil (.var 10 /-err-/)))
    (.ret 31417 [.nil, (.var 10 /-err-/)])
    .skip ;;
  .ret 31419 [(.mk .TypeWithParams [(.var 1 /-pos-/) /-LeftParenPos-/, (.var 9 /-rightParenPos-/) /-RightParenPos-/, (.var 0 /-name-/) /-Name-/, (.var 2 /-params-/) /-Params-/]), .nil]⟩

/-- `parseJSONPath`, parser/parser_column.go:1427-1445. -/
def parseJSONPath : Func Fn := ⟨7,
  .set 31428 0 .empty /-idents-/ ;;
  .call 31429 .parseIdent [] [1, 2] ;;
  .ite 31430 (.not (.isNil (.var 2 /-err-/)))
    (.ret 31431 [.nil, (.var 2 /-err-/)])
    .skip ;;
  .set 31433 0 (.append (.var 0 /-idents-/) (.var 1 /-ident-/)) /-idents-/ ;;
  .loop
    (.set 31435 3 (.not .isEOF) ;;
    .ite 31435 (.var 3 /-cond-/)
      (.prim 31435 (.tryKind (.str b!".")) [4] ;;
      .set 31435 3 (.not (.isNil (.var 4 /-tmp-/))))
      .skip ;;
    .ite 31435 (.var 3 /-cond-/)
      .skip
      .brk ;;
    .call 31436 .parseAnyKeyword [] [5, 6] ;;
    .ite 31437 (.not (.isNil (.var 6 /-err-/)))
      (.ret 31438 [.nil, (.var 6 /-err-/)])
      .skip ;;
    .set 31440 0 (.append (.var 0 /-idents-/) (.var 5 /-ident-/)) /-idents-/) ;;
  .ret 31442 [(.mk .JSONPath [(.var 0 /-idents-/) /-Idents-/]), .nil]⟩

/-- `parseJSONMaxDynamicOptions`, parser/parser_column.go:1447-1473. -/
def parseJSONMaxDynamicOptions : Func Fn := ⟨9,
  .call 31448 .parseIdent [] [1, 2] ;;
  .ite 31449 (.not (.isNil (.var 2 /-err-/)))
    (.ret 31450 [.nil, (.var 2 /-err-/)])
    .skip ;;
  .prim 31453 (.expectKind (.str b!"=")) [3] ;;
  .ite 31453 (.not (.isNil (.var 3 /-err-/)))
    (.ret 31454 [.nil, (.var 3 /-err-/)])
    .skip ;;
  .set 31457 4 (.fld (.var 1 /-ident-/) 0 /-Name-/) ;;
  .ite 31458 (.eqStr (.var 4 /-tag-/) (.str b!"max_dynamic_types"))
    (.call 31459 .parseNumber [(.var 0 /-pos-/)] [5, 6] ;;
    .ite 31460 (.not (.isNil (.var 6 /-err-/)))
      (.ret 31461 [.nil, (.var 6 /-err-/)])
      .skip ;;
    .ret 31463 [(.mk .JSONOption [.nil /-SkipPath-/, .nil /-SkipRegex-/, .nil /-MaxDynamicPaths-/, (.var 5 /-number-/) /-MaxDynamicTypes-/, .nil /-Column-/]), .nil])
    (.ite 31464 (.eqStr (.var 4 /-tag-/) (.str b!"max_dynamic_paths"))
      (.call 31465 .parseNumber [(.var 0 /-pos-/)] [7, 8] ;;
      .ite 31466 (.not (.isNil (.var 8 /-err-/)))
        (.ret 31467 [.nil, (.var 8 /-err-/)])
        .skip ;;
      .ret 31469 [(.mk .JSONOption [.nil /-SkipPath-/, .nil /-SkipRegex-/, (.var 7 /-number-/) /-MaxDynamicPaths-/, .nil /-MaxDynamicTypes-/, .nil /-Column-/]), .nil])
      (.ret 31471 [.nil, (.error b!"unexpected token kind: %s" [.curKind])]))⟩

/-- `parseJSONOption`, parser/parser_column.go:1475-1543. -/
def parseJSONOption : Func Fn := ⟨15,
  .prim 31477 (.tryKws [b!"SKIP"]) [0] ;;
  .ite 31477 (.var 0 /-tmp-/)
    (.prim 31478 (.tryKws [b!"REGEXP"]) [1] ;;
    .ite 31478 (.var 1 /-tmp-/)
      (.call 31479 .parseString [.pos] [2, 3] ;;
      .ite 31480 (.not (.isNil (.var 3 /-err-/)))
        (.ret 31481 [.nil, (.var 3 /-err-/)])
        .skip ;;
      .ret 31483 [(.mk .JSONOption [.nil /-SkipPath-/, (.var 2 /-regex-/) /-SkipRegex-/, .nil /-MaxDynamicPaths-/, .nil /-MaxDynamicTypes-/, .nil /-Column-/]), .nil])
      .skip ;;
    .call 31487 .parseJSONPath [] [4, 5] ;;
    .ite 31488 (.not (.isNil (.var 5 /-err-/)))
      (.ret 31489 [.nil, (.var 5 /-err-/)])
      .skip ;;
    .ret 31491 [(.mk .JSONOption [(.var 4 /-jsonPath-/) /-SkipPath-/, .nil /-SkipRegex-/, .nil /-MaxDynamicPaths-/, .nil /-MaxDynamicTypes-/, .nil /-Column-/]), .nil])
    (.ite 31494 (.matchKinds [(.str b!"<ident>")])
      (.call 31505 .parseJSONPath [] [6, 7] ;;
      .ite 31506 (.not (.isNil (.var 7 /-err-/)))
        (.ret 31507 [.nil, (.var 7 /-err-/)])
        .skip ;;
      .prim 31509 (.tryKind (.str b!"=")) [8] ;;
      .ite 31509 (.not (.isNil (.var 8 /-tmp-/)))
        (.ite 31513 (.not (.eqNat (.len (.fld (.var 6 /-path-/) 0 /-Idents-/)) (.nat 1)))
          (.ret 31514 [.nil, (.error b!"unexpected token kind: %s" [.curKind])])
          .skip ;;
        .set 31516 9 (.fld (.idx (.fld (.var 6 /-path-/) 0 /-Idents-/) (.nat 0)) 0 /-Name-/) /-name-/ ;;
        .ite 31518 (.eqStr (.var 9 /-name-/) (.str b!"max_dynamic_types"))
          (.call 31519 .parseNumber [.pos] [10, 11] ;;
          .ite 31520 (.not (.isNil (.var 11 /-err-/)))
            (.ret 31521 [.nil, (.var 11 /-err-/)])
            .skip ;;
          .ret 31523 [(.mk .JSONOption [.nil /-SkipPath-/, .nil /-SkipRegex-/, .nil /-MaxDynamicPaths-/, (.var 10 /-number-/) /-MaxDynamicTypes-/, .nil /-Column-/]), .nil])
          (.ite 31524 (.eqStr (.var 9 /-name-/) (.str b!"max_dynamic_paths"))
            (.call 31525 .parseNumber [.pos] [12, 13] ;;
            .ite 31526 (.not (.isNil (.var 13 /-err-/)))
              (.ret 31527 [.nil, (.var 13 /-err-/)])
              .skip ;;
            .ret 31529 [(.mk .JSONOption [.nil /-SkipPath-/, .nil /-SkipRegex-/, (.var 12 /-number-/) /-MaxDynamicPaths-/, .nil /-MaxDynamicTypes-/, .nil /-Column-/]), .nil])
            (.ret 31531 [.nil, (.error b!"unexpected token kind: %s" [.curKind])])))
        .skip ;;
      .call 31535 .parseColumnType [.pos] [14, 7] ;;
      .ite 31536 (.not (.isNil (.var 7 /-err-/)))
        (.ret 31537 [.nil, (.var 7 /-err-/)])
        .skip ;;
      .ret 31539 [(.mk .JSONOption [.nil /-SkipPath-/, .nil /-SkipRegex-/, .nil /-MaxDynamicPaths-/, .nil /-MaxDynamicTypes-/, (.mk .JSONTypeHint [(.var 6 /-path-/) /-Path-/, (.var 14 /-colType-/) /-Type-/]) /-Column-/]), .nil])
      (.ret 31541 [.nil, (.error b!"unexpected token kind: %s" [.curKind])]))⟩

/-- `parseJSONType`, parser/parser_column.go:1545-1574. -/
def parseJSONType : Func Fn := ⟨8,
  .ite 31546 (.matchKinds [(.str b!"(")])
    (.ret 31547 [(.mk .JSONType [(.var 0 /-name-/) /-Name-/, .nil /-Options-/]), .nil])
    .skip ;;
  .set 31550 2 .empty /-options-/ ;;
  .loop
    (.ite 31551 (.and (.not .isEOF) (.not (.matchKinds [(.str b!")")])))
      .skip
      .brk ;;
    .call 31552 .parseJSONOption [] [3, 4] ;;
    .ite 31553 (.not (.isNil (.var 4 /-err-/)))
      (.ret 31554 [.nil, (.var 4 /-err-/)])
      .skip ;;
    .set 31556 2 (.append (.var 2 /-options-/) (.var 3 /-option-/)) /-options-/ ;;
    .prim 31557 (.tryKind (.str b!",")) [5] ;;
    .ite 31557 (.isNil (.var 5 /-tmp-/))
      .brk
      .skip) ;;
  .set 31562 6 .pos /-rightParenPos-/ ;;
  .prim 31563 (.expectKind (.str b!")")) [7] ;;
  .ite 31563 (.not (.isNil (.var 7 /-err-/)))
    (.ret 31564 [.nil, (.var 7 /-err-/)])
    .skip ;;
  .ret 31566 [(.mk .JSONType [(.var 0 /-name-/) /-Name-/, (.mk .JSONOptions [(.var 1 /-pos-/) /-LParen-/, (.var 6 /-rightParenPos-/) /-RParen-/, (.var 2 /-options-/) /-Items-/]) /-Options-/]), .nil]⟩

/-- `parseNestedType`, parser/parser_column.go:1576-1592. -/
def parseNestedType : Func Fn := ⟨6,
  .call 31577 .parseNestedTypeFields [] [2, 3] ;;
  .ite 31578 (.not (.isNil (.var 3 /-err-/)))
    (.ret 31579 [.nil, (.var 3 /-err-/)])
    .skip ;;
  .set 31582 4 .pos /-rightParenPos-/ ;;
  .prim 31583 (.expectKind (.str b!")")) [5] ;;
  .ite 31583 (.not (.isNil (.var 5 /-err-/)))
    (.ret 31584 [.nil, (.var 5 /-err-/)])
    .skip ;;
  .ret 31586 [(.mk .NestedType [(.var 1 /-pos-/) /-LeftParenPos-/, (.var 4 /-rightParenPos-/) /-RightParenPos-/, (.var 0 /-name-/) /-Name-/, (.var 2 /-columns-/) /-Columns-/]), .nil]⟩

/-- `parseNestedTypeFields`, parser/parser_column.go:1594-1615. -/
def parseNestedTypeFields : Func Fn := ⟨6,
  .ite 31596 (.or .isEOF (.matchKinds [(.str b!")")]))
    (.ret 31598 [.empty, .nil])
    (.ite 31599 (.matchKinds [(.str b!"<ident>")])
      (.call 31600 .parseIdent [] [0, 1] ;;
      .ite 31601 (.not (.isNil (.var 1 /-err-/)))
        (.ret 31602 [.nil, (.var 1 /-err-/)])
        .skip ;;
      .ite 31605 (.matchKinds [(.str b!"<ident>")])
        (.call 31607 .parseNestedTypeFieldsWithNames [(.var 0 /-ident-/)] [2, 3] ;;
        .ret 31607 [(.var 2 /-tmp-/), (.var 3 /-tmp-/)])
        .skip ;;
      .call 31611 .parseNestedTypeFieldsWithoutNames [(.var 0 /-ident-/)] [4, 5] ;;
      .ret 31611 [(.var 4 /-tmp-/), (.var 5 /-tmp-/)])
      (.ret 31613 [.nil, (.error b!"unexpected token kind: %s" [.curKind])]))⟩

/-- `parseNestedTypeFieldsWithNames`, parser/parser_column.go:1617-1654. -/
def parseNestedTypeFieldsWithNames : Func Fn := ⟨8,
  .set 31618 1 .empty /-columns-/ ;;
  .call 31620 .parseColumnType [.pos] [2, 3] ;;
  .ite 31621 (.not (.isNil (.var 3 /-err-/)))
    (.ret 31622 [.nil, (.var 3 /-err-/)])
    .skip ;;
  .set 31625 1 (.append (.var 1 /-columns-/) (.mk .ColumnDef [(.posOf (.var 0 /-columnName-/) (.ptr .Ident)) /-NamePos-/, (.endOf (.var 2 /-columnType-/) .iface) /-ColumnEnd-/, (.mk .NestedIdentifier [(.var 0 /-columnName-/) /-Ident-/, .nil /-DotIdent-/]) /-Name-/, (.var 2 /-columnType-/) /-Type-/, .nil /-NotNull-/, .nil /-Nullable-/, .nil /-DefaultExpr-/, .nil /-MaterializedExpr-/, .nil /-AliasExpr-/, .nil /-Codec-/, .nil /-TTL-/, .nil /-Comment-/, .nil /-CompressionCodec-/])) /-columns-/ ;;
  .prim 31634 (.tryKind (.str b!",")) [4] ;;
  .ite 31634 (.isNil (.var 4 /-tmp-/))
    (.ret 31635 [(.var 1 /-columns-/), .nil])
    .skip ;;
  .loop
    (.ite 31638 (.and (.not .isEOF) (.not (.matchKinds [(.str b!")")])))
      .skip
      .brk ;;
    .call 31639 .parseNestedTypeFieldWithName [] [5, 6] ;;
    .ite 31640 (.not (.isNil (.var 6 /-err-/)))
      (.ret 31641 [.nil, (.var 6 /-err-/)])
      .skip ;;
    .ite 31643 (.isNil (.var 5 /-column-/))
      .brk
      .skip ;;
    .set 31646 1 (.append (.var 1 /-columns-/) (.var 5 /-column-/)) /-columns-/ ;;
    .prim 31648 (.tryKind (.str b!",")) [7] ;;
    .ite 31648 (.isNil (.var 7 /-tmp-/))
      .brk
      .skip) ;;
  .ret 31653 [(.var 1 /-columns-/), .nil]⟩

/-- `parseNestedTypeFieldsWithoutNames`, parser/parser_column.go:1656-1686. -/
def parseNestedTypeFieldsWithoutNames : Func Fn := ⟨8,
  .set 31657 1 .empty /-columns-/ ;;
  .call 31659 .parseColumnTypeArgs [(.var 0 /-columnType-/)] [2, 3] ;;
  .ite 31660 (.not (.isNil (.var 3 /-err-/)))
    (.ret 31661 [.nil, (.var 3 /-err-/)])
    .skip ;;
  .set 31664 1 (.append (.var 1 /-columns-/) (.var 2 /-column-/)) /-columns-/ ;;
  .prim 31666 (.tryKind (.str b!",")) [4] ;;
  .ite 31666 (.isNil (.var 4 /-tmp-/))
    (.ret 31667 [(.var 1 /-columns-/), .nil])
    .skip ;;
  .loop
    (.ite 31670 (.and (.not .isEOF) (.not (.matchKinds [(.str b!")")])))
      .skip
      .brk ;;
    .call 31671 .parseColumnType [.pos] [5, 6] ;;
    .ite 31672 (.not (.isNil (.var 6 /-err-/)))
      (.ret 31673 [.nil, (.var 6 /-err-/)])
      .skip ;;
    .ite 31675 (.isNil (.var 5 /-column-/))
      .brk
      .skip ;;
    .set 31678 1 (.append (.var 1 /-columns-/) (.var 5 /-column-/)) /-columns-/ ;;
    .prim 31680 (.tryKind (.str b!",")) [7] ;;
    .ite 31680 (.isNil (.var 7 /-tmp-/))
      .brk
      .skip) ;;
  .ret 31685 [(.var 1 /-columns-/), .nil]⟩

/-- `parseNestedTypeFieldWithName`, parser/parser_column.go:1688-1707. -/
def parseNestedTypeFieldWithName : Func Fn := ⟨3,
  .call 31689 .parseIdent [] [0, 1] ;;
  .ite 31690 (.not (.isNil (.var 1 /-err-/)))
    (.ret 31691 [.nil, (.var 1 /-err-/)])
    .skip ;;
  .call 31694 .parseColumnType [.pos] [2, 1] ;;
  .ite 31695 (.not (.isNil (.var 1 /-err-/)))
    (.ret 31696 [.nil, (.var 1 /-err-/)])
    .skip ;;
  .ret 31699 [(.mk .ColumnDef [(.posOf (.var 0 /-name-/) (.ptr .Ident)) /-NamePos-/, (.endOf (.var 2 /-columnType-/) .iface) /-ColumnEnd-/, (.mk .NestedIdentifier [(.var 0 /-name-/) /-Ident-/, .nil /-DotIdent-/]) /-Name-/, (.var 2 /-columnType-/) /-Type-/, .nil /-NotNull-/, .nil /-Nullable-/, .nil /-DefaultExpr-/, .nil /-MaterializedExpr-/, .nil /-AliasExpr-/, .nil /-Codec-/, .nil /-TTL-/, .nil /-Comment-/, .nil /-CompressionCodec-/]), .nil]⟩

/-- `tryParseCompressionCodecs`, parser/parser_column.go:1709-1792. -/
def tryParseCompressionCodecs : Func Fn := ⟨13,
  .prim 31710 (.tryKws [b!"CODEC"]) [1] ;;
  .ite 31710 (.not (.var 1 /-tmp-/))
    (.ret 31711 [.nil, .nil])
    .skip ;;
  .prim 31714 (.expectKind (.str b!"(")) [2] ;;
  .ite 31714 (.not (.isNil (.var 2 /-err-/)))
    (.ret 31715 [.nil, (.var 2 /-err-/)])
    .skip ;;
  .call 31719 .parseIdent [] [3, 4] ;;
  .ite 31720 (.not (.isNil (.var 4 /-err-/)))
    (.ret 31721 [.nil, (.var 4 /-err-/)])
    .skip ;;
  .set 31725 5 .nil /-name-/ ;;
  .set 31726 6 .nil /-typeLevel-/ ;;
  .set 31727 7 (.upper (.fld (.var 3 /-codecType-/) 0 /-Name-/)) ;;
  .ite 31728 (.or (.or (.or (.or (.eqStr (.var 7 /-tag-/) (.str b!"DELTA")) (.eqStr (.var 7 /-tag-/) (.str b!"DOUBLEDELTA"))) (.eqStr (.var 7 /-tag-/) (.str b!"T64"))) (.eqStr (.var 7 /-tag-/) (.str b!"GORILLA"))) (.eqStr (.var 7 /-tag-/) (.str b!"GCD")))
    (.call 31730 .tryParseCompressionLevel [.pos] [6, 4] ;;
    .ite 31731 (.not (.isNil (.var 4 /-err-/)))
      (.ret 31732 [.nil, (.var 4 /-err-/)])
      .skip ;;
    .ite 31735 (.matchKinds [(.str b!",")])
      (.prim 31736 (.expectKind (.str b!",")) [8] ;;
      .ite 31736 (.not (.isNil (.var 8 /-err-/)))
        (.ret 31737 [.nil, (.var 8 /-err-/)])
        .skip ;;
      .call 31739 .parseIdent [] [5, 4] ;;
      .ite 31740 (.not (.isNil (.var 4 /-err-/)))
        (.ret 31741 [.nil, (.var 4 /-err-/)])
        .skip)
      .skip)
    (.ite 31744 (.or (.or (.eqStr (.var 7 /-tag-/) (.str b!"ZSTD")) (.eqStr (.var 7 /-tag-/) (.str b!"LZ4HC"))) (.eqStr (.var 7 /-tag-/) (.str b!"LH4")))
      (.call 31746 .tryParseCompressionLevel [.pos] [6, 4] ;;
      .ite 31747 (.not (.isNil (.var 4 /-err-/)))
        (.ret 31748 [.nil, (.var 4 /-err-/)])
        .skip)
      .skip) ;;
  .set 31752 9 .nil /-level-/ ;;
  .ite 31754 (.not (.isNil (.var 5 /-name-/)))
    (.set 31755 10 (.upper (.fld (.var 5 /-name-/) 0 /-Name-/)) ;;
    .ite 31756 (.or (.or (.eqStr (.var 10 /-tag-/) (.str b!"ZSTD")) (.eqStr (.var 10 /-tag-/) (.str b!"LZ4HC"))) (.eqStr (.var 10 /-tag-/) (.str b!"LH4")))
      (.call 31757 .tryParseCompressionLevel [.pos] [9, 4] ;;
      .ite 31758 (.not (.isNil (.var 4 /-err-/)))
        (.ret 31759 [.nil, (.var 4 /-err-/)])
        .skip)
      .skip)
    .skip ;;
  .set 31764 11 .end_ /-rightParenPos-/ ;;
  .prim 31765 (.expectKind (.str b!")")) [12] ;;
  .ite 31765 (.not (.isNil (.var 12 /-err-/)))
    (.ret 31766 [.nil, (.var 12 /-err-/)])
    .skip ;;
  .ite 31771 (.isNil (.var 5 /-name-/))
    (.ret 31772 [(.mk .CompressionCodec [(.var 0 /-pos-/) /-CodecPos-/, (.var 11 /-rightParenPos-/) /-RightParenPos-/, .nil /-Type-/, .nil /-TypeLevel-/, (.var 3 /-codecType-/) /-Name-/, (.var 6 /-typeLevel-/) /-Level-/]), .nil])
    .skip ;;
  .ret 31784 [(.mk .CompressionCodec [(.var 0 /-pos-/) /-CodecPos-/, (.var 11 /-rightParenPos-/) /-RightParenPos-/, (.var 3 /-codecType-/) /-Type-/, (.var 6 /-typeLevel-/) /-TypeLevel-/, (.var 5 /-name-/) /-Name-/, (.var 9 /-level-/) /-Level-/]), .nil]⟩

/-- `parseEnumValueExpr`, parser/parser_column.go:1794-1812. -/
def parseEnumValueExpr : Func Fn := ⟨5,
  .call 31795 .parseString [(.var 0 /-pos-/)] [1, 2] ;;
  .ite 31796 (.not (.isNil (.var 2 /-err-/)))
    (.ret 31797 [.nil, (.var 2 /-err-/)])
    .skip ;;
  .prim 31800 (.expectKind (.str b!"=")) [3] ;;
  .ite 31800 (.not (.isNil (.var 3 /-err-/)))
    (.ret 31801 [.nil, (.var 3 /-err-/)])
    .skip ;;
  .call 31804 .parseNumber [.pos] [4, 2] ;;
  .ite 31805 (.not (.isNil (.var 2 /-err-/)))
    (.ret 31806 [.nil, (.var 2 /-err-/)])
    .skip ;;
  .ret 31808 [(.mk .EnumValue [(.var 1 /-name-/) /-Name-/, (.var 4 /-value-/) /-Value-/]), .nil]⟩

/-- `parseColumnStar`, parser/parser_column.go:1814-1823. -/
def parseColumnStar : Func Fn := ⟨2,
  .prim 31815 (.expectKind (.str b!"*")) [1] ;;
  .ite 31815 (.not (.isNil (.var 1 /-err-/)))
    (.ret 31816 [.nil, (.var 1 /-err-/)])
    .skip ;;
  .ret 31818 [(.mk .Ident [(.str b!"*") /-Name-/, (.nat 0) /-QuoteType-/, (.var 0 /-pos-/) /-NamePos-/, (.var 0 /-pos-/) /-NameEnd-/]), .nil]⟩

/-- `tryParseCompressionLevel`, parser/parser_column.go:1825-1843. -/
def tryParseCompressionLevel : Func Fn := ⟨6,
  .prim 31826 (.tryKind (.str b!"(")) [1] ;;
  .ite 31826 (.isNil (.var 1 /-tmp-/))
    (.ret 31827 [.nil, .nil])
    .skip ;;
  .ite 31830 (.matchKinds [(.str b!")")])
    (.prim 31831 (.expectKind (.str b!")")) [2] ;;
    .ret 31831 [.nil, (.var 2 /-tmp-/)])
    .skip ;;
  .call 31834 .parseNumber [(.var 0 /-pos-/)] [3, 4] ;;
  .ite 31835 (.not (.isNil (.var 4 /-err-/)))
    (.ret 31836 [.nil, (.var 4 /-err-/)])
    .skip ;;
  .prim 31839 (.expectKind (.str b!")")) [5] ;;
  .ite 31839 (.not (.isNil (.var 5 /-err-/)))
    (.ret 31840 [.nil, (.var 5 /-err-/)])
    .skip ;;
  .ret 31842 [(.var 3 /-num-/), .nil]⟩

end Verif.Body

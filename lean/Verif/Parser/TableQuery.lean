/-
The methods of parser/parser_query.go.
Written by tools/genparser.py from the Go text.
-/
import Verif.Parser.Lang
import Verif.Parser.Fn

namespace Verif.Body

/-- `tryParseWithClause`, parser/parser_query.go:11-16. -/
def tryParseWithClause : Func Fn := ⟨3,
  .ite 20012 (.not (.matchKw (.str b!"WITH")))
    (.ret 20013 [.nil, .nil])
    .skip ;;
  .call 20015 .parseWithClause [(.var 0 /-pos-/)] [1, 2] ;;
  .ret 20015 [(.var 1 /-tmp-/), (.var 2 /-tmp-/)]⟩

/-- `parseWithClause`, parser/parser_query.go:18-41. -/
def parseWithClause : Func Fn := ⟨8,
  .prim 20019 (.expectKw (.str b!"WITH")) [1] ;;
  .ite 20019 (.not (.isNil (.var 1 /-err-/)))
    (.ret 20020 [.nil, (.var 1 /-err-/)])
    .skip ;;
  .call 20023 .parseCTEStmt [.pos] [2, 3] ;;
  .ite 20024 (.not (.isNil (.var 3 /-err-/)))
    (.ret 20025 [.nil, (.var 3 /-err-/)])
    .skip ;;
  .set 20027 4 (.append .empty (.var 2 /-cteExpr-/)) /-ctes-/ ;;
  .loop
    (.prim 20028 (.tryKind (.str b!",")) [5] ;;
    .ite 20028 (.not (.isNil (.var 5 /-tmp-/)))
      .skip
      .brk ;;
    .call 20029 .parseCTEStmt [.pos] [6, 7] ;;
    .ite 20030 (.not (.isNil (.var 7 /-err-/)))
      (.ret 20031 [.nil, (.var 7 /-err-/)])
      .skip ;;
    .set 20033 4 (.append (.var 4 /-ctes-/) (.var 6 /-cteExpr-/)) /-ctes-/) ;;
  .ret 20036 [(.mk .WithClause [(.var 0 /-pos-/) /-WithPos-/, (.endOf (.last (.var 4 /-ctes-/)) (.ptr .CTEStmt)) /-EndPos-/, (.var 4 /-ctes-/) /-CTEs-/]), .nil]⟩

/-- `tryParseTopClause`, parser/parser_query.go:43-48. -/
def tryParseTopClause : Func Fn := ⟨3,
  .ite 20044 (.not (.matchKw (.str b!"TOP")))
    (.ret 20045 [.nil, .nil])
    .skip ;;
  .call 20047 .parseTopClause [(.var 0 /-pos-/)] [1, 2] ;;
  .ret 20047 [(.var 1 /-tmp-/), (.var 2 /-tmp-/)]⟩

/-- `parseTopClause`, parser/parser_query.go:50-75. -/
def parseTopClause : Func Fn := ⟨8,
  .prim 20051 (.expectKw (.str b!"TOP")) [1] ;;
  .ite 20051 (.not (.isNil (.var 1 /-err-/)))
    (.ret 20052 [.nil, (.var 1 /-err-/)])
    .skip ;;
  .call 20055 .parseNumber [.pos] [2, 3] ;;
  .ite 20056 (.not (.isNil (.var 3 /-err-/)))
    (.ret 20057 [.nil, (.var 3 /-err-/)])
    .skip ;;
  .set 20059 4 (.endOf (.var 2 /-number-/) (.ptr .NumberLiteral)) /-topEnd-/ ;;
  .set 20061 5 (.bool false) /-withTies-/ ;;
  .prim 20062 (.tryKws [b!"WITH"]) [6] ;;
  .ite 20062 (.var 6 /-tmp-/)
    (.set 20063 4 .end_ /-topEnd-/ ;;
    .prim 20064 (.expectKw (.str b!"TIES")) [7] ;;
    .ite 20064 (.not (.isNil (.var 7 /-err-/)))
      (.ret 20065 [.nil, (.var 7 /-err-/)])
      .skip ;;
    .set 20067 5 (.bool true) /-withTies-/)
    .skip ;;
  .ret 20069 [(.mk .TopClause [(.var 0 /-pos-/) /-TopPos-/, (.var 4 /-topEnd-/) /-TopEnd-/, (.var 2 /-number-/) /-Number-/, (.var 5 /-withTies-/) /-WithTies-/]), .nil]⟩

/-- `tryParseDistinctOn`, parser/parser_query.go:77-82. -/
def tryParseDistinctOn : Func Fn := ⟨3,
  .ite 20078 (.not (.matchKw (.str b!"ON")))
    (.ret 20079 [.nil, .nil])
    .skip ;;
  .call 20081 .parseDistinctOn [(.var 0 /-pos-/)] [1, 2] ;;
  .ret 20081 [(.var 1 /-tmp-/), (.var 2 /-tmp-/)]⟩

/-- `parseDistinctOn`, parser/parser_query.go:84-118. -/
def parseDistinctOn : Func Fn := ⟨7,
  .prim 20085 (.expectKw (.str b!"ON")) [1] ;;
  .ite 20085 (.not (.isNil (.var 1 /-err-/)))
    (.ret 20086 [.nil, (.var 1 /-err-/)])
    .skip ;;
  .prim 20089 (.expectKind (.str b!"(")) [2] ;;
  .ite 20089 (.not (.isNil (.var 2 /-err-/)))
    (.ret 20090 [.nil, (.var 2 /-err-/)])
    .skip ;;
  .call 20093 .ParseNestedIdentifier [.pos] [3, 4] ;;
  .ite 20094 (.not (.isNil (.var 4 /-err-/)))
    (.ret 20095 [.nil, (.var 4 /-err-/)])
    .skip ;;
  .set 20097 5 (.append .empty (.var 3 /-col-/)) /-idents-/ ;;
  .loop
    (.ite 20099 (.matchKinds [(.str b!",")])
      .skip
      .brk ;;
    .prim 20100 .consume [9999] ;;
    .call 20102 .ParseNestedIdentifier [.pos] [3, 4] ;;
    .ite 20103 (.not (.isNil (.var 4 /-err-/)))
      (.ret 20104 [.nil, (.var 4 /-err-/)])
      .skip ;;
    .set 20106 5 (.append (.var 5 /-idents-/) (.var 3 /-col-/)) /-idents-/) ;;
  .prim 20109 (.expectKind (.str b!")")) [6] ;;
  .ite 20109 (.not (.isNil (.var 6 /-err-/)))
    (.ret 20110 [.nil, (.var 6 /-err-/)])
    .skip ;;
  .ret 20113 [(.mk .DistinctOn [(.var 5 /-idents-/) /-Idents-/, (.var 0 /-pos-/) /-DistinctOnPos-/, .pos /-DistinctOnEnd-/]), .nil]⟩

/-- `tryParseFromClause`, parser/parser_query.go:120-125. -/
def tryParseFromClause : Func Fn := ⟨3,
  .ite 20121 (.not (.matchKw (.str b!"FROM")))
    (.ret 20122 [.nil, .nil])
    .skip ;;
  .call 20124 .parseFromClause [(.var 0 /-pos-/)] [1, 2] ;;
  .ret 20124 [(.var 1 /-tmp-/), (.var 2 /-tmp-/)]⟩

/-- `parseFromClause`, parser/parser_query.go:127-140. -/
def parseFromClause : Func Fn := ⟨4,
  .prim 20128 (.expectKw (.str b!"FROM")) [1] ;;
  .ite 20128 (.not (.isNil (.var 1 /-err-/)))
    (.ret 20129 [.nil, (.var 1 /-err-/)])
    .skip ;;
  .call 20132 .parseJoinExpr [.pos] [2, 3] ;;
  .ite 20133 (.not (.isNil (.var 3 /-err-/)))
    (.ret 20134 [.nil, (.var 3 /-err-/)])
    .skip ;;
  .ret 20136 [(.mk .FromClause [(.var 0 /-pos-/) /-FromPos-/, (.var 2 /-expr-/) /-Expr-/]), .nil]⟩

/-- `tryParseJoinConstraints`, parser/parser_query.go:142-170. -/
def tryParseJoinConstraints : Func Fn := ⟨10,
  .prim 20144 (.tryKws [b!"ON"]) [1] ;;
  .ite 20144 (.var 1 /-tmp-/)
    (.call 20145 .parseColumnExprList [.pos] [2, 3] ;;
    .ite 20146 (.not (.isNil (.var 3 /-err-/)))
      (.ret 20147 [.nil, (.var 3 /-err-/)])
      .skip ;;
    .ret 20149 [(.mk .OnClause [(.var 0 /-pos-/) /-OnPos-/, (.var 2 /-columnExprList-/) /-On-/]), .nil])
    (.prim 20153 (.tryKws [b!"USING"]) [4] ;;
    .ite 20153 (.var 4 /-tmp-/)
      (.prim 20154 (.tryKind (.str b!"(")) [5] ;;
      .set 20154 6 (.not (.isNil (.var 5 /-tmp-/))) /-hasParen-/ ;;
      .call 20155 .parseColumnExprListWithLParen [.pos] [7, 8] ;;
      .ite 20156 (.not (.isNil (.var 8 /-err-/)))
        (.ret 20157 [.nil, (.var 8 /-err-/)])
        .skip ;;
      .ite 20159 (.var 6 /-hasParen-/)
        (.prim 20160 (.expectKind (.str b!")")) [9] ;;
        .ite 20160 (.not (.isNil (.var 9 /-err-/)))
          (.ret 20161 [.nil, (.var 9 /-err-/)])
          .skip)
        .skip ;;
      .ret 20164 [(.mk .UsingClause [(.var 0 /-pos-/) /-UsingPos-/, (.var 7 /-columnExprList-/) /-Using-/]), .nil])
      .skip) ;;
  .ret 20169 [.nil, .nil]⟩

/-- `parseJoinType`, parser/parser_query.go:172-248. -/
def parseJoinType : Func Fn := ⟨3,
  .set 20173 1 .nil /-modifiers-/ ;;
  .prim 20175 (.tryKws [b!"CROSS"]) [2] ;;
  .ite 20175 (.var 2 /-tmp-/)
    (.set 20176 1 (.append (.var 1 /-modifiers-/) (.str b!"CROSS")) /-modifiers-/)
    (.ite 20177 (.or (.matchKw (.str b!"ANY")) (.matchKw (.str b!"ALL")))
      (.set 20178 1 (.append (.var 1 /-modifiers-/) (.fld .cur 3 /-String-/)) /-modifiers-/ ;;
      .prim 20179 .consume [9999] ;;
      .ite 20180 (.matchKw (.str b!"FULL"))
        (.set 20181 1 (.append (.var 1 /-modifiers-/) (.fld .cur 3 /-String-/)) /-modifiers-/ ;;
        .prim 20182 .consume [9999])
        .skip ;;
      .ite 20184 (.or (.or (.or (.matchKw (.str b!"LEFT")) (.matchKw (.str b!"RIGHT"))) (.matchKw (.str b!"INNER"))) (.matchKw (.str b!"OUTER")))
        (.set 20185 1 (.append (.var 1 /-modifiers-/) (.fld .cur 3 /-String-/)) /-modifiers-/ ;;
        .prim 20186 .consume [9999])
        .skip)
      (.ite 20188 (.or (.matchKw (.str b!"SEMI")) (.matchKw (.str b!"ASOF")))
        (.set 20189 1 (.append (.var 1 /-modifiers-/) (.fld .cur 3 /-String-/)) /-modifiers-/ ;;
        .prim 20190 .consume [9999] ;;
        .ite 20191 (.or (.matchKw (.str b!"LEFT")) (.matchKw (.str b!"RIGHT")))
          (.set 20192 1 (.append (.var 1 /-modifiers-/) (.fld .cur 3 /-String-/)) /-modifiers-/ ;;
          .prim 20193 .consume [9999])
          .skip ;;
        .ite 20195 (.matchKw (.str b!"OUTER"))
          (.set 20196 1 (.append (.var 1 /-modifiers-/) (.fld .cur 3 /-String-/)) /-modifiers-/ ;;
          .prim 20197 .consume [9999])
          .skip)
        (.ite 20199 (.matchKw (.str b!"INNER"))
          (.set 20200 1 (.append (.var 1 /-modifiers-/) (.fld .cur 3 /-String-/)) /-modifiers-/ ;;
          .prim 20201 .consume [9999] ;;
          .ite 20202 (.or (.or (.or (.matchKw (.str b!"ALL")) (.matchKw (.str b!"ANY"))) (.matchKw (.str b!"ASOF"))) (.matchKw (.str b!"ARRAY")))
            (.set 20203 1 (.append (.var 1 /-modifiers-/) (.fld .cur 3 /-String-/)) /-modifiers-/ ;;
            .prim 20204 .consume [9999])
            .skip)
          (.ite 20206 (.matchKw (.str b!"LEFT"))
            (.set 20207 1 (.append (.var 1 /-modifiers-/) (.fld .cur 3 /-String-/)) /-modifiers-/ ;;
            .prim 20208 .consume [9999] ;;
            .ite 20209 (.matchKw (.str b!"OUTER"))
              (.set 20210 1 (.append (.var 1 /-modifiers-/) (.fld .cur 3 /-String-/)) /-modifiers-/ ;;
              .prim 20211 .consume [9999])
              .skip ;;
            .ite 20213 (.or (.or (.or (.or (.or (.matchKw (.str b!"SEMI")) (.matchKw (.str b!"ANTI"))) (.matchKw (.str b!"ANY"))) (.matchKw (.str b!"ALL"))) (.matchKw (.str b!"ASOF"))) (.matchKw (.str b!"ARRAY")))
              (.set 20216 1 (.append (.var 1 /-modifiers-/) (.fld .cur 3 /-String-/)) /-modifiers-/ ;;
              .prim 20217 .consume [9999])
              .skip)
            (.ite 20219 (.matchKw (.str b!"RIGHT"))
              (.set 20220 1 (.append (.var 1 /-modifiers-/) (.fld .cur 3 /-String-/)) /-modifiers-/ ;;
              .prim 20221 .consume [9999] ;;
              .ite 20222 (.matchKw (.str b!"OUTER"))
                (.set 20223 1 (.append (.var 1 /-modifiers-/) (.fld .cur 3 /-String-/)) /-modifiers-/ ;;
                .prim 20224 .consume [9999])
                .skip ;;
              .ite 20226 (.or (.or (.or (.or (.matchKw (.str b!"SEMI")) (.matchKw (.str b!"ANTI"))) (.matchKw (.str b!"ANY"))) (.matchKw (.str b!"ALL"))) (.matchKw (.str b!"ASOF")))
                (.set 20229 1 (.append (.var 1 /-modifiers-/) (.fld .cur 3 /-String-/)) /-modifiers-/ ;;
                .prim 20230 .consume [9999])
                .skip)
              (.ite 20232 (.matchKw (.str b!"FULL"))
                (.set 20233 1 (.append (.var 1 /-modifiers-/) (.fld .cur 3 /-String-/)) /-modifiers-/ ;;
                .prim 20234 .consume [9999] ;;
                .ite 20235 (.matchKw (.str b!"OUTER"))
                  (.set 20236 1 (.append (.var 1 /-modifiers-/) (.fld .cur 3 /-String-/)) /-modifiers-/ ;;
                  .prim 20237 .consume [9999])
                  .skip ;;
                .ite 20239 (.or (.matchKw (.str b!"ALL")) (.matchKw (.str b!"ANY")))
                  (.set 20240 1 (.append (.var 1 /-modifiers-/) (.fld .cur 3 /-String-/)) /-modifiers-/ ;;
                  .prim 20241 .consume [9999])
                  .skip)
                (.ite 20243 (.matchKw (.str b!"ARRAY"))
                  (.set 20244 1 (.append (.var 1 /-modifiers-/) (.fld .cur 3 /-String-/)) /-modifiers-/ ;;
                  .prim 20245 .consume [9999])
                  .skip))))))) ;;
  .ret 20247 [(.var 1 /-modifiers-/)]⟩

/-- `parseJoinTableExpr`, parser/parser_query.go:250-281. -/
def parseJoinTableExpr : Func Fn := ⟨6,
  .ite 20252 (.or (.or (.matchKinds [(.str b!"<ident>")]) (.matchKinds [(.str b!"<string>")])) (.matchKinds [(.str b!"(")]))
    (.call 20253 .parseTableExpr [.pos] [1, 2] ;;
    .ite 20254 (.not (.isNil (.var 2 /-err-/)))
      (.ret 20255 [.nil, (.var 2 /-err-/)])
      .skip ;;
    .set 20257 3 (.endOf (.var 1 /-tableExpr-/) (.ptr .TableExpr)) /-statementEnd-/ ;;
    .set 20259 4 (.matchKw (.str b!"FINAL")) /-hasFinal-/ ;;
    .ite 20260 (.var 4 /-hasFinal-/)
      (.set 20261 3 .end_ /-statementEnd-/ ;;
      .prim 20262 .consume [9999])
      .skip ;;
    .call 20265 .tryParseSampleClause [.pos] [5, 2] ;;
    .ite 20266 (.not (.isNil (.var 2 /-err-/)))
      (.ret 20267 [.nil, (.var 2 /-err-/)])
      .skip ;;
    .ite 20269 (.not (.isNil (.var 5 /-sampleRatio-/)))
      (.set 20270 3 (.endOf (.var 5 /-sampleRatio-/) (.ptr .SampleClause)) /-statementEnd-/)
      .skip ;;
    .ret 20272 [(.mk .JoinTableExpr [(.var 1 /-tableExpr-/) /-Table-/, (.var 3 /-statementEnd-/) /-StatementEnd-/, (.var 5 /-sampleRatio-/) /-SampleRatio-/, (.var 4 /-hasFinal-/) /-HasFinal-/]), .nil])
    (.ret 20279 [.nil, (.error b!"expected table name or subquery, got %s" [.curKind])])⟩

/-- `parseJoinModifiers`, parser/parser_query.go:287-316. -/
def parseJoinModifiers : Func Fn := ⟨4,
  .ite 20288 (.not (.matchOneOf (.strs [b!"GLOBAL", b!"LOCAL"])))
    (.call 20289 .parseJoinType [(.var 0 /-pos-/)] [1] ;;
    .ret 20289 [(.var 1 /-tmp-/), .nil])
    .skip ;;
  .save ;;
  .set 20293 2 .cur /-locality-/ ;;
  .prim 20294 .consume [9999] ;;
  .call 20296 .parseJoinType [.pos] [3] ;;
  .ite 20297 (.and (.eqNat (.len (.var 3 /-joinType-/)) (.nat 0)) (.not (.matchKw (.str b!"JOIN"))))
    (.restore ;;
    .ret 20299 [.nil, .nil])
    .skip ;;
  .ite 20304 (.containsFold (.var 3 /-joinType-/) (.str b!"ARRAY"))
    (.ret 20308 [.nil, (.mk .ParseError [(.fld (.var 2 /-locality-/) 0 /-Pos-/) /-Pos-/, (.nat 0) /-Line-/, (.nat 0) /-Column-/, (.var 2 /-locality-/) /-Got-/, .nil /-Expected-/, (.str []) /-Keyword-/, (.cat (.fld (.var 2 /-locality-/) 3 /-String-/) (.str b!" cannot be combined with ARRAY JOIN")) /-Msg-/])])
    .skip ;;
  .ret 20315 [(.appendAll (.append .empty (.fld (.var 2 /-locality-/) 3 /-String-/)) (.var 3 /-joinType-/)), .nil]⟩

/-- `peekJoinAfterLocality`, parser/parser_query.go:321-333. -/
def peekJoinAfterLocality : Func Fn := ⟨4,
  .save ;;
  .call 20325 .parseJoinModifiers [.pos] [0, 1] ;;
  .ite 20326 (.not (.isNil (.var 1 /-err-/)))
    (.set 20329 2 (.bool true) ;;
    .restore ;;
    .ret 20329 [(.var 2 /-tmp-/)])
    .skip ;;
  .set 20332 3 (.and (.not (.isNil (.var 0 /-modifiers-/))) (.matchKw (.str b!"JOIN"))) ;;
  .restore ;;
  .ret 20332 [(.var 3 /-tmp-/)]⟩

/-- `parseJoinRightExpr`, parser/parser_query.go:335-403. -/
def parseJoinRightExpr : Func Fn := ⟨10,
  .set 20335 1 .nil /-expr-/ ;;
  .set 20335 2 .nil /-err-/ ;;
  .set 20336 3 .nil /-rightExpr-/ ;;
  .set 20337 4 .nil /-modifiers-/ ;;
  .prim 20339 (.tryKind (.str b!",")) [5] ;;
  .ite 20339 (.not (.isNil (.var 5 /-tmp-/)))
    (.call 20340 .parseJoinExpr [.pos] [6, 7] ;;
    .ret 20340 [(.var 6 /-tmp-/), (.var 7 /-tmp-/)])
    (.call 20344 .parseJoinModifiers [.pos] [4, 2] ;;
    .ite 20345 (.not (.isNil (.var 2 /-err-/)))
      (.ret 20346 [.nil, (.var 2 /-err-/)])
      .skip) ;;
  .ite 20350 (.and (.not (.eqNat (.len (.var 4 /-modifiers-/)) (.nat 0))) (.not (.matchKw (.str b!"JOIN"))))
    (.ret 20351 [.nil, (.error b!"expected JOIN, got %s" [.curKind])])
    .skip ;;
  .prim 20353 (.tryKws [b!"JOIN"]) [8] ;;
  .ite 20353 (.not (.var 8 /-tmp-/))
    (.ret 20354 [.nil, .nil])
    .skip ;;
  .set 20357 4 (.append (.var 4 /-modifiers-/) (.str b!"JOIN")) /-modifiers-/ ;;
  .ite 20360 (.contains (.var 4 /-modifiers-/) (.str b!"ARRAY"))
    (.call 20362 .parseColumnExprList [.pos] [1, 2] ;;
    .ite 20363 (.not (.isNil (.var 2 /-err-/)))
      (.ret 20364 [.nil, (.var 2 /-err-/)])
      .skip ;;
    .call 20369 .parseJoinRightExpr [.pos] [3, 2] ;;
    .ite 20370 (.not (.isNil (.var 2 /-err-/)))
      (.ret 20371 [.nil, (.var 2 /-err-/)])
      .skip ;;
    .ret 20373 [(.mk .JoinExpr [(.var 0 /-pos-/) /-JoinPos-/, (.var 1 /-expr-/) /-Left-/, (.var 3 /-rightExpr-/) /-Right-/, (.var 4 /-modifiers-/) /-Modifiers-/, .nil /-Constraints-/]), .nil])
    .skip ;;
  .call 20382 .parseJoinTableExpr [.pos] [1, 2] ;;
  .ite 20383 (.not (.isNil (.var 2 /-err-/)))
    (.ret 20384 [.nil, (.var 2 /-err-/)])
    .skip ;;
  .call 20386 .tryParseJoinConstraints [.pos] [9, 2] ;;
  .ite 20387 (.not (.isNil (.var 2 /-err-/)))
    (.ret 20388 [.nil, (.var 2 /-err-/)])
    .skip ;;
  .call 20392 .parseJoinRightExpr [.pos] [3, 2] ;;
  .ite 20393 (.not (.isNil (.var 2 /-err-/)))
    (.ret 20394 [.nil, (.var 2 /-err-/)])
    .skip ;;
  .ret 20396 [(.mk .JoinExpr [(.var 0 /-pos-/) /-JoinPos-/, (.var 1 /-expr-/) /-Left-/, (.var 3 /-rightExpr-/) /-Right-/, (.var 4 /-modifiers-/) /-Modifiers-/, (.var 9 /-constrains-/) /-Constraints-/]), .nil]⟩

/-- `parseJoinExpr`, parser/parser_query.go:405-421. -/
def parseJoinExpr : Func Fn := ⟨4,
  .set 20405 1 .nil /-expr-/ ;;
  .set 20405 2 .nil /-err-/ ;;
  .call 20406 .parseJoinTableExpr [.pos] [1, 2] ;;
  .ite 20406 (.not (.isNil (.var 2 /-err-/)))
    (.ret 20407 [.nil, (.var 2 /-err-/)])
    .skip ;;
  .call 20409 .parseJoinRightExpr [.pos] [3, 2] ;;
  .ite 20410 (.not (.isNil (.var 2 /-err-/)))
    (.ret 20411 [.nil, (.var 2 /-err-/)])
    .skip ;;
  .ite 20413 (.isNil (.var 3 /-rightExpr-/))
    (.ret 20414 [(.var 1 /-expr-/), .nil])
    .skip ;;
  .ret 20416 [(.mk .JoinExpr [(.var 0 /-pos-/) /-JoinPos-/, (.var 1 /-expr-/) /-Left-/, (.var 3 /-rightExpr-/) /-Right-/, .nil /-Modifiers-/, .nil /-Constraints-/]), .nil]⟩

/-- `parseTableExpr`, parser/parser_query.go:423-501. -/
def parseTableExpr : Func Fn := ⟨15,
  .set 20424 1 .nil /-expr-/ ;;
  .set 20425 2 .nil /-err-/ ;;
  .ite 20427 (.or (.matchKinds [(.str b!"<string>")]) (.matchKinds [(.str b!"<ident>")]))
    (.call 20429 .parseTableIdentifier [.pos] [3, 4] ;;
    .ite 20430 (.not (.isNil (.var 4 /-err-/)))
      (.ret 20431 [.nil, (.var 4 /-err-/)])
      .skip ;;
    .ite 20434 (.or (.not (.isNil (.fld (.var 3 /-tableIdentifier-/) 0 /-Database-/))) (.not (.matchKinds [(.str b!"(")])))
      (.set 20435 1 (.var 3 /-tableIdentifier-/) /-expr-/)
      (.call 20438 .parseTableArgList [.pos] [5, 6] ;;
      .ite 20439 (.not (.isNil (.var 6 /-err-/)))
        (.ret 20440 [.nil, (.var 6 /-err-/)])
        .skip ;;
      .set 20442 1 (.mk .TableFunctionExpr [(.fld (.var 3 /-tableIdentifier-/) 1 /-Table-/) /-Name-/, (.var 5 /-tableArgs-/) /-Args-/]) /-expr-/))
    (.ite 20447 (.matchKinds [(.str b!"(")])
      (.call 20448 .parseSubQuery [.pos] [1, 2])
      (.ret 20450 [.nil, (.error b!"expect table name or subquery" [])])) ;;
  .ite 20452 (.not (.isNil (.var 2 /-err-/)))
    (.ret 20453 [.nil, (.var 2 /-err-/)])
    .skip ;;
  .set 20456 7 (.endOf (.var 1 /-expr-/) .iface) /-tableEnd-/ ;;
  .prim 20457 (.tryKws [b!"AS"]) [8] ;;
  .ite 20457 (.var 8 /-tmp-/)
    (.call 20460 .parseAnyKeyword [] [9, 10] ;;
    .ite 20461 (.not (.isNil (.var 10 /-err-/)))
      (.ret 20462 [.nil, (.var 10 /-err-/)])
      .skip ;;
    .set 20464 1 (.mk .AliasExpr [(.var 1 /-expr-/) /-Expr-/, (.posOf (.var 9 /-alias-/) (.ptr .Ident)) /-AliasPos-/, (.var 9 /-alias-/) /-Alias-/]) /-expr-/ ;;
    .set 20469 7 (.endOf (.var 1 /-expr-/) .iface) /-tableEnd-/)
    (.ite 20470 (.and (.matchKinds [(.str b!"<ident>")]) (.not (.eqStr .curKind (.str b!"<keyword>"))))
      (.call 20471 .parseIdent [] [11, 12] ;;
      .ite 20472 (.not (.isNil (.var 12 /-err-/)))
        (.ret 20473 [.nil, (.var 12 /-err-/)])
        .skip ;;
      .set 20475 1 (.mk .AliasExpr [(.var 1 /-expr-/) /-Expr-/, (.posOf (.var 11 /-alias-/) (.ptr .Ident)) /-AliasPos-/, (.var 11 /-alias-/) /-Alias-/]) /-expr-/ ;;
      .set 20480 7 (.endOf (.var 1 /-expr-/) .iface) /-tableEnd-/)
      .skip) ;;
  .set 20483 13 (.bool false) /-isFinalExist-/ ;;
  .prim 20484 (.tryKws [b!"FINAL"]) [14] ;;
  .ite 20484 (.var 14 /-tmp-/)
    (.ite 20486 (.isTy (.var 1 /-expr-/) .TableFunctionExpr)
      (.ret 20487 [.nil, (.error b!"table function doesn't support FINAL" [])])
      (.ite 20488 (.isTy (.var 1 /-expr-/) .SelectQuery)
        (.ret 20489 [.nil, (.error b!"subquery doesn't support FINAL" [])])
        .skip) ;;
    .set 20491 13 (.bool true) /-isFinalExist-/ ;;
    .set 20492 7 (.endOf (.var 1 /-expr-/) .iface) /-tableEnd-/)
    .skip ;;
  .ret 20495 [(.mk .TableExpr [(.var 0 /-pos-/) /-TablePos-/, (.var 7 /-tableEnd-/) /-TableEnd-/, .nil /-Alias-/, (.var 1 /-expr-/) /-Expr-/, (.var 13 /-isFinalExist-/) /-HasFinal-/]), .nil]⟩

/-- `tryParsePrewhereClause`, parser/parser_query.go:503-508. -/
def tryParsePrewhereClause : Func Fn := ⟨3,
  .ite 20504 (.not (.matchKw (.str b!"PREWHERE")))
    (.ret 20505 [.nil, .nil])
    .skip ;;
  .call 20507 .parsePrewhereClause [(.var 0 /-pos-/)] [1, 2] ;;
  .ret 20507 [(.var 1 /-tmp-/), (.var 2 /-tmp-/)]⟩

/-- `parsePrewhereClause`, parser/parser_query.go:509-522. -/
def parsePrewhereClause : Func Fn := ⟨4,
  .prim 20510 (.expectKw (.str b!"PREWHERE")) [1] ;;
  .ite 20510 (.not (.isNil (.var 1 /-err-/)))
    (.ret 20511 [.nil, (.var 1 /-err-/)])
    .skip ;;
  .call 20514 .parseExpr [.pos] [2, 3] ;;
  .ite 20515 (.not (.isNil (.var 3 /-err-/)))
    (.ret 20516 [.nil, (.var 3 /-err-/)])
    .skip ;;
  .ret 20518 [(.mk .PrewhereClause [(.var 0 /-pos-/) /-PrewherePos-/, (.var 2 /-expr-/) /-Expr-/]), .nil]⟩

/-- `tryParseWhereClause`, parser/parser_query.go:524-529. -/
def tryParseWhereClause : Func Fn := ⟨3,
  .ite 20525 (.not (.matchKw (.str b!"WHERE")))
    (.ret 20526 [.nil, .nil])
    .skip ;;
  .call 20528 .parseWhereClause [(.var 0 /-pos-/)] [1, 2] ;;
  .ret 20528 [(.var 1 /-tmp-/), (.var 2 /-tmp-/)]⟩

/-- `parseWhereClause`, parser/parser_query.go:531-544. -/
def parseWhereClause : Func Fn := ⟨4,
  .prim 20532 (.expectKw (.str b!"WHERE")) [1] ;;
  .ite 20532 (.not (.isNil (.var 1 /-err-/)))
    (.ret 20533 [.nil, (.var 1 /-err-/)])
    .skip ;;
  .call 20536 .parseExpr [.pos] [2, 3] ;;
  .ite 20537 (.not (.isNil (.var 3 /-err-/)))
    (.ret 20538 [.nil, (.var 3 /-err-/)])
    .skip ;;
  .ret 20540 [(.mk .WhereClause [(.var 0 /-pos-/) /-WherePos-/, (.var 2 /-expr-/) /-Expr-/]), .nil]⟩

/-- `tryParseGroupByClause`, parser/parser_query.go:546-551. -/
def tryParseGroupByClause : Func Fn := ⟨3,
  .ite 20547 (.not (.matchKw (.str b!"GROUP")))
    (.ret 20548 [.nil, .nil])
    .skip ;;
  .call 20550 .parseGroupByClause [(.var 0 /-pos-/)] [1, 2] ;;
  .ret 20550 [(.var 1 /-tmp-/), (.var 2 /-tmp-/)]⟩

/-- `parseGroupByClause`, parser/parser_query.go:554-614. -/
def parseGroupByClause : Func Fn := ⟨14,
  .prim 20555 (.expectKw (.str b!"GROUP")) [1] ;;
  .ite 20555 (.not (.isNil (.var 1 /-err-/)))
    (.ret 20556 [.nil, (.var 1 /-err-/)])
    .skip ;;
  .prim 20558 (.expectKw (.str b!"BY")) [2] ;;
  .ite 20558 (.not (.isNil (.var 2 /-err-/)))
    (.ret 20559 [.nil, (.var 2 /-err-/)])
    .skip ;;
  .set 20562 3 .nil /-expr-/ ;;
  .set 20563 4 .nil /-err-/ ;;
  .set 20564 5 (.nat 0) /-groupByEnd-/ ;;
  .set 20565 6 (.str b!"") /-aggregateType-/ ;;
  .ite 20567 (.or (.matchKw (.str b!"CUBE")) (.matchKw (.str b!"ROLLUP")))
    (.set 20568 6 (.fld .cur 3 /-String-/) /-aggregateType-/ ;;
    .prim 20569 .consume [9999] ;;
    .call 20570 .parseFunctionParams [.pos] [3, 4])
    (.prim 20571 (.tryKws [b!"GROUPING", b!"SETS"]) [7] ;;
    .ite 20571 (.var 7 /-tmp-/)
      (.set 20572 6 (.str b!"GROUPING SETS") /-aggregateType-/ ;;
      .call 20573 .parseFunctionParams [.pos] [3, 4])
      (.ite 20574 (.matchKw (.str b!"ALL"))
        (.set 20576 5 .end_ /-groupByEnd-/ ;;
        .prim 20577 .consume [9999] ;;
        .set 20578 6 (.str b!"ALL") /-aggregateType-/)
        (.call 20580 .parseColumnExprListWithLParen [.pos] [3, 4]))) ;;
  .ite 20582 (.not (.isNil (.var 4 /-err-/)))
    (.ret 20583 [.nil, (.var 4 /-err-/)])
    .skip ;;
  .ite 20585 (.not (.isNil (.var 3 /-expr-/)))
    (.set 20586 5 (.endOf (.var 3 /-expr-/) .iface) /-groupByEnd-/)
    .skip ;;
  .set 20588 8 (.mk .GroupByClause [(.var 0 /-pos-/) /-GroupByPos-/, (.var 5 /-groupByEnd-/) /-GroupByEnd-/, (.var 6 /-aggregateType-/) /-AggregateType-/, (.var 3 /-expr-/) /-Expr-/, (.bool false) /-WithCube-/, (.bool false) /-WithRollup-/, (.bool false) /-WithTotals-/]) /-groupBy-/ ;;
  .loop
    (.prim 20596 (.tryKws [b!"WITH"]) [9] ;;
    .ite 20596 (.var 9 /-tmp-/)
      .skip
      .brk ;;
    .set 20599 10 .end_ /-keywordEnd-/ ;;
    .prim 20601 (.tryKws [b!"CUBE"]) [11] ;;
    .ite 20601 (.var 11 /-tmp-/)
      (.setF 20602 8 [4] (.bool true) /-groupBy.WithCube-/)
      (.prim 20603 (.tryKws [b!"ROLLUP"]) [12] ;;
      .ite 20603 (.var 12 /-tmp-/)
        (.setF 20604 8 [5] (.bool true) /-groupBy.WithRollup-/)
        (.prim 20605 (.tryKws [b!"TOTALS"]) [13] ;;
        .ite 20605 (.var 13 /-tmp-/)
          (.setF 20606 8 [6] (.bool true) /-groupBy.WithTotals-/)
          (.ret 20608 [.nil, (.error b!"expected CUBE, ROLLUP or TOTALS, got %s" [.curKind])]))) ;;
    .setF 20610 8 [1] (.var 10 /-keywordEnd-/) /-groupBy.GroupByEnd-/) ;;
  .ret 20613 [(.var 8 /-groupBy-/), .nil]⟩

/-- `tryParseLimitAfterLimitByClause`, parser/parser_query.go:616-622. -/
def tryParseLimitAfterLimitByClause : Func Fn := ⟨3,
  .ite 20617 (.not (.matchKw (.str b!"LIMIT")))
    (.ret 20618 [.nil, .nil])
    .skip ;;
  .call 20621 .parseLimitClause [(.var 0 /-pos-/)] [1, 2] ;;
  .ret 20621 [(.var 1 /-tmp-/), (.var 2 /-tmp-/)]⟩

/-- `tryParseLimitClause`, parser/parser_query.go:624-630. -/
def tryParseLimitClause : Func Fn := ⟨3,
  .ite 20625 (.and (.not (.matchKw (.str b!"LIMIT"))) (.not (.matchKw (.str b!"OFFSET"))))
    (.ret 20626 [.nil, .nil])
    .skip ;;
  .call 20629 .parseLimitClause [(.var 0 /-pos-/)] [1, 2] ;;
  .ret 20629 [(.var 1 /-tmp-/), (.var 2 /-tmp-/)]⟩

/-- `parseLimitClause`, parser/parser_query.go:632-661. -/
def parseLimitClause : Func Fn := ⟨8,
  .set 20633 1 .nil /-limit-/ ;;
  .set 20634 2 .nil /-offset-/ ;;
  .set 20635 3 .nil /-err-/ ;;
  .prim 20636 (.tryKws [b!"LIMIT"]) [4] ;;
  .ite 20636 (.var 4 /-tmp-/)
    (.call 20637 .parseExpr [.pos] [1, 3] ;;
    .ite 20638 (.not (.isNil (.var 3 /-err-/)))
      (.ret 20639 [.nil, (.var 3 /-err-/)])
      .skip ;;
    .prim 20642 (.tryKws [b!"OFFSET"]) [5] ;;
    .ite 20642 (.var 5 /-tmp-/)
      (.call 20643 .parseExpr [.pos] [2, 3])
      (.prim 20644 (.tryKind (.str b!",")) [6] ;;
      .ite 20644 (.not (.isNil (.var 6 /-tmp-/)))
        (.set 20645 2 (.var 1 /-limit-/) /-offset-/ ;;
        .call 20646 .parseExpr [.pos] [1, 3])
        .skip))
    (.prim 20648 (.tryKws [b!"OFFSET"]) [7] ;;
    .ite 20648 (.var 7 /-tmp-/)
      (.call 20649 .parseExpr [.pos] [2, 3])
      .skip) ;;
  .ite 20652 (.not (.isNil (.var 3 /-err-/)))
    (.ret 20653 [.nil, (.var 3 /-err-/)])
    .skip ;;
  .ret 20656 [(.mk .LimitClause [(.var 0 /-pos-/) /-LimitPos-/, (.var 1 /-limit-/) /-Limit-/, (.var 2 /-offset-/) /-Offset-/]), .nil]⟩

/-- `tryParseLimitByClause`, parser/parser_query.go:663-668. -/
def tryParseLimitByClause : Func Fn := ⟨3,
  .ite 20664 (.not (.matchKw (.str b!"LIMIT")))
    (.ret 20665 [.nil, .nil])
    .skip ;;
  .call 20667 .parseLimitByClause [(.var 0 /-pos-/)] [1, 2] ;;
  .ret 20667 [(.var 1 /-tmp-/), (.var 2 /-tmp-/)]⟩

/-- `parseBetweenClause`, parser/parser_query.go:670-697. -/
def parseBetweenClause : Func Fn := ⟨8,
  .prim 20671 (.expectKw (.str b!"BETWEEN")) [2] ;;
  .ite 20671 (.not (.isNil (.var 2 /-err-/)))
    (.ret 20672 [.nil, (.var 2 /-err-/)])
    .skip ;;
  .call 20675 .parseSubExpr [.pos, (.nat 9)] [3, 4] ;;
  .ite 20676 (.not (.isNil (.var 4 /-err-/)))
    (.ret 20677 [.nil, (.var 4 /-err-/)])
    .skip ;;
  .set 20680 5 .pos /-andPos-/ ;;
  .prim 20681 (.expectKw (.str b!"AND")) [6] ;;
  .ite 20681 (.not (.isNil (.var 6 /-err-/)))
    (.ret 20682 [.nil, (.var 6 /-err-/)])
    .skip ;;
  .call 20685 .parseSubExpr [.pos, (.nat 9)] [7, 4] ;;
  .ite 20686 (.not (.isNil (.var 4 /-err-/)))
    (.ret 20687 [.nil, (.var 4 /-err-/)])
    .skip ;;
  .ret 20690 [(.mk .BetweenClause [(.var 0 /-expr-/) /-Expr-/, (.var 1 /-not-/) /-Not-/, (.var 3 /-betweenExpr-/) /-Between-/, (.var 5 /-andPos-/) /-AndPos-/, (.var 7 /-andExpr-/) /-And-/]), .nil]⟩

/-- `parseLimitByClause`, parser/parser_query.go:699-716. -/
def parseLimitByClause : Func Fn := ⟨5,
  .call 20700 .parseLimitClause [(.var 0 /-pos-/)] [1, 2] ;;
  .ite 20701 (.not (.isNil (.var 2 /-err-/)))
    (.ret 20702 [.nil, (.var 2 /-err-/)])
    .skip ;;
  .set 20705 3 .nil /-by-/ ;;
  .prim 20706 (.tryKws [b!"BY"]) [4] ;;
  .ite 20706 (.not (.var 4 /-tmp-/))
    (.ret 20707 [(.var 1 /-limit-/), .nil])
    .skip ;;
  .call 20709 .parseColumnExprListWithLParen [.pos] [3, 2] ;;
  .ite 20709 (.not (.isNil (.var 2 /-err-/)))
    (.ret 20710 [.nil, (.var 2 /-err-/)])
    .skip ;;
  .ret 20712 [(.mk .LimitByClause [(.var 1 /-limit-/) /-Limit-/, (.var 3 /-by-/) /-ByExpr-/]), .nil]⟩

/-- `tryParseWindowFrameClause`, parser/parser_query.go:718-723. -/
def tryParseWindowFrameClause : Func Fn := ⟨3,
  .ite 20719 (.and (.not (.matchKw (.str b!"ROWS"))) (.not (.matchKw (.str b!"RANGE"))))
    (.ret 20720 [.nil, .nil])
    .skip ;;
  .call 20722 .parseWindowFrameClause [(.var 0 /-pos-/)] [1, 2] ;;
  .ret 20722 [(.var 1 /-tmp-/), (.var 2 /-tmp-/)]⟩

/-- `parseWindowFrameClause`, parser/parser_query.go:725-767. -/
def parseWindowFrameClause : Func Fn := ⟨11,
  .set 20726 1 (.str []) /-windowFrameType-/ ;;
  .ite 20727 (.or (.matchKw (.str b!"ROWS")) (.matchKw (.str b!"RANGE")))
    (.set 20728 1 (.fld .cur 3 /-String-/) /-windowFrameType-/ ;;
    .prim 20729 .consume [9999])
    (.ret 20731 [.nil, (.error b!"expected ROWS or RANGE for window frame" [])]) ;;
  .set 20734 2 .nil /-expr-/ ;;
  .prim 20735 (.tryKws [b!"BETWEEN"]) [3] ;;
  .ite 20735 (.var 3 /-tmp-/)
    (.call 20736 .parseFrameExtent [] [4, 5] ;;
    .ite 20737 (.not (.isNil (.var 5 /-err-/)))
      (.ret 20738 [.nil, (.var 5 /-err-/)])
      .skip ;;
    .set 20740 6 .pos /-andPos-/ ;;
    .prim 20741 (.expectKw (.str b!"AND")) [7] ;;
    .ite 20741 (.not (.isNil (.var 7 /-err-/)))
      (.ret 20742 [.nil, (.var 7 /-err-/)])
      .skip ;;
    .call 20744 .parseFrameExtent [] [8, 5] ;;
    .ite 20745 (.not (.isNil (.var 5 /-err-/)))
      (.ret 20746 [.nil, (.var 5 /-err-/)])
      .skip ;;
    .set 20748 2 (.mk .BetweenClause [.nil /-Expr-/, (.bool false) /-Not-/, (.var 4 /-left-/) /-Between-/, (.var 6 /-andPos-/) /-AndPos-/, (.var 8 /-right-/) /-And-/]) /-expr-/)
    (.call 20755 .parseFrameExtent [] [9, 10] ;;
    .ite 20756 (.not (.isNil (.var 10 /-err-/)))
      (.ret 20757 [.nil, (.var 10 /-err-/)])
      .skip ;;
    .set 20759 2 (.var 9 /-extent-/) /-expr-/) ;;
  .ret 20762 [(.mk .WindowFrameClause [(.var 0 /-pos-/) /-FramePos-/, (.var 1 /-windowFrameType-/) /-Type-/, (.var 2 /-expr-/) /-Extend-/]), .nil]⟩

/-- `parseFrameExtent`, parser/parser_query.go:770-785. -/
def parseFrameExtent : Func Fn := ⟨10,
  .ite 20772 (.matchKw (.str b!"CURRENT"))
    (.call 20773 .parseFrameCurrentRow [] [0, 1] ;;
    .ret 20773 [(.var 0 /-tmp-/), (.var 1 /-tmp-/)])
    (.ite 20774 (.matchKw (.str b!"UNBOUNDED"))
      (.call 20775 .parseFrameUnbounded [] [2, 3] ;;
      .ret 20775 [(.var 2 /-tmp-/), (.var 3 /-tmp-/)])
      (.ite 20776 (.matchKinds [(.str b!"<int>")])
        (.call 20777 .parseFrameNumber [] [4, 5] ;;
        .ret 20777 [(.var 4 /-tmp-/), (.var 5 /-tmp-/)])
        (.ite 20778 (.matchKinds [(.str b!"{")])
          (.call 20779 .parseFrameParam [] [6, 7] ;;
          .ret 20779 [(.var 6 /-tmp-/), (.var 7 /-tmp-/)])
          (.ite 20780 (.matchKw (.str b!"INTERVAL"))
            (.call 20781 .parseFrameInterval [] [8, 9] ;;
            .ret 20781 [(.var 8 /-tmp-/), (.var 9 /-tmp-/)])
            (.ret 20783 [.nil, (.error b!"expected UNBOUNDED, CURRENT ROW, integer, parameter, or interval" [])])))))⟩

/-- `parseFrameCurrentRow`, parser/parser_query.go:787-798. -/
def parseFrameCurrentRow : Func Fn := ⟨3,
  .set 20788 0 .pos /-currentPos-/ ;;
  .prim 20789 .consume [9999] ;;
  .prim 20790 (.expectKw (.str b!"ROW")) [1] ;;
  .ite 20790 (.not (.isNil (.var 1 /-err-/)))
    (.ret 20791 [.nil, (.var 1 /-err-/)])
    .skip ;;
  .set 20793 2 .end_ /-rowEnd-/ ;;
  .ret 20794 [(.mk .WindowFrameCurrentRow [(.var 0 /-currentPos-/) /-CurrentPos-/, (.var 2 /-rowEnd-/) /-RowEnd-/]), .nil]⟩

/-- `parseFrameUnbounded`, parser/parser_query.go:800-812. -/
def parseFrameUnbounded : Func Fn := ⟨3,
  .set 20801 0 .pos /-unboundedPos-/ ;;
  .prim 20802 .consume [9999] ;;
  .call 20804 .parseFrameDirection [] [1, 2] ;;
  .ite 20805 (.not (.isNil (.var 2 /-err-/)))
    (.ret 20806 [.nil, (.var 2 /-err-/)])
    .skip ;;
  .ret 20808 [(.mk .WindowFrameUnbounded [(.var 0 /-unboundedPos-/) /-UnboundedPos-/, (.nat 0) /-UnboundedEnd-/, (.var 1 /-direction-/) /-Direction-/]), .nil]⟩

/-- `parseFrameNumber`, parser/parser_query.go:814-829. -/
def parseFrameNumber : Func Fn := ⟨4,
  .call 20815 .parseNumber [.pos] [0, 1] ;;
  .ite 20816 (.not (.isNil (.var 1 /-err-/)))
    (.ret 20817 [.nil, (.var 1 /-err-/)])
    .skip ;;
  .call 20820 .parseFrameDirectionWithEnd [] [2, 3, 1] ;;
  .ite 20821 (.not (.isNil (.var 1 /-err-/)))
    (.ret 20822 [.nil, (.var 1 /-err-/)])
    .skip ;;
  .ret 20824 [(.mk .WindowFrameNumber [(.var 0 /-number-/) /-Number-/, (.var 3 /-endPos-/) /-EndPos-/, (.var 2 /-direction-/) /-Direction-/]), .nil]⟩

/-- `parseFrameParam`, parser/parser_query.go:831-846. -/
def parseFrameParam : Func Fn := ⟨4,
  .call 20832 .parseQueryParam [.pos] [0, 1] ;;
  .ite 20833 (.not (.isNil (.var 1 /-err-/)))
    (.ret 20834 [.nil, (.var 1 /-err-/)])
    .skip ;;
  .call 20837 .parseFrameDirectionWithEnd [] [2, 3, 1] ;;
  .ite 20838 (.not (.isNil (.var 1 /-err-/)))
    (.ret 20839 [.nil, (.var 1 /-err-/)])
    .skip ;;
  .ret 20841 [(.mk .WindowFrameParam [(.var 0 /-queryParam-/) /-Param-/, (.var 3 /-endPos-/) /-EndPos-/, (.var 2 /-direction-/) /-Direction-/]), .nil]⟩

/-- `parseFrameInterval`, parser/parser_query.go:848-863. -/
def parseFrameInterval : Func Fn := ⟨4,
  .call 20849 .parseInterval [(.bool true)] [0, 1] ;;
  .ite 20850 (.not (.isNil (.var 1 /-err-/)))
    (.ret 20851 [.nil, (.var 1 /-err-/)])
    .skip ;;
  .call 20854 .parseFrameDirectionWithEnd [] [2, 3, 1] ;;
  .ite 20855 (.not (.isNil (.var 1 /-err-/)))
    (.ret 20856 [.nil, (.var 1 /-err-/)])
    .skip ;;
  .ret 20858 [(.mk .WindowFrameExtendExpr [(.var 0 /-intervalExpr-/) /-Expr-/, (.var 2 /-direction-/) /-Direction-/, (.var 3 /-endPos-/) /-EndPos-/]), .nil]⟩

/-- `parseFrameDirection`, parser/parser_query.go:865-874. -/
def parseFrameDirection : Func Fn := ⟨1,
  .ite 20867 (.or (.matchKw (.str b!"PRECEDING")) (.matchKw (.str b!"FOLLOWING")))
    (.set 20868 0 (.fld .cur 3 /-String-/) /-direction-/ ;;
    .prim 20869 .consume [9999] ;;
    .ret 20870 [(.var 0 /-direction-/), .nil])
    (.ret 20872 [(.str b!""), (.error b!"expected PRECEDING or FOLLOWING, got %s" [.curKind])])⟩

/-- `parseFrameDirectionWithEnd`, parser/parser_query.go:876-884. -/
def parseFrameDirectionWithEnd : Func Fn := ⟨2,
  .ite 20877 (.and (.not (.matchKw (.str b!"PRECEDING"))) (.not (.matchKw (.str b!"FOLLOWING"))))
    (.ret 20878 [(.str b!""), (.nat 0), (.error b!"expected PRECEDING or FOLLOWING, got %s" [.curKind])])
    .skip ;;
  .set 20880 0 .end_ /-endPos-/ ;;
  .set 20881 1 (.fld .cur 3 /-String-/) /-direction-/ ;;
  .prim 20882 .consume [9999] ;;
  .ret 20883 [(.var 1 /-direction-/), (.var 0 /-endPos-/), .nil]⟩

/-- `tryParseWindowClause`, parser/parser_query.go:886-891. -/
def tryParseWindowClause : Func Fn := ⟨3,
  .ite 20887 (.not (.matchKw (.str b!"WINDOW")))
    (.ret 20888 [.nil, .nil])
    .skip ;;
  .call 20890 .parseWindowClause [(.var 0 /-pos-/)] [1, 2] ;;
  .ret 20890 [(.var 1 /-tmp-/), (.var 2 /-tmp-/)]⟩

/-- `parseWindowCondition`, parser/parser_query.go:893-931. -/
def parseWindowCondition : Func Fn := ⟨11,
  .prim 20894 (.expectKind (.str b!"(")) [1] ;;
  .ite 20894 (.not (.isNil (.var 1 /-err-/)))
    (.ret 20895 [.nil, (.var 1 /-err-/)])
    .skip ;;
  .set 20897 2 .nil /-windowName-/ ;;
  .call 20898 .canParseWindowNameInParens [] [3] ;;
  .ite 20898 (.var 3 /-tmp-/)
    (.set 20901 4 .nil /-err-/ ;;
    .call 20902 .parseAnyKeyword [] [2, 4] ;;
    .ite 20903 (.not (.isNil (.var 4 /-err-/)))
      (.ret 20904 [.nil, (.var 4 /-err-/)])
      .skip)
    .skip ;;
  .call 20907 .tryParsePartitionByClause [(.var 0 /-pos-/)] [5, 6] ;;
  .ite 20908 (.not (.isNil (.var 6 /-err-/)))
    (.ret 20909 [.nil, (.var 6 /-err-/)])
    .skip ;;
  .call 20911 .tryParseOrderByClause [.pos] [7, 6] ;;
  .ite 20912 (.not (.isNil (.var 6 /-err-/)))
    (.ret 20913 [.nil, (.var 6 /-err-/)])
    .skip ;;
  .call 20915 .tryParseWindowFrameClause [.pos] [8, 6] ;;
  .ite 20916 (.not (.isNil (.var 6 /-err-/)))
    (.ret 20917 [.nil, (.var 6 /-err-/)])
    .skip ;;
  .set 20919 9 .pos /-rightParenPos-/ ;;
  .prim 20920 (.expectKind (.str b!")")) [10] ;;
  .ite 20920 (.not (.isNil (.var 10 /-err-/)))
    (.ret 20921 [.nil, (.var 10 /-err-/)])
    .skip ;;
  .ret 20923 [(.mk .WindowExpr [(.var 0 /-pos-/) /-LeftParenPos-/, (.var 9 /-rightParenPos-/) /-RightParenPos-/, (.var 2 /-windowName-/) /-WindowName-/, (.var 5 /-partitionBy-/) /-PartitionBy-/, (.var 7 /-orderBy-/) /-OrderBy-/, (.var 8 /-frame-/) /-Frame-/]), .nil]⟩

/-- `canParseWindowNameInParens`, parser/parser_query.go:933-959. -/
def canParseWindowNameInParens : Func Fn := ⟨3,
  .ite 20934 (.not (.matchKinds [(.str b!"<ident>"), (.str b!"<keyword>")]))
    (.ret 20935 [(.bool false)])
    .skip ;;
  .ite 20937 (.not (.matchKinds [(.str b!"<keyword>")]))
    (.ret 20938 [(.bool true)])
    .skip ;;
  .save ;;
  .ite 20945 (.or (.matchKw (.str b!"PARTITION")) (.matchKw (.str b!"ORDER")))
    (.prim 20946 .consume [9999] ;;
    .set 20947 0 (.not (.matchKw (.str b!"BY"))) ;;
    .restore ;;
    .ret 20947 [(.var 0 /-tmp-/)])
    (.ite 20948 (.or (.matchKw (.str b!"ROWS")) (.matchKw (.str b!"RANGE")))
      (.prim 20949 .consume [9999] ;;
      .set 20950 1 (.and (.and (.and (.and (.and (.not (.matchKw (.str b!"BETWEEN"))) (.not (.matchKw (.str b!"CURRENT")))) (.not (.matchKw (.str b!"UNBOUNDED")))) (.not (.matchKinds [(.str b!"<int>")]))) (.not (.matchKinds [(.str b!"{")]))) (.not (.matchKw (.str b!"INTERVAL")))) ;;
      .restore ;;
      .ret 20950 [(.var 1 /-tmp-/)])
      (.set 20957 2 (.bool true) ;;
      .restore ;;
      .ret 20957 [(.var 2 /-tmp-/)]))⟩

/-- `parseWindowClause`, parser/parser_query.go:961-1006. -/
def parseWindowClause : Func Fn := ⟨10,
  .prim 20962 (.expectKw (.str b!"WINDOW")) [1] ;;
  .ite 20962 (.not (.isNil (.var 1 /-err-/)))
    (.ret 20963 [.nil, (.var 1 /-err-/)])
    .skip ;;
  .set 20966 2 .empty /-windows-/ ;;
  .loop
    (.call 20970 .parseAnyKeyword [] [3, 4] ;;
    .ite 20971 (.not (.isNil (.var 4 /-err-/)))
      (.ret 20972 [.nil, (.var 4 /-err-/)])
      .skip ;;
    .set 20975 5 .pos /-asPos-/ ;;
    .prim 20976 (.expectKw (.str b!"AS")) [6] ;;
    .ite 20976 (.not (.isNil (.var 6 /-err-/)))
      (.ret 20977 [.nil, (.var 6 /-err-/)])
      .skip ;;
    .call 20980 .parseWindowCondition [.pos] [7, 4] ;;
    .ite 20981 (.not (.isNil (.var 4 /-err-/)))
      (.ret 20982 [.nil, (.var 4 /-err-/)])
      .skip ;;
    .set 20985 2 (.append (.var 2 /-windows-/) (.mk .WindowDefinition [(.var 3 /-windowName-/) /-Name-/, (.var 5 /-asPos-/) /-AsPos-/, (.var 7 /-condition-/) /-Expr-/])) /-windows-/ ;;
    .prim 20991 (.tryKind (.str b!",")) [8] ;;
    .ite 20991 (.isNil (.var 8 /-tmp-/))
      .brk
      .skip) ;;
  .set 20996 9 (.nat 0) /-endPos-/ ;;
  .ite 20997 (.lt (.nat 0) (.len (.var 2 /-windows-/)))
    (.set 20998 9 (.endOf (.last (.var 2 /-windows-/)) (.ptr .WindowDefinition)) /-endPos-/)
    .skip ;;
  .ret 21001 [(.mk .WindowClause [(.var 0 /-pos-/) /-WindowPos-/, (.var 9 /-endPos-/) /-EndPos-/, (.var 2 /-windows-/) /-Windows-/]), .nil]⟩

/-- `tryParseHavingClause`, parser/parser_query.go:1008-1013. -/
def tryParseHavingClause : Func Fn := ⟨3,
  .ite 21009 (.not (.matchKw (.str b!"HAVING")))
    (.ret 21010 [.nil, .nil])
    .skip ;;
  .call 21012 .parseHavingClause [(.var 0 /-pos-/)] [1, 2] ;;
  .ret 21012 [(.var 1 /-tmp-/), (.var 2 /-tmp-/)]⟩

/-- `parseHavingClause`, parser/parser_query.go:1015-1029. -/
def parseHavingClause : Func Fn := ⟨4,
  .prim 21016 (.expectKw (.str b!"HAVING")) [1] ;;
  .ite 21016 (.not (.isNil (.var 1 /-err-/)))
    (.ret 21017 [.nil, (.var 1 /-err-/)])
    .skip ;;
  .call 21020 .parseColumnsExpr [.pos] [2, 3] ;;
  .ite 21021 (.not (.isNil (.var 3 /-err-/)))
    (.ret 21022 [.nil, (.var 3 /-err-/)])
    .skip ;;
  .ret 21025 [(.mk .HavingClause [(.var 0 /-pos-/) /-HavingPos-/, (.var 2 /-expr-/) /-Expr-/]), .nil]⟩

/-- `parseSubQuery`, parser/parser_query.go:1031-1049. -/
def parseSubQuery : Func Fn := ⟨6,
  .prim 21033 (.tryKind (.str b!"(")) [1] ;;
  .set 21033 2 (.not (.isNil (.var 1 /-tmp-/))) /-hasParen-/ ;;
  .call 21035 .parseSelectQuery [.pos] [3, 4] ;;
  .ite 21036 (.not (.isNil (.var 4 /-err-/)))
    (.ret 21037 [.nil, (.var 4 /-err-/)])
    .skip ;;
  .ite 21039 (.var 2 /-hasParen-/)
    (.prim 21040 (.expectKind (.str b!")")) [5] ;;
    .ite 21040 (.not (.isNil (.var 5 /-err-/)))
      (.ret 21041 [.nil, (.var 5 /-err-/)])
      .skip)
    .skip ;;
  .ret 21045 [(.mk .SubQuery [(.var 2 /-hasParen-/) /-HasParen-/, (.var 3 /-selectQuery-/) /-Select-/]), .nil]⟩

/-- `parseSelectQuery`, parser/parser_query.go:1051-1098. -/
def parseSelectQuery : Func Fn := ⟨19,
  .ite 21052 (.and (.and (.not (.matchKw (.str b!"SELECT"))) (.not (.matchKw (.str b!"WITH")))) (.not (.matchKinds [(.str b!"(")])))
    (.ret 21053 [.nil, (.error b!"expected SELECT, WITH or (, got %s" [.curKind])])
    .skip ;;
  .prim 21056 (.tryKind (.str b!"(")) [1] ;;
  .set 21056 2 (.not (.isNil (.var 1 /-tmp-/))) /-hasParen-/ ;;
  .call 21057 .parseSelectStmt [.pos] [3, 4] ;;
  .ite 21058 (.not (.isNil (.var 4 /-err-/)))
    (.ret 21059 [.nil, (.var 4 /-err-/)])
    .skip ;;
  .prim 21062 (.tryKws [b!"UNION"]) [5] ;;
  .ite 21062 (.var 5 /-tmp-/)
    (.prim 21064 (.tryKws [b!"ALL"]) [6] ;;
    .ite 21064 (.var 6 /-tmp-/)
      (.call 21065 .parseSelectQuery [.pos] [7, 8] ;;
      .ite 21066 (.not (.isNil (.var 8 /-err-/)))
        (.ret 21067 [.nil, (.var 8 /-err-/)])
        .skip ;;
      .setF 21069 3 [19] (.var 7 /-unionAllExpr-/) /-selectStmt.UnionAll-/)
      (.prim 21070 (.tryKws [b!"DISTINCT"]) [9] ;;
      .ite 21070 (.var 9 /-tmp-/)
        (.call 21071 .parseSelectQuery [.pos] [10, 11] ;;
        .ite 21072 (.not (.isNil (.var 11 /-err-/)))
          (.ret 21073 [.nil, (.var 11 /-err-/)])
          .skip ;;
        .setF 21075 3 [20] (.var 10 /-unionDistinctExpr-/) /-selectStmt.UnionDistinct-/)
        (.ret 21077 [.nil, (.error b!"expected ALL or DISTINCT, got %s" [.curKind])])))
    (.prim 21079 (.tryKws [b!"EXCEPT"]) [12] ;;
    .ite 21079 (.var 12 /-tmp-/)
      (.call 21080 .parseSelectQuery [.pos] [13, 14] ;;
      .ite 21081 (.not (.isNil (.var 14 /-err-/)))
        (.ret 21082 [.nil, (.var 14 /-err-/)])
        .skip ;;
      .setF 21084 3 [21] (.var 13 /-exceptExpr-/) /-selectStmt.Except-/)
      (.prim 21085 (.tryKws [b!"INTERSECT"]) [15] ;;
      .ite 21085 (.var 15 /-tmp-/)
        (.call 21086 .parseSelectQuery [.pos] [16, 17] ;;
        .ite 21087 (.not (.isNil (.var 17 /-err-/)))
          (.ret 21088 [.nil, (.var 17 /-err-/)])
          .skip ;;
        .setF 21090 3 [22] (.var 16 /-intersectExpr-/) /-selectStmt.Intersect-/)
        .skip)) ;;
  .ite 21092 (.var 2 /-hasParen-/)
    (.prim 21093 (.expectKind (.str b!")")) [18] ;;
    .ite 21093 (.not (.isNil (.var 18 /-err-/)))
      (.ret 21094 [.nil, (.var 18 /-err-/)])
      .skip)
    .skip ;;
  .ret 21097 [(.var 3 /-selectStmt-/), .nil]⟩

/-- `parseSelectStmt`, parser/parser_query.go:1100-1258. -/
def parseSelectStmt : Func Fn := ⟨26,
  .call 21101 .tryParseWithClause [(.var 0 /-pos-/)] [1, 2] ;;
  .ite 21102 (.not (.isNil (.var 2 /-err-/)))
    (.ret 21103 [.nil, (.var 2 /-err-/)])
    .skip ;;
  .prim 21105 (.expectKw (.str b!"SELECT")) [3] ;;
  .ite 21105 (.not (.isNil (.var 3 /-err-/)))
    (.ret 21106 [.nil, (.var 3 /-err-/)])
    .skip ;;
  .prim 21109 (.tryKws [b!"DISTINCT"]) [4] ;;
  .call 21110 .tryParseDistinctOn [.pos] [5, 2] ;;
  .ite 21111 (.not (.isNil (.var 2 /-err-/)))
    (.ret 21112 [.nil, (.var 2 /-err-/)])
    .skip ;;
  .call 21115 .tryParseTopClause [.pos] [6, 2] ;;
  .ite 21116 (.not (.isNil (.var 2 /-err-/)))
    (.ret 21117 [.nil, (.var 2 /-err-/)])
    .skip ;;
  .call 21119 .parseSelectItems [] [7, 2] ;;
  .ite 21120 (.not (.isNil (.var 2 /-err-/)))
    (.ret 21121 [.nil, (.var 2 /-err-/)])
    .skip ;;
  .set 21124 8 (.var 0 /-pos-/) /-statementEnd-/ ;;
  .ite 21125 (.lt (.nat 0) (.len (.var 7 /-selectItems-/)))
    (.set 21126 8 (.endOf (.last (.var 7 /-selectItems-/)) (.ptr .SelectItem)) /-statementEnd-/)
    .skip ;;
  .call 21128 .tryParseFromClause [.pos] [9, 2] ;;
  .ite 21129 (.not (.isNil (.var 2 /-err-/)))
    (.ret 21130 [.nil, (.var 2 /-err-/)])
    .skip ;;
  .ite 21133 (.not (.isNil (.var 9 /-from-/)))
    (.set 21134 8 (.endOf (.var 9 /-from-/) (.ptr .FromClause)) /-statementEnd-/)
    .skip ;;
  .call 21136 .tryParsePrewhereClause [.pos] [10, 2] ;;
  .ite 21137 (.not (.isNil (.var 2 /-err-/)))
    (.ret 21138 [.nil, (.var 2 /-err-/)])
    .skip ;;
  .ite 21140 (.not (.isNil (.var 10 /-prewhere-/)))
    (.set 21141 8 (.endOf (.var 10 /-prewhere-/) (.ptr .PrewhereClause)) /-statementEnd-/)
    .skip ;;
  .call 21143 .tryParseWhereClause [.pos] [11, 2] ;;
  .ite 21144 (.not (.isNil (.var 2 /-err-/)))
    (.ret 21145 [.nil, (.var 2 /-err-/)])
    .skip ;;
  .ite 21147 (.not (.isNil (.var 11 /-where-/)))
    (.set 21148 8 (.endOf (.var 11 /-where-/) (.ptr .WhereClause)) /-statementEnd-/)
    .skip ;;
  .call 21150 .tryParseGroupByClause [.pos] [12, 2] ;;
  .ite 21151 (.not (.isNil (.var 2 /-err-/)))
    (.ret 21152 [.nil, (.var 2 /-err-/)])
    .skip ;;
  .ite 21154 (.not (.isNil (.var 12 /-groupBy-/)))
    (.set 21155 8 (.endOf (.var 12 /-groupBy-/) (.ptr .GroupByClause)) /-statementEnd-/)
    .skip ;;
  .set 21157 13 (.bool false) /-withTotal-/ ;;
  .prim 21158 (.tryKws [b!"WITH"]) [14] ;;
  .ite 21158 (.var 14 /-tmp-/)
    (.set 21161 15 .end_ /-totalsEnd-/ ;;
    .prim 21162 (.expectKw (.str b!"TOTALS")) [16] ;;
    .ite 21162 (.not (.isNil (.var 16 /-err-/)))
      (.ret 21163 [.nil, (.var 16 /-err-/)])
      .skip ;;
    .set 21165 13 (.bool true) /-withTotal-/ ;;
    .set 21166 8 (.var 15 /-totalsEnd-/) /-statementEnd-/)
    .skip ;;
  .call 21168 .tryParseHavingClause [.pos] [17, 2] ;;
  .ite 21169 (.not (.isNil (.var 2 /-err-/)))
    (.ret 21170 [.nil, (.var 2 /-err-/)])
    .skip ;;
  .ite 21172 (.not (.isNil (.var 17 /-having-/)))
    (.set 21173 8 (.endOf (.var 17 /-having-/) (.ptr .HavingClause)) /-statementEnd-/)
    .skip ;;
  .call 21175 .tryParseWindowClause [.pos] [18, 2] ;;
  .ite 21176 (.not (.isNil (.var 2 /-err-/)))
    (.ret 21177 [.nil, (.var 2 /-err-/)])
    .skip ;;
  .ite 21179 (.not (.isNil (.var 18 /-window-/)))
    (.set 21180 8 (.endOf (.var 18 /-window-/) (.ptr .WindowClause)) /-statementEnd-/)
    .skip ;;
  .call 21182 .tryParseOrderByClause [.pos] [19, 2] ;;
  .ite 21183 (.not (.isNil (.var 2 /-err-/)))
    (.ret 21184 [.nil, (.var 2 /-err-/)])
    .skip ;;
  .ite 21186 (.not (.isNil (.var 19 /-orderBy-/)))
    (.set 21187 8 (.endOf (.var 19 /-orderBy-/) (.ptr .OrderByClause)) /-statementEnd-/)
    .skip ;;
  .set 21190 20 .nil /-limitBy-/ ;;
  .set 21191 21 .nil /-limit-/ ;;
  .call 21192 .tryParseLimitByClause [.pos] [22, 2] ;;
  .ite 21193 (.not (.isNil (.var 2 /-err-/)))
    (.ret 21194 [.nil, (.var 2 /-err-/)])
    .skip ;;
  .ite 21196 (.not (.isNil (.var 22 /-parsedLimitBy-/)))
    (.set 21197 8 (.endOf (.var 22 /-parsedLimitBy-/) .iface) /-statementEnd-/ ;;
    .set 21198 23 (.var 22 /-parsedLimitBy-/) /-e-/ ;;
    .ite 21199 (.isTy (.var 23 /-e-/) .LimitByClause)
      (.set 21200 20 (.var 23 /-e-/) /-limitBy-/ ;;
      .call 21201 .tryParseLimitAfterLimitByClause [.pos] [21, 2] ;;
      .ite 21202 (.not (.isNil (.var 2 /-err-/)))
        (.ret 21203 [.nil, (.var 2 /-err-/)])
        .skip ;;
      .ite 21205 (.not (.isNil (.var 21 /-limit-/)))
        (.set 21206 8 (.endOf (.var 21 /-limit-/) (.ptr .LimitClause)) /-statementEnd-/)
        .skip)
      (.ite 21208 (.isTy (.var 23 /-e-/) .LimitClause)
        (.set 21209 21 (.var 23 /-e-/) /-limit-/)
        .skip))
    (.call 21212 .tryParseLimitClause [.pos] [21, 2] ;;
    .ite 21213 (.not (.isNil (.var 2 /-err-/)))
      (.ret 21214 [.nil, (.var 2 /-err-/)])
      .skip ;;
    .ite 21216 (.not (.isNil (.var 21 /-limit-/)))
      (.set 21217 8 (.endOf (.var 21 /-limit-/) (.ptr .LimitClause)) /-statementEnd-/)
      .skip) ;;
  .call 21221 .tryParseSettingsClause [.pos] [24, 2] ;;
  .ite 21222 (.not (.isNil (.var 2 /-err-/)))
    (.ret 21223 [.nil, (.var 2 /-err-/)])
    .skip ;;
  .ite 21225 (.not (.isNil (.var 24 /-settings-/)))
    (.set 21226 8 (.endOf (.var 24 /-settings-/) (.ptr .SettingsClause)) /-statementEnd-/)
    .skip ;;
  .call 21229 .tryParseFormat [.pos] [25, 2] ;;
  .ite 21230 (.not (.isNil (.var 2 /-err-/)))
    (.ret 21231 [.nil, (.var 2 /-err-/)])
    .skip ;;
  .ite 21233 (.not (.isNil (.var 25 /-format-/)))
    (.set 21234 8 (.endOf (.var 25 /-format-/) (.ptr .FormatClause)) /-statementEnd-/)
    .skip ;;
  .ret 21237 [(.mk .SelectQuery [(.var 0 /-pos-/) /-SelectPos-/, (.var 8 /-statementEnd-/) /-StatementEnd-/, (.var 1 /-withClause-/) /-With-/, (.var 6 /-top-/) /-Top-/, (.var 4 /-hasDistinct-/) /-HasDistinct-/, (.var 5 /-distinctOn-/) /-DistinctOn-/, (.var 7 /-selectItems-/) /-SelectItems-/, (.var 9 /-from-/) /-From-/, (.var 18 /-window-/) /-Window-/, (.var 10 /-prewhere-/) /-Prewhere-/, (.var 11 /-where-/) /-Where-/, (.var 12 /-groupBy-/) /-GroupBy-/, (.var 13 /-withTotal-/) /-WithTotal-/, (.var 17 /-having-/) /-Having-/, (.var 19 /-orderBy-/) /-OrderBy-/, (.var 20 /-limitBy-/) /-LimitBy-/, (.var 21 /-limit-/) /-Limit-/, (.var 24 /-settings-/) /-Settings-/, (.var 25 /-format-/) /-Format-/, .nil /-UnionAll-/, .nil /-UnionDistinct-/, .nil /-Except-/, .nil /-Intersect-/]), .nil]⟩

/-- `parseCTEStmt`, parser/parser_query.go:1260-1290. -/
def parseCTEStmt : Func Fn := ⟨7,
  .call 21261 .parseExpr [(.var 0 /-pos-/)] [1, 2] ;;
  .ite 21262 (.not (.isNil (.var 2 /-err-/)))
    (.ret 21263 [.nil, (.var 2 /-err-/)])
    .skip ;;
  .prim 21265 (.expectKw (.str b!"AS")) [3] ;;
  .ite 21265 (.not (.isNil (.var 3 /-err-/)))
    (.ret 21266 [.nil, (.var 3 /-err-/)])
    .skip ;;
  .ite 21268 (.matchKinds [(.str b!"(")])
    (.call 21269 .parseSelectQuery [.pos] [4, 5] ;;
    .ite 21270 (.not (.isNil (.var 5 /-err-/)))
      (.ret 21271 [.nil, (.var 5 /-err-/)])
      .skip ;;
    .ret 21273 [(.mk .CTEStmt [(.var 0 /-pos-/) /-CTEPos-/, (.var 1 /-expr-/) /-Expr-/, (.var 4 /-selectQuery-/) /-Alias-/]), .nil])
    .skip ;;
  .call 21280 .parseAnyKeyword [] [6, 2] ;;
  .ite 21281 (.not (.isNil (.var 2 /-err-/)))
    (.ret 21282 [.nil, (.var 2 /-err-/)])
    .skip ;;
  .ret 21285 [(.mk .CTEStmt [(.var 0 /-pos-/) /-CTEPos-/, (.var 1 /-expr-/) /-Expr-/, (.var 6 /-name-/) /-Alias-/]), .nil]⟩

/-- `tryParseSampleClause`, parser/parser_query.go:1292-1297. -/
def tryParseSampleClause : Func Fn := ⟨3,
  .ite 21293 (.not (.matchKw (.str b!"SAMPLE")))
    (.ret 21294 [.nil, .nil])
    .skip ;;
  .call 21296 .parseSampleClause [(.var 0 /-pos-/)] [1, 2] ;;
  .ret 21296 [(.var 1 /-tmp-/), (.var 2 /-tmp-/)]⟩

/-- `parseSampleClause`, parser/parser_query.go:1299-1322. -/
def parseSampleClause : Func Fn := ⟨5,
  .prim 21300 (.expectKw (.str b!"SAMPLE")) [1] ;;
  .ite 21300 (.not (.isNil (.var 1 /-err-/)))
    (.ret 21301 [.nil, (.var 1 /-err-/)])
    .skip ;;
  .call 21303 .parseRatioExpr [.pos] [2, 3] ;;
  .ite 21304 (.not (.isNil (.var 3 /-err-/)))
    (.ret 21305 [.nil, (.var 3 /-err-/)])
    .skip ;;
  .set 21308 4 .nil /-offset-/ ;;
  .ite 21309 (.matchKw (.str b!"OFFSET"))
    (.prim 21310 .consume [9999] ;;
    .call 21311 .parseRatioExpr [.pos] [4, 3] ;;
    .ite 21312 (.not (.isNil (.var 3 /-err-/)))
      (.ret 21313 [.nil, (.var 3 /-err-/)])
      .skip)
    .skip ;;
  .ret 21317 [(.mk .SampleClause [(.var 0 /-pos-/) /-SamplePos-/, (.var 2 /-ratio-/) /-Ratio-/, (.var 4 /-offset-/) /-Offset-/]), .nil]⟩

/-- `parseExplainStmt`, parser/parser_query.go:1324-1349. -/
def parseExplainStmt : Func Fn := ⟨5,
  .prim 21325 (.expectKw (.str b!"EXPLAIN")) [1] ;;
  .ite 21325 (.not (.isNil (.var 1 /-err-/)))
    (.ret 21326 [.nil, (.var 1 /-err-/)])
    .skip ;;
  .set 21329 2 (.str []) /-explainType-/ ;;
  .ite 21331 (.or (.or (.or (.matchKw (.str b!"SYNTAX")) (.matchKw (.str b!"PIPELINE"))) (.matchKw (.str b!"ESTIMATE"))) (.matchKw (.str b!"AST")))
    (.set 21335 2 (.fld .cur 3 /-String-/) /-explainType-/ ;;
    .prim 21336 .consume [9999])
    (.ret 21338 [.nil, (.error b!"expected SYNTAX, PIPELINE, ESTIMATE or AST, got %s" [.curKind])]) ;;
  .call 21340 .parseSelectQuery [.pos] [3, 4] ;;
  .ite 21341 (.not (.isNil (.var 4 /-err-/)))
    (.ret 21342 [.nil, (.var 4 /-err-/)])
    .skip ;;
  .ret 21344 [(.mk .ExplainStmt [(.var 0 /-pos-/) /-ExplainPos-/, (.var 2 /-explainType-/) /-Type-/, (.var 3 /-stmt-/) /-Statement-/]), .nil]⟩

end Verif.Body

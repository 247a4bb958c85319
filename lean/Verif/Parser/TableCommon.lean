/-
The methods of parser/parser_common.go.
Written by tools/genparser.py from the Go text.
-/
import Verif.Parser.Lang
import Verif.Parser.Fn

namespace Verif.Body

/-- `tryParseIdent`, parser/parser_common.go:157-169. -/
def tryParseIdent : Func Fn := ⟨1,
  .ite 10158 (.not (.eqStr .curKind (.str b!"<ident>")))
    (.ret 10159 [.nil])
    .skip ;;
  .set 10161 0 .cur /-curToken-/ ;;
  .prim 10162 .consume [9999] ;;
  .ret 10163 [(.mk .Ident [(.fld (.var 0 /-curToken-/) 3 /-String-/) /-Name-/, (.fld (.var 0 /-curToken-/) 5 /-QuoteType-/) /-QuoteType-/, (.fld (.var 0 /-curToken-/) 0 /-Pos-/) /-NamePos-/, (.fld (.var 0 /-curToken-/) 1 /-End-/) /-NameEnd-/])]⟩

/-- `parseAnyKeyword`, parser/parser_common.go:176-192. -/
def parseAnyKeyword : Func Fn := ⟨1,
  .set 10177 0 .cur /-last-/ ;;
  .ite 10178 (.not (.matchKinds [(.str b!"<ident>"), (.str b!"<keyword>")]))
    (.ret 10179 [.nil, (.mk .ParseError [.pos /-Pos-/, (.nat 0) /-Line-/, (.nat 0) /-Column-/, (.var 0 /-last-/) /-Got-/, (.strs [b!"<ident>"]) /-Expected-/, (.str []) /-Keyword-/, (.str []) /-Msg-/])])
    .skip ;;
  .prim 10185 .consume [9999] ;;
  .ret 10186 [(.mk .Ident [(.fld (.var 0 /-last-/) 3 /-String-/) /-Name-/, (.fld (.var 0 /-last-/) 5 /-QuoteType-/) /-QuoteType-/, (.fld (.var 0 /-last-/) 0 /-Pos-/) /-NamePos-/, (.fld (.var 0 /-last-/) 1 /-End-/) /-NameEnd-/]), .nil]⟩

/-- `parseIdent`, parser/parser_common.go:194-206. -/
def parseIdent : Func Fn := ⟨3,
  .set 10195 0 .cur /-curToken-/ ;;
  .prim 10196 (.expectKind (.str b!"<ident>")) [1] ;;
  .ite 10196 (.not (.isNil (.var 1 /-err-/)))
    (.ret 10197 [.nil, (.var 1 /-err-/)])
    .skip ;;
  .set 10199 2 (.mk .Ident [(.fld (.var 0 /-curToken-/) 3 /-String-/) /-Name-/, (.fld (.var 0 /-curToken-/) 5 /-QuoteType-/) /-QuoteType-/, (.fld (.var 0 /-curToken-/) 0 /-Pos-/) /-NamePos-/, (.fld (.var 0 /-curToken-/) 1 /-End-/) /-NameEnd-/]) /-ident-/ ;;
  .ret 10205 [(.var 2 /-ident-/), .nil]⟩

/-- `parseIdentOrStar`, parser/parser_common.go:208-223. -/
def parseIdentOrStar : Func Fn := ⟨3,
  .ite 10210 (.matchKinds [(.str b!"<ident>")])
    (.call 10211 .parseIdent [] [0, 1] ;;
    .ret 10211 [(.var 0 /-tmp-/), (.var 1 /-tmp-/)])
    (.ite 10212 (.matchKinds [(.str b!"*")])
      (.set 10213 2 .cur /-curToken-/ ;;
      .prim 10214 .consume [9999] ;;
      .ret 10215 [(.mk .Ident [(.fld (.var 2 /-curToken-/) 3 /-String-/) /-Name-/, (.nat 0) /-QuoteType-/, (.fld (.var 2 /-curToken-/) 0 /-Pos-/) /-NamePos-/, (.fld (.var 2 /-curToken-/) 1 /-End-/) /-NameEnd-/]), .nil])
      (.ret 10221 [.nil, (.error b!"expected <ident> or *, but got %q" [.curKind])]))⟩

/-- `parseIdentOrString`, parser/parser_common.go:225-241. -/
def parseIdentOrString : Func Fn := ⟨3,
  .ite 10227 (.matchKinds [(.str b!"<ident>")])
    (.call 10228 .parseIdent [] [0, 1] ;;
    .ret 10228 [(.var 0 /-tmp-/), (.var 1 /-tmp-/)])
    (.ite 10229 (.matchKinds [(.str b!"<string>")])
      (.set 10230 2 .cur /-curToken-/ ;;
      .prim 10231 .consume [9999] ;;
      .ret 10232 [(.mk .Ident [(.fld (.var 2 /-curToken-/) 3 /-String-/) /-Name-/, (.nat 4) /-QuoteType-/, (.fld (.var 2 /-curToken-/) 0 /-Pos-/) /-NamePos-/, (.fld (.var 2 /-curToken-/) 1 /-End-/) /-NameEnd-/]), .nil])
      (.ret 10239 [.nil, (.error b!"expected <ident> or <string>, but got %q" [.curKind])]))⟩

/-- `tryParseDotIdent`, parser/parser_common.go:243-250. -/
def tryParseDotIdent : Func Fn := ⟨4,
  .prim 10244 (.tryKind (.str b!".")) [1] ;;
  .ite 10244 (.isNil (.var 1 /-tmp-/))
    (.ret 10245 [.nil, .nil])
    .skip ;;
  .call 10249 .parseAnyKeyword [] [2, 3] ;;
  .ret 10249 [(.var 2 /-tmp-/), (.var 3 /-tmp-/)]⟩

/-- `tryParseDotIdentOrString`, parser/parser_common.go:252-262. -/
def tryParseDotIdentOrString : Func Fn := ⟨6,
  .prim 10253 (.tryKind (.str b!".")) [1] ;;
  .ite 10253 (.isNil (.var 1 /-tmp-/))
    (.ret 10254 [.nil, .nil])
    .skip ;;
  .ite 10258 (.matchKinds [(.str b!"<keyword>")])
    (.call 10259 .parseAnyKeyword [] [2, 3] ;;
    .ret 10259 [(.var 2 /-tmp-/), (.var 3 /-tmp-/)])
    .skip ;;
  .call 10261 .parseIdentOrString [] [4, 5] ;;
  .ret 10261 [(.var 4 /-tmp-/), (.var 5 /-tmp-/)]⟩

/-- `parseUUID`, parser/parser_common.go:264-276. -/
def parseUUID : Func Fn := ⟨3,
  .prim 10265 (.expectKw (.str b!"UUID")) [0] ;;
  .ite 10265 (.not (.isNil (.var 0 /-err-/)))
    (.ret 10266 [.nil, (.var 0 /-err-/)])
    .skip ;;
  .call 10269 .parseString [.pos] [1, 2] ;;
  .ite 10270 (.not (.isNil (.var 2 /-err-/)))
    (.ret 10271 [.nil, (.var 2 /-err-/)])
    .skip ;;
  .ret 10273 [(.mk .UUID [(.var 1 /-uuidString-/) /-Value-/]), .nil]⟩

/-- `tryParseUUID`, parser/parser_common.go:278-283. -/
def tryParseUUID : Func Fn := ⟨2,
  .ite 10279 (.not (.matchKw (.str b!"UUID")))
    (.ret 10280 [.nil, .nil])
    .skip ;;
  .call 10282 .parseUUID [] [0, 1] ;;
  .ret 10282 [(.var 0 /-tmp-/), (.var 1 /-tmp-/)]⟩

/-- `tryParseComment`, parser/parser_common.go:285-290. -/
def tryParseComment : Func Fn := ⟨3,
  .prim 10286 (.tryKws [b!"COMMENT"]) [0] ;;
  .ite 10286 (.not (.var 0 /-tmp-/))
    (.ret 10287 [.nil, .nil])
    .skip ;;
  .call 10289 .parseString [.pos] [1, 2] ;;
  .ret 10289 [(.var 1 /-tmp-/), (.var 2 /-tmp-/)]⟩

/-- `tryParseIfExists`, parser/parser_common.go:292-301. -/
def tryParseIfExists : Func Fn := ⟨2,
  .prim 10293 (.tryKws [b!"IF"]) [0] ;;
  .ite 10293 (.not (.var 0 /-tmp-/))
    (.ret 10294 [(.bool false), .nil])
    .skip ;;
  .prim 10297 (.expectKw (.str b!"EXISTS")) [1] ;;
  .ite 10297 (.not (.isNil (.var 1 /-err-/)))
    (.ret 10298 [(.bool false), (.var 1 /-err-/)])
    .skip ;;
  .ret 10300 [(.bool true), .nil]⟩

/-- `tryParseIfNotExists`, parser/parser_common.go:303-316. -/
def tryParseIfNotExists : Func Fn := ⟨3,
  .prim 10304 (.tryKws [b!"IF"]) [0] ;;
  .ite 10304 (.not (.var 0 /-tmp-/))
    (.ret 10305 [(.bool false), .nil])
    .skip ;;
  .prim 10308 (.expectKw (.str b!"NOT")) [1] ;;
  .ite 10308 (.not (.isNil (.var 1 /-err-/)))
    (.ret 10309 [(.bool false), (.var 1 /-err-/)])
    .skip ;;
  .prim 10312 (.expectKw (.str b!"EXISTS")) [2] ;;
  .ite 10312 (.not (.isNil (.var 2 /-err-/)))
    (.ret 10313 [(.bool false), (.var 2 /-err-/)])
    .skip ;;
  .ret 10315 [(.bool true), .nil]⟩

/-- `tryParseNull`, parser/parser_common.go:318-323. -/
def tryParseNull : Func Fn := ⟨2,
  .prim 10319 (.tryKws [b!"NULL"]) [1] ;;
  .ite 10319 (.not (.var 1 /-tmp-/))
    (.ret 10320 [.nil])
    .skip ;;
  .ret 10322 [(.mk .NullLiteral [(.var 0 /-pos-/) /-NullPos-/])]⟩

/-- `tryParseNotNull`, parser/parser_common.go:325-337. -/
def tryParseNotNull : Func Fn := ⟨5,
  .prim 10326 (.tryKws [b!"NOT"]) [1] ;;
  .ite 10326 (.not (.var 1 /-tmp-/))
    (.ret 10327 [.nil, .nil])
    .skip ;;
  .set 10329 2 (.mk .NotNullLiteral [(.var 0 /-pos-/) /-NotPos-/, .nil /-NullLiteral-/]) /-notNull-/ ;;
  .set 10331 3 .pos /-nullPos-/ ;;
  .prim 10332 (.expectKw (.str b!"NULL")) [4] ;;
  .ite 10332 (.not (.isNil (.var 4 /-err-/)))
    (.ret 10333 [(.var 2 /-notNull-/), (.var 4 /-err-/)])
    .skip ;;
  .setF 10335 2 [1] (.mk .NullLiteral [(.var 3 /-nullPos-/) /-NullPos-/]) /-notNull.NullLiteral-/ ;;
  .ret 10336 [(.var 2 /-notNull-/), .nil]⟩

/-- `parseDecimal`, parser/parser_common.go:339-348. -/
def parseDecimal : Func Fn := ⟨3,
  .call 10340 .parseNumber [(.var 0 /-pos-/)] [1, 2] ;;
  .ite 10341 (.not (.isNil (.var 2 /-err-/)))
    (.ret 10342 [.nil, (.var 2 /-err-/)])
    .skip ;;
  .ite 10344 (.not (.eqNat (.fld (.var 1 /-number-/) 3 /-Base-/) (.nat 10)))
    (.ret 10345 [.nil, (.error b!"invalid decimal literal: %q" [(.fld (.var 1 /-number-/) 2 /-Literal-/)])])
    .skip ;;
  .ret 10347 [(.var 1 /-number-/), .nil]⟩

/-- `parseNumber`, parser/parser_common.go:350-383. -/
def parseNumber : Func Fn := ⟨5,
  .set 10351 1 .nil /-err-/ ;;
  .set 10353 2 .cur /-curToken-/ ;;
  .ite 10355 (.matchKinds [(.str b!"<int>")])
    (.prim 10356 (.expectKind (.str b!"<int>")) [1])
    (.ite 10357 (.matchKinds [(.str b!"<float>")])
      (.prim 10358 (.expectKind (.str b!"<float>")) [1])
      (.ite 10359 (.matchKinds [(.str b!".")])
        (.prim 10360 .consume [9999] ;;
        .set 10361 2 .cur /-curToken-/ ;;
        .prim 10362 (.expectKind (.str b!"<int>")) [3] ;;
        .ite 10362 (.not (.isNil (.var 3 /-err-/)))
          (.ret 10363 [.nil, (.var 3 /-err-/)])
          .skip ;;
        .ite 10365 (.not (.eqNat (.fld (.var 2 /-curToken-/) 4 /-Base-/) (.nat 10)))
          (.ret 10366 [.nil, (.error b!"invalid decimal literal: %q" [(.fld (.var 2 /-curToken-/) 3 /-String-/)])])
          .skip ;;
        .setF 10368 2 [3] (.cat (.str b!".") (.fld (.var 2 /-curToken-/) 3 /-String-/)) /-curToken.String-/ ;;
        .setF 10369 2 [2] (.str b!"<float>") /-curToken.Kind-/)
        (.ret 10371 [.nil, (.error b!"expected <int> or <float>, but got %q" [.curKind])]))) ;;
  .ite 10373 (.not (.isNil (.var 1 /-err-/)))
    (.ret 10374 [.nil, (.var 1 /-err-/)])
    .skip ;;
  .set 10376 4 (.mk .NumberLiteral [(.var 0 /-pos-/) /-NumPos-/, (.fld (.var 2 /-curToken-/) 1 /-End-/) /-NumEnd-/, (.fld (.var 2 /-curToken-/) 3 /-String-/) /-Literal-/, (.fld (.var 2 /-curToken-/) 4 /-Base-/) /-Base-/]) /-number-/ ;;
  .ret 10382 [(.var 4 /-number-/), .nil]⟩

/-- `parseString`, parser/parser_common.go:385-397. -/
def parseString : Func Fn := ⟨4,
  .set 10386 1 .cur /-curToken-/ ;;
  .prim 10387 (.expectKind (.str b!"<string>")) [2] ;;
  .ite 10387 (.not (.isNil (.var 2 /-err-/)))
    (.ret 10388 [.nil, (.var 2 /-err-/)])
    .skip ;;
  .set 10391 3 (.mk .StringLiteral [(.var 0 /-pos-/) /-LiteralPos-/, (.fld (.var 1 /-curToken-/) 1 /-End-/) /-LiteralEnd-/, (.fld (.var 1 /-curToken-/) 3 /-String-/) /-Literal-/]) /-str-/ ;;
  .ret 10396 [(.var 3 /-str-/), .nil]⟩

/-- `parseLiteral`, parser/parser_common.go:399-413. -/
def parseLiteral : Func Fn := ⟨7,
  .ite 10401 (.or (.matchKinds [(.str b!"<int>")]) (.matchKinds [(.str b!"<float>")]))
    (.call 10402 .parseNumber [(.var 0 /-pos-/)] [1, 2] ;;
    .ret 10402 [(.var 1 /-tmp-/), (.var 2 /-tmp-/)])
    (.ite 10403 (.matchKinds [(.str b!"<string>")])
      (.call 10404 .parseString [(.var 0 /-pos-/)] [3, 4] ;;
      .ret 10404 [(.var 3 /-tmp-/), (.var 4 /-tmp-/)])
      (.ite 10405 (.matchKinds [(.str b!"<ident>")])
        (.call 10406 .parseIdent [] [5, 6] ;;
        .ret 10406 [(.var 5 /-tmp-/), (.var 6 /-tmp-/)])
        (.ite 10407 (.matchKw (.str b!"NULL"))
          (.ret 10409 [(.mk .NullLiteral [(.var 0 /-pos-/) /-NullPos-/]), .nil])
          (.ret 10411 [.nil, (.error b!"expected <int>, <string>, <ident> or keyword <NULL>, but got %q" [.curKind])]))))⟩

/-- `ParseNestedIdentifier`, parser/parser_common.go:415-433. -/
def ParseNestedIdentifier : Func Fn := ⟨4,
  .call 10416 .parseIdent [] [1, 2] ;;
  .ite 10417 (.not (.isNil (.var 2 /-err-/)))
    (.ret 10418 [.nil, (.var 2 /-err-/)])
    .skip ;;
  .call 10420 .tryParseDotIdent [.pos] [3, 2] ;;
  .ite 10421 (.not (.isNil (.var 2 /-err-/)))
    (.ret 10422 [.nil, (.var 2 /-err-/)])
    .skip ;;
  .ite 10424 (.not (.isNil (.var 3 /-dotIdent-/)))
    (.ret 10425 [(.mk .NestedIdentifier [(.var 1 /-ident-/) /-Ident-/, (.var 3 /-dotIdent-/) /-DotIdent-/]), .nil])
    .skip ;;
  .ret 10430 [(.mk .NestedIdentifier [(.var 1 /-ident-/) /-Ident-/, .nil /-DotIdent-/]), .nil]⟩

/-- `tryParseFormat`, parser/parser_common.go:435-440. -/
def tryParseFormat : Func Fn := ⟨3,
  .ite 10436 (.not (.matchKw (.str b!"FORMAT")))
    (.ret 10437 [.nil, .nil])
    .skip ;;
  .call 10439 .parseFormat [(.var 0 /-pos-/)] [1, 2] ;;
  .ret 10439 [(.var 1 /-tmp-/), (.var 2 /-tmp-/)]⟩

/-- `parseFormat`, parser/parser_common.go:442-454. -/
def parseFormat : Func Fn := ⟨4,
  .prim 10443 (.expectKw (.str b!"FORMAT")) [1] ;;
  .ite 10443 (.not (.isNil (.var 1 /-err-/)))
    (.ret 10444 [.nil, (.var 1 /-err-/)])
    .skip ;;
  .call 10446 .parseIdent [] [2, 3] ;;
  .ite 10447 (.not (.isNil (.var 3 /-err-/)))
    (.ret 10448 [.nil, (.var 3 /-err-/)])
    .skip ;;
  .ret 10450 [(.mk .FormatClause [(.var 0 /-pos-/) /-FormatPos-/, (.var 2 /-formatIdent-/) /-Format-/]), .nil]⟩

/-- `parseRatioExpr`, parser/parser_common.go:482-500. -/
def parseRatioExpr : Func Fn := ⟨5,
  .call 10483 .parseNumber [(.var 0 /-pos-/)] [1, 2] ;;
  .ite 10484 (.not (.isNil (.var 2 /-err-/)))
    (.ret 10485 [.nil, (.var 2 /-err-/)])
    .skip ;;
  .set 10488 3 .nil /-denominator-/ ;;
  .prim 10489 (.tryKind (.str b!"/")) [4] ;;
  .ite 10489 (.not (.isNil (.var 4 /-tmp-/)))
    (.call 10491 .parseNumber [.pos] [3, 2] ;;
    .ite 10492 (.not (.isNil (.var 2 /-err-/)))
      (.ret 10493 [.nil, (.var 2 /-err-/)])
      .skip)
    .skip ;;
  .ret 10496 [(.mk .RatioExpr [(.var 1 /-numerator-/) /-Numerator-/, (.var 3 /-denominator-/) /-Denominator-/]), .nil]⟩

end Verif.Body

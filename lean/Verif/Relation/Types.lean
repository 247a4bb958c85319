/-
Generated by `lake env lean --run Verif/Check/Main.lean --types`: the types of the variables and results of the
methods.  Nothing here is trusted: `Verif.Relation.Typed` checks it.
-/
import Verif.Relation.Check
import Verif.Parser.Fn

namespace Verif

/-- What may differ between two runs in the variables and results of each method of `Parser`
(parser/parser_*.go, parse_system.go). -/
def runSig : Fn → Sig
  | .tryParseIdent => ⟨[.tok], [.st .Ident]⟩
  | .parseAnyKeyword => ⟨[.tok], [.st .Ident, .st .ParseError]⟩
  | .parseIdent => ⟨[.tok, .rel, .st .Ident], [.st .Ident, .rel]⟩
  | .parseIdentOrStar => ⟨[.st .Ident, .rel, .tok], [.st .Ident, .rel]⟩
  | .parseIdentOrString => ⟨[.st .Ident, .rel, .tok], [.st .Ident, .rel]⟩
  | .tryParseDotIdent => ⟨[.rel, .tok, .st .Ident, .st .ParseError], [.st .Ident, .st .ParseError]⟩
  | .tryParseDotIdentOrString => ⟨[.rel, .tok, .st .Ident, .st .ParseError, .st .Ident, .rel], [.st .Ident, .rel]⟩
  | .parseUUID => ⟨[.rel, .st .StringLiteral, .rel], [.st .UUID, .rel]⟩
  | .tryParseUUID => ⟨[.st .UUID, .rel], [.st .UUID, .rel]⟩
  | .tryParseComment => ⟨[.exact, .st .StringLiteral, .rel], [.st .StringLiteral, .rel]⟩
  | .tryParseIfExists => ⟨[.exact, .rel], [.exact, .rel]⟩
  | .tryParseIfNotExists => ⟨[.exact, .rel, .rel], [.exact, .rel]⟩
  | .tryParseNull => ⟨[.rel, .exact], [.st .NullLiteral]⟩
  | .tryParseNotNull => ⟨[.rel, .exact, .st .NotNullLiteral, .rel, .rel], [.st .NotNullLiteral, .rel]⟩
  | .parseDecimal => ⟨[.rel, .st .NumberLiteral, .rel], [.st .NumberLiteral, .rel]⟩
  | .parseNumber => ⟨[.rel, .rel, .st .Token, .rel, .st .NumberLiteral], [.st .NumberLiteral, .rel]⟩
  | .parseString => ⟨[.rel, .tok, .rel, .st .StringLiteral], [.st .StringLiteral, .rel]⟩
  | .parseLiteral => ⟨[.rel, .st .NumberLiteral, .rel, .st .StringLiteral, .rel, .st .Ident, .rel], [.rel, .rel]⟩
  | .ParseNestedIdentifier => ⟨[.rel, .st .Ident, .rel, .st .Ident], [.st .NestedIdentifier, .rel]⟩
  | .tryParseFormat => ⟨[.rel, .st .FormatClause, .rel], [.st .FormatClause, .rel]⟩
  | .parseFormat => ⟨[.rel, .rel, .st .Ident, .rel], [.st .FormatClause, .rel]⟩
  | .parseRatioExpr => ⟨[.rel, .st .NumberLiteral, .rel, .st .NumberLiteral, .tok], [.st .RatioExpr, .rel]⟩
  | .tryParseWithClause => ⟨[.rel, .st .WithClause, .rel], [.st .WithClause, .rel]⟩
  | .parseWithClause => ⟨[.rel, .rel, .st .CTEStmt, .rel, .rel, .tok, .st .CTEStmt, .rel], [.st .WithClause, .rel]⟩
  | .tryParseTopClause => ⟨[.rel, .st .TopClause, .rel], [.st .TopClause, .rel]⟩
  | .parseTopClause => ⟨[.rel, .rel, .st .NumberLiteral, .rel, .rel, .exact, .exact, .rel], [.st .TopClause, .rel]⟩
  | .tryParseDistinctOn => ⟨[.rel, .st .DistinctOn, .rel], [.st .DistinctOn, .rel]⟩
  | .parseDistinctOn => ⟨[.rel, .rel, .rel, .st .NestedIdentifier, .rel, .ls .NestedIdentifier, .rel], [.st .DistinctOn, .rel]⟩
  | .tryParseFromClause => ⟨[.rel, .st .FromClause, .rel], [.st .FromClause, .rel]⟩
  | .parseFromClause => ⟨[.rel, .rel, .rel, .rel], [.st .FromClause, .rel]⟩
  | .tryParseJoinConstraints => ⟨[.rel, .exact, .st .ColumnExprList, .rel, .exact, .tok, .exact, .st .ColumnExprList, .rel, .rel], [.rel, .rel]⟩
  | .parseJoinType => ⟨[.rel, .rel, .exact], [.rel]⟩
  | .parseJoinTableExpr => ⟨[.rel, .st .TableExpr, .rel, .rel, .exact, .st .SampleClause], [.st .JoinTableExpr, .rel]⟩
  | .parseJoinModifiers => ⟨[.rel, .rel, .tok, .rel], [.rel, .st .ParseError]⟩
  | .peekJoinAfterLocality => ⟨[.rel, .st .ParseError, .exact, .exact], [.exact]⟩
  | .parseJoinRightExpr => ⟨[.rel, .rel, .rel, .rel, .rel, .tok, .rel, .rel, .exact, .rel], [.rel, .rel]⟩
  | .parseJoinExpr => ⟨[.rel, .st .JoinTableExpr, .rel, .rel], [.rel, .rel]⟩
  | .parseTableExpr => ⟨[.rel, .rel, .rel, .st .TableIdentifier, .rel, .st .TableArgListExpr, .rel, .rel, .exact, .st .Ident, .st .ParseError, .st .Ident, .rel, .exact, .exact], [.st .TableExpr, .rel]⟩
  | .tryParsePrewhereClause => ⟨[.rel, .st .PrewhereClause, .rel], [.st .PrewhereClause, .rel]⟩
  | .parsePrewhereClause => ⟨[.rel, .rel, .rel, .rel], [.st .PrewhereClause, .rel]⟩
  | .tryParseWhereClause => ⟨[.rel, .st .WhereClause, .rel], [.st .WhereClause, .rel]⟩
  | .parseWhereClause => ⟨[.rel, .rel, .rel, .rel], [.st .WhereClause, .rel]⟩
  | .tryParseGroupByClause => ⟨[.rel, .st .GroupByClause, .rel], [.st .GroupByClause, .rel]⟩
  | .parseGroupByClause => ⟨[.rel, .rel, .rel, .rel, .rel, .rel, .rel, .exact, .st .GroupByClause, .exact, .rel, .exact, .exact, .exact], [.st .GroupByClause, .rel]⟩
  | .tryParseLimitAfterLimitByClause => ⟨[.rel, .st .LimitClause, .rel], [.st .LimitClause, .rel]⟩
  | .tryParseLimitClause => ⟨[.rel, .st .LimitClause, .rel], [.st .LimitClause, .rel]⟩
  | .parseLimitClause => ⟨[.rel, .rel, .rel, .rel, .exact, .exact, .tok, .exact], [.st .LimitClause, .rel]⟩
  | .tryParseLimitByClause => ⟨[.rel, .rel, .rel], [.rel, .rel]⟩
  | .parseBetweenClause => ⟨[.rel, .exact, .rel, .rel, .rel, .rel, .rel, .rel], [.st .BetweenClause, .rel]⟩
  | .parseLimitByClause => ⟨[.rel, .st .LimitClause, .rel, .st .ColumnExprList, .exact], [.rel, .rel]⟩
  | .tryParseWindowFrameClause => ⟨[.rel, .st .WindowFrameClause, .rel], [.st .WindowFrameClause, .rel]⟩
  | .parseWindowFrameClause => ⟨[.rel, .rel, .rel, .exact, .rel, .rel, .rel, .rel, .rel, .rel, .rel], [.st .WindowFrameClause, .rel]⟩
  | .parseFrameExtent => ⟨[.st .WindowFrameCurrentRow, .rel, .st .WindowFrameUnbounded, .exact, .st .WindowFrameNumber, .rel, .st .WindowFrameParam, .rel, .st .WindowFrameExtendExpr, .rel], [.rel, .rel]⟩
  | .parseFrameCurrentRow => ⟨[.rel, .rel, .rel], [.st .WindowFrameCurrentRow, .rel]⟩
  | .parseFrameUnbounded => ⟨[.rel, .rel, .exact], [.st .WindowFrameUnbounded, .exact]⟩
  | .parseFrameNumber => ⟨[.st .NumberLiteral, .rel, .rel, .zero], [.st .WindowFrameNumber, .rel]⟩
  | .parseFrameParam => ⟨[.st .QueryParam, .rel, .rel, .zero], [.st .WindowFrameParam, .rel]⟩
  | .parseFrameInterval => ⟨[.st .IntervalExpr, .rel, .rel, .zero], [.st .WindowFrameExtendExpr, .rel]⟩
  | .parseFrameDirection => ⟨[.rel], [.rel, .exact]⟩
  | .parseFrameDirectionWithEnd => ⟨[.zero, .rel], [.rel, .zero, .exact]⟩
  | .tryParseWindowClause => ⟨[.rel, .st .WindowClause, .rel], [.st .WindowClause, .rel]⟩
  | .parseWindowCondition => ⟨[.rel, .rel, .st .Ident, .exact, .st .ParseError, .st .PartitionByClause, .rel, .st .OrderByClause, .st .WindowFrameClause, .zero, .rel], [.st .WindowExpr, .rel]⟩
  | .canParseWindowNameInParens => ⟨[.exact, .exact, .exact], [.exact]⟩
  | .parseWindowClause => ⟨[.rel, .rel, .ls .WindowDefinition, .st .Ident, .rel, .rel, .rel, .st .WindowExpr, .tok, .zero], [.st .WindowClause, .rel]⟩
  | .tryParseHavingClause => ⟨[.rel, .st .HavingClause, .rel], [.st .HavingClause, .rel]⟩
  | .parseHavingClause => ⟨[.rel, .rel, .st .ColumnExpr, .rel], [.st .HavingClause, .rel]⟩
  | .parseSubQuery => ⟨[.rel, .tok, .exact, .st .SelectQuery, .rel, .rel], [.st .SubQuery, .rel]⟩
  | .parseSelectQuery => ⟨[.rel, .tok, .exact, .st .SelectQuery, .rel, .exact, .exact, .st .SelectQuery, .rel, .exact, .st .SelectQuery, .rel, .exact, .st .SelectQuery, .rel, .exact, .st .SelectQuery, .rel, .rel], [.st .SelectQuery, .rel]⟩
  | .parseSelectStmt => ⟨[.rel, .st .WithClause, .rel, .rel, .exact, .st .DistinctOn, .st .TopClause, .rel, .rel, .st .FromClause, .st .PrewhereClause, .st .WhereClause, .st .GroupByClause, .exact, .exact, .rel, .rel, .st .HavingClause, .st .WindowClause, .st .OrderByClause, .rel, .rel, .rel, .rel, .st .SettingsClause, .st .FormatClause], [.st .SelectQuery, .rel]⟩
  | .parseCTEStmt => ⟨[.rel, .rel, .rel, .rel, .st .SelectQuery, .rel, .st .Ident], [.st .CTEStmt, .rel]⟩
  | .tryParseSampleClause => ⟨[.rel, .st .SampleClause, .rel], [.st .SampleClause, .rel]⟩
  | .parseSampleClause => ⟨[.rel, .rel, .st .RatioExpr, .rel, .st .RatioExpr], [.st .SampleClause, .rel]⟩
  | .parseExplainStmt => ⟨[.rel, .rel, .rel, .st .SelectQuery, .rel], [.st .ExplainStmt, .rel]⟩
  | .tryParseColumnComment => ⟨[.rel, .exact, .st .StringLiteral, .rel], [.st .StringLiteral, .rel]⟩
  | .getNextPrecedence => ⟨[.exact, .exact, .exact, .exact, .exact, .exact, .exact], [.exact]⟩
  | .parseInfix => ⟨[.rel, .exact, .exact, .rel, .rel, .rel, .rel, .st .Ident, .rel, .rel, .st .NestedType, .rel, .rel, .st .BetweenClause, .rel, .exact, .rel, .rel, .rel, .rel, .rel, .st .BetweenClause, .rel, .exact, .rel, .rel, .st .ArrayParamList, .rel, .st .TernaryOperation, .rel, .rel, .exact, .rel, .rel], [.rel, .rel]⟩
  | .parseExpr => ⟨[.rel, .rel, .rel], [.rel, .rel]⟩
  | .parseSubExpr => ⟨[.rel, .exact, .rel, .rel, .rel, .rel], [.rel, .rel]⟩
  | .parseInfixLoop => ⟨[.rel, .exact, .exact, .rel], [.rel, .rel]⟩
  | .parseTernaryExpr => ⟨[.rel, .rel, .rel, .rel, .rel, .rel], [.st .TernaryOperation, .rel]⟩
  | .parseExtractFrom => ⟨[.rel, .rel, .rel, .rel, .rel], [.st .IntervalFrom, .rel]⟩
  | .parseColumnExtractExpr => ⟨[.rel, .rel, .rel, .rel, .rel, .rel, .st .IntervalFrom, .exact, .rel, .tok, .rel, .rel], [.st .ExtractExpr, .rel]⟩
  | .parseUnaryExpr => ⟨[.rel, .tok, .rel, .rel, .rel, .rel], [.rel, .rel]⟩
  | .peekTokenKind => ⟨[.exact, .tok, .exact], [.exact]⟩
  | .peekKeyword => ⟨[.exact, .tok, .exact], [.exact]⟩
  | .matchClauseStarterKeyword => ⟨[], [.exact]⟩
  | .peekIsClauseStarterKeyword => ⟨[.exact, .exact, .exact, .exact, .exact, .exact, .exact, .exact, .exact, .exact, .exact, .exact, .exact, .exact], [.exact]⟩
  | .peekIsEndOfStatement => ⟨[.tok, .exact], [.exact]⟩
  | .peekIsExpressionContinuation => ⟨[.exact, .exact, .exact, .exact, .exact, .exact, .exact, .exact, .exact, .exact, .exact, .exact, .exact, .exact, .exact, .exact, .exact, .exact, .exact, .exact, .exact, .exact, .exact, .exact, .exact, .exact, .exact], [.exact]⟩
  | .keywordIsSelectItemIdentifier => ⟨[.exact, .exact, .exact, .exact, .exact, .exact, .exact], [.exact]⟩
  | .isSelectItemTerminatorKeyword => ⟨[.exact, .exact], [.exact]⟩
  | .parseColumnExpr => ⟨[.rel, .exact, .exact, .exact, .exact, .exact, .exact, .st .Ident, .st .ParseError, .rel, .exact, .st .Ident, .st .ParseError, .st .IntervalExpr, .rel, .st .Ident, .st .ParseError, .tok, .exact, .st .StringLiteral, .rel, .rel, .rel, .st .CastExpr, .rel, .st .CaseExpr, .rel, .st .SelectQuery, .rel, .st .ExtractExpr, .rel, .rel, .rel, .exact, .exact, .rel, .rel, .st .StringLiteral, .rel, .st .NumberLiteral, .rel, .tok, .st .SubQuery, .rel, .st .ParamExprList, .rel, .st .Ident, .rel, .st .ArrayParamList, .rel, .exact, .exact, .exact, .st .QueryParam, .rel, .st .MapLiteral, .rel, .st .NumberLiteral, .rel], [.rel, .rel]⟩
  | .parseColumnCastExpr => ⟨[.rel, .rel, .rel, .rel, .rel, .rel, .rel, .rel, .rel], [.st .CastExpr, .rel]⟩
  | .parseColumnExprListWithLParen => ⟨[.rel, .st .ColumnExprList, .rel], [.st .ColumnExprList, .rel]⟩
  | .parseColumnExprListWithSquareBracket => ⟨[.rel, .st .ColumnExprList, .rel], [.st .ColumnExprList, .rel]⟩
  | .parseColumnExprList => ⟨[.rel, .st .ColumnExprList, .rel], [.st .ColumnExprList, .rel]⟩
  | .parseColumnExprListWithTerm => ⟨[.exact, .rel, .st .ColumnExprList, .exact, .rel, .st .ColumnExpr, .rel, .tok], [.st .ColumnExprList, .rel]⟩
  | .parseSelectItems => ⟨[.rel, .st .SelectItem, .rel, .tok, .exact], [.rel, .rel]⟩
  | .parseInterval => ⟨[.exact, .zero, .rel, .rel, .rel, .st .Ident], [.st .IntervalExpr, .rel]⟩
  | .parseFunctionExpr => ⟨[.rel, .st .Ident, .rel, .st .ParamExprList], [.st .FunctionExpr, .rel]⟩
  | .parseColumnArgList => ⟨[.rel, .rel, .exact, .rel, .rel, .rel, .tok, .rel, .rel], [.st .ColumnArgList, .rel]⟩
  | .parseKeywordArgItem => ⟨[.exact, .exact, .exact, .rel, .exact, .rel, .exact, .exact, .exact, .rel, .rel], [.rel, .exact, .rel]⟩
  | .parseKeywordArgModifier => ⟨[.exact, .exact, .rel, .rel, .exact, .exact, .exact, .rel, .rel, .rel, .exact, .exact, .rel, .rel], [.rel, .exact, .rel]⟩
  | .parseKeywordArgFunctionParams => ⟨[.rel, .exact, .rel, .rel, .exact, .ls .ColumnExpr, .exact, .exact, .exact, .rel, .exact, .rel, .st .Ident, .exact, .tok, .st .ColumnExprList, .rel, .rel, .st .ParamExprList, .st .ColumnArgList, .rel], [.st .ParamExprList, .rel]⟩
  | .parseFunctionParams => ⟨[.rel, .rel, .st .ColumnExprList, .rel, .rel, .rel, .st .ParamExprList, .st .ColumnArgList, .rel], [.st .ParamExprList, .rel]⟩
  | .parseMapLiteral => ⟨[.rel, .rel, .ls .KeyValue, .st .StringLiteral, .rel, .rel, .rel, .tok, .rel, .rel], [.st .MapLiteral, .rel]⟩
  | .parseQueryParam => ⟨[.rel, .rel, .st .Ident, .rel, .rel, .rel, .rel, .rel], [.st .QueryParam, .rel]⟩
  | .parseArrayParams => ⟨[.rel, .rel, .st .ColumnExprList, .rel, .rel, .rel], [.st .ArrayParamList, .rel]⟩
  | .parseColumnsExpr => ⟨[.rel, .rel, .rel, .st .Ident, .exact], [.st .ColumnExpr, .rel]⟩
  | .parseSelectItem => ⟨[.rel, .rel, .ls .FunctionExpr, .st .FunctionExpr, .rel, .st .Ident, .exact, .exact, .exact], [.st .SelectItem, .rel]⟩
  | .parseColumnCaseExpr => ⟨[.rel, .st .CaseExpr, .rel, .rel, .rel, .ls .WhenClause, .rel, .rel, .rel, .rel, .rel, .rel, .rel, .exact, .rel, .rel, .rel], [.st .CaseExpr, .rel]⟩
  | .parseColumnType => ⟨[.rel, .st .Ident, .rel, .rel, .rel], [.rel, .rel]⟩
  | .parseColumnTypeArgs => ⟨[.st .Ident, .tok, .st .NestedType, .rel, .st .JSONType, .rel, .st .TypeWithParams, .rel, .st .NestedType, .rel, .st .ComplexType, .rel, .tok, .exact, .st .EnumType, .rel, .st .TypeWithParams, .rel, .st .TypeWithParams, .rel, .rel], [.rel, .rel]⟩
  | .parseColumnPropertyType => ⟨[.rel, .st .Ident, .rel], [.st .PropertyType, .rel]⟩
  | .parseComplexType => ⟨[.st .Ident, .rel, .rel, .rel, .rel, .tok, .rel, .rel], [.st .ComplexType, .rel]⟩
  | .parseEnumType => ⟨[.st .Ident, .rel, .st .EnumType, .st .EnumValue, .rel, .tok, .rel], [.st .EnumType, .rel]⟩
  | .parseColumnTypeWithParams => ⟨[.st .Ident, .rel, .rel, .rel, .rel, .exact, .tok, .rel, .rel, .rel, .rel], [.st .TypeWithParams, .rel]⟩
  | .parseJSONPath => ⟨[.ls .Ident, .st .Ident, .rel, .exact, .tok, .st .Ident, .st .ParseError], [.st .JSONPath, .rel]⟩
  | .parseJSONMaxDynamicOptions => ⟨[.nul, .st .Ident, .rel, .rel, .rel, .st .NumberLiteral, .rel, .st .NumberLiteral, .rel], [.st .JSONOption, .rel]⟩
  | .parseJSONOption => ⟨[.exact, .exact, .st .StringLiteral, .rel, .st .JSONPath, .rel, .st .JSONPath, .rel, .tok, .rel, .st .NumberLiteral, .rel, .st .NumberLiteral, .rel, .rel], [.st .JSONOption, .rel]⟩
  | .parseJSONType => ⟨[.st .Ident, .rel, .ls .JSONOption, .st .JSONOption, .rel, .tok, .rel, .rel], [.st .JSONType, .rel]⟩
  | .parseNestedType => ⟨[.st .Ident, .rel, .rel, .rel, .rel, .rel], [.st .NestedType, .rel]⟩
  | .parseNestedTypeFields => ⟨[.st .Ident, .rel, .rel, .rel, .rel, .rel], [.rel, .rel]⟩
  | .parseNestedTypeFieldsWithNames => ⟨[.st .Ident, .rel, .rel, .rel, .tok, .st .ColumnDef, .rel, .tok], [.rel, .rel]⟩
  | .parseNestedTypeFieldsWithoutNames => ⟨[.st .Ident, .rel, .rel, .rel, .tok, .rel, .rel, .tok], [.rel, .rel]⟩
  | .parseNestedTypeFieldWithName => ⟨[.st .Ident, .rel, .rel], [.st .ColumnDef, .rel]⟩
  | .tryParseCompressionCodecs => ⟨[.rel, .exact, .rel, .st .Ident, .rel, .st .Ident, .st .NumberLiteral, .exact, .rel, .st .NumberLiteral, .exact, .rel, .rel], [.st .CompressionCodec, .rel]⟩
  | .parseEnumValueExpr => ⟨[.rel, .st .StringLiteral, .rel, .rel, .st .NumberLiteral], [.st .EnumValue, .rel]⟩
  | .parseColumnStar => ⟨[.rel, .rel], [.st .Ident, .rel]⟩
  | .tryParseCompressionLevel => ⟨[.rel, .tok, .rel, .st .NumberLiteral, .rel, .rel], [.st .NumberLiteral, .rel]⟩
  | .parseDDL => ⟨[.rel, .exact, .st .CreateNamedCollection, .rel, .st .CreateDatabase, .rel, .st .CreateDictionary, .rel, .st .CreateTable, .rel, .st .CreateFunction, .rel, .st .CreateMaterializedView, .rel, .st .CreateLiveView, .rel, .st .CreateView, .rel, .st .CreateRole, .rel, .st .CreateUser, .rel, .st .AlterRole, .rel, .st .AlterTable, .rel, .st .DropDatabase, .rel, .st .DropStmt, .rel, .st .DropUserOrRole, .rel, .st .TruncateTable, .rel, .st .RenameStmt, .rel], [.rel, .rel]⟩
  | .parseCreateDatabase => ⟨[.rel, .rel, .exact, .rel, .st .Ident, .rel, .st .ClusterClause, .st .EngineExpr, .st .StringLiteral], [.st .CreateDatabase, .rel]⟩
  | .parseCreateDictionary => ⟨[.rel, .exact, .rel, .st .CreateDictionary, .rel, .exact, .rel, .st .TableIdentifier, .st .UUID, .st .ClusterClause, .st .DictionarySchemaClause, .st .DictionaryEngineClause, .st .StringLiteral], [.st .CreateDictionary, .rel]⟩
  | .parseCreateNamedCollection => ⟨[.rel, .rel, .rel, .st .CreateNamedCollection, .rel, .exact, .rel, .st .Ident, .st .ClusterClause, .rel, .rel, .st .NamedCollectionParam, .rel, .tok], [.st .CreateNamedCollection, .rel]⟩
  | .parseNamedCollectionParam => ⟨[.rel, .st .Ident, .rel, .rel, .rel, .rel, .rel, .rel, .rel, .st .Ident, .rel, .st .NamedCollectionParam, .exact, .rel, .exact], [.st .NamedCollectionParam, .rel]⟩
  | .parseCreateTable => ⟨[.rel, .exact, .st .CreateTable, .exact, .rel, .rel, .exact, .rel, .st .TableIdentifier, .st .UUID, .st .ClusterClause, .st .TableSchemaClause, .st .EngineExpr, .exact, .st .SubQuery, .rel, .st .Ident, .rel, .st .TableArgListExpr, .rel, .st .TableFunctionExpr, .st .StringLiteral], [.st .CreateTable, .rel]⟩
  | .parseIdentOrFunction => ⟨[.rel, .st .Ident, .rel, .exact, .exact, .st .ArrayParamList, .rel, .st .ParamExprList, .exact, .exact, .st .FunctionExpr, .rel, .exact, .rel, .tok, .ls .Ident, .st .Ident, .st .ParseError, .tok, .st .Ident, .rel, .st .NumberLiteral, .rel], [.rel, .rel]⟩
  | .parseTableIdentifier => ⟨[.rel, .st .Ident, .rel, .st .Ident], [.st .TableIdentifier, .rel]⟩
  | .parseTableSchemaClause => ⟨[.rel, .rel, .rel, .rel, .rel, .rel, .exact, .exact, .exact, .exact, .exact, .exact, .st .Ident, .rel, .st .Ident, .st .ParseError, .st .TableArgListExpr, .rel], [.st .TableSchemaClause, .rel]⟩
  | .parseTableColumns => ⟨[.rel, .rel, .st .TableIndex, .rel, .rel, .st .Ident, .rel, .rel, .rel, .st .TableProjection, .rel, .st .ColumnDef, .rel, .tok], [.rel, .rel]⟩
  | .tryParseTableColumnExpr => ⟨[.rel, .st .ColumnDef, .rel], [.st .ColumnDef, .rel]⟩
  | .parseTableColumnExpr => ⟨[.rel, .st .ColumnDef, .st .NestedIdentifier, .rel, .rel, .rel, .rel, .st .NullLiteral, .st .NotNullLiteral, .rel, .exact, .rel, .rel, .exact, .rel, .rel, .exact, .rel, .rel, .st .StringLiteral, .st .CompressionCodec, .st .TTLClause], [.st .ColumnDef, .rel]⟩
  | .parseTableArgExpr => ⟨[.rel, .rel, .rel, .rel, .rel], [.rel, .rel]⟩
  | .parseTableArgPrimaryExpr => ⟨[.rel, .st .CastExpr, .rel, .st .Ident, .rel, .st .Ident, .st .ParseError, .st .TableArgListExpr, .rel, .exact, .exact, .exact, .st .SubQuery, .rel, .st .ParamExprList, .rel, .rel, .rel], [.rel, .rel]⟩
  | .parseTableArgList => ⟨[.rel, .rel, .rel, .rel, .rel, .exact, .exact, .tok, .exact, .st .Ident, .exact, .rel, .rel, .rel, .tok, .rel, .rel], [.st .TableArgListExpr, .rel]⟩
  | .tryParseClusterClause => ⟨[.rel, .exact, .rel, .rel, .rel], [.st .ClusterClause, .rel]⟩
  | .tryParsePartitionByClause => ⟨[.rel, .exact, .rel, .st .ColumnExprList, .rel], [.st .PartitionByClause, .rel]⟩
  | .tryParsePrimaryKeyClause => ⟨[.rel, .exact, .rel, .rel, .rel], [.st .PrimaryKeyClause, .rel]⟩
  | .tryParseOrderByClause => ⟨[.rel, .exact, .rel, .st .OrderByClause, .rel], [.st .OrderByClause, .rel]⟩
  | .tryParseTableOrderByClause => ⟨[.rel, .exact, .rel, .st .OrderExpr, .rel], [.st .OrderByClause, .rel]⟩
  | .parseOrderByClause => ⟨[.rel, .st .OrderByClause, .rel, .st .OrderExpr, .rel, .exact, .tok, .rel, .st .InterpolateClause, .rel], [.st .OrderByClause, .rel]⟩
  | .parseOrderExpr => ⟨[.rel, .rel, .rel, .st .Ident, .tok, .exact, .exact, .st .Fill, .exact, .rel], [.st .OrderExpr, .rel]⟩
  | .parseFillClause => ⟨[.rel, .st .Fill, .exact, .rel, .rel, .exact, .rel, .rel, .exact, .rel, .rel, .exact, .rel, .rel], [.st .Fill, .rel]⟩
  | .parseInterpolateClause => ⟨[.rel, .st .InterpolateClause, .tok, .ls .InterpolateItem, .st .Ident, .rel, .st .InterpolateItem, .exact, .rel, .rel, .tok, .tok], [.st .InterpolateClause, .rel]⟩
  | .tryParseTTLClause => ⟨[.rel, .exact, .exact, .st .TTLClause, .rel, .rel], [.st .TTLClause, .rel]⟩
  | .parseTTLClause => ⟨[.rel, .exact, .rel, .st .TTLExpr, .rel, .exact, .tok], [.rel, .rel]⟩
  | .tryParseTTLPolicy => ⟨[.rel, .st .TTLPolicyRule, .exact, .exact, .st .StringLiteral, .rel, .exact, .st .StringLiteral, .rel, .tok, .st .TTLPolicyRuleAction, .st .CompressionCodec, .rel, .st .TTLPolicy, .st .WhereClause, .rel, .st .GroupByClause], [.st .TTLPolicy, .rel]⟩
  | .parseTTLExpr => ⟨[.rel, .rel, .rel, .st .TTLPolicy], [.st .TTLExpr, .rel]⟩
  | .tryParseSampleByClause => ⟨[.rel, .exact, .rel, .rel, .rel], [.st .SampleByClause, .rel]⟩
  | .tryParseSettingsClause => ⟨[.rel, .exact, .st .SettingsClause, .rel], [.st .SettingsClause, .rel]⟩
  | .parseSettingsClause => ⟨[.rel, .st .SettingsClause, .rel, .rel], [.st .SettingsClause, .rel]⟩
  | .parseSettingsList => ⟨[.rel, .rel, .st .SettingExpr, .rel, .tok], [.rel, .rel]⟩
  | .parseSettingsExpr => ⟨[.rel, .st .Ident, .rel, .rel, .rel, .st .NumberLiteral, .rel, .st .StringLiteral, .rel, .st .MapLiteral, .rel, .tok], [.st .SettingExpr, .rel]⟩
  | .parseDestinationClause => ⟨[.rel, .rel, .st .TableIdentifier, .rel], [.st .DestinationClause, .rel]⟩
  | .tryParseEngineExpr => ⟨[.rel, .st .EngineExpr, .rel], [.st .EngineExpr, .rel]⟩
  | .parseEngineExpr => ⟨[.rel, .rel, .st .EngineExpr, .rel, .st .Ident, .rel, .st .ParamExprList, .rel, .st .OrderByClause, .rel, .st .PartitionByClause, .rel, .st .PrimaryKeyClause, .rel, .st .SampleByClause, .rel, .st .TTLClause, .rel, .st .SettingsClause, .rel], [.st .EngineExpr, .rel]⟩
  | .parseStmt => ⟨[.rel, .rel, .rel], [.rel, .rel]⟩
  | .ParseStmts => ⟨[.rel, .exact, .rel, .rel, .rel, .rel], [.rel, .rel]⟩
  | .parseUseStmt => ⟨[.rel, .rel, .st .Ident, .rel], [.st .UseStmt, .rel]⟩
  | .parseShowStmt => ⟨[.rel, .rel, .exact, .st .TableIdentifier, .rel, .st .TableIdentifier, .rel, .st .ShowStmt, .rel, .rel, .rel, .rel, .rel, .st .StringLiteral, .rel, .st .StringLiteral, .rel, .tok], [.st .ShowStmt, .rel]⟩
  | .parseDescribeStmt => ⟨[.rel, .exact, .st .TableIdentifier, .rel], [.st .DescribeStmt, .rel]⟩
  | .parseTruncateTable => ⟨[.rel, .rel, .exact, .rel, .exact, .rel, .st .TableIdentifier, .st .ClusterClause, .st .TruncateTable], [.st .TruncateTable, .rel]⟩
  | .parseDeleteClause => ⟨[.rel, .rel, .rel, .st .TableIdentifier, .rel, .st .ClusterClause, .rel, .rel], [.st .DeleteClause, .rel]⟩
  | .parseColumnNamesExpr => ⟨[.rel, .rel, .ls .NestedIdentifier, .exact, .tok, .st .NestedIdentifier, .rel, .tok, .rel, .rel], [.st .ColumnNamesExpr, .rel]⟩
  | .parseTypedPlaceholder => ⟨[.rel, .rel, .st .Ident, .rel, .rel, .rel, .rel], [.st .TypedPlaceholder, .rel]⟩
  | .parseAssignmentValues => ⟨[.rel, .rel, .rel, .rel, .rel, .exact, .tok, .tok, .rel, .rel], [.st .AssignmentValues, .rel]⟩
  | .parseInsertStmt => ⟨[.rel, .rel, .rel, .st .InsertStmt, .exact, .rel, .rel, .exact, .st .ColumnNamesExpr, .rel, .st .FormatClause, .rel, .ls .AssignmentValues, .st .AssignmentValues, .rel, .tok, .st .SelectQuery, .rel], [.st .InsertStmt, .rel]⟩
  | .parseRenameStmt => ⟨[.rel, .rel, .exact, .exact, .exact, .rel, .st .TargetPair, .rel, .rel, .tok, .st .TargetPair, .rel, .st .RenameStmt, .st .ClusterClause], [.st .RenameStmt, .rel]⟩
  | .parseTargetPair => ⟨[.rel, .st .TableIdentifier, .rel, .st .TableIdentifier], [.st .TargetPair, .rel]⟩
  | .parseCreateFunction => ⟨[.rel, .exact, .rel, .exact, .rel, .st .Ident, .st .ClusterClause, .rel, .st .ParamExprList, .rel, .rel], [.st .CreateFunction, .rel]⟩
  | .parseDictionarySchemaClause => ⟨[.rel, .rel, .st .DictionarySchemaClause, .st .DictionaryAttribute, .rel, .tok, .st .DictionaryAttribute, .rel, .rel, .rel], [.st .DictionarySchemaClause, .rel]⟩
  | .parseDictionaryAttribute => ⟨[.rel, .st .Ident, .rel, .rel, .st .DictionaryAttribute, .rel, .exact, .rel, .rel, .exact, .rel, .rel, .exact, .exact, .exact], [.st .DictionaryAttribute, .rel]⟩
  | .parseDictionaryEngineClause => ⟨[.rel, .st .DictionaryEngineClause, .st .DictionaryPrimaryKeyClause, .rel, .st .DictionarySourceClause, .rel, .st .DictionaryLifetimeClause, .rel, .st .DictionaryLayoutClause, .rel, .st .DictionaryRangeClause, .rel, .st .SettingsClause, .rel], [.st .DictionaryEngineClause, .rel]⟩
  | .parseDictionaryPrimaryKeyClause => ⟨[.rel, .rel, .rel, .st .ColumnExprList, .rel], [.st .DictionaryPrimaryKeyClause, .rel]⟩
  | .parseDictionarySourceClause => ⟨[.rel, .rel, .rel, .st .Ident, .rel, .rel, .rel, .rel, .rel, .rel], [.st .DictionarySourceClause, .rel]⟩
  | .parseDictionaryArgExprs => ⟨[.rel, .st .DictionaryArgExpr, .rel], [.rel, .rel]⟩
  | .parseDictionaryArgExpr => ⟨[.rel, .st .Ident, .st .ParseError, .zero, .rel, .rel, .rel, .rel, .rel, .rel, .rel, .rel, .rel, .st .Ident, .rel, .rel], [.st .DictionaryArgExpr, .rel]⟩
  | .parseDictionaryLifetimeClause => ⟨[.rel, .rel, .rel, .st .DictionaryLifetimeClause, .exact, .st .NumberLiteral, .rel, .rel, .rel, .st .NumberLiteral, .st .NumberLiteral, .rel, .rel, .rel], [.st .DictionaryLifetimeClause, .rel]⟩
  | .parseDictionaryLayoutClause => ⟨[.rel, .rel, .rel, .st .Ident, .rel, .rel, .rel, .rel, .rel, .rel], [.st .DictionaryLayoutClause, .rel]⟩
  | .parseDictionaryRangeClause => ⟨[.rel, .rel, .rel, .st .DictionaryRangeClause, .rel, .st .Ident, .rel, .rel, .st .Ident, .rel, .st .Ident, .rel, .rel, .st .Ident, .rel, .rel], [.st .DictionaryRangeClause, .rel]⟩
  | .parseDictionarySettingsClause => ⟨[.rel, .rel, .rel, .st .SettingsClause, .ls .SettingExpr, .st .SettingExpr, .rel, .tok, .st .SettingExpr, .rel, .rel], [.st .SettingsClause, .rel]⟩
  | .parseSetStmt => ⟨[.rel, .rel, .st .SettingsClause, .rel], [.st .SetStmt, .rel]⟩
  | .parseSettingsStmt => ⟨[.rel, .rel, .st .SettingsClause, .rel], [.st .SetStmt, .rel]⟩
  | .parseSystemFlushExpr => ⟨[.rel, .rel, .tok, .exact, .st .TableIdentifier, .rel], [.st .SystemFlushExpr, .rel]⟩
  | .parseSystemReloadExpr => ⟨[.rel, .rel, .exact, .rel, .exact, .exact, .rel, .st .ClusterClause, .rel, .st .TableIdentifier], [.st .SystemReloadExpr, .rel]⟩
  | .parseSystemSyncExpr => ⟨[.rel, .rel, .rel, .st .TableIdentifier, .rel], [.st .SystemSyncExpr, .rel]⟩
  | .parseSystemCtrlExpr => ⟨[.rel, .exact, .exact, .exact, .rel, .st .TableIdentifier, .rel, .exact, .tok, .rel], [.st .SystemCtrlExpr, .rel]⟩
  | .parseSystemDropExpr => ⟨[.rel, .rel, .tok, .tok, .rel, .rel, .tok, .rel], [.st .SystemDropExpr, .rel]⟩
  | .tryParseDeduplicateClause => ⟨[.rel, .st .DeduplicateClause, .rel], [.st .DeduplicateClause, .rel]⟩
  | .parseDeduplicateClause => ⟨[.rel, .rel, .exact, .st .ColumnExprList, .rel, .st .ColumnExprList, .exact], [.st .DeduplicateClause, .rel]⟩
  | .parseOptimizeStmt => ⟨[.rel, .rel, .rel, .st .TableIdentifier, .rel, .rel, .st .ClusterClause, .st .PartitionClause, .exact, .rel, .exact, .st .DeduplicateClause], [.st .OptimizeStmt, .rel]⟩
  | .parseSystemStmt => ⟨[.rel, .rel, .rel, .rel], [.st .SystemStmt, .rel]⟩
  | .parseCheckStmt => ⟨[.rel, .rel, .rel, .st .TableIdentifier, .rel, .st .PartitionClause], [.st .CheckStmt, .rel]⟩
  | .parseRoleName => ⟨[.rel, .st .Ident, .rel, .st .StringLiteral, .tok, .st .ClusterClause, .st .StringLiteral, .rel, .st .ClusterClause], [.st .RoleName, .rel]⟩
  | .tryParseRoleSettings => ⟨[.rel, .exact, .ls .RoleSetting, .rel], [.ls .RoleSetting, .rel]⟩
  | .parseRoleSetting => ⟨[.rel, .ls .SettingPair, .st .Ident, .rel, .rel, .exact, .tok, .rel, .rel], [.st .RoleSetting, .rel]⟩
  | .parseRoleSettings => ⟨[.rel, .ls .RoleSetting, .st .RoleSetting, .rel, .tok], [.ls .RoleSetting, .rel]⟩
  | .parseCreateRole => ⟨[.rel, .rel, .exact, .exact, .rel, .rel, .rel, .ls .RoleName, .st .RoleName, .rel, .tok, .st .RoleName, .rel, .rel, .st .Ident, .exact, .ls .RoleSetting], [.st .CreateRole, .rel]⟩
  | .parseAuthenticationClause => ⟨[.rel, .st .AuthenticationClause, .exact, .rel, .rel, .exact, .rel, .st .StringLiteral, .rel, .exact, .st .StringLiteral, .rel, .rel, .exact, .st .StringLiteral, .rel], [.st .AuthenticationClause, .rel]⟩
  | .parseHostClause => ⟨[.rel, .rel, .st .HostClause, .rel, .rel, .st .StringLiteral, .rel], [.st .HostClause, .rel]⟩
  | .parseDefaultRoleClause => ⟨[.rel, .rel, .rel, .st .DefaultRoleClause, .exact, .ls .RoleName, .st .RoleName, .rel, .tok, .st .RoleName, .rel], [.st .DefaultRoleClause, .rel]⟩
  | .parseGranteesClause => ⟨[.rel, .rel, .st .GranteesClause, .exact, .exact, .ls .RoleName, .st .RoleName, .rel, .tok, .st .RoleName, .rel, .exact, .ls .RoleName, .st .RoleName, .rel, .tok, .st .RoleName, .rel], [.st .GranteesClause, .rel]⟩
  | .parseCreateUserModifiers => ⟨[.st .CreateUser, .rel, .rel, .rel], [.rel, .st .CreateUser]⟩
  | .parseUserNames => ⟨[.ls .RoleName, .st .RoleName, .rel, .tok, .st .RoleName, .rel], [.ls .RoleName, .rel]⟩
  | .parseHostClauses => ⟨[.ls .HostClause, .st .HostClause, .rel, .tok, .st .HostClause, .rel], [.ls .HostClause, .rel]⟩
  | .parseDefaultClause => ⟨[.st .CreateUser, .tok, .exact, .st .DefaultRoleClause, .rel, .exact, .st .Ident, .rel], [.exact, .rel, .st .CreateUser]⟩
  | .parseOptionalClauses => ⟨[.st .CreateUser, .exact, .st .AuthenticationClause, .rel, .rel, .st .StringLiteral, .rel, .ls .HostClause, .rel, .exact, .rel, .st .GranteesClause, .rel, .ls .RoleSetting, .rel], [.rel, .st .CreateUser]⟩
  | .parseCreateUser => ⟨[.rel, .rel, .st .CreateUser, .rel, .ls .RoleName, .rel, .rel], [.st .CreateUser, .rel]⟩
  | .parserDropUserOrRole => ⟨[.rel, .rel, .exact, .rel, .ls .RoleName, .st .RoleName, .tok, .st .RoleName, .rel, .rel, .st .ClusterClause, .st .Ident, .exact, .exact], [.st .DropUserOrRole, .rel]⟩
  | .parsePrivilegeSelectOrInsert => ⟨[.rel, .rel, .rel, .st .ParamExprList], [.st .PrivilegeClause, .rel]⟩
  | .parsePrivilegeAlter => ⟨[.rel, .rel, .exact, .rel, .rel, .exact, .exact, .exact, .exact, .rel, .exact, .rel, .exact, .exact, .exact, .exact, .rel, .rel], [.st .PrivilegeClause, .rel]⟩
  | .parsePrivilegeCreate => ⟨[.rel, .rel, .rel, .exact, .rel, .exact, .rel], [.st .PrivilegeClause, .rel]⟩
  | .parsePrivilegeDrop => ⟨[.rel, .rel, .rel], [.st .PrivilegeClause, .exact]⟩
  | .parsePrivilegeShow => ⟨[.rel, .rel, .rel], [.st .PrivilegeClause, .exact]⟩
  | .parsePrivilegeSystem => ⟨[.rel, .rel, .rel, .exact, .exact, .rel, .rel, .exact, .rel, .exact, .rel, .exact, .rel, .rel, .rel, .exact, .rel], [.st .PrivilegeClause, .rel]⟩
  | .parsePrivilegeClause => ⟨[.rel, .st .PrivilegeClause, .rel, .exact, .st .PrivilegeClause, .rel, .exact, .st .PrivilegeClause, .rel, .exact, .st .PrivilegeClause, .exact, .exact, .st .PrivilegeClause, .exact, .exact, .rel, .exact, .st .PrivilegeClause, .rel, .exact, .rel, .rel, .exact, .rel], [.st .PrivilegeClause, .rel]⟩
  | .parsePrivilegeRoles => ⟨[.rel, .ls .Ident, .st .Ident, .rel, .tok, .st .Ident, .rel], [.ls .Ident, .rel]⟩
  | .parseGrantOptions => ⟨[.rel, .rel, .rel, .rel], [.rel, .rel]⟩
  | .parseGrantOption => ⟨[.rel, .rel, .st .Ident, .st .ParseError, .rel], [.rel, .rel]⟩
  | .parseGrantSource => ⟨[.rel, .st .Ident, .rel, .tok, .st .Ident], [.st .TableIdentifier, .rel]⟩
  | .parseGrantPrivilegeStmt => ⟨[.rel, .rel, .st .ClusterClause, .rel, .ls .PrivilegeClause, .st .PrivilegeClause, .tok, .st .PrivilegeClause, .rel, .rel, .rel, .st .TableIdentifier, .rel, .ls .Ident, .rel], [.st .GrantPrivilegeStmt, .rel]⟩
  | .parseAlterRole => ⟨[.rel, .rel, .exact, .rel, .rel, .st .RoleRenamePair, .tok, .st .RoleRenamePair, .rel, .rel, .ls .RoleSetting], [.st .AlterRole, .rel]⟩
  | .parseRoleRenamePair => ⟨[.rel, .st .RoleName, .rel, .st .RoleRenamePair, .exact, .rel, .st .Ident, .rel], [.st .RoleRenamePair, .rel]⟩
  | .parseAlterTable => ⟨[.rel, .st .AlterTable, .rel, .st .TableIdentifier, .rel, .st .ClusterClause, .rel, .rel, .tok], [.st .AlterTable, .rel]⟩
  | .parseAlterTableAdd => ⟨[.rel, .rel, .st .AlterTableAddColumn, .rel, .st .AlterTableAddIndex, .rel, .st .AlterTableAddProjection, .rel], [.rel, .rel]⟩
  | .parseAlterTableAddColumn => ⟨[.rel, .rel, .exact, .rel, .st .ColumnDef, .rel, .st .NestedIdentifier, .st .SettingsClause], [.st .AlterTableAddColumn, .rel]⟩
  | .parseAlterTableAddIndex => ⟨[.rel, .rel, .rel, .exact, .rel, .st .TableIndex, .rel, .st .NestedIdentifier], [.st .AlterTableAddIndex, .rel]⟩
  | .tryParseProjectionOrderBy => ⟨[.rel, .exact, .rel, .st .ColumnExprList, .rel], [.st .ProjectionOrderByClause, .rel]⟩
  | .parseProjectionSelect => ⟨[.rel, .rel, .st .WithClause, .rel, .rel, .st .ColumnExprList, .st .GroupByClause, .st .ProjectionOrderByClause, .tok, .rel], [.st .ProjectionSelectStmt, .rel]⟩
  | .parseTableProjection => ⟨[.rel, .exact, .rel, .st .NestedIdentifier, .rel, .st .ProjectionSelectStmt], [.st .TableProjection, .rel]⟩
  | .parseAlterTableAddProjection => ⟨[.rel, .rel, .exact, .rel, .st .TableProjection, .rel, .st .NestedIdentifier], [.st .AlterTableAddProjection, .rel]⟩
  | .parseTableIndex => ⟨[.rel, .st .NestedIdentifier, .rel, .st .ColumnExpr, .rel, .rel, .rel, .st .NumberLiteral], [.st .TableIndex, .rel]⟩
  | .parseAlterTableDrop => ⟨[.rel, .rel, .rel, .rel, .st .AlterTableDropPartition, .rel], [.rel, .rel]⟩
  | .parseAlterTableDetachPartition => ⟨[.rel, .rel, .rel, .st .PartitionClause, .rel, .rel, .st .SettingsClause], [.st .AlterTableDetachPartition, .rel]⟩
  | .tryParsePartitionClause => ⟨[.rel, .st .PartitionClause, .rel], [.st .PartitionClause, .rel]⟩
  | .parsePartitionClause => ⟨[.rel, .rel, .st .PartitionClause, .exact, .st .StringLiteral, .rel, .exact, .rel, .rel], [.st .PartitionClause, .rel]⟩
  | .parseAlterTableAttachPartition => ⟨[.rel, .st .AlterTableAttachPartition, .rel, .st .PartitionClause, .rel, .exact, .st .TableIdentifier, .rel], [.st .AlterTableAttachPartition, .rel]⟩
  | .parseAlterTableDropClause => ⟨[.rel, .exact, .exact, .rel, .st .NestedIdentifier], [.rel, .rel]⟩
  | .tryParseAfterClause => ⟨[.exact, .st .NestedIdentifier, .rel], [.st .NestedIdentifier, .rel]⟩
  | .parseAlterTableDropPartition => ⟨[.rel, .exact, .rel, .rel, .st .PartitionClause, .rel, .rel, .st .SettingsClause], [.st .AlterTableDropPartition, .rel]⟩
  | .parseAlterTableFreezePartition => ⟨[.rel, .rel, .st .AlterTableFreezePartition, .st .PartitionClause, .rel], [.st .AlterTableFreezePartition, .rel]⟩
  | .parseAlterTableRemoveTTL => ⟨[.rel, .rel, .rel], [.st .AlterTableRemoveTTL, .rel]⟩
  | .parseAlterTableClear => ⟨[.rel, .rel, .rel, .rel], [.rel, .rel]⟩
  | .parseAlterTableClearClause => ⟨[.rel, .exact, .exact, .rel, .st .NestedIdentifier, .rel, .st .PartitionClause, .exact], [.rel, .rel]⟩
  | .parseAlterTableRenameColumn => ⟨[.rel, .rel, .rel, .exact, .rel, .st .NestedIdentifier, .st .NestedIdentifier], [.st .AlterTableRenameColumn, .rel]⟩
  | .parseAlterTableModify => ⟨[.rel, .rel, .st .AlterTableModifyColumn, .rel, .rel, .rel, .rel, .rel, .st .TTLClause, .st .SelectQuery, .rel, .rel, .rel, .rel, .rel, .rel, .rel], [.rel, .rel]⟩
  | .parseAlterTableModifyColumn => ⟨[.rel, .rel, .exact, .rel, .st .ColumnDef, .st .AlterTableModifyColumn, .st .RemovePropertyType], [.st .AlterTableModifyColumn, .rel]⟩
  | .tryParseRemovePropertyTypeExpr => ⟨[.rel, .rel, .st .PropertyType, .rel], [.st .RemovePropertyType, .rel]⟩
  | .parseAlterTableReplacePartition => ⟨[.rel, .rel, .st .PartitionClause, .rel, .st .TableIdentifier], [.st .AlterTableReplacePartition, .rel]⟩
  | .parseAlterTableMaterialize => ⟨[.rel, .rel, .exact, .exact, .rel, .st .NestedIdentifier, .rel, .st .PartitionClause, .exact], [.rel, .rel]⟩
  | .parseAlterTableReset => ⟨[.rel, .rel, .rel, .ls .Ident, .st .Ident, .rel, .tok, .rel], [.st .AlterTableResetSetting, .rel]⟩
  | .parseAlterTableDelete => ⟨[.rel, .rel, .rel, .rel, .rel], [.st .AlterTableDelete, .rel]⟩
  | .parseAlterTableUpdate => ⟨[.rel, .rel, .rel, .st .UpdateAssignment, .rel, .tok, .st .PartitionClause, .exact, .rel, .rel], [.st .AlterTableUpdate, .rel]⟩
  | .parseUpdateAssignment => ⟨[.rel, .st .NestedIdentifier, .rel, .rel, .rel], [.st .UpdateAssignment, .rel]⟩
  | .parseDropDatabase => ⟨[.rel, .rel, .exact, .rel, .st .Ident, .rel, .st .ClusterClause, .exact], [.st .DropDatabase, .rel]⟩
  | .parseDropStmt => ⟨[.rel, .exact, .exact, .exact, .exact, .rel, .exact, .rel, .st .TableIdentifier, .st .ClusterClause, .exact], [.st .DropStmt, .rel]⟩
  | .tryParseModifier => ⟨[.exact, .exact, .rel], [.exact, .rel]⟩
  | .parseCreateMaterializedView => ⟨[.rel, .rel, .rel, .st .CreateMaterializedView, .rel, .exact, .rel, .st .TableIdentifier, .st .ClusterClause, .st .RefreshExpr, .exact, .st .IntervalExpr, .rel, .exact, .ls .TableIdentifier, .st .TableIdentifier, .rel, .st .TableIdentifier, .rel, .st .SettingsClause, .exact, .st .DestinationClause, .rel, .st .TableSchemaClause, .rel, .st .TableSchemaClause, .rel, .st .EngineExpr, .st .EngineExpr, .rel, .exact, .exact, .rel, .st .Ident, .rel, .exact, .exact, .st .StringLiteral, .exact, .st .SubQuery, .rel], [.st .CreateMaterializedView, .rel]⟩
  | .tryParseRefreshExpr => ⟨[.rel, .exact, .st .RefreshExpr, .st .IntervalExpr, .rel, .exact, .st .IntervalExpr, .rel], [.st .RefreshExpr, .rel]⟩
  | .parseCreateView => ⟨[.rel, .exact, .st .CreateView, .rel, .rel, .exact, .rel, .st .TableIdentifier, .st .UUID, .st .ClusterClause, .st .TableSchemaClause, .rel, .st .StringLiteral, .exact, .st .SubQuery, .rel], [.st .CreateView, .rel]⟩
  | .parseCreateLiveView => ⟨[.rel, .rel, .rel, .st .CreateLiveView, .rel, .exact, .rel, .st .TableIdentifier, .st .UUID, .st .ClusterClause, .st .WithTimeoutClause, .st .DestinationClause, .rel, .st .TableSchemaClause, .rel, .exact, .st .SubQuery, .rel], [.st .CreateLiveView, .rel]⟩
  | .tryParseWithTimeout => ⟨[.rel, .exact, .rel, .st .WithTimeoutClause, .st .NumberLiteral, .rel], [.st .WithTimeoutClause, .rel]⟩

end Verif

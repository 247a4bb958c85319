/-
All methods together: the tokens a `SELECT` statement is read from are those of its formatted text, up to the rewritings in `Reads`.
No definition here is part of the model.
-/
import Verif.Echo.Expr
import Verif.Echo.Infix
import Verif.Echo.Infix2
import Verif.Echo.Join
import Verif.Echo.Select
import Verif.Echo.Select2
import Verif.Echo.Select3
import Verif.Echo.Select4
import Verif.Echo.Types
import Verif.Echo.Window

namespace Verif.Echo
open Verif.Spec Verif.Echo.Sym

theorem calls : ∀ n, Call n
  | 0 => fun f args l m i rs l' m' i' _ h => by simp [runFn] at h
  | n + 1 => by
    have ih := calls n
    intro f args l m i rs l' m' i' hl hr
    cases f
    all_goals first
      | trivial
      | skip
    case ParseNestedIdentifier => exact m_ParseNestedIdentifier n ih args l m i rs l' m' i' hl hr
    case canParseWindowNameInParens => exact m_canParseWindowNameInParens n ih args l m i rs l' m' i' hl hr
    case getNextPrecedence => exact m_getNextPrecedence n ih args l m i rs l' m' i' hl hr
    case isSelectItemTerminatorKeyword => exact m_isSelectItemTerminatorKeyword n ih args l m i rs l' m' i' hl hr
    case keywordIsSelectItemIdentifier => exact m_keywordIsSelectItemIdentifier n ih args l m i rs l' m' i' hl hr
    case matchClauseStarterKeyword => exact m_matchClauseStarterKeyword n ih args l m i rs l' m' i' hl hr
    case parseAnyKeyword => exact m_parseAnyKeyword n ih args l m i rs l' m' i' hl hr
    case parseArrayParams => exact m_parseArrayParams n ih args l m i rs l' m' i' hl hr
    case parseBetweenClause => exact m_parseBetweenClause n ih args l m i rs l' m' i' hl hr
    case parseCTEStmt => exact m_parseCTEStmt n ih args l m i rs l' m' i' hl hr
    case parseColumnArgList => exact m_parseColumnArgList n ih args l m i rs l' m' i' hl hr
    case parseColumnCaseExpr => exact m_parseColumnCaseExpr n ih args l m i rs l' m' i' hl hr
    case parseColumnCastExpr => exact m_parseColumnCastExpr n ih args l m i rs l' m' i' hl hr
    case parseColumnExpr => exact m_parseColumnExpr n ih args l m i rs l' m' i' hl hr
    case parseColumnExprList => exact m_parseColumnExprList n ih args l m i rs l' m' i' hl hr
    case parseColumnExprListWithLParen => exact m_parseColumnExprListWithLParen n ih args l m i rs l' m' i' hl hr
    case parseColumnExprListWithSquareBracket => exact m_parseColumnExprListWithSquareBracket n ih args l m i rs l' m' i' hl hr
    case parseColumnExprListWithTerm => exact m_parseColumnExprListWithTerm n ih args l m i rs l' m' i' hl hr
    case parseColumnExtractExpr => exact m_parseColumnExtractExpr n ih args l m i rs l' m' i' hl hr
    case parseColumnStar => exact m_parseColumnStar n ih args l m i rs l' m' i' hl hr
    case parseColumnType => exact m_parseColumnType n ih args l m i rs l' m' i' hl hr
    case parseColumnTypeArgs => exact m_parseColumnTypeArgs n ih args l m i rs l' m' i' hl hr
    case parseColumnTypeWithParams => exact m_parseColumnTypeWithParams n ih args l m i rs l' m' i' hl hr
    case parseColumnsExpr => exact m_parseColumnsExpr n ih args l m i rs l' m' i' hl hr
    case parseComplexType => exact m_parseComplexType n ih args l m i rs l' m' i' hl hr
    case parseDecimal => exact m_parseDecimal n ih args l m i rs l' m' i' hl hr
    case parseDistinctOn => exact m_parseDistinctOn n ih args l m i rs l' m' i' hl hr
    case parseEnumType => exact m_parseEnumType n ih args l m i rs l' m' i' hl hr
    case parseEnumValueExpr => exact m_parseEnumValueExpr n ih args l m i rs l' m' i' hl hr
    case parseExpr => exact m_parseExpr n ih args l m i rs l' m' i' hl hr
    case parseExtractFrom => exact m_parseExtractFrom n ih args l m i rs l' m' i' hl hr
    case parseFillClause => exact m_parseFillClause n ih args l m i rs l' m' i' hl hr
    case parseFormat => exact m_parseFormat n ih args l m i rs l' m' i' hl hr
    case parseFrameCurrentRow => exact m_parseFrameCurrentRow n ih args l m i rs l' m' i' hl hr
    case parseFrameDirection => exact m_parseFrameDirection n ih args l m i rs l' m' i' hl hr
    case parseFrameDirectionWithEnd => exact m_parseFrameDirectionWithEnd n ih args l m i rs l' m' i' hl hr
    case parseFrameExtent => exact m_parseFrameExtent n ih args l m i rs l' m' i' hl hr
    case parseFrameInterval => exact m_parseFrameInterval n ih args l m i rs l' m' i' hl hr
    case parseFrameNumber => exact m_parseFrameNumber n ih args l m i rs l' m' i' hl hr
    case parseFrameParam => exact m_parseFrameParam n ih args l m i rs l' m' i' hl hr
    case parseFrameUnbounded => exact m_parseFrameUnbounded n ih args l m i rs l' m' i' hl hr
    case parseFromClause => exact m_parseFromClause n ih args l m i rs l' m' i' hl hr
    case parseFunctionExpr => exact m_parseFunctionExpr n ih args l m i rs l' m' i' hl hr
    case parseFunctionParams => exact m_parseFunctionParams n ih args l m i rs l' m' i' hl hr
    case parseGroupByClause => exact m_parseGroupByClause n ih args l m i rs l' m' i' hl hr
    case parseHavingClause => exact m_parseHavingClause n ih args l m i rs l' m' i' hl hr
    case parseIdent => exact m_parseIdent n ih args l m i rs l' m' i' hl hr
    case parseIdentOrFunction => exact m_parseIdentOrFunction n ih args l m i rs l' m' i' hl hr
    case parseIdentOrStar => exact m_parseIdentOrStar n ih args l m i rs l' m' i' hl hr
    case parseIdentOrString => exact m_parseIdentOrString n ih args l m i rs l' m' i' hl hr
    case parseInfix => exact m_parseInfix n ih args l m i rs l' m' i' hl hr
    case parseInfixLoop => exact m_parseInfixLoop n ih args l m i rs l' m' i' hl hr
    case parseInterpolateClause => exact m_parseInterpolateClause n ih args l m i rs l' m' i' hl hr
    case parseInterval => exact m_parseInterval n ih args l m i rs l' m' i' hl hr
    case parseJSONOption => exact m_parseJSONOption n ih args l m i rs l' m' i' hl hr
    case parseJSONPath => exact m_parseJSONPath n ih args l m i rs l' m' i' hl hr
    case parseJSONType => exact m_parseJSONType n ih args l m i rs l' m' i' hl hr
    case parseJoinExpr => exact m_parseJoinExpr n ih args l m i rs l' m' i' hl hr
    case parseJoinModifiers => exact m_parseJoinModifiers n ih args l m i rs l' m' i' hl hr
    case parseJoinRightExpr => exact m_parseJoinRightExpr n ih args l m i rs l' m' i' hl hr
    case parseJoinTableExpr => exact m_parseJoinTableExpr n ih args l m i rs l' m' i' hl hr
    case parseJoinType => exact m_parseJoinType n ih args l m i rs l' m' i' hl hr
    case parseKeywordArgFunctionParams => exact m_parseKeywordArgFunctionParams n ih args l m i rs l' m' i' hl hr
    case parseKeywordArgItem => exact m_parseKeywordArgItem n ih args l m i rs l' m' i' hl hr
    case parseKeywordArgModifier => exact m_parseKeywordArgModifier n ih args l m i rs l' m' i' hl hr
    case parseLimitByClause => exact m_parseLimitByClause n ih args l m i rs l' m' i' hl hr
    case parseLimitClause => exact m_parseLimitClause n ih args l m i rs l' m' i' hl hr
    case parseLiteral => exact m_parseLiteral n ih args l m i rs l' m' i' hl hr
    case parseMapLiteral => exact m_parseMapLiteral n ih args l m i rs l' m' i' hl hr
    case parseNestedType => exact m_parseNestedType n ih args l m i rs l' m' i' hl hr
    case parseNestedTypeFieldWithName => exact m_parseNestedTypeFieldWithName n ih args l m i rs l' m' i' hl hr
    case parseNestedTypeFields => exact m_parseNestedTypeFields n ih args l m i rs l' m' i' hl hr
    case parseNestedTypeFieldsWithNames => exact m_parseNestedTypeFieldsWithNames n ih args l m i rs l' m' i' hl hr
    case parseNestedTypeFieldsWithoutNames => exact m_parseNestedTypeFieldsWithoutNames n ih args l m i rs l' m' i' hl hr
    case parseNumber => exact m_parseNumber n ih args l m i rs l' m' i' hl hr
    case parseOrderByClause => exact m_parseOrderByClause n ih args l m i rs l' m' i' hl hr
    case parseOrderExpr => exact m_parseOrderExpr n ih args l m i rs l' m' i' hl hr
    case parsePrewhereClause => exact m_parsePrewhereClause n ih args l m i rs l' m' i' hl hr
    case parseQueryParam => exact m_parseQueryParam n ih args l m i rs l' m' i' hl hr
    case parseRatioExpr => exact m_parseRatioExpr n ih args l m i rs l' m' i' hl hr
    case parseSampleClause => exact m_parseSampleClause n ih args l m i rs l' m' i' hl hr
    case parseSelectItem => exact m_parseSelectItem n ih args l m i rs l' m' i' hl hr
    case parseSelectItems => exact m_parseSelectItems n ih args l m i rs l' m' i' hl hr
    case parseSelectQuery => exact m_parseSelectQuery n ih args l m i rs l' m' i' hl hr
    case parseSelectStmt => exact m_parseSelectStmt n ih args l m i rs l' m' i' hl hr
    case parseSettingsClause => exact m_parseSettingsClause n ih args l m i rs l' m' i' hl hr
    case parseSettingsExpr => exact m_parseSettingsExpr n ih args l m i rs l' m' i' hl hr
    case parseSettingsList => exact m_parseSettingsList n ih args l m i rs l' m' i' hl hr
    case parseString => exact m_parseString n ih args l m i rs l' m' i' hl hr
    case parseSubExpr => exact m_parseSubExpr n ih args l m i rs l' m' i' hl hr
    case parseSubQuery => exact m_parseSubQuery n ih args l m i rs l' m' i' hl hr
    case parseTableArgExpr => exact m_parseTableArgExpr n ih args l m i rs l' m' i' hl hr
    case parseTableArgList => exact m_parseTableArgList n ih args l m i rs l' m' i' hl hr
    case parseTableArgPrimaryExpr => exact m_parseTableArgPrimaryExpr n ih args l m i rs l' m' i' hl hr
    case parseTableExpr => exact m_parseTableExpr n ih args l m i rs l' m' i' hl hr
    case parseTableIdentifier => exact m_parseTableIdentifier n ih args l m i rs l' m' i' hl hr
    case parseTernaryExpr => exact m_parseTernaryExpr n ih args l m i rs l' m' i' hl hr
    case parseTopClause => exact m_parseTopClause n ih args l m i rs l' m' i' hl hr
    case parseUnaryExpr => exact m_parseUnaryExpr n ih args l m i rs l' m' i' hl hr
    case parseWhereClause => exact m_parseWhereClause n ih args l m i rs l' m' i' hl hr
    case parseWindowClause => exact m_parseWindowClause n ih args l m i rs l' m' i' hl hr
    case parseWindowCondition => exact m_parseWindowCondition n ih args l m i rs l' m' i' hl hr
    case parseWindowFrameClause => exact m_parseWindowFrameClause n ih args l m i rs l' m' i' hl hr
    case parseWithClause => exact m_parseWithClause n ih args l m i rs l' m' i' hl hr
    case peekIsClauseStarterKeyword => exact m_peekIsClauseStarterKeyword n ih args l m i rs l' m' i' hl hr
    case peekIsEndOfStatement => exact m_peekIsEndOfStatement n ih args l m i rs l' m' i' hl hr
    case peekIsExpressionContinuation => exact m_peekIsExpressionContinuation n ih args l m i rs l' m' i' hl hr
    case peekJoinAfterLocality => exact m_peekJoinAfterLocality n ih args l m i rs l' m' i' hl hr
    case peekKeyword => exact m_peekKeyword n ih args l m i rs l' m' i' hl hr
    case peekTokenKind => exact m_peekTokenKind n ih args l m i rs l' m' i' hl hr
    case tryParseDistinctOn => exact m_tryParseDistinctOn n ih args l m i rs l' m' i' hl hr
    case tryParseDotIdent => exact m_tryParseDotIdent n ih args l m i rs l' m' i' hl hr
    case tryParseDotIdentOrString => exact m_tryParseDotIdentOrString n ih args l m i rs l' m' i' hl hr
    case tryParseFormat => exact m_tryParseFormat n ih args l m i rs l' m' i' hl hr
    case tryParseFromClause => exact m_tryParseFromClause n ih args l m i rs l' m' i' hl hr
    case tryParseGroupByClause => exact m_tryParseGroupByClause n ih args l m i rs l' m' i' hl hr
    case tryParseHavingClause => exact m_tryParseHavingClause n ih args l m i rs l' m' i' hl hr
    case tryParseJoinConstraints => exact m_tryParseJoinConstraints n ih args l m i rs l' m' i' hl hr
    case tryParseLimitAfterLimitByClause => exact m_tryParseLimitAfterLimitByClause n ih args l m i rs l' m' i' hl hr
    case tryParseLimitByClause => exact m_tryParseLimitByClause n ih args l m i rs l' m' i' hl hr
    case tryParseLimitClause => exact m_tryParseLimitClause n ih args l m i rs l' m' i' hl hr
    case tryParseOrderByClause => exact m_tryParseOrderByClause n ih args l m i rs l' m' i' hl hr
    case tryParsePartitionByClause => exact m_tryParsePartitionByClause n ih args l m i rs l' m' i' hl hr
    case tryParsePrewhereClause => exact m_tryParsePrewhereClause n ih args l m i rs l' m' i' hl hr
    case tryParseSampleClause => exact m_tryParseSampleClause n ih args l m i rs l' m' i' hl hr
    case tryParseSettingsClause => exact m_tryParseSettingsClause n ih args l m i rs l' m' i' hl hr
    case tryParseTopClause => exact m_tryParseTopClause n ih args l m i rs l' m' i' hl hr
    case tryParseWhereClause => exact m_tryParseWhereClause n ih args l m i rs l' m' i' hl hr
    case tryParseWindowClause => exact m_tryParseWindowClause n ih args l m i rs l' m' i' hl hr
    case tryParseWindowFrameClause => exact m_tryParseWindowFrameClause n ih args l m i rs l' m' i' hl hr
    case tryParseWithClause => exact m_tryParseWithClause n ih args l m i rs l' m' i' hl hr

end Verif.Echo

/-
What the methods for expressions do with the tokens.  No definition here is part of the model.
-/
import Verif.Echo.Leaf

namespace Verif.Echo
open Verif.Spec Verif.Echo.Sym

set_option linter.unusedTactic false
set_option linter.unreachableTactic false
set_option linter.unusedSimpArgs false

theorem m_getNextPrecedence : Meth .getNextPrecedence := by auto
theorem m_peekTokenKind : Meth .peekTokenKind := by auto
theorem m_peekKeyword : Meth .peekKeyword := by auto
theorem m_peekJoinAfterLocality : Meth .peekJoinAfterLocality := by auto
theorem m_keywordIsSelectItemIdentifier : Meth .keywordIsSelectItemIdentifier := by auto
theorem m_peekIsClauseStarterKeyword : Meth .peekIsClauseStarterKeyword := by auto
theorem m_peekIsEndOfStatement : Meth .peekIsEndOfStatement := by auto
theorem m_peekIsExpressionContinuation : Meth .peekIsExpressionContinuation := by auto
theorem m_parseIdent : Meth .parseIdent := by auto
theorem m_parseAnyKeyword : Meth .parseAnyKeyword := by auto
theorem m_parseIdentOrStar : Meth .parseIdentOrStar := by
  method; enter hr; sym
  all_goals try echo
  rw [str_of_op hl ht3 c2]
  echo
theorem m_parseNumber : Meth .parseNumber := by auto
theorem m_parseDecimal : Meth .parseDecimal := by auto
theorem m_parseString : Meth .parseString := by auto
theorem m_parseExpr : Meth .parseExpr := by auto
theorem m_parseSubExpr : Meth .parseSubExpr := by auto
theorem m_parseUnaryExpr : Meth .parseUnaryExpr := by
  method; enter hr; sym
  all_goals try echo
  · rcases c1 with c1 | c1
    · rw [tokText_op hl ht4 c1]; echo
    · rw [tokText_op hl ht4 c1]; echo
  · rw [tokText_kw ht5 c2]; echo
theorem m_parseTernaryExpr : Meth .parseTernaryExpr := by
  method; enter hr; sym
  ext
theorem array_form {p q v : V} (h : plainNode .ArrayParamList [p, q, v] = true) {us : List E} (he : Echo .n v us) :
    Echo .n (.mk .ArrayParamList [p, q, v]) ([.op b!"["] ++ us ++ [.op b!"]"]) := by
  cases he <;> simp [plainNode] at h
  exact .array ‹_›
theorem m_parseArrayParams : Meth .parseArrayParams := by
  method; enter hr; sym
  refine ⟨by simp, fun hg => ?_⟩
  simp only [V.plain, V.plainL, Bool.and_eq_true] at hg
  openAll
  apply echo_intro
  · apply array_form <;> assumption
  · reads
theorem m_parseFunctionParams : Meth .parseFunctionParams := by auto
theorem m_parseColumnArgList : Meth .parseColumnArgList := by
  method; enter hr; sym
  · loopInv 10 3 4 5 6 => (fun l1 x3 _ _ _ => Items l.advance.advance x3 l1)<;> echo
  · loopInv 10 3 4 5 6 => (fun l1 x3 _ _ _ => Items l.advance x3 l1)<;> echo

theorem m_parseColumnExprListWithTerm : Meth .parseColumnExprListWithTerm := by
  method
  rintro (rfl | rfl | rfl) <;> enter hr <;> sym
  · loopInv 10 4 5 6 7 => (fun l1 x4 _ _ _ => Items l.advance x4 l1) <;> echo
  · loopInv 10 4 5 6 7 => (fun l1 x4 _ _ _ => Items l x4 l1) <;> echo
  · loopInv 10 4 5 6 7 => (fun l1 x4 _ _ _ => Items l.advance x4 l1) <;> echo
  · loopInv 10 4 5 6 7 => (fun l1 x4 _ _ _ => Items l x4 l1) <;> echo
  · loopInv 10 4 5 6 7 => (fun l1 x4 _ _ _ => Items l.advance x4 l1) <;> echo
  · loopInv 10 4 5 6 7 => (fun l1 x4 _ _ _ => Items l x4 l1) <;> echo
theorem m_parseColumnExprListWithLParen : Meth .parseColumnExprListWithLParen := by auto
theorem m_parseColumnExprListWithSquareBracket : Meth .parseColumnExprListWithSquareBracket := by auto
theorem m_parseColumnExprList : Meth .parseColumnExprList := by auto
theorem m_parseColumnsExpr : Meth .parseColumnsExpr := by auto
theorem m_parseColumnStar : Meth .parseColumnStar := by auto
set_option maxHeartbeats 1000000 in
theorem m_parseIdentOrFunction : Meth .parseIdentOrFunction := by
  method; enter hr; sym
  all_goals first
    | echo
    | (loopInv 20 15 16 17 18 => (fun l1 x15 _ _ _ => Dots l x15 l1) <;> echo)

theorem m_parseInfixLoop : Meth .parseInfixLoop := by
  method; enter hr; sym
  loopInv 10 0 2 3 => (fun l1 x0 _ _ => Ext a l x0 l1) <;> echo
theorem m_parseBetweenClause : Meth .parseBetweenClause := by
  method; enter hr; sym
  refine ⟨by simp, fun hg => ?_⟩
  plain hg
  refine ⟨hg.1, fun us0 he0 => ?_⟩
  openAll
  rename_i us1 us2 r1 e1 r2 e2
  refine ⟨[.kw b!"BETWEEN", .sp] ++ us1 ++ [.sp, .kw b!"AND", .sp] ++ us2, by reads, ?_, ?_⟩
  · rintro rfl
    simpa using Echo.between he0 e1 e2
  · rintro rfl
    simpa using Echo.notBetween he0 e1 e2

end Verif.Echo

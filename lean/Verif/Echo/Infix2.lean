/-
What more methods for expressions do with the tokens.  No definition here is part of the model.
-/
import Verif.Echo.Infix

namespace Verif.Echo
open Verif.Spec Verif.Echo.Sym

set_option linter.unusedTactic false
set_option linter.unreachableTactic false
set_option linter.unusedSimpArgs false

set_option maxHeartbeats 1000000 in
theorem m_parseInfix : Meth .parseInfix := by
  method; enter hr; sym
  · simp only [or_assoc] at c1
    rcases c1 with c1 | c1 | c1 | c1 | c1 | c1 | c1 | c1 | c1 | c1 | c1 | c1 | c1 | c1 | c1 | c1 | c1 | c1 | c1 | c1 <;>
    first | (rw [tokText_op hl ht2 c1]; ext) | (rw [tokText_kw ht2 c1]; ext)
  all_goals try first | results | ext
  · refine ⟨by simp, fun hg => ?_⟩
    simp [V.plain, V.plainL, hv9b] at hg
  · refine Ok2.of fun he => ?_
    obtain ⟨h1, h2⟩ := hv5 he
    refine ⟨fun _ => h1, fun hp => ?_⟩
    obtain ⟨h3, h4⟩ := h2 hp
    refine ⟨h3, fun us hu => ?_⟩
    obtain ⟨ws, hr, h5, _⟩ := h4 us hu
    exact ⟨[.sp] ++ ws, .sp hr, by simpa using h5 rfl⟩
  · refine Ok2.of fun he => ?_
    obtain ⟨h1, h2⟩ := hv9 he
    refine ⟨fun _ => h1, fun hp => ?_⟩
    obtain ⟨h3, h4⟩ := h2 hp
    refine ⟨h3, fun us hu => ?_⟩
    obtain ⟨ws, hr, _, h5⟩ := h4 us hu
    exact ⟨[.sp, .kw b!"NOT", .sp] ++ ws, .sp (.kw' c7 (.sp hr)), by simpa using h5 rfl⟩
  · rw [tokText_kw ht10 c9]; ext
  · rw [tokText_kw ht11 c10]; ext
  · rw [tokText_kw ht12 c11]; ext

theorem m_parseColumnExpr : Meth .parseColumnExpr := by auto

theorem val_when {l l1 l2 : Lx} {a b p q r : V} (hw : l.matchKw b!"WHEN" = true) (ha : Val l.advance a l1) (ht : l1.matchKw b!"THEN" = true)
    (hb : Val l1.advance b l2) : Val l (.mk .WhenClause [p, q, a, b, r, .nil]) l2 := by
  refine ⟨by simp, fun hp => ?_⟩
  plain hp
  openAll
  echoNode
theorem m_parseColumnCaseExpr : Meth .parseColumnCaseExpr := by
  method; enter hr; sym
  · loopInv 10 5 6 7 8 9 10 11 => (fun l1 x5 _ _ _ _ _ _ => Pre [.sp] l3 x5 l1)
    all_goals first | echo | exact Pre.item (by assumption) (val_when (by assumption) (by assumption) (by assumption) (by assumption))
  · loopInv 10 5 6 7 8 9 10 11 => (fun l1 x5 _ _ _ _ _ _ => Pre [.sp] l.advance x5 l1)
    all_goals first | echo | exact Pre.item (by assumption) (val_when (by assumption) (by assumption) (by assumption) (by assumption))

theorem m_parseColumnExtractExpr : Meth .parseColumnExtractExpr := by
  method; enter hr; sym
  loopInv 10 3 4 5 6 7 8 9 => (fun l1 x3 _ _ _ _ _ _ => Items l.advance.advance x3 l1)
  all_goals try echo
  all_goals first
    | (rw [c14] at c15; cases c15; done)
    | (have hv := hv12.ext hv18; clear hv12 hv18; echo)
theorem m_parseMapLiteral : Meth .parseMapLiteral := by
  method; enter hr; sym
  loopInv 10 2 3 4 5 6 7 => (fun _ _ _ _ _ _ _ => True)
  all_goals first | trivial | echo

end Verif.Echo

/-
What more methods for expressions do with the tokens.  No definition here is part of the model.
-/
import Verif.Echo.Expr


namespace Verif.Echo
open Verif.Spec Verif.Echo.Sym

set_option linter.unusedTactic false
set_option linter.unreachableTactic false
set_option linter.unusedSimpArgs false

theorem strsIn_mem {ks : List Str} {v : V} (h : strsIn ks v = true) {s : Str} (hs : V.str s ∈ v.items) : s ∈ ks := by
  simp only [strsIn, List.all_eq_true] at h
  simpa using h _ hs

theorem strs_mem {v : V} {ks : List Str} (h : v.strs? = some ks) {k : Str} (hk : k ∈ ks) : V.str k ∈ v.items := by
  unfold V.strs? at h
  revert h hk ks
  induction v.items with
  | nil => intro ks h hk; simp at h; subst h; cases hk
  | cons x xs ih =>
    intro ks h hk
    rw [List.mapM_cons] at h
    simp only [Option.bind_eq_bind, Option.bind_eq_some_iff, Option.pure_def, Option.some.injEq] at h
    obtain ⟨s, h1, ss, h2, rfl⟩ := h
    rcases List.mem_cons.1 hk with rfl | hk
    · cases x <;> simp [V.toStr?] at h1
      subst h1; simp
    · exact List.mem_cons_of_mem _ (ih h2 hk)

theorem form_mod {s : PS} {a : V} {env : List V} (hf : isForm a = true)
    (he : (Exp.matchOneOf (.fld (.var 0) 0)).not.eval s (a :: env) = some (.bool false)) :
    ∃ k ∈ [b!"NOT", b!"BOTH", b!"LEADING", b!"TRAILING"], s.lx.matchKw k = true := by
  unfold isForm at hf
  split at hf
  · rw [Bool.and_eq_true] at hf
    simp only [Exp.eval, List.getElem?_cons_zero, Option.bind_some, V.field, Option.map_eq_some_iff] at he
    rename_i mm _ _ _ _ _
    cases hs : mm.strs? with
    | none => simp [hs] at he
    | some ks =>
      simp [hs, V.toBool?, Lx.matchOneOf] at he
      obtain ⟨k, hk, h3⟩ := he
      exact ⟨k, strsIn_mem hf.1 (strs_mem hs hk), h3⟩
  · cases hf

theorem form_sep {s : PS} {a : V} {env : List V} {e : Exp} (hf : isForm a = true)
    (he : (Exp.matchKw (.idx (.fld (.var 0) 2) e)).eval s (a :: env) = some (.bool true)) :
    ∃ k ∈ kwOps, s.lx.matchKw k = true := by
  unfold isForm at hf
  split at hf
  · rw [Bool.and_eq_true] at hf
    simp only [Exp.eval, List.getElem?_cons_zero, Option.bind_some, V.field, Option.map_eq_some_iff] at he
    rename_i ss _ _ _
    obtain ⟨k, h1, h2⟩ := he
    simp only [List.getElem?_cons_succ, List.getElem?_cons_zero, Option.bind_some, Option.bind_eq_some_iff] at h1
    obtain ⟨x, ⟨n, _, h3⟩, h4⟩ := h1
    cases x <;> simp [V.toStr?] at h4
    subst h4
    exact ⟨_, strsIn_mem hf.2 (List.mem_of_getElem? h3), by simpa using h2⟩
  · cases hf

theorem m_parseKeywordArgModifier : Meth .parseKeywordArgModifier := by
  method; intro hf; enter hr; sym
  all_goals try echo
  obtain ⟨k, hk, hm⟩ := form_mod hf hw2
  simp only [List.mem_cons, List.not_mem_nil, or_false] at hk
  rcases hk with rfl | rfl | rfl | rfl <;> rw [tokText_kw ht7 hm] <;> echo
theorem m_parseKeywordArgItem : Meth .parseKeywordArgItem := by
  method; intro hf; enter hr; sym
  loopInv 10 3 6 7 8 9 10 => (fun l1 x3 _ _ _ _ _ => Val l x3 l1)
  all_goals try echo
  obtain ⟨k, hk, hm⟩ := form_sep hf hw12
  simp only [kwOps, List.mem_cons, List.not_mem_nil, or_false] at hk
  rcases hk with rfl | rfl | rfl | rfl | rfl | rfl | rfl | rfl | rfl <;> rw [tokText_kw ht13 hm] <;> echo
set_option maxHeartbeats 1000000 in
theorem m_parseKeywordArgFunctionParams : Meth .parseKeywordArgFunctionParams := by
  method; intro hf; enter hr; sym
  · loopInv 10 5 6 7 8 9 10 11 12 13 14 => (fun l1 x5 _ _ _ _ _ _ _ _ _ => Items l.advance.advance x5 l1)
    all_goals first | echo | (have hcol := val_alias hv13 (by assumption) (by assumption); echo) | (have hcol := val_column hv13; echo) | trace_state
  · loopInv 10 5 6 7 8 9 10 11 12 13 14 => (fun l1 x5 _ _ _ _ _ _ _ _ _ => Items l.advance x5 l1)
    all_goals first | echo | (have hcol := val_alias hv13 (by assumption) (by assumption); echo) | (have hcol := val_column hv13; echo)

theorem m_parseColumnCastExpr : Meth .parseColumnCastExpr := by auto
theorem m_parseExtractFrom : Meth .parseExtractFrom := by
  method; enter hr; sym
  ext
theorem m_parseInterval : Meth .parseInterval := by auto
theorem m_parseQueryParam : Meth .parseQueryParam := by auto

end Verif.Echo

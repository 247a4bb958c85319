/-
How the parts of the core language begin.  No definition here is part of the model.
-/
import Verif.Complete.Leaf

namespace Verif.Complete
open Verif.Spec

/-- The first token is of one of these kinds or is one of these words. -/
def Begins (os ws : List Str) (ts : List Token) : Prop :=
  ∃ t us, ts = t :: us ∧ (t.kind.toStr ∈ os ∨ (t.kind = .keyword ∧ upper t.str ∈ ws))

theorem Begins.append {os ws : List Str} {ts us : List Token} (h : Begins os ws ts) : Begins os ws (ts ++ us) := by
  obtain ⟨t, xs, rfl, h⟩ := h
  exact ⟨t, xs ++ us, rfl, h⟩
theorem Begins.mono {os ws os' ws' : List Str} {ts : List Token} (h : Begins os ws ts) (hc : (os.all os'.contains && ws.all ws'.contains) = true) : Begins os' ws' ts := by
  simp only [Bool.and_eq_true, List.all_eq_true, List.contains_iff_mem] at hc
  obtain ⟨t, xs, rfl, h | ⟨h1, h2⟩⟩ := h
  · exact ⟨t, xs, rfl, .inl (hc.1 _ h)⟩
  · exact ⟨t, xs, rfl, .inr ⟨h1, hc.2 _ h2⟩⟩
theorem Begins.starts {os ws : List Str} {ts : List Token} {l l' : Lx} (h : Begins os ws ts) (ha : Ahead l ts l') : Starts os ws l ∧ ∃ t, l.cur = some t := by
  obtain ⟨t, xs, rfl, h⟩ := h
  cases ha with
  | cons h1 h2 => exact ⟨.inr ⟨t, h1, h⟩, t, h1⟩

theorem begins_sign {os ws : List Str} {t : Token} {us : List Token} {s : Str} (h : isSign t s) (hc : os.contains s = true) : Begins os ws (t :: us) :=
  ⟨t, us, rfl, .inl (by rw [show t.kind = .op s from h]; simpa [Kind.toStr] using hc)⟩
theorem begins_kind {os ws : List Str} {t : Token} {us : List Token} {κ : Kind} (h : t.kind = κ) (hc : os.contains κ.toStr = true) : Begins os ws (t :: us) :=
  ⟨t, us, rfl, .inl (by rw [h]; simpa using hc)⟩
theorem begins_word {os ws : List Str} {t : Token} {us : List Token} {k : Str} (h : isWord t k) (hc : ws.contains k = true) : Begins os ws (t :: us) :=
  ⟨t, us, rfl, .inr ⟨h.1, by rw [h.2]; simpa using hc⟩⟩

/-- The kinds that an atom begins with. -/
def atomKinds : List Str := [b!"<ident>", b!"<int>", b!"<float>", b!"<string>", b!"*", b!"(", b!"["]
/-- The kinds that an expression begins with. -/
def exprKinds : List Str := [b!"<ident>", b!"<int>", b!"<float>", b!"<string>", b!"*", b!"(", b!"[", b!"+", b!"-"]
/-- The words that an expression begins with. -/
def exprWords : List Str := [b!"NOT", b!"CASE"]
/-- The words that a join begins with. -/
def joinHeads : List Str := [b!"JOIN", b!"CROSS", b!"INNER", b!"LEFT", b!"RIGHT", b!"FULL", b!"ANY", b!"ALL", b!"ASOF", b!"SEMI"]

/-- Whether a part may be empty, and the kinds and words it begins with. -/
def heads : Cat → Bool × List Str × List Str
  | .expr _ => (false, exprKinds, exprWords)
  | .atom => (false, atomKinds, [b!"CASE"])
  | .call => (false, [b!"<ident>"], [])
  | .partition => (true, [], [b!"PARTITION"])
  | .dotted => (false, [b!"<ident>", b!"<keyword>"], [])
  | .arg => (false, exprKinds, exprWords)
  | .args1 => (false, exprKinds, exprWords)
  | .args => (true, exprKinds, exprWords)
  | .distinct => (true, [], [b!"DISTINCT"])
  | .whens => (false, [], [b!"WHEN"])
  | .else_ => (true, [], [b!"ELSE"])
  | .item => (false, exprKinds, exprWords)
  | .items => (false, exprKinds, exprWords)
  | .table => (false, [b!"<ident>", b!"("], [])
  | .aliased => (false, [b!"<ident>", b!"("], [])
  | .final => (true, [], [b!"FINAL"])
  | .ref => (false, [b!"<ident>", b!"("], [])
  | .tables => (false, [b!"<ident>", b!"("], [])
  | .tail => (false, [b!","], joinHeads)
  | .join => (false, [], joinHeads)
  | .joinKind => (false, [], joinHeads)
  | .using_ => (true, [], [b!"USING"])
  | .on => (false, [], [b!"ON", b!"USING"])
  | .from_ => (true, [], [b!"FROM"])
  | .prewhere => (true, [], [b!"PREWHERE"])
  | .where_ => (true, [], [b!"WHERE"])
  | .groupBy => (true, [], [b!"GROUP"])
  | .having => (true, [], [b!"HAVING"])
  | .orderItem => (false, exprKinds, exprWords)
  | .orderItems => (false, exprKinds, exprWords)
  | .orderBy => (true, [], [b!"ORDER"])
  | .limit => (false, [], [b!"LIMIT"])
  | .limits => (true, [], [b!"LIMIT", b!"OFFSET"])
  | .cte => (false, exprKinds, exprWords)
  | .ctes => (false, exprKinds, exprWords)
  | .with_ => (true, [], [b!"WITH"])
  | .setting => (false, [b!"<ident>"], [])
  | .settingItems => (false, [b!"<ident>"], [])
  | .settings => (true, [], [b!"SETTINGS"])
  | .format => (true, [], [b!"FORMAT"])
  | .compound => (true, [], [b!"UNION", b!"EXCEPT", b!"INTERSECT"])
  | .query => (false, [], [b!"SELECT", b!"WITH"])

theorem core_head {c : Cat} {ts : List Token} {v : V} (h : Core c ts v) :
    ((heads c).1 = true ∧ ts = []) ∨ Begins (heads c).2.1 (heads c).2.2 ts := by
  induction h with
  | atom _ ih => exact .inr ((ih.resolve_left (by simp [heads])).mono rfl)
  | sign h _ _ => exact .inr (h.elim (begins_sign · rfl) (begins_sign · rfl))
  | not_ _ h _ _ => exact .inr (begins_word h rfl)
  | infix_ _ _ _ _ ih _ => exact .inr (ih.resolve_left (by simp [heads])).append
  | notInfix _ _ _ _ _ _ ih _ => exact .inr (ih.resolve_left (by simp [heads])).append
  | between _ _ _ _ _ _ ih _ _ => exact .inr (ih.resolve_left (by simp [heads])).append
  | notBetween _ _ _ _ _ _ _ ih _ _ => exact .inr (ih.resolve_left (by simp [heads])).append
  | isNull _ _ _ _ ih => exact .inr (ih.resolve_left (by simp [heads])).append
  | isNotNull _ _ _ _ _ ih => exact .inr (ih.resolve_left (by simp [heads])).append
  | global _ _ _ _ _ ih _ => exact .inr (ih.resolve_left (by simp [heads])).append
  | globalNot _ _ _ _ _ _ ih _ => exact .inr (ih.resolve_left (by simp [heads])).append
  | cast _ _ _ _ _ ih => exact .inr (ih.resolve_left (by simp [heads])).append
  | ternary _ _ _ _ _ ih _ _ => exact .inr (ih.resolve_left (by simp [heads])).append
  | lambda _ _ _ ih _ => exact .inr (ih.resolve_left (by simp [heads])).append
  | name h => exact .inr (begins_kind h (by decide))
  | number h => exact .inr (h.elim (begins_kind · (by decide)) (begins_kind · (by decide)))
  | string h => exact .inr (begins_kind h (by decide))
  | star h => exact .inr (begins_sign h (by decide))
  | path h _ _ _ => exact .inr (begins_kind h (by decide))
  | dotOne h => exact .inr (h.elim (begins_kind · (by decide)) (begins_kind · (by decide)))
  | dotMore h _ _ _ => exact .inr (h.elim (begins_kind · (by decide)) (begins_kind · (by decide)))
  | tableStar h _ _ => exact .inr (begins_kind h (by decide))
  | list h _ _ _ _ _ => exact .inr (begins_sign h (by decide))
  | array h _ _ _ _ _ => exact .inr (begins_sign h (by decide))
  | call h _ _ _ _ _ _ _ => exact .inr (begins_kind h (by decide))
  | called _ ih => exact .inr ((ih.resolve_left (by simp [heads])).mono (by decide))
  | overName _ _ _ ih => exact .inr ((ih.resolve_left (by simp [heads])).mono (by decide)).append
  | overWindow _ _ _ _ _ _ ih _ _ => exact .inr ((ih.resolve_left (by simp [heads])).mono (by decide)).append
  | partitionNo => exact .inl ⟨rfl, rfl⟩
  | partition h _ _ _ => exact .inr (begins_word h (by decide))
  | subquery h _ _ _ _ => exact .inr (begins_sign h (by decide))
  | case_ h _ _ _ _ _ => exact .inr (begins_word h (by decide))
  | caseOf h _ _ _ _ _ _ _ _ => exact .inr (begins_word h (by decide))
  | whenOne h _ _ _ _ _ => exact .inr (begins_word h (by decide))
  | whenMore h _ _ _ _ _ _ _ => exact .inr (begins_word h (by decide))
  | elseNo => exact .inl ⟨rfl, rfl⟩
  | elseYes h _ _ => exact .inr (begins_word h (by decide))
  | arg _ ih => exact .inr (ih.resolve_left (by simp [heads]))
  | argAs _ _ _ ih => exact .inr (ih.resolve_left (by simp [heads])).append
  | argOne _ ih => exact .inr (ih.resolve_left (by simp [heads]))
  | argMore _ _ _ ih _ => exact .inr (ih.resolve_left (by simp [heads])).append
  | argsNo => exact .inl ⟨rfl, rfl⟩
  | args _ ih => exact .inr (ih.resolve_left (by simp [heads]))
  | distinctNo => exact .inl ⟨rfl, rfl⟩
  | distinctYes h => exact .inr (begins_word h (by decide))
  | item _ ih => exact .inr (ih.resolve_left (by simp [heads]))
  | itemAs _ _ _ ih => exact .inr (ih.resolve_left (by simp [heads])).append
  | itemName _ _ ih => exact .inr (ih.resolve_left (by simp [heads])).append
  | itemOne _ ih => exact .inr (ih.resolve_left (by simp [heads]))
  | itemMore _ _ _ ih _ => exact .inr (ih.resolve_left (by simp [heads])).append
  | tableName h => exact .inr (begins_kind h (by decide))
  | tableOf h _ _ => exact .inr (begins_kind h (by decide))
  | tableQuery h _ _ _ => exact .inr (begins_sign h (by decide))
  | bare _ ih => exact .inr (ih.resolve_left (by simp [heads]))
  | aliasAs _ _ _ ih => exact .inr (ih.resolve_left (by simp [heads])).append
  | aliasName _ _ ih => exact .inr (ih.resolve_left (by simp [heads])).append
  | finalNo => exact .inl ⟨rfl, rfl⟩
  | finalYes h => exact .inr (begins_word h (by decide))
  | ref _ _ ih _ => exact .inr (ih.resolve_left (by simp [heads])).append
  | tablesOne _ ih => exact .inr (ih.resolve_left (by simp [heads]))
  | tablesMore _ _ ih _ => exact .inr (ih.resolve_left (by simp [heads])).append
  | tailComma h _ _ => exact .inr (begins_sign h (by decide))
  | tailJoin _ ih => exact .inr ((ih.resolve_left (by simp [heads])).mono (by decide))
  | @joinKind j ms hk hm hj =>
    refine .inr ?_
    cases ms with
    | nil => exact begins_word hj (by decide)
    | cons t ms =>
      refine ⟨t, ms ++ [j], rfl, .inr ⟨hk t (by simp), ?_⟩⟩
      have : ∀ w ∈ joinWords, ∀ k ∈ w.head?, k ∈ joinHeads := by decide
      exact this _ hm _ (by simp)
  | joinEnd _ _ _ ih _ _ => exact .inr (ih.resolve_left (by simp [heads])).append
  | joinMore _ _ _ _ ih _ _ _ => exact .inr (ih.resolve_left (by simp [heads])).append
  | joinOn _ _ _ ih _ _ => exact .inr (ih.resolve_left (by simp [heads])).append
  | joinOnMore _ _ _ _ ih _ _ _ => exact .inr (ih.resolve_left (by simp [heads])).append
  | usingNo => exact .inl ⟨rfl, rfl⟩
  | using_ h _ _ _ _ => exact .inr (begins_word h (by decide))
  | on h _ _ => exact .inr (begins_word h (by decide))
  | usingBare h _ _ _ => exact .inr (begins_word h (by decide))
  | fromNo => exact .inl ⟨rfl, rfl⟩
  | from_ h _ _ => exact .inr (begins_word h (by decide))
  | prewhereNo => exact .inl ⟨rfl, rfl⟩
  | prewhere h _ _ => exact .inr (begins_word h (by decide))
  | whereNo => exact .inl ⟨rfl, rfl⟩
  | where_ h _ _ => exact .inr (begins_word h (by decide))
  | groupByNo => exact .inl ⟨rfl, rfl⟩
  | groupBy h _ _ _ => exact .inr (begins_word h (by decide))
  | havingNo => exact .inl ⟨rfl, rfl⟩
  | having h _ _ => exact .inr (begins_word h (by decide))
  | orderItem _ ih => exact .inr (ih.resolve_left (by simp [heads]))
  | orderAsc _ _ ih => exact .inr (ih.resolve_left (by simp [heads])).append
  | orderDesc _ _ ih => exact .inr (ih.resolve_left (by simp [heads])).append
  | orderOne _ ih => exact .inr (ih.resolve_left (by simp [heads]))
  | orderMore _ _ _ ih _ => exact .inr (ih.resolve_left (by simp [heads])).append
  | orderByNo => exact .inl ⟨rfl, rfl⟩
  | orderBy h _ _ _ => exact .inr (begins_word h (by decide))
  | limit h _ _ => exact .inr (begins_word h (by decide))
  | limitOffset h _ _ _ _ _ => exact .inr (begins_word h (by decide))
  | limitsNo => exact .inl ⟨rfl, rfl⟩
  | limitsOne _ ih => exact .inr ((ih.resolve_left (by simp [heads])).mono (by decide))
  | limitsOffset h _ _ => exact .inr (begins_word h (by decide))
  | limitsBy _ _ _ ih _ => exact .inr ((ih.resolve_left (by simp [heads])).mono (by decide)).append
  | limitsBoth _ _ _ _ ih _ _ => exact .inr ((ih.resolve_left (by simp [heads])).mono (by decide)).append
  | cteQuery _ _ _ _ _ ih _ => exact .inr (ih.resolve_left (by simp [heads])).append
  | cteName _ _ _ ih => exact .inr (ih.resolve_left (by simp [heads])).append
  | cteOne _ ih => exact .inr (ih.resolve_left (by simp [heads]))
  | cteMore _ _ _ ih _ => exact .inr (ih.resolve_left (by simp [heads])).append
  | withNo => exact .inl ⟨rfl, rfl⟩
  | with_ h _ _ => exact .inr (begins_word h (by decide))
  | settingNumber h _ _ => exact .inr (begins_kind h (by decide))
  | settingString h _ _ => exact .inr (begins_kind h (by decide))
  | settingBool h _ _ => exact .inr (begins_kind h (by decide))
  | settingOne _ ih => exact .inr (ih.resolve_left (by simp [heads]))
  | settingMore _ _ _ ih _ => exact .inr (ih.resolve_left (by simp [heads])).append
  | settingsNo => exact .inl ⟨rfl, rfl⟩
  | settings h _ _ => exact .inr (begins_word h (by decide))
  | formatNo => exact .inl ⟨rfl, rfl⟩
  | format h _ => exact .inr (begins_word h (by decide))
  | alone => exact .inl ⟨rfl, rfl⟩
  | unionAll h _ _ _ => exact .inr (begins_word h (by decide))
  | unionDistinct h _ _ _ => exact .inr (begins_word h (by decide))
  | except h _ _ => exact .inr (begins_word h (by decide))
  | intersect h _ _ => exact .inr (begins_word h (by decide))
  | query _ h _ _ _ _ _ _ _ _ _ _ _ _ _ ih =>
    rcases ih with ⟨_, rfl⟩ | ih
    · exact .inr (begins_word h (by decide))
    · exact .inr (ih.mono (by decide)).append

theorem core_begins {c : Cat} {ts : List Token} {v : V} (h : Core c ts v) (hc : (heads c).1 = false) : Begins (heads c).2.1 (heads c).2.2 ts :=
  (core_head h).resolve_left (by simp [hc])

/-- A part that may be empty, and what follows it. -/
theorem core_opens {c : Cat} {ts : List Token} {v : V} {os ws : List Str} {l l' : Lx} (h : Core c ts v) (ha : Ahead l ts l') (hs : Starts os ws l') :
    Starts ((heads c).2.1 ++ os) ((heads c).2.2 ++ ws) l := by
  rcases core_head h with ⟨_, rfl⟩ | h
  · cases ha
    rcases hs with h | ⟨t, ht, h | ⟨h1, h2⟩⟩
    · exact .inl h
    · exact .inr ⟨t, ht, .inl (List.mem_append_right _ h)⟩
    · exact .inr ⟨t, ht, .inr ⟨h1, List.mem_append_right _ h2⟩⟩
  · rcases (h.starts ha).1 with h | ⟨t, ht, h | ⟨h1, h2⟩⟩
    · exact .inl h
    · exact .inr ⟨t, ht, .inl (List.mem_append_left _ h)⟩
    · exact .inr ⟨t, ht, .inr ⟨h1, List.mem_append_left _ h2⟩⟩

end Verif.Complete

/-
The list after `SELECT` on known tokens.  No definition here is part of the model.
-/
import Verif.Complete.Atom

namespace Verif.Complete
open Verif.Spec Verif.Echo Verif.Echo.Sym Verif.Complete.Tac Verif.Group

variable {u v : V} {l l' : Lx} {t : Token} {ts us : List Token} {vs : List V} {b : Bool}

set_option linter.unusedVariables false

/-- The words that begin the parts of a query. -/
def clauseWords : List Str := [b!"FROM", b!"PREWHERE", b!"WHERE", b!"GROUP", b!"HAVING", b!"ORDER", b!"LIMIT", b!"OFFSET", b!"SETTINGS", b!"FORMAT", b!"UNION"]

theorem c_clauseI (ht : l.cur = some t) (hk : t.kind = .ident) : Fw .matchClauseStarterKeyword [] l (Res [.bool false] l) := by
  start; fw []
  exact ⟨rfl, rfl⟩
theorem c_clauseE (hs : Starts exprKinds exprWords l) : Fw .matchClauseStarterKeyword [] l (Res [.bool false] l) := by
  start; fw []
  exact ⟨rfl, rfl⟩
theorem c_termI (ht : l.cur = some t) (hk : t.kind = .ident) : Fw .isSelectItemTerminatorKeyword [] l (Res [.bool false] l) := by
  start; fw [c_itemId0, c_clauseI]
  exact ⟨rfl, rfl⟩
theorem c_termE (hn : NoErr l) (hs : Starts exprKinds exprWords l) : Fw .isSelectItemTerminatorKeyword [] l (Res [.bool false] l) := by
  start; fw [c_itemIdB, c_clauseE]
  all_goals exact ⟨rfl, rfl⟩

/-- The tokens are one of the things selected. -/
def MItem (ts : List Token) (v : V) : Prop :=
  Begins exprKinds exprWords ts ∧ ∀ l l', Ahead l ts l' → NoErr l → Starts [b!",", b!")", b!";"] clauseWords l' → Fw .parseSelectItem [] l (Got v l')

theorem i_item (hb : Begins exprKinds exprWords ts) (h : ME 0 ts v) : MItem ts (N.SelectItem (expr := v) (modifiers := .list [])) := by
  refine ⟨hb, fun l l' ha hn hs => ?_⟩
  have e := expr0 h ha hn (hs.mono (by decide))
  start
  fw []
  refine f_loopL fun L hL => ?_
  apply hL
  fw []
  got
theorem i_itemAs {a t : Token} (hb : Begins exprKinds exprWords ts) (h : ME 0 ts v) (hw : isWord a b!"AS") (ht : isAnyName t) :
    MItem (ts ++ [a, t]) (N.SelectItem (expr := v) (modifiers := .list []) («alias» := name t)) := by
  refine ⟨hb.append, fun l l' ha hn hs => ?_⟩
  obtain ⟨m, h1, h2⟩ := ha.append
  have hm := h1.noErr hn
  have ht1 := h2.cur
  have ht2 := h2.rest.cur
  have e := expr0 h h1 hn (starts_word ht1 hw (by decide))
  have e2 := c_any hm.adv ht2 ht
  cases h2.rest.rest
  obtain ⟨hk, hs⟩ := hw
  start
  fw []
  refine f_loopL fun L hL => ?_
  apply hL
  fw []
  got
theorem i_itemName {t : Token} (hb : Begins exprKinds exprWords ts) (h : ME 0 ts v) (ht : isPlainName t) :
    MItem (ts ++ [t]) (N.SelectItem (expr := v) (modifiers := .list []) («alias» := name t)) := by
  refine ⟨hb.append, fun l l' ha hn hs => ?_⟩
  obtain ⟨m, h1, h2⟩ := ha.append
  have hm := h1.noErr hn
  have ht1 := h2.cur
  unfold isPlainName at ht
  have e := expr0 h h1 hn (.inr ⟨t, ht1, .inl (by rw [ht]; decide)⟩)
  cases h2.rest
  start
  fw []
  refine f_loopL fun L hL => ?_
  apply hL
  fw [c_termI, c_ident]
  got

theorem sep_begins {M : List Token → V → Prop} {os ws : List Str} (hM : ∀ ts v, M ts v → Begins os ws ts) (h : Sep M ts vs) : Begins os ws ts := by
  cases h with
  | one h => exact hM _ _ h
  | more h _ _ => exact (hM _ _ h).append

theorem c_items (h : Sep MItem ts vs) (ha : Ahead l ts l') (hn : NoErr l) (he : Starts [b!")", b!";"] clauseWords l') :
    Fw .parseSelectItems [] l (GotL vs l') := by
  start
  fw []
  refine f_loopL fun L hL => ?_
  have key : ∀ us ws, Sep MItem us ws → ∀ l acc as x y z w m i sv, Ahead l us l' → NoErr l → V.normL id acc = as → as ++ ws = vs →
      L ⟨[.list acc, x, y, z, w], sv⟩ ⟨l, m, i⟩ := by
    intro us ws hs
    induction hs with
    | one hm =>
      intro l acc as x y z w m i sv ha hn hacc hvs
      obtain ⟨hs1, t, ht⟩ := hm.1.starts ha
      have e := hm.2 l l' ha hn (he.mono (by decide))
      apply hL
      fw []
      have hl := normL_snoc hacc (by assumption)
      rw [hvs] at hl
      exact ⟨_, rfl, rfl, hl⟩
    | more hm hc hs ih =>
      intro l acc as x y z w m i sv ha hn hacc hvs
      obtain ⟨m2, h3, h4⟩ := ha.append
      have hm2 := h3.noErr hn
      have htc := h4.cur
      obtain ⟨hs1, t, ht⟩ := hm.1.starts h3
      have e := hm.2 l m2 h3 hn (starts_sign htc hc (by decide))
      have hs2 := ((sep_begins (fun _ _ h => h.1) hs).starts h4.rest).1
      have hsep := hc
      unfold isSign at hc
      apply hL
      fw [c_termE]
      exact ih _ _ _ _ _ _ _ _ _ _ h4.rest hm2.adv (normL_snoc hacc (by assumption)) (by simpa using hvs)
  exact key _ _ h _ _ [] _ _ _ _ _ _ _ ha hn rfl rfl

end Verif.Complete

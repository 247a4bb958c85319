/-
Lists with commas between their elements, on known tokens.  No definition here is part of the model.
-/
import Verif.Complete.Expr

namespace Verif.Complete
open Verif.Spec Verif.Echo Verif.Echo.Sym Verif.Complete.Tac Verif.Group

/-- Elements with commas between them. -/
inductive Sep (M : List Token → V → Prop) : List Token → List V → Prop
  | one {ts : List Token} {v : V} : M ts v → Sep M ts [v]
  | more {c : Token} {ts us : List Token} {v : V} {vs : List V} : M ts v → isSign c b!"," → Sep M us vs → Sep M (ts ++ c :: us) (v :: vs)

/-- The words after an argument. -/
def argWords : List Str := endWords.erase b!"AS"

/-- The tokens are an argument. -/
def MArg (ts : List Token) (v : V) : Prop :=
  Begins exprKinds exprWords ts ∧ ∀ l l', Ahead l ts l' → NoErr l → Starts [b!",", b!")", b!"]", b!";"] argWords l' → ∀ a, Fw .parseColumnsExpr [a] l (Got v l')

/-- The tokens may be the word `DISTINCT`. -/
def MDis (ts : List Token) (b : Bool) : Prop := (b = false ∧ ts = []) ∨ (b = true ∧ ∃ t, ts = [t] ∧ isWord t b!"DISTINCT")

/-- Nothing, or arguments. -/
def MArgs (ts : List Token) (vs : List V) : Prop := (ts = [] ∧ vs = []) ∨ Sep MArg ts vs

variable {p q : Nat} {u v : V} {l l' : Lx} {ts us : List Token} {vs : List V} {b : Bool}

set_option linter.unusedVariables false

theorem normL_append (xs ys : List V) : V.normL id (xs ++ ys) = V.normL id xs ++ V.normL id ys := by
  induction xs with
  | nil => simp [V.normL]
  | cons x xs ih => simp [V.normL, ih]
theorem normL_snoc {xs vs : List V} {w v : V} (h : V.normL id xs = vs) (hw : Is v w) : V.normL id (xs ++ [w]) = vs ++ [v] := by
  rw [normL_append, h]
  simp [V.normL, hw.2]

/-- The token after a place where the tokens lie ahead. -/
theorem Ahead.cur {t : Token} (h : Ahead l (t :: ts) l') : l.cur = some t := by cases h; assumption
theorem Ahead.rest {t : Token} (h : Ahead l (t :: ts) l') : Ahead l.advance ts l' := by cases h; assumption

theorem starts_sign {os ws : List Str} {t : Token} {s : Str} (ht : l.cur = some t) (hk : isSign t s) (hc : os.contains s = true) : Starts os ws l :=
  .inr ⟨t, ht, .inl (by rw [show t.kind = .op s from hk]; simpa [Kind.toStr] using hc)⟩
theorem starts_word {os ws : List Str} {t : Token} {s : Str} (ht : l.cur = some t) (hk : isWord t s) (hc : ws.contains s = true) : Starts os ws l :=
  .inr ⟨t, ht, .inr ⟨hk.1, by rw [hk.2]; simpa using hc⟩⟩

theorem m_arg (hb : Begins exprKinds exprWords ts) (h : ME 0 ts v) : MArg ts (N.ColumnExpr (expr := v)) := by
  refine ⟨hb, fun l l' ha hn hs a => ?_⟩
  have e := expr0 h ha hn (hs.mono (by decide))
  start
  fw []
  got
theorem m_argAs {a t : Token} (hb : Begins exprKinds exprWords ts) (h : ME 0 ts v) (hw : isWord a b!"AS") (ht : isAnyName t) :
    MArg (ts ++ [a, t]) (N.ColumnExpr (expr := v) («alias» := name t)) := by
  refine ⟨hb.append, fun l l' ha hn hs _ => ?_⟩
  obtain ⟨m, h1, h2⟩ := ha.append
  have hm := h1.noErr hn
  have ht1 := h2.cur
  have ht2 := h2.rest.cur
  have e := expr0 h h1 hn (starts_word ht1 hw (by decide))
  have e2 := c_any hm.adv ht2 ht
  cases h2.rest.rest
  obtain ⟨hk, hs⟩ := hw
  start
  fw []
  got

/-- The place of the list. -/
theorem MDis.split {ds : List Token} (hd : MDis ds b) (ha : Ahead l (ds ++ ts) l') (hn : NoErr l) (h : l.matchKw b!"DISTINCT" = false ∨ ds ≠ []) :
    ∃ m, Ahead m ts l' ∧ NoErr m ∧ ((b = false ∧ m = l ∧ l.matchKw b!"DISTINCT" = false) ∨ (b = true ∧ m = l.advance ∧ l.matchKw b!"DISTINCT" = true)) := by
  rcases hd with ⟨rfl, rfl⟩ | ⟨rfl, t, rfl, ht⟩
  · exact ⟨l, ha, hn, .inl ⟨rfl, rfl, h.resolve_right (by simp)⟩⟩
  · exact ⟨_, ha.rest, hn.adv, .inr ⟨rfl, rfl, mw_kw ha.cur ht.1 ht.2 (by decide)⟩⟩

theorem MArgs.head (h : MArgs ts vs) (ha : Ahead l ts l') (hne : ts = [] → l.matchKw b!"DISTINCT" = false) : l.matchKw b!"DISTINCT" = false := by
  rcases h with ⟨rfl, rfl⟩ | h
  · exact hne rfl
  · have : Begins exprKinds exprWords ts := by
      cases h with
      | one h => exact h.1
      | more h _ _ => exact h.1.append
    exact st_kw (this.starts ha).1 (by decide)

theorem c_list {ds : List Token} {term : Str} (hterm : term = b!"" ∨ term = b!")" ∨ term = b!"]") (hd : MDis ds b) (h : MArgs ts vs) (ha : Ahead l (ds ++ ts) l') (hn : NoErr l)
    (he : Starts [b!")", b!"]", b!";"] argWords l') (hne : ts = [] → (∃ t, l'.cur = some t ∧ t.kind = .op term) ∧ term ≠ b!"") (a : V) :
    Fw .parseColumnExprListWithTerm [.str term, a] l (Got (columns b vs) l') := by
  obtain ⟨m, h1, h2, h3⟩ := hd.split ha hn (by
    by_cases hds : ds = []
    · subst hds
      refine .inl (h.head ha ?_)
      rintro rfl
      cases ha
      exact st_kw he (by decide)
    · exact .inr hds)
  clear ha hd hn
  rcases h3 with ⟨rfl, rfl, hx⟩ | ⟨rfl, rfl, hx⟩
  all_goals
    start
    fw []
    refine f_loopL fun L hL => ?_
    rcases h with ⟨rfl, rfl⟩ | h
    · cases h1
      obtain ⟨⟨t, ht, hk⟩, hn0⟩ := hne rfl
      clear he
      rcases hterm with rfl | rfl | rfl
      · exact absurd rfl hn0
      all_goals
        apply hL
        fw []
        got
    · clear hne hx
      first
        | (obtain ⟨b, hb⟩ : ∃ b, b = true := ⟨_, rfl⟩
           rw [← hb])
        | (obtain ⟨b, hb⟩ : ∃ b, b = false := ⟨_, rfl⟩
           rw [← hb])
      have key : ∀ us ws, Sep MArg us ws → ∀ l acc as x y z m i sv, Ahead l us l' → NoErr l → V.normL id acc = as → as ++ ws = vs →
          L ⟨[.str term, a, .mk Ty.ColumnExprList [a, a, .bool b, .nil], .bool b, .list acc, x, y, z], sv⟩ ⟨l, m, i⟩ := by
        subst hb
        intro us ws hs
        induction hs with
        | one hm =>
          intro l acc as x y z m i sv ha hn hacc hvs
          obtain ⟨hs1, t, ht⟩ := hm.1.starts ha
          have e := hm.2 l l' ha hn (he.mono (by decide))
          apply hL
          rcases hterm with rfl | rfl | rfl
          all_goals
            fw []
            all_goals
              have hl := normL_snoc hacc (by assumption)
              rw [hvs] at hl
              got
        | more hm hc hs ih =>
          intro l acc as x y z m i sv ha hn hacc hvs
          obtain ⟨m2, h3, h4⟩ := ha.append
          have hm2 := h3.noErr hn
          have htc := h4.cur
          obtain ⟨hs1, t, ht⟩ := hm.1.starts h3
          have e := hm.2 l m2 h3 hn (starts_sign htc hc (by decide))
          have hsep := hc
          unfold isSign at hc
          apply hL
          rcases hterm with rfl | rfl | rfl
          all_goals
            fw []
            exact ih _ _ _ _ _ _ _ _ _ h4.rest hm2.adv (normL_snoc hacc (by assumption)) (by simpa using hvs)
      exact key _ _ h _ _ [] _ _ _ _ _ _ h1 h2 rfl rfl

end Verif.Complete

/-
Texts of the core language are accepted.  No definition here is part of the model.
-/
import Verif.Complete.Main
import Verif.Relation.Result

namespace Verif.Complete
open Verif.Spec Verif.Echo Verif.Echo.Sym Verif.Complete.Tac Verif.Group

variable {ts us : List Token} {v : V} {vs : List V} {l l' : Lx}

theorem c_format (hs : Starts [b!";"] [] l) (a : V) : Fw .tryParseFormat [a] l (Res [.nil, .nil] l) := by
  start; fw []
  exact ⟨rfl, rfl⟩

theorem MQ.first (h : MQ ts v) (ha : Ahead l ts l') : ∃ t, l.cur = some t ∧ t.kind = .keyword ∧ (upper t.str = b!"SELECT" ∨ upper t.str = b!"WITH") := by
  obtain ⟨⟨t, us, rfl, h | h⟩, _⟩ := h
  · exact absurd h (by simp)
  · exact ⟨t, ha.cur, h.1, by simpa using h.2⟩

theorem c_stmt (h : MQ ts v) (ha : Ahead l ts l') (hn : NoErr l) (hs : Starts [b!";"] [] l') (a : V) : Fw .parseStmt [a] l (Got v l') := by
  have e := h.2.1 l l' ha hn (hs.mono (by decide))
  obtain ⟨t, ht, hk, hu⟩ := h.first ha
  have hs0 := hs
  rcases hu with hu | hu
  all_goals
    rcases hs with hc | ⟨t', ht', hk' | ⟨_, hk'⟩⟩
    · start; fw [c_format]
      exact ⟨_, rfl, rfl, by assumption⟩
    · have hm : l'.matchKinds [b!";"] = true := by
        simp only [List.mem_cons, List.not_mem_nil, or_false] at hk'
        unfold Lx.matchKinds Lx.curKind
        simp only [ht', hk']
        rfl
      start; fw [c_format]
      exact ⟨_, rfl, rfl, by assumption⟩
    · simp at hk'

/-- The tokens that scanning yields lie ahead. -/
theorem ahead_scan {l : Lx} {ts : List Token} (h : Scan l ts true) : ∃ l', Ahead l.advance ts l' ∧ l'.cur = none ∧ l'.isEOF = true := by
  generalize hb : true = b at h
  induction h with
  | eof h1 h2 =>
    have : ∀ {l m : Lx}, l.consume = .ok m → l.advance = m := fun h => by unfold Lx.advance; rw [h]
    refine ⟨_, .nil, by rw [this h1]; exact h2, ?_⟩
    rw [this h1, Lx.isEOF, (consume_ok_shape h1).2.1 h2]
    rfl
  | err => cases hb
  | tok h1 h2 _ ih =>
    have : ∀ {l m : Lx}, l.consume = .ok m → l.advance = m := fun h => by unfold Lx.advance; rw [h]
    obtain ⟨l', i1, i2⟩ := ih hb
    exact ⟨l', .cons (by rw [this h1]; exact h2) (by rw [this h1]; exact i1), i2⟩

theorem eof_none (hn : NoErr l) (h : l.advance.cur = none) : l.advance.isEOF = true := by
  have := (consume_ok_shape hn.consume.1).2.1 h
  unfold Lx.isEOF
  rw [this]
  rfl

theorem eof_last (h : l.isEOF = true) (ha : Ahead l.advance ts l') : ts = [] := by
  cases ha with
  | nil => rfl
  | cons h1 _ => rw [advance_eof h] at h1; cases h1

theorem queries_end (h : Queries [] vs) : vs = [] := by
  generalize hb : ([] : List Token) = ts at h
  cases h with
  | none => rfl
  | semi => cases hb
  | last h =>
    cases h
    simp at hb
  | more => simp at hb

theorem query_two (h : Core .query ts v) : ∃ t t' us, ts = t :: t' :: us := by
  cases h with
  | query h0 h1 hd hi =>
    obtain ⟨t, us, rfl, _⟩ := core_begins hi rfl
    generalize hx : _ ++ _ :: (_ ++ (t :: us ++ _)) = xs
    match xs with
    | [] => simp at hx
    | [x] =>
      have := congrArg List.length hx
      simp at this
      omega
    | _ :: _ :: _ => exact ⟨_, _, _, rfl⟩

theorem c_text {l l' : Lx} (h : Queries ts vs) (ha : Ahead l.advance ts l') (hn : NoErr l) (he : l'.cur = none) (hl : l'.isEOF = true) :
    Fw .ParseStmts [] l (fun rs _ => ∃ w, rs = [w, .nil] ∧ V.normL id w.items = vs) := by
  start; fw []
  refine f_loopL fun L hL => ?_
  have key : ∀ {ts : List Token} {ws : List V}, Queries ts ws → ∀ (l sv : Lx) (acc x1 x2 x3 x4 x5 : V) (m : List Nat) (i : Str), Ahead l.advance ts l' → NoErr l →
      V.normL id acc.items ++ ws = vs → L ⟨[acc, x1, x2, x3, x4, x5], sv⟩ ⟨l, m, i⟩ := by
    intro ts ws h
    induction h with
    | none =>
      intro l sv acc x1 x2 x3 x4 x5 m i ha hn hv
      have hz : l.advance.isEOF = true := eof_none hn (by cases ha; exact he)
      apply hL
      fw []
      exact ⟨_, rfl, by simpa using hv⟩
    | semi hs h' ih =>
      intro l sv acc x1 x2 x3 x4 x5 m i ha hn hv
      have ht := ha.cur
      unfold isSign at hs
      apply hL
      fw []
      · cases eof_last c1 ha.rest
        cases queries_end h'
        exact ⟨_, rfl, by simpa using hv⟩
      · exact ih _ _ _ _ _ _ _ _ _ _ ha.rest hn.adv hv
    | last h =>
      intro l sv acc x1 x2 x3 x4 x5 m i ha hn hv
      have hq : MQ _ _ := meaning h
      have e := c_stmt hq ha hn.adv (.inl he)
      obtain ⟨t, ht, hk, hu⟩ := hq.first ha
      obtain ⟨_, t', _, rfl⟩ := query_two h
      have ht' := ha.rest.cur
      have hn' := ha.noErr hn.adv
      have hz : l'.advance.isEOF = true := eof_none hn' (advance_eof hl)
      apply hL
      fw []
      apply hL
      fw []
      exact ⟨_, rfl, by rw [← hv, V.items, normL_append, show V.normL id [v1] = [_] from congrArg (· :: []) hv1.2]⟩
    | more h hs _ ih =>
      intro l sv acc x1 x2 x3 x4 x5 m i ha hn hv
      have hq : MQ _ _ := meaning h
      obtain ⟨k, a1, a2⟩ := ha.append
      have e := c_stmt hq a1 hn.adv (starts_sign a2.cur hs (by decide))
      obtain ⟨t, ht, hk, hu⟩ := hq.first a1
      obtain ⟨_, t', _, rfl⟩ := query_two h
      have ht' := a1.rest.cur
      apply hL
      fw []
      exact ih _ _ _ _ _ _ _ _ _ _ a2.rest (a1.noErr hn.adv) (by
        rw [← hv, V.items, normL_append, show V.normL id [v1] = [_] from congrArg (· :: []) hv1.2, List.append_assoc]
        rfl)
  exact key h _ _ _ _ _ _ _ _ _ _ ha hn rfl

end Verif.Complete

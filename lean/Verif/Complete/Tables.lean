/-
`FROM` on known tokens.  No definition here is part of the model.
-/
import Verif.Complete.Clauses

namespace Verif.Complete
open Verif.Spec Verif.Echo Verif.Echo.Sym Verif.Complete.Tac Verif.Group

variable {u v w x : V} {l l' : Lx} {t k : Token} {ts us : List Token} {vs : List V} {b : Bool}

set_option linter.unusedVariables false

/-- The words that may follow `FROM` and its tables. -/
def fromFol : List Str := [b!"PREWHERE", b!"WHERE", b!"GROUP", b!"HAVING", b!"ORDER", b!"LIMIT", b!"OFFSET"] ++ lastWords

/-! ### Tables -/

/-- The name as the parser builds it. -/
def nameX (t : Token) : V := .mk Ty.Ident [.str t.str, .nat t.quote, .nat t.pos, .nat t.endp]

theorem c_anyX (hn : NoErr l) (ht : l.cur = some t) (hk : t.kind = .keyword) : Fw .parseAnyKeyword [] l (Res [nameX t, .nil] l.advance) := by
  start; fw []
  exact ⟨rfl, rfl⟩
theorem c_orString (ht : l.cur = some t) (hk : t.kind = .ident) : Fw .parseIdentOrString [] l (Res [nameX t, .nil] l.advance) := by
  start; fw [c_identX]
  exact ⟨rfl, rfl⟩
theorem c_dot {d : Token} (hn : NoErr l) (hd : l.cur = some d) (hdk : isSign d b!".") (ht : l.advance.cur = some t) (hk : isAnyName t) (a : V) :
    Fw .tryParseDotIdentOrString [a] l (Res [nameX t, .nil] l.advance.advance) := by
  unfold isSign at hdk
  rcases hk with hk | hk
  all_goals
    start; fw [c_orString, c_anyX]
    exact ⟨rfl, rfl⟩
theorem c_dotNo (h : l.matchKinds [b!"."] = false) (a : V) : Fw .tryParseDotIdentOrString [a] l (Res [.nil, .nil] l) := by
  start; fw []
  exact ⟨rfl, rfl⟩
theorem c_tabId (hn : NoErr l) (ht : l.cur = some t) (hk : t.kind = .ident) (h : l.advance.matchKinds [b!"."] = false) (a : V) :
    Fw .parseTableIdentifier [a] l (Res [.mk .TableIdentifier [.nil, nameX t], .nil] l.advance) := by
  start; fw [c_orString, c_dotNo]
  exact ⟨rfl, rfl⟩
theorem c_tabOf {d p : Token} (hn : NoErr l) (hd : l.cur = some d) (hdk : d.kind = .ident) (hp : l.advance.cur = some p) (hpk : isSign p b!".")
    (ht : l.advance.advance.cur = some t) (hk : isAnyName t) (a : V) :
    Fw .parseTableIdentifier [a] l (Res [.mk .TableIdentifier [nameX d, nameX t], .nil] l.advance.advance.advance) := by
  have hx : (nameX t).nonNil = true := rfl
  start; fw [c_orString, c_dot]
  exact ⟨rfl, rfl⟩

/-- The tokens are a table without alias. -/
inductive MTab : List Token → V → Prop
  | name {t : Token} : isPlainName t → MTab [t] (N.TableIdentifier (table := name t))
  | of {d p t : Token} : isPlainName d → isSign p b!"." → isAnyName t → MTab [d, p, t] (N.TableIdentifier (database := name d) (table := name t))
  | query {o c : Token} {ts : List Token} {v : V} : isSign o b!"(" → MQ ts v → isSign c b!")" → MTab (o :: (ts ++ [c])) (N.SubQuery (hasParen := true) (select := v))

/-- The words after a table. -/
def refWords : List Str := joinHeads ++ ([b!"ON", b!"USING"] ++ fromFol)

/-- The tokens are a table. -/
def MRef (ts : List Token) (v : V) : Prop :=
  Begins [b!"<ident>", b!"("] [] ts ∧ ∀ l l', Ahead l ts l' → NoErr l → Starts [b!",", b!")", b!";"] refWords l' → ∀ a, Fw .parseJoinTableExpr [a] l (Got v l')

theorem MTab.begins (h : MTab ts v) : Begins [b!"<ident>", b!"("] [] ts := by
  cases h with
  | name h => exact begins_kind h (by decide)
  | of h _ _ => exact begins_kind h (by decide)
  | query h _ _ => exact begins_sign h (by decide)

theorem m_ref (hb : Begins [b!"<ident>", b!"("] [] ts)
    (h : ∀ l l', Ahead l ts l' → NoErr l → Starts [b!",", b!")", b!";"] refWords l' → ∀ a, Fw .parseTableExpr [a] l (Got v l')) : MRef ts (N.JoinTableExpr (table := v)) := by
  refine ⟨hb, fun l l' ha hn hs a => ?_⟩
  have e := h l l' ha hn hs
  have hm : (l.matchKinds [b!"<ident>"] || l.matchKinds [b!"<string>"] || l.matchKinds [b!"("]) = true := by
    obtain ⟨t, us, rfl, h | ⟨_, h⟩⟩ := hb
    · have ht := ha.cur
      by_cases hk : t.kind.toStr = b!"("
      · rw [mk_some (ks := [b!"("]) (b := true) ht rfl (by rw [hk]; decide)]; simp
      · have hk : t.kind.toStr = b!"<ident>" := by
          simp only [List.mem_cons, List.not_mem_nil, or_false] at h
          exact h.resolve_right hk
        rw [mk_some (ks := [b!"<ident>"]) (b := true) ht rfl (by rw [hk]; decide)]; simp
    · cases h
  have e2 : ∀ a, Fw .tryParseSampleClause [a] l' (Res [.nil, .nil] l') := by
    intro a
    start; fw []
    exact ⟨rfl, rfl⟩
  start; fw []
  got

/-- The tokens are `FINAL`, or nothing. -/
def MFin (us : List Token) (b : Bool) : Prop := (us = [] ∧ b = false) ∨ ∃ t, us = [t] ∧ isWord t b!"FINAL" ∧ b = true
/-- The text goes on with `FINAL`, or not. -/
def Fin (m : Lx) (b : Bool) (l' : Lx) : Prop := (b = false ∧ l' = m ∧ Starts [b!",", b!")", b!";"] refWords m) ∨
  (b = true ∧ l' = m.advance ∧ (m.curKind == b!"<keyword>") = true ∧ ∃ t, m.cur = some t ∧ t.kind = .keyword ∧ upper t.str = b!"FINAL")

/-- The tokens are a table with or without alias. -/
def MAli (ts : List Token) (v : V) : Prop := Begins [b!"<ident>", b!"("] [] ts ∧
  ∀ l m, Ahead l ts m → NoErr l → NoErr m → ∀ b l', Fin m b l' → ∀ a, Fw .parseTableExpr [a] l (Got (N.TableExpr (expr := v) (hasFinal := b)) l')

theorem r_ref (h : MAli ts v) (hf : MFin us b) : MRef (ts ++ us) (N.JoinTableExpr (table := N.TableExpr (expr := v) (hasFinal := b))) := by
  refine m_ref h.1.append fun l l' ha hn hs a => ?_
  obtain ⟨m, a1, a2⟩ := ha.append
  have hm := a1.noErr hn
  refine h.2 _ _ a1 hn hm _ _ ?_ a
  rcases hf with ⟨rfl, rfl⟩ | ⟨t, rfl, hk, rfl⟩
  · cases a2
    exact .inl ⟨rfl, rfl, hs⟩
  · have ht := a2.cur
    cases a2.rest
    exact .inr ⟨rfl, rfl, by simp only [Lx.curKind, ht, hk.1]; decide, t, ht, hk⟩

theorem r_refBare (h : MTab ts v) : MAli ts v := by
  refine ⟨h.begins, fun l m ha hn hm b l' hf a => ?_⟩
  rcases hf with ⟨rfl, rfl, hs⟩ | ⟨rfl, rfl, hfk, t', hft, hfw, hfs⟩
  all_goals cases h with
  | name h =>
    have ht := ha.cur
    cases ha.rest
    unfold isPlainName at h
    start; fw [c_tabId]
    got
  | of h1 h2 h3 =>
    have ht := ha.cur
    have ht2 := ha.rest.cur
    have ht3 := ha.rest.rest.cur
    cases ha.rest.rest.rest
    unfold isPlainName at h1
    start; fw [c_tabOf]
    got
  | query h1 h2 h3 =>
    have e := c_subquery h1 h2 h3 ha hn
    have ht := ha.cur
    unfold isSign at h1
    start; fw []
    generalize V.mk Ty.SubQuery _ = W at *
    got

theorem r_refAs {a t : Token} (h : MTab ts v) (hw : isWord a b!"AS") (hk : isAnyName t) :
    MAli (ts ++ [a, t]) (N.AliasExpr (expr := v) («alias» := name t)) := by
  refine ⟨h.begins.append, fun l m' ha hn hm' b l' hf _ => ?_⟩
  obtain ⟨m, a1, a2⟩ := ha.append
  have hm := a1.noErr hn
  have htt1 := a2.cur
  have htt2 := a2.rest.cur
  have e0 := c_any hm.adv htt2 hk
  cases a2.rest.rest
  obtain ⟨hw, hws⟩ := hw
  rcases hf with ⟨rfl, rfl, hs⟩ | ⟨rfl, rfl, hfk, t', hft, hfw, hfs⟩
  all_goals cases h with
  | name h =>
    have ht := a1.cur
    cases a1.rest
    unfold isPlainName at h
    start; fw [c_tabId]
    got
  | of h1 h2 h3 =>
    have ht := a1.cur
    have ht2 := a1.rest.cur
    have ht3 := a1.rest.rest.cur
    cases a1.rest.rest.rest
    unfold isPlainName at h1
    start; fw [c_tabOf]
    got
  | query h1 h2 h3 =>
    have e := c_subquery h1 h2 h3 a1 hn
    have ht := a1.cur
    unfold isSign at h1
    start; fw []
    generalize V.mk Ty.SubQuery _ = W at *
    got

theorem r_refName {t : Token} (h : MTab ts v) (hk : isPlainName t) :
    MAli (ts ++ [t]) (N.AliasExpr (expr := v) («alias» := name t)) := by
  refine ⟨h.begins.append, fun l m' ha hn hm' b l' hf _ => ?_⟩
  obtain ⟨m, a1, a2⟩ := ha.append
  have hm := a1.noErr hn
  have htt1 := a2.cur
  unfold isPlainName at hk
  have e0 := c_ident htt1 hk
  have hck : (m.curKind == b!"<keyword>") = false := by simp only [Lx.curKind, htt1, hk]; decide
  cases a2.rest
  rcases hf with ⟨rfl, rfl, hs⟩ | ⟨rfl, rfl, hfk, t', hft, hfw, hfs⟩
  all_goals cases h with
  | name h =>
    have ht := a1.cur
    cases a1.rest
    unfold isPlainName at h
    start; fw [c_tabId]
    got
  | of h1 h2 h3 =>
    have ht := a1.cur
    have ht2 := a1.rest.cur
    have ht3 := a1.rest.rest.cur
    cases a1.rest.rest.rest
    unfold isPlainName at h1
    start; fw [c_tabOf]
    got
  | query h1 h2 h3 =>
    have e := c_subquery h1 h2 h3 a1 hn
    have ht := a1.cur
    unfold isSign at h1
    start; fw []
    generalize V.mk Ty.SubQuery _ = W at *
    got

/-! ### Joins -/

theorem c_typeNo (hs : Starts [b!")", b!";"] fromFol l) (a : V) : Fw .parseJoinType [a] l (Res [.nil] l) := by
  start; fw []
  exact ⟨rfl, rfl⟩
theorem c_modsNo (hs : Starts [b!")", b!";"] fromFol l) (a : V) : Fw .parseJoinModifiers [a] l (Res [.nil, .nil] l) := by
  start; fw [c_typeNo]
  exact ⟨rfl, rfl⟩
theorem c_tailNo (hs : Starts [b!")", b!";"] fromFol l) (a : V) : Fw .parseJoinRightExpr [a] l (GotO .nil l) := by
  start; fw [c_modsNo]
  refine r_iteF rfl ?_
  fw []
  exact ⟨_, rfl, rfl, rfl⟩

theorem c_type0 {j : Token} (h1 : l.cur = some j) (h2 : j.kind = .keyword) (h3 : upper j.str = b!"JOIN") (a : V) : Fw .parseJoinType [a] l (Res [.nil] l) := by
  start; fw []
  exact ⟨rfl, rfl⟩
/-- The word as the parser keeps it. -/
def wordText (w : Str) (t : Token) : Str := if w = b!"CROSS" then b!"CROSS" else t.str
theorem c_type1 {j : Token} {w : Str} (hn : NoErr l) (h1 : l.cur = some t) (h2 : t.kind = .keyword) (h3 : upper t.str = w) (hw : [w] ∈ joinWords)
    (h4 : l.advance.cur = some j) (h5 : j.kind = .keyword) (h6 : upper j.str = b!"JOIN") (a : V) : Fw .parseJoinType [a] l (Res [.list [.str (wordText w t)]] l.advance) := by
  simp only [joinWords, List.mem_cons, List.cons.injEq, List.not_mem_nil, reduceCtorEq, and_false, and_true, or_false, false_or] at hw
  rcases hw with rfl | rfl | rfl | rfl | rfl | rfl | rfl | rfl | rfl
  all_goals
    start; fw []
    exact ⟨rfl, rfl⟩
theorem c_type2 {j t2 : Token} {w w2 : Str} (hn : NoErr l) (h1 : l.cur = some t) (h2 : t.kind = .keyword) (h3 : upper t.str = w)
    (hn2 : NoErr l.advance) (h7 : l.advance.cur = some t2) (h8 : t2.kind = .keyword) (h9 : upper t2.str = w2) (hw : [w, w2] ∈ joinWords)
    (h4 : l.advance.advance.cur = some j) (h5 : j.kind = .keyword) (h6 : upper j.str = b!"JOIN") (a : V) :
    Fw .parseJoinType [a] l (Res [.list [.str (wordText w t), .str (wordText w2 t2)]] l.advance.advance) := by
  simp only [joinWords, List.mem_cons, List.cons.injEq, List.not_mem_nil, reduceCtorEq, and_false, and_true, or_false, false_or] at hw
  rcases hw with ⟨rfl, rfl⟩ | ⟨rfl, rfl⟩ | ⟨rfl, rfl⟩ | ⟨rfl, rfl⟩ | ⟨rfl, rfl⟩ | ⟨rfl, rfl⟩ | ⟨rfl, rfl⟩ | ⟨rfl, rfl⟩ | ⟨rfl, rfl⟩ | ⟨rfl, rfl⟩ | ⟨rfl, rfl⟩ | ⟨rfl, rfl⟩ |
    ⟨rfl, rfl⟩ | ⟨rfl, rfl⟩ | ⟨rfl, rfl⟩ | ⟨rfl, rfl⟩ | ⟨rfl, rfl⟩ | ⟨rfl, rfl⟩ | ⟨rfl, rfl⟩
  all_goals
    start; fw []
    exact ⟨rfl, rfl⟩

/-- The tokens are the words up to `JOIN`. -/
def MKind (ks : List Token) (k : V) : Prop := ∃ (j : Token) (ms : List Token), ks = ms ++ [j] ∧ (∀ t ∈ ms, t.kind = .keyword) ∧ ms.map (fun t => upper t.str) ∈ joinWords ∧
  isWord j b!"JOIN" ∧ k = .list (ms.map joinText ++ [.str b!"JOIN"])

theorem MKind.begins {ks : List Token} {K : V} (h : MKind ks K) : Begins [] joinHeads ks := by
  obtain ⟨j, ms, rfl, hk, hm, hj, rfl⟩ := h
  cases ms with
  | nil => exact begins_word hj (by decide)
  | cons t ms =>
    refine ⟨t, ms ++ [j], rfl, .inr ⟨hk t (by simp), ?_⟩⟩
    have : ∀ w ∈ joinWords, ∀ k ∈ w.head?, k ∈ joinHeads := by decide
    exact this _ hm _ (by simp)

theorem joinText_eq {w : Str} (h : upper t.str = w) : joinText t = .str (wordText w t) := by
  unfold joinText wordText
  rw [h]
theorem word_array {w : Str} (h : upper t.str = w) (hw : w ≠ b!"ARRAY") : wordText w t ≠ b!"ARRAY" := by
  unfold wordText
  split
  · decide
  · intro h'
    rw [h'] at h
    exact hw (by rw [← h]; decide)

theorem c_kind {ks : List Token} {K : V} (h : MKind ks K) (ha : Ahead l ks l') (hn : NoErr l) :
    ∃ m j J xs, l' = m.advance ∧ NoErr m ∧ m.cur = some j ∧ j.kind = .keyword ∧ upper j.str = b!"JOIN" ∧ ((J = .nil ∧ xs = []) ∨ J = .list (xs.map V.str)) ∧
      K = .list (xs.map V.str ++ [.str b!"JOIN"]) ∧ (∀ x ∈ xs, x ≠ b!"ARRAY") ∧ ∀ a, Fw .parseJoinModifiers [a] l (Res [J, .nil] m) := by
  have hst := (h.begins.starts ha).1
  have mods : ∀ J m, (∀ a, Fw .parseJoinType [a] l (Res [J] m)) → ∀ a, Fw .parseJoinModifiers [a] l (Res [J, .nil] m) := by
    intro J m e a
    start; fw []
    exact ⟨rfl, rfl⟩
  obtain ⟨j, ms, rfl, hk, hm, hj, rfl⟩ := h
  have hw : ∀ w ∈ joinWords, ∀ x ∈ w, x ≠ b!"ARRAY" := by decide
  have hlen : ms.length ≤ 2 := by
    have : ∀ w ∈ joinWords, w.length ≤ 2 := by decide
    simpa using this _ hm
  obtain ⟨hj, hjs⟩ := hj
  match ms, hlen with
  | [], _ =>
    have ht := ha.cur
    cases ha.rest
    exact ⟨l, j, .nil, [], rfl, hn, ht, hj, hjs, .inl ⟨rfl, rfl⟩, rfl, by simp, mods _ _ fun a => c_type0 ht hj hjs a⟩
  | [t], _ =>
    have h1 := ha.cur
    have h4 := ha.rest.cur
    cases ha.rest.rest
    refine ⟨l.advance, j, _, [wordText _ t], rfl, hn.adv, h4, hj, hjs, .inr rfl, ?_, ?_, mods _ _ fun a => c_type1 hn h1 (hk t (by simp)) rfl hm h4 hj hjs a⟩
    · simp [joinText_eq (t := t) rfl]
    · simp only [List.mem_singleton, forall_eq]
      exact word_array rfl (hw _ hm _ (by simp))
  | [t, t2], _ =>
    have h1 := ha.cur
    have h2 := ha.rest.cur
    have h4 := ha.rest.rest.cur
    cases ha.rest.rest.rest
    refine ⟨l.advance.advance, j, _, [wordText _ t, wordText _ t2], rfl, hn.adv.adv, h4, hj, hjs, .inr rfl, ?_, ?_,
      mods _ _ fun a => c_type2 hn h1 (hk t (by simp)) rfl hn.adv h2 (hk t2 (by simp)) rfl hm h4 hj hjs a⟩
    · simp [joinText_eq (t := t) rfl, joinText_eq (t := t2) rfl]
    · intro x hx
      simp only [List.mem_cons, List.not_mem_nil, or_false] at hx
      rcases hx with rfl | rfl
      · exact word_array rfl (hw _ hm _ (by simp))
      · exact word_array rfl (hw _ hm _ (by simp))

theorem no_array {xs : List Str} {s : PS} {env : List V} (h : env[4]? = some (.list (xs.map V.str ++ [.str b!"JOIN"]))) (hx : ∀ x ∈ xs, x ≠ b!"ARRAY") :
    (Exp.contains (.var 4) (.str b!"ARRAY")).eval s env = some (.bool false) := by
  have h2 : ∀ ys : List Str, (ys.map V.str).mapM V.toStr? = some ys := by
    intro ys
    induction ys with
    | nil => rfl
    | cons y ys ih => simp [List.mapM_cons, V.toStr?, ih]
  have h3 : (xs.map V.str ++ [V.str b!"JOIN"]) = (xs ++ [b!"JOIN"]).map V.str := by simp
  simp only [Exp.eval, h, Option.bind_some, V.strs?, V.items, h3, h2, V.toStr?, Option.map_some, Option.some.injEq, V.bool.injEq]
  simp only [List.contains_eq_mem, decide_eq_false_iff_not, List.mem_append, List.mem_singleton, not_or]
  exact ⟨fun h' => hx _ h' rfl, by decide⟩

/-- A join, from its parts. -/
theorem c_join {ks : List Token} {K : V} {l1 l2 l3 : Lx} (h : MKind ks K) (ha : Ahead l ks l1) (hn : NoErr l)
    (h1 : ∀ a, Fw .parseJoinTableExpr [a] l1 (Got v l2)) (h2 : ∀ a, Fw .tryParseJoinConstraints [a] l2 (GotO w l3)) (h3 : ∀ a, Fw .parseJoinRightExpr [a] l3 (GotO x l')) (a : V) :
    Fw .parseJoinRightExpr [a] l (Got (N.JoinExpr (left := v) (right := x) (modifiers := K) (constraints := w)) l') := by
  have hst := (h.begins.starts ha).1
  obtain ⟨m, j, J, xs, rfl, hm, g1, g2, g3, g4, rfl, g5, g6⟩ := c_kind h ha hn
  have hl : V.normL id (xs.map V.str ++ [.str b!"JOIN"]) = xs.map V.str ++ [.str b!"JOIN"] := by
    have : ∀ ys : List Str, V.normL id (ys.map V.str) = ys.map V.str := by
      intro ys
      induction ys with
      | nil => rfl
      | cons y ys ih => simp [V.normL, V.norm, ih]
    rw [normL_append, this]
    rfl
  rcases g4 with ⟨rfl, rfl⟩ | rfl
  · start; fw []
    refine r_iteF rfl ?_
    fw []
    refine r_iteF (no_array (xs := []) rfl g5) ?_
    fw []
    got
  · start; fw []
    refine r_iteF (no_array (xs := xs) rfl g5) ?_
    fw []
    got

/-- A part that may be missing, and what follows it. -/
theorem opens {os ws os' ws' : List Str} (h : ts = [] ∨ Begins os ws ts) (ha : Ahead l ts l') (hs : Starts os' ws' l') : Starts (os ++ os') (ws ++ ws') l := by
  rcases h with rfl | h
  · cases ha
    rcases hs with h | ⟨t, ht, h | ⟨h1, h2⟩⟩
    · exact .inl h
    · exact .inr ⟨t, ht, .inl (List.mem_append_right _ h)⟩
    · exact .inr ⟨t, ht, .inr ⟨h1, List.mem_append_right _ h2⟩⟩
  · rcases (h.starts ha).1 with h | ⟨t, ht, h | ⟨h1, h2⟩⟩
    · exact .inl h
    · exact .inr ⟨t, ht, .inl (List.mem_append_left _ h)⟩
    · exact .inr ⟨t, ht, .inr ⟨h1, List.mem_append_left _ h2⟩⟩

/-- The tokens are `USING`, or nothing. -/
def MUsing (ts : List Token) (v : V) : Prop := (ts = [] ∨ Begins [] [b!"USING"] ts) ∧
  ∀ l l', Ahead l ts l' → NoErr l → Starts [b!",", b!")", b!";"] (joinHeads ++ fromFol) l' → ∀ a, Fw .tryParseJoinConstraints [a] l (GotO v l')
/-- The tokens are `ON` and a list, or `USING` and a list without parentheses. -/
def MOn (ts : List Token) (v : V) : Prop := Begins [] [b!"ON", b!"USING"] ts ∧
  ∀ l l', Ahead l ts l' → NoErr l → Starts [b!")", b!";"] (joinHeads ++ fromFol) l' → ∀ a, Fw .tryParseJoinConstraints [a] l (GotO v l')

theorem u_no : MUsing [] .nil := by
  refine ⟨.inl rfl, fun l l' ha hn hs a => ?_⟩
  cases ha
  start; fw []
  exact ⟨_, rfl, rfl, rfl⟩
theorem u_using {k o c : Token} (hk : isWord k b!"USING") (ho : isSign o b!"(") (h : Sep MArg ts vs) (hc : isSign c b!")") :
    MUsing (k :: o :: (ts ++ [c])) (N.UsingClause (using_ := columns false vs)) := by
  refine ⟨.inr (begins_word hk (by decide)), fun l l' ha hn hs a => ?_⟩
  have ht1 := ha.cur
  have ht2 := ha.rest.cur
  obtain ⟨m, h1, h2⟩ := ha.rest.rest.append
  have hm := h1.noErr hn.adv.adv
  have ht3 := h2.cur
  have e := c_listLP h h1 hn.adv.adv (starts_sign ht3 hc (by decide))
  cases h2.rest
  obtain ⟨hk, hks⟩ := hk
  unfold isSign at ho hc
  start; fw []
  exact Got.opt (by got)
theorem u_on {k : Token} (hk : isWord k b!"ON") (h : Sep MArg ts vs) : MOn (k :: ts) (N.OnClause (on := columns false vs)) := by
  refine ⟨begins_word hk (by decide), fun l l' ha hn hs a => ?_⟩
  have ht1 := ha.cur
  have e := c_list (b := false) (ds := []) (.inl rfl) (.inl ⟨rfl, rfl⟩) (.inr h) ha.rest hn.adv (hs.mono (by decide)) (by
    rintro rfl
    obtain ⟨_, _, h, _⟩ := sep_begins (fun _ _ h => h.1) h
    cases h)
  have e : ∀ a, Fw .parseColumnExprList [a] l.advance (Got (columns false vs) l') := by
    intro a
    start; fw []
    exact ⟨_, rfl, rfl, by assumption⟩
  obtain ⟨hk, hks⟩ := hk
  start; fw []
  exact Got.opt (by got)
theorem u_bare {k : Token} (hk : isWord k b!"USING") (hp : ∀ t ∈ ts.head?, ¬ isSign t b!"(") (h : Sep MArg ts vs) : MOn (k :: ts) (N.UsingClause (using_ := columns false vs)) := by
  refine ⟨begins_word hk (by decide), fun l l' ha hn hs a => ?_⟩
  have ht1 := ha.cur
  have hb := sep_begins (fun _ _ h => h.1) h
  have e := c_list (b := false) (term := b!")") (ds := []) (.inr (.inl rfl)) (.inl ⟨rfl, rfl⟩) (.inr h) ha.rest hn.adv (hs.mono (by decide)) (by
    rintro rfl
    obtain ⟨_, _, h, _⟩ := hb
    cases h)
  have e : ∀ a, Fw .parseColumnExprListWithLParen [a] l.advance (Got (columns false vs) l') := by
    intro a
    start; fw []
    exact ⟨_, rfl, rfl, by assumption⟩
  obtain ⟨t, us, rfl, _⟩ := hb
  have ht2 := ha.rest.cur
  have hp := hp t rfl
  have hp : l.advance.matchKinds [b!"("] = false := by
    unfold isSign at hp
    unfold Lx.matchKinds Lx.curKind
    rw [ht2]
    cases hkd : t.kind <;> simp_all [Kind.toStr]
  obtain ⟨hk, hks⟩ := hk
  start; fw []
  exact Got.opt (by got)

/-- The tokens are what follows a table. -/
def MTail (ts : List Token) (v : V) : Prop := Begins [b!","] joinHeads ts ∧
  ∀ l l', Ahead l ts l' → NoErr l → Starts [b!")", b!";"] fromFol l' → ∀ a, Fw .parseJoinRightExpr [a] l (Got v l')
/-- The tokens are a join. -/
def MJoin (ts : List Token) (v : V) : Prop := Begins [] joinHeads ts ∧
  ∀ l l', Ahead l ts l' → NoErr l → Starts [b!")", b!";"] fromFol l' → ∀ a, Fw .parseJoinRightExpr [a] l (Got v l')
/-- The tokens are tables. -/
def MTables (ts : List Token) (v : V) : Prop :=
  ∀ l l', Ahead l ts l' → NoErr l → Starts [b!")", b!";"] fromFol l' → ∀ a, Fw .parseJoinExpr [a] l (Got v l')

theorem MJoin.tail (h : MJoin ts v) : MTail ts v := ⟨h.1.mono (by decide), h.2⟩

theorem t_one (h : MRef ts v) : MTables ts v := by
  intro l l' ha hn hs a
  have e := h.2 l l' ha hn (hs.mono (by decide))
  have e2 : ∀ a, Fw .parseJoinRightExpr [a] l' (Res [.nil, .nil] l') := by
    intro a
    refine (c_tailNo hs a).mono ?_
    rintro rs m ⟨w, rfl, rfl, hw⟩
    cases w <;> simp [V.norm] at hw
    exact ⟨rfl, rfl⟩
  start; fw []
  exact ⟨_, rfl, rfl, by assumption⟩
theorem t_more (h : MRef ts v) (h' : MTail us w) : MTables (ts ++ us) (N.JoinExpr (left := v) (right := w)) := by
  intro l l' ha hn hs a
  obtain ⟨m, a1, a2⟩ := ha.append
  have hm := a1.noErr hn
  have e := h.2 l m a1 hn ((h'.1.starts a2).1.mono (by decide))
  have e2 := h'.2 m l' a2 hm hs
  start; fw []
  got
theorem t_comma {c : Token} (hc : isSign c b!",") (h : MTables ts v) : MTail (c :: ts) v := by
  refine ⟨begins_sign hc (by decide), fun l l' ha hn hs a => ?_⟩
  have ht := ha.cur
  have e := h _ l' ha.rest hn.adv hs
  unfold isSign at hc
  start; fw []
  exact ⟨_, rfl, rfl, by assumption⟩

theorem j_end {ks : List Token} {K : V} (hk : MKind ks K) (h : MRef ts v) (hu : MUsing us w) :
    MJoin (ks ++ (ts ++ us)) (N.JoinExpr (left := v) (modifiers := K) (constraints := w)) := by
  refine ⟨hk.begins.append, fun l l' ha hn hs a => ?_⟩
  obtain ⟨m1, a1, a2⟩ := ha.append
  obtain ⟨m2, a3, a4⟩ := a2.append
  have n1 := a1.noErr hn
  have n2 := a3.noErr n1
  exact c_join hk a1 hn (h.2 _ _ a3 n1 ((opens hu.1 a4 hs).mono (by decide))) (hu.2 _ _ a4 n2 (hs.mono (by decide))) (c_tailNo hs) a
theorem j_more {ks xs : List Token} {K : V} (hk : MKind ks K) (h : MRef ts v) (hu : MUsing us w) (hx : MTail xs x) :
    MJoin (ks ++ (ts ++ (us ++ xs))) (N.JoinExpr (left := v) (right := x) (modifiers := K) (constraints := w)) := by
  refine ⟨hk.begins.append, fun l l' ha hn hs a => ?_⟩
  obtain ⟨m1, a1, a2⟩ := ha.append
  obtain ⟨m2, a3, a4⟩ := a2.append
  obtain ⟨m3, a5, a6⟩ := a4.append
  have n1 := a1.noErr hn
  have n2 := a3.noErr n1
  have n3 := a5.noErr n2
  have s3 := (hx.1.starts a6).1
  exact c_join hk a1 hn (h.2 _ _ a3 n1 ((opens hu.1 a5 s3).mono (by decide))) (hu.2 _ _ a5 n2 (s3.mono (by decide)))
    (fun a => (hx.2 _ _ a6 n3 hs a).mono fun _ _ => Got.opt) a
theorem j_on {ks : List Token} {K : V} (hk : MKind ks K) (h : MRef ts v) (hu : MOn us w) :
    MJoin (ks ++ (ts ++ us)) (N.JoinExpr (left := v) (modifiers := K) (constraints := w)) := by
  refine ⟨hk.begins.append, fun l l' ha hn hs a => ?_⟩
  obtain ⟨m1, a1, a2⟩ := ha.append
  obtain ⟨m2, a3, a4⟩ := a2.append
  have n1 := a1.noErr hn
  have n2 := a3.noErr n1
  exact c_join hk a1 hn (h.2 _ _ a3 n1 ((hu.1.starts a4).1.mono (by decide))) (hu.2 _ _ a4 n2 (hs.mono (by decide))) (c_tailNo hs) a
theorem j_onMore {ks xs : List Token} {K : V} (hk : MKind ks K) (h : MRef ts v) (hu : MOn us w) (hx : MJoin xs x) :
    MJoin (ks ++ (ts ++ (us ++ xs))) (N.JoinExpr (left := v) (right := x) (modifiers := K) (constraints := w)) := by
  refine ⟨hk.begins.append, fun l l' ha hn hs a => ?_⟩
  obtain ⟨m1, a1, a2⟩ := ha.append
  obtain ⟨m2, a3, a4⟩ := a2.append
  obtain ⟨m3, a5, a6⟩ := a4.append
  have n1 := a1.noErr hn
  have n2 := a3.noErr n1
  have n3 := a5.noErr n2
  have s3 := (hx.1.starts a6).1
  exact c_join hk a1 hn (h.2 _ _ a3 n1 ((hu.1.starts a5).1.mono (by decide))) (hu.2 _ _ a5 n2 (s3.mono (by decide)))
    (fun a => (hx.2 _ _ a6 n3 hs a).mono fun _ _ => Got.opt) a

theorem f_no : MCl .tryParseFromClause fromFol [] .nil := by
  intro l l' ha hn hs a
  cases ha
  start; fw []
  exact ⟨_, rfl, rfl, rfl⟩
theorem f_yes (hk : isWord k b!"FROM") (h : MTables ts v) : MCl .tryParseFromClause fromFol (k :: ts) (N.FromClause (expr := v)) := by
  intro l l' ha hn hs a
  have ht := ha.cur
  have e := h _ l' ha.rest hn.adv hs
  obtain ⟨hk, hks⟩ := hk
  have e : ∀ a, Fw .parseFromClause [a] l (Got (N.FromClause (expr := v)) l') := by
    intro a
    start; fw []
    got
  start; fw []
  exact ⟨_, rfl, rfl, (by assumption : Is _ _).2⟩

end Verif.Complete

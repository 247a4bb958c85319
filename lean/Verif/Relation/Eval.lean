/-
Two runs of the parser: the evaluation of expressions and the primitive steps on the lexer.
-/
import Verif.Relation.Values

namespace Verif

variable {R : Str → Str → Prop} {S : Lx → Lx → Prop}

/-! ### The lexer -/

/-- The two runs are in corresponding states. -/
structure SRel (S : Lx → Lx → Prop) (s s' : PS) : Prop where
  lx : S s.lx s'.lx
  memo : s.memo = []
  memo' : s'.memo = []

theorem tokV_sim (hR : Spelling R) {t u : Option Token} (h : Option.Rel (Token.Sim R) t u) : RTy.holds R .tok (tokV t) (tokV u) := by
  cases h with
  | none => exact ⟨.nil, Or.inl rfl, by intro k h; cases h⟩
  | @some t u h =>
    obtain ⟨h1, h2, h3, h4, h5⟩ := h
    refine ⟨.mk ?_, Or.inr rfl, ?_⟩
    · refine .cons (.nat _ _) trivial (.cons (.nat _ _) trivial (.cons ?_ ?_ (.cons (.str h2) trivial
        (.cons (.nat _ _) ?_ (.cons (.nat _ _) ?_ .nil)))))
      · rw [h1]; exact .str (hR.refl _)
      · show V.str _ = V.str _; rw [h1]
      · show V.nat _ = V.nat _; rw [h4]
      · show V.nat _ = V.nat _; rw [h5]
    · intro k hk hne
      have hk : t.kind.toStr = k := by
        have : some (V.str t.kind.toStr) = some (V.str k) := hk
        simpa using this
      have : t.kind ≠ .keyword := by intro e; rw [e] at hk; exact hne hk.symm
      show some (V.str _) = some (V.str _)
      rw [h3 this]

namespace Bisim
variable (hR : Spelling R) (hS : Bisim R S) {l m : Lx} (h : S l m)
include hS h

theorem curKind : l.curKind = m.curKind := by
  have := hS.cur h
  simp only [Lx.curKind]
  revert this
  cases l.cur <;> cases m.cur <;> intro h <;> cases h <;> simp_all [Token.Sim]

include hR

theorem curString : R l.curString m.curString := by
  have := hS.cur h
  simp only [Lx.curString]
  revert this
  cases l.cur <;> cases m.cur <;> intro h <;> cases h
  · exact hR.refl _
  · rename_i h; exact h.2.1

theorem curUpper : upper l.curString = upper m.curString := hR.upper (hS.curString hR h)

theorem matchKinds (ks : List Str) : l.matchKinds ks = m.matchKinds ks := by
  simp only [Lx.matchKinds, hS.curKind h, hS.curUpper hR h]

theorem matchKw (k : Str) : l.matchKw k = m.matchKw k := by
  simp only [Lx.matchKw, equalFold, hS.matchKinds hR h, hS.curUpper hR h]

theorem matchOneOf (ks : List Str) : l.matchOneOf ks = m.matchOneOf ks := by
  simp only [Lx.matchOneOf]
  congr 1
  funext k
  exact hS.matchKw hR h k

omit hR in
theorem advance : S l.advance m.advance := by
  have := hS.step h
  simp only [Lx.advance]
  revert this
  cases l.consume <;> cases m.consume <;> intro h <;> first | exact h | cases h

theorem tryKind (k : Str) : RTy.holds R .tok (l.tryKind k).1 (m.tryKind k).1 ∧ S (l.tryKind k).2 (m.tryKind k).2 := by
  simp only [Lx.tryKind, hS.matchKinds hR h]
  split
  · exact ⟨tokV_sim hR (hS.cur h), hS.advance h⟩
  · exact ⟨⟨.nil, Or.inl rfl, by intro k h; cases h⟩, h⟩

omit h in
theorem takeKws : ∀ (ks : List Str) {l m : Lx}, S l m → ORel False S (l.takeKws ks) (m.takeKws ks)
  | [], _, _, h => h
  | k :: ks, l, m, h => by
    simp only [Lx.takeKws, hS.matchKw hR h]
    split
    · exact takeKws ks (hS.advance h)
    · trivial

theorem tryKws (ks : List Str) : (l.tryKws ks).1 = (m.tryKws ks).1 ∧ S (l.tryKws ks).2 (m.tryKws ks).2 := by
  have := hS.takeKws hR ks h
  simp only [Lx.tryKws]
  revert this
  cases l.takeKws ks <;> cases m.takeKws ks <;> intro h'
  · exact ⟨rfl, h⟩
  · cases h'
  · cases h'
  · exact ⟨rfl, h'⟩

end Bisim

/-! ### Variables -/

/-- The variables of the two runs. -/
inductive EnvRel (R : Str → Str → Prop) : List RTy → List V → List V → Prop
  | nil : EnvRel R [] [] []
  | cons {τ : RTy} {v w : V} {Γ : List RTy} {e e' : List V} : τ.holds R v w → EnvRel R Γ e e' → EnvRel R (τ :: Γ) (v :: e) (w :: e')

theorem EnvRel.get {Γ : List RTy} {e e' : List V} (h : EnvRel R Γ e e') : ∀ {i : Nat} {τ : RTy}, Γ[i]? = some τ →
    ∃ v w, e[i]? = some v ∧ e'[i]? = some w ∧ τ.holds R v w := by
  induction h with
  | nil => intro i τ h; simp at h
  | cons hv _ ih =>
    intro i τ h
    cases i with
    | zero => simp at h; subst h; exact ⟨_, _, rfl, rfl, hv⟩
    | succ i => simp at h; simpa using ih h

theorem EnvRel.length {Γ : List RTy} {e e' : List V} (h : EnvRel R Γ e e') : e.length = Γ.length ∧ e'.length = Γ.length := by
  induction h with
  | nil => exact ⟨rfl, rfl⟩
  | cons _ _ ih => simp [ih]

theorem EnvRel.set {Γ : List RTy} {e e' : List V} (h : EnvRel R Γ e e') : ∀ {i : Nat} {v w : V},
    (∀ τ, Γ[i]? = some τ → τ.holds R v w) → EnvRel R Γ (e.set i v) (e'.set i w) := by
  induction h with
  | nil => intro i v w _; exact .nil
  | cons hv h ih =>
    intro i v w hs
    cases i with
    | zero => exact .cons (hs _ rfl) h
    | succ i => exact .cons hv (ih (fun τ ht => hs τ (by simpa using ht)))

/-! ### Expressions -/

theorem foldAny {R : Str → Str → Prop} (hR : Spelling R) {xs ys : List Str} (h : List.Forall₂ R xs ys) (p q : Str) (hpq : upper p = upper q) :
    xs.any (equalFold · p) = ys.any (equalFold · q) := by
  induction h with
  | nil => rfl
  | cons h _ ih => rw [List.any_cons, List.any_cons, ih]; simp only [equalFold, hR.upper h, hpq]

theorem containsWord {R : Str → Str → Prop} (hR : Spelling R) {xs ys : List Str} (h : List.Forall₂ R xs ys) {w : Str} (hw : w ∈ exactWords) :
    xs.contains w = ys.contains w := by
  induction h with
  | nil => rfl
  | @cons x y _ _ h _ ih =>
    have : (w == x) = (w == y) := by
      have := hR.word h w hw
      by_cases e : x = w
      · simp [e, this.1 e]
      · have e2 : ¬ y = w := fun e' => e (this.2 e')
        have e3 : ¬ w = x := fun e' => e e'.symm
        have e4 : ¬ w = y := fun e' => e2 e'.symm
        simp [e3, e4]
    simp only [List.contains_cons, ih, this]

theorem sim_boolV (b : Bool) : RTy.holds R .exact (.bool b) (.bool b) := exact_holds (.bool b)

theorem isLit_eq {ws : List Str} {e : Exp} (h : e.isLit ws = true) : ∃ w, e = .str w ∧ w ∈ ws := by
  cases e <;> simp [Exp.isLit] at h
  exact ⟨_, rfl, h⟩

theorem fits_fields {t : Ty} : ∀ {τs : List RTy} {k : Nat} {vs ws : List V}, fitsFields t k τs = true →
    EnvRel R τs vs ws → V.SimF R t k vs ws
  | _, _, _, _, _, .nil => .nil
  | _, k, _, _, h, .cons hv hs => by
    simp only [fitsFields, Bool.and_eq_true] at h
    have := le_holds h.1 hv
    exact .cons this.1 this.2 (fits_fields h.2 hs)

theorem exact_all : ∀ {τs : List RTy} {vs ws : List V}, τs.all RTy.isExact = true → EnvRel R τs vs ws → vs = ws
  | _, _, _, _, .nil => rfl
  | _, _, _, h, .cons hv hs => by
    simp only [List.all_cons, Bool.and_eq_true] at h
    rw [isExact_eq h.1 hv, exact_all h.2 hs]

section
variable {p : Prop} {Γ : List RTy} {env env' : List V} {s s' : PS}

/-- The two values of an expression, or panics. -/
abbrev EvalRel (R : Str → Str → Prop) (p : Prop) (τ : RTy) (a b : Option V) : Prop := ORel p (τ.holds R) a b

theorem str_step {τ : RTy} {a b : Option V} (h : EvalRel R p τ a b) : ORel p R (a.bind V.toStr?) (b.bind V.toStr?) :=
  h.bind (fun _ _ h => (sim_str h.1).mono False.elim (fun _ _ h => h))

theorem bool_step {τ : RTy} {a b : Option V} (h : EvalRel R p τ a b) : ORel p Eq (a.bind V.toBool?) (b.bind V.toBool?) :=
  h.bind (fun _ _ h => by rw [sim_bool h.1]; exact ORel.refl _)

theorem nat_step {τ : RTy} {a b : Option V} (h : EvalRel R p τ a b) : ORel p (fun x y => τ.isExact = true → x = y) (a.bind V.toNat?) (b.bind V.toNat?) :=
  h.bind (fun v w h => by
    by_cases e : τ.isExact = true
    · rw [isExact_eq e h]
      exact (ORel.refl _).mono id (fun _ _ h _ => h)
    · exact (sim_nat h.1).mono False.elim (fun _ _ _ h => absurd h e))

theorem str_exact {τ : RTy} (hτ : τ.isExact = true) {a b : Option V} (h : EvalRel R p τ a b) :
    ORel p Eq (a.bind V.toStr?) (b.bind V.toStr?) :=
  h.bind (fun v w h => by rw [isExact_eq hτ h]; exact ORel.refl _)

theorem strs_step {τ : RTy} {a b : Option V} (h : EvalRel R p τ a b) : ORel p (List.Forall₂ R) (a.bind V.strs?) (b.bind V.strs?) :=
  h.bind (fun _ _ h => (sim_strs h.1).mono False.elim (fun _ _ h => h))

theorem strs_exact {τ : RTy} (hτ : τ.isExact = true) {a b : Option V} (h : EvalRel R p τ a b) :
    ORel p Eq (a.bind V.strs?) (b.bind V.strs?) :=
  h.bind (fun v w h => by rw [isExact_eq hτ h]; exact ORel.refl _)

theorem eqStr_sim {α β : RTy} {a a' : Option V} {e : Exp} (hx : ((α.isExact && β.isExact) || e.isLit exactWords) = true)
    (hR : Spelling R) (ha : EvalRel R p α a a') (hb : EvalRel R p β (e.eval s env) (e.eval s' env')) :
    EvalRel R p .exact ((a.bind V.toStr?).bind (fun x => ((e.eval s env).bind V.toStr?).map (fun y => .bool (x == y))))
      ((a'.bind V.toStr?).bind (fun x => ((e.eval s' env').bind V.toStr?).map (fun y => .bool (x == y)))) := by
  rw [Bool.or_eq_true] at hx
  rcases hx with hx | hx
  · rw [Bool.and_eq_true] at hx
    exact (str_exact hx.1 ha).bind (fun x y hxy => (str_exact hx.2 hb).map (fun z w hzw => by
      subst hxy hzw; exact sim_boolV _))
  · obtain ⟨w, rfl, hw⟩ := isLit_eq hx
    refine (str_step ha).bind (fun x y hxy => ?_)
    have := hR.word hxy w hw
    have e : (x == w) = (y == w) := by
      by_cases e : x = w
      · simp [e, this.1 e]
      · have e2 : ¬ y = w := fun e' => e (this.2 e')
        simp [e, e2]
    show RTy.holds R .exact (.bool (x == w)) (.bool (y == w))
    rw [e]; exact sim_boolV _

theorem contains_sim {α β : RTy} {a a' : Option V} {e : Exp} (hx : ((α.isExact && β.isExact) || e.isLit exactWords) = true)
    (hR : Spelling R) (ha : EvalRel R p α a a') (hb : EvalRel R p β (e.eval s env) (e.eval s' env')) :
    EvalRel R p .exact ((a.bind V.strs?).bind (fun x => ((e.eval s env).bind V.toStr?).map (fun y => .bool (x.contains y))))
      ((a'.bind V.strs?).bind (fun x => ((e.eval s' env').bind V.toStr?).map (fun y => .bool (x.contains y)))) := by
  rw [Bool.or_eq_true] at hx
  rcases hx with hx | hx
  · rw [Bool.and_eq_true] at hx
    exact (strs_exact hx.1 ha).bind (fun x y hxy => (str_exact hx.2 hb).map (fun z w hzw => by
      subst hxy hzw; exact sim_boolV _))
  · obtain ⟨w, rfl, hw⟩ := isLit_eq hx
    refine (strs_step ha).bind (fun x y hxy => ?_)
    show RTy.holds R .exact (.bool (x.contains w)) (.bool (y.contains w))
    rw [containsWord hR hxy hw]; exact sim_boolV _

theorem token_text {v w : V} (hR : Spelling R) (h : RTy.holds R .tok v w) :
    EvalRel R p .exact
      ((v.field 2).bind (fun k => (v.field 3).bind (fun x => k.toStr?.bind (fun k => x.toStr?.map (fun x =>
        .str (if k == Kind.keyword.toStr then upper x else x))))))
      ((w.field 2).bind (fun k => (w.field 3).bind (fun x => k.toStr?.bind (fun k => x.toStr?.map (fun x =>
        .str (if k == Kind.keyword.toStr then upper x else x)))))) := by
  obtain ⟨hs, ht, hside⟩ := h
  have h2 := sim_field_ty hs ht 2
  have h3 := sim_field_ty hs ht 3
  simp only [TokenSide] at hside
  revert h2 h3 hside
  cases v.field 2 with
  | none =>
    cases w.field 2 with
    | none => intros; trivial
    | some _ => intro _ h; exact h.elim
  | some k =>
    cases w.field 2 with
    | none => intro _ h; exact h.elim
    | some k' =>
      cases v.field 3 with
      | none =>
        cases w.field 3 with
        | none => intros; trivial
        | some _ => intro _ _ h; exact h.elim
      | some x =>
        cases w.field 3 with
        | none => intro _ _ h; exact h.elim
        | some x' =>
          intro hside h2 h3
          have e : k = k' := h2.2
          subst e
          have hx := sim_str h3.1
          simp only [Option.bind_some]
          cases k with
          | str k =>
            simp only [V.toStr?, Option.bind_some]
            by_cases hk : k = Kind.keyword.toStr
            · subst hk
              simp only [beq_self_eq_true, if_true]
              refine (hx.mono False.elim (fun _ _ h => h)).map (fun y z hyz => ?_)
              rw [hR.upper hyz]; exact exact_holds (.str (hR.refl _))
            · have := hside k rfl hk
              simp only [Option.some.injEq] at this
              subst this
              have hk2 : (k == Kind.keyword.toStr) = false := by simpa using hk
              cases x with
              | str x => exact exact_holds (.str (hR.refl _))
              | _ => trivial
          | _ => trivial

end

end Verif

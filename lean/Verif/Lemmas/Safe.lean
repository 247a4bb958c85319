/-
A static check that a body of `FormatSQL` dereferences no nil pointer, and its soundness.
-/
import Verif.Lemmas.Typing
import Verif.Spec.Required
import Verif.Ast.Methods

namespace Verif

/-! ### Conditions -/

/-- One more path is known to have a dynamic type. -/
def Facts.addTy (fa : Facts) (r : Ref) (t : Ty) : Facts := { fa with tys := (r, t) :: fa.tys }

/-- One more path is known not to be nil and not an empty slice. -/
def Facts.addLen (fa : Facts) (r : Ref) : Facts := { fa with len := r :: fa.len }

/-- One more path is known to be unset. -/
def Facts.addNo (fa : Facts) (r : Ref) : Facts := { fa with no := r :: fa.no }

/-- What is known after a condition turned out to be `pos`. -/
def Cond.learn (pos : Bool) : Cond → Facts → Facts
  | .nonNil r, fa => if pos then fa.addNN r else fa.addNo r
  | .lenPos r, fa => if pos then fa.addLen r else fa.addNo r
  | .isTrue r, fa => if pos then fa else fa.addNo r
  | .isTy r t, fa => if pos then fa.addTy r t else fa
  | .not a, fa => a.learn (!pos) fa
  | .and a b, fa => if pos then b.learn true (a.learn true fa) else fa
  | .or a b, fa => if pos then fa else b.learn false (a.learn false fa)
  | _, fa => fa

/-- The type of a path is `τ`. -/
def isOfTy (req : Ty → List Need) (te : List FTy) (fa : Facts) (r : Ref) (τ : FTy) : Bool :=
  match typeOf req te fa r with
  | some (τ', _) => decide (τ' = τ)
  | none => false

/-- A condition that can be evaluated. -/
def Cond.ok (req : Ty → List Need) (te : List FTy) : Cond → Facts → Bool
  | .nonNil r, fa => (typeOf req te fa r).isSome
  | .isTrue r, fa => isOfTy req te fa r .bool
  | .lenPos r, fa => match typeOf req te fa r with
    | some (τ, _) => τ.isSlice || decide (τ = .str)
    | none => false
  | .strEq r _, fa => isOfTy req te fa r .str
  | .natEq r _, fa => isOfTy req te fa r .pos || isOfTy req te fa r .int
  | .isTy r _, fa => (typeOf req te fa r).isSome
  | .not a, fa => a.ok req te fa
  | .and a b, fa => a.ok req te fa && b.ok req te (a.learn true fa)
  | .or a b, fa => a.ok req te fa && b.ok req te (a.learn false fa)
  | _, _ => true

/-- A value of type `τ` (not nil if `k`) can be written by `WriteExpr` with static type `st`. -/
def writeFits (τ : FTy) (k : Bool) : Static → Bool
  | .iface => match τ with
    | .iface _ => true
    | _ => false
  | .ptr t => match τ with
    | .ptr t' => decide (t = t') && k
    | .val t' => decide (t = t')
    | _ => false

/-- A body that dereferences no nil pointer.  With `own`, it may write its receiver. -/
def FCmd.ok (req : Ty → List Need) (own : Bool) : FCmd → List FTy → Facts → Bool
  | .seq a b, te, fa => a.ok req own te fa && b.ok req own te fa
  | .strF r, te, fa => isOfTy req te fa r .str
  | .upperF r, te, fa => isOfTy req te fa r .str
  | .joinF r _, te, fa => isOfTy req te fa r (.slice .str)
  | .expr r st, te, fa => match typeOf req te fa r with
    | some (τ, k) => writeFits τ k st && (own || decide (r ≠ ⟨0, []⟩))
    | none => false
  | .direct r t, te, fa => match typeOf req te fa r with
    | some (τ, k) => writeFits τ k (.ptr t) && (own || decide (r ≠ ⟨0, []⟩))
    | none => false
  | .compactExpr r st, te, fa => match typeOf req te fa r with
    | some (τ, k) => writeFits τ k st && (own || decide (r ≠ ⟨0, []⟩))
    | none => false
  | .joinSQL r, te, fa => match typeOf req te fa r with
    | some (.iface _, k) => k && decide (r ≠ ⟨0, []⟩)
    | _ => false
  | .ite c a b, te, fa => c.ok req te fa && a.ok req own te (c.learn true fa) && b.ok req own te (c.learn false fa)
  | .loop r body, te, fa => match typeOf req te fa r with
    | some (.slice e, _) => fa.below te.length && body.ok req own (te ++ [e]) fa
    | _ => false
  | _, _, _ => true

variable {req : Ty → List Need}

theorem isOfTy_sound {te fa env} (he : EnvOK req te fa env) {r : Ref} {τ : FTy} (h : isOfTy req te fa r τ = true) :
    ∃ w : V, r.get env = some w ∧ w.hasTy req τ = true := by
  unfold isOfTy at h
  split at h
  · rename_i τ' k ht
    simp only [decide_eq_true_eq] at h; subst h
    obtain ⟨w, h1, h2, -⟩ := typeOf_sound he ht
    exact ⟨w, h1, h2⟩
  · simp at h

theorem typeOf_isSome {te fa env} (he : EnvOK req te fa env) {r : Ref} (h : (typeOf req te fa r).isSome = true) :
    ∃ w : V, r.get env = some w := by
  obtain ⟨⟨τ, k⟩, ht⟩ := Option.isSome_iff_exists.1 h
  obtain ⟨w, h1, -⟩ := typeOf_sound he ht
  exact ⟨w, h1⟩

theorem EnvOK.addNo {te fa env} (he : EnvOK req te fa env) {r : Ref} {v : V} (h : r.get env = some v)
    (hn : v.isSet = false) : EnvOK req te (fa.addNo r) env where
  len := he.len
  ty := he.ty
  tys := he.tys
  lens := he.lens
  known := he.known
  unset := by
    intro r' hr' w hw
    rcases List.mem_cons.1 hr' with rfl | hr'
    · rw [h] at hw; simp at hw; subst hw; exact hn
    · exact he.unset r' hr' w hw

theorem EnvOK.addLen {te fa env} (he : EnvOK req te fa env) {r : Ref} {v : V} (h : r.get env = some v)
    (hn : v.filled = true) : EnvOK req te (fa.addLen r) env where
  len := he.len
  ty := he.ty
  tys := he.tys
  unset := he.unset
  known := he.known
  lens := by
    intro r' hr' w hw
    rcases List.mem_cons.1 hr' with rfl | hr'
    · rw [h] at hw; simp at hw; subst hw; exact hn
    · exact he.lens r' hr' w hw

theorem EnvOK.addTy {te fa env} (he : EnvOK req te fa env) {r : Ref} {t : Ty} {v : V} (h : r.get env = some v)
    (hn : v.ty? = some t) : EnvOK req te (fa.addTy r t) env where
  len := he.len
  ty := he.ty
  lens := he.lens
  unset := he.unset
  known := he.known
  tys := by
    intro r' hr' w hw
    rcases List.mem_cons.1 hr' with rfl | hr'
    · rw [h] at hw; simp at hw; subst hw; exact hn
    · exact he.tys r' hr' w hw

theorem toStr_some {v : V} (h : v.hasTy req .str = true) : ∃ s, v = .str s := by
  cases v <;> simp_all [V.hasTy, FTy.admits]

theorem toBool_some {v : V} (h : v.hasTy req .bool = true) : ∃ s, v = .bool s := by
  cases v <;> simp_all [V.hasTy, FTy.admits]

theorem toNat_some {v : V} (h : v.hasTy req .pos = true ∨ v.hasTy req .int = true) : ∃ s, v = .nat s := by
  rcases h with h | h <;> cases v <;> simp_all [V.hasTy, FTy.admits]

/-- A checked condition has a value, and what is learnt from it is true. -/
theorem cond_sound {te env} (ctx : Ctx) (hc : ctx.env = env) : ∀ (c : Cond) {fa}, EnvOK req te fa env →
    c.ok req te fa = true → ∃ b, c.eval ctx = some b ∧ EnvOK req te (c.learn b fa) env
  | .nonNil r, fa, he, h => by
      obtain ⟨w, hw⟩ := typeOf_isSome he h
      refine ⟨w.nonNil, by simp [Cond.eval, hc, hw], ?_⟩
      by_cases hn : w.nonNil = true
      · simp only [Cond.learn, hn, if_true]; exact he.guard hw hn
      · simp only [Cond.learn, hn]
        exact he.addNo hw (by cases w <;> simp_all [V.nonNil, V.isSet])
  | .isTrue r, fa, he, h => by
      obtain ⟨w, hw, ht⟩ := isOfTy_sound he h
      obtain ⟨b, rfl⟩ := toBool_some ht
      refine ⟨b, by simp [Cond.eval, hc, hw, V.toBool?], ?_⟩
      cases b
      · exact he.addNo hw rfl
      · exact he
  | .lenPos r, fa, he, h => by
      simp only [Cond.ok] at h
      split at h
      · rename_i τ k ht
        obtain ⟨w, hw, hty, -⟩ := typeOf_sound he ht
        rw [Bool.or_eq_true] at h
        have : (∃ l, w = .list l) ∨ w = .nil ∨ ∃ s, w = .str s := by
          rcases h with h | h
          · cases τ <;> simp [FTy.isSlice] at h
            cases w <;> simp_all [V.hasTy, FTy.admits]
          · simp at h; subst h
            obtain ⟨s, rfl⟩ := toStr_some hty
            exact Or.inr (Or.inr ⟨s, rfl⟩)
        rcases this with ⟨l, rfl⟩ | rfl | ⟨s, rfl⟩
        · refine ⟨!l.isEmpty, by simp [Cond.eval, hc, hw, V.items], ?_⟩
          cases l with
          | nil => exact he.addNo hw rfl
          | cons a l => exact he.addLen hw rfl
        · exact ⟨false, by simp [Cond.eval, hc, hw, V.items], he.addNo hw rfl⟩
        · refine ⟨!s.isEmpty, by simp [Cond.eval, hc, hw], ?_⟩
          cases s with
          | nil => exact he.addNo hw rfl
          | cons a l => exact he.addLen hw rfl
      · simp at h
  | .strEq r x, fa, he, h => by
      obtain ⟨w, hw, ht⟩ := isOfTy_sound he h
      obtain ⟨b, rfl⟩ := toStr_some ht
      exact ⟨decide (b = x), by simp [Cond.eval, hc, hw, V.toStr?], he⟩
  | .natEq r x, fa, he, h => by
      simp only [Cond.ok, Bool.or_eq_true] at h
      have : ∃ b, r.get env = some (.nat b) := by
        rcases h with h | h
        · obtain ⟨w, hw, ht⟩ := isOfTy_sound he h
          obtain ⟨b, rfl⟩ := toNat_some (Or.inl ht)
          exact ⟨b, hw⟩
        · obtain ⟨w, hw, ht⟩ := isOfTy_sound he h
          obtain ⟨b, rfl⟩ := toNat_some (Or.inr ht)
          exact ⟨b, hw⟩
      obtain ⟨b, hw⟩ := this
      exact ⟨decide (b = x), by simp [Cond.eval, hc, hw, V.toNat?], he⟩
  | .isTy r t, fa, he, h => by
      obtain ⟨w, hw⟩ := typeOf_isSome he h
      refine ⟨decide (w.ty? = some t), by simp [Cond.eval, hc, hw], ?_⟩
      by_cases ht : w.ty? = some t
      · simp only [Cond.learn, ht, decide_true, if_true]; exact he.addTy hw ht
      · simp only [Cond.learn, ht, decide_false]; exact he
  | .idxPos, fa, he, h => ⟨_, rfl, he⟩
  | .idxLast, fa, he, h => ⟨_, rfl, he⟩
  | .beautify, fa, he, h => ⟨_, rfl, he⟩
  | .flag, fa, he, h => ⟨_, rfl, he⟩
  | .not a, fa, he, h => by
      obtain ⟨b, h1, h2⟩ := cond_sound ctx hc a he h
      exact ⟨!b, by simp [Cond.eval, h1], by simpa [Cond.learn] using h2⟩
  | .and a b, fa, he, h => by
      simp only [Cond.ok, Bool.and_eq_true] at h
      obtain ⟨x, h1, h2⟩ := cond_sound ctx hc a he h.1
      cases x
      · exact ⟨false, by simp [Cond.eval, h1], he⟩
      · obtain ⟨y, h3, h4⟩ := cond_sound ctx hc b h2 h.2
        refine ⟨y, by simp [Cond.eval, h1, h3], ?_⟩
        cases y
        · exact he
        · exact h4
  | .or a b, fa, he, h => by
      simp only [Cond.ok, Bool.and_eq_true] at h
      obtain ⟨x, h1, h2⟩ := cond_sound ctx hc a he h.1
      cases x
      · obtain ⟨y, h3, h4⟩ := cond_sound ctx hc b h2 h.2
        refine ⟨y, by simp [Cond.eval, h1, h3], ?_⟩
        cases y
        · exact h4
        · exact he
      · exact ⟨true, by simp [Cond.eval, h1], he⟩

/-! ### Bodies -/

/-- Depths of the variables: `d` for the receiver, less for the others. -/
def DepthOK (d : Nat) (env : List V) : Prop := ∀ (x : Nat) (v : V), env[x]? = some v → v.depth ≤ d ∧ (x ≠ 0 → v.depth < d)

theorem DepthOK.get {d : Nat} {env : List V} (h : DepthOK d env) {r : Ref} {v : V} (hr : r.get env = some v) :
    v.depth ≤ d ∧ (r ≠ ⟨0, []⟩ → v.depth < d) := by
  simp only [Ref.get, Option.bind_eq_some_iff] at hr
  obtain ⟨u, hu, hv⟩ := hr
  have h1 := h _ u hu
  have h2 := depth_getSels hv
  refine ⟨by omega, ?_⟩
  intro hne
  obtain ⟨x, ss⟩ := r
  by_cases hx : x = 0
  · subst hx
    have : ss ≠ [] := by rintro rfl; exact hne rfl
    have := h2.2 this
    omega
  · have := h1.2 hx
    have := h2.1
    simp only at *
    omega

/-- Which calls succeed: `FormatSQL` of values less deep than `d` (or, with `own`, of depth `d`),
and `writeJoinSQL` of values less deep than `d`. -/
structure CallSafe (req : Ty → List Need) (own : Bool) (d : Nat) (call : Proc → V → Fmt → Option Fmt) : Prop where
  fmt : ∀ (t : Ty) (v : V) (f : Fmt), v.hasTy req (.val t) = true → (v.depth < d ∨ (own = true ∧ v.depth ≤ d)) →
    (call (.fmt t) v f).isSome = true
  join : ∀ (v : V) (f : Fmt) (i : Iface), v.hasTy req (.iface i) = true → v.nonNil = true → v.depth < d → (call .join v f).isSome = true

theorem writeFits_sound {τ : FTy} {k : Bool} {st : Static} (h : writeFits τ k st = true) {v : V}
    (ht : v.hasTy req τ = true) (hk : k = true → v.filled = true) :
    (st = .iface ∧ v = .nil) ∨ ∃ t, st.dispatch v = some t ∧ v.hasTy req (.val t) = true := by
  cases st with
  | iface =>
    simp only [writeFits] at h
    split at h
    · by_cases hn : v.nonNil = true
      · obtain ⟨t, fs, rfl, -, hf⟩ := hasTy_iface ht hn
        exact Or.inr ⟨t, rfl, hasTy_of_structTy (by simp [FTy.admits]) hf⟩
      · exact Or.inl ⟨rfl, by cases v <;> simp_all [V.nonNil]⟩
    · simp at h
  | ptr t =>
    right
    simp only [writeFits] at h
    split at h
    · simp only [Bool.and_eq_true, decide_eq_true_eq] at h
      obtain ⟨rfl, h⟩ := h
      obtain ⟨fs, rfl, hf⟩ := hasTy_ptr ht (filled_nonNil (hk h))
      exact ⟨t, rfl, hasTy_of_structTy (by simp [FTy.admits]) hf⟩
    · simp only [decide_eq_true_eq] at h; subst h
      exact ⟨t, rfl, ht⟩
    · simp at h

theorem mapM_toStr : ∀ {l : List V}, (∀ v ∈ l, v.hasTy req .str = true) → ∃ ss, l.mapM V.toStr? = some ss
  | [], _ => ⟨[], rfl⟩
  | v :: l, h => by
      obtain ⟨s, rfl⟩ := toStr_some (h v (by simp))
      obtain ⟨ss, hss⟩ := mapM_toStr (l := l) (fun w hw => h w (by simp [hw]))
      exact ⟨s :: ss, by simp [List.mapM_cons, V.toStr?, hss]⟩

/-- A checked body runs to its end. -/
theorem fcmd_sound {own : Bool} {d : Nat} {call : Proc → V → Fmt → Option Fmt} (hcall : CallSafe req own d call) :
    ∀ (c : FCmd) {te fa env} (i n : Nat) (s : Fmt × Bool), EnvOK req te fa env → DepthOK d env →
    c.ok req own te fa = true → (c.run call env i n s).isSome = true
  | .skip, te, fa, env, i, n, s, he, hd, h => rfl
  | .seq a b, te, fa, env, i, n, s, he, hd, h => by
      simp only [FCmd.ok, Bool.and_eq_true] at h
      obtain ⟨s', hs⟩ := Option.isSome_iff_exists.1 (fcmd_sound hcall a i n s he hd h.1)
      simp only [FCmd.run, hs, Option.bind_some]
      exact fcmd_sound hcall b i n s' he hd h.2
  | .lit x, te, fa, env, i, n, s, he, hd, h => rfl
  | .strF r, te, fa, env, i, n, s, he, hd, h => by
      obtain ⟨w, hw, ht⟩ := isOfTy_sound he h
      obtain ⟨x, rfl⟩ := toStr_some ht
      simp [FCmd.run, hw, V.toStr?]
  | .upperF r, te, fa, env, i, n, s, he, hd, h => by
      obtain ⟨w, hw, ht⟩ := isOfTy_sound he h
      obtain ⟨x, rfl⟩ := toStr_some ht
      simp [FCmd.run, hw, V.toStr?]
  | .joinF r sep, te, fa, env, i, n, s, he, hd, h => by
      obtain ⟨w, hw, ht⟩ := isOfTy_sound he h
      obtain ⟨ss, hss⟩ := mapM_toStr (fun v hv => (hasTy_slice ht v hv).2)
      simp [FCmd.run, hw, hss]
  | .expr r st, te, fa, env, i, n, (f, b), he, hd, h => by
      simp only [FCmd.ok] at h
      split at h
      · rename_i τ k ht
        simp only [Bool.and_eq_true, Bool.or_eq_true, decide_eq_true_eq] at h
        obtain ⟨w, hw, hty, hk⟩ := typeOf_sound he ht
        have hdep := hd.get hw
        simp only [FCmd.run, hw, Option.bind_some]
        rcases writeFits_sound h.1 hty hk with ⟨rfl, rfl⟩ | ⟨t, h1, h2⟩
        · rfl
        · obtain ⟨fs, rfl, -⟩ := hasTy_val h2
          have := hcall.fmt t _ f h2 (by
            rcases h.2 with hs | hr
            · exact Or.inr ⟨hs, hdep.1⟩
            · exact Or.inl (hdep.2 hr))
          split
          · rename_i heq; simp at heq
          · simp [h1, this]
      · simp at h
  | .direct r t, te, fa, env, i, n, (f, b), he, hd, h => by
      simp only [FCmd.ok] at h
      split at h
      · rename_i τ k ht
        simp only [Bool.and_eq_true, Bool.or_eq_true, decide_eq_true_eq] at h
        obtain ⟨w, hw, hty, hk⟩ := typeOf_sound he ht
        have hdep := hd.get hw
        simp only [FCmd.run, hw, Option.bind_some]
        rcases writeFits_sound h.1 hty hk with ⟨h0, -⟩ | ⟨t', h1, h2⟩
        · simp at h0
        · simp only [Static.dispatch, Option.some.injEq] at h1; subst h1
          have := hcall.fmt t _ f h2 (by
            rcases h.2 with hs | hr
            · exact Or.inr ⟨hs, hdep.1⟩
            · exact Or.inl (hdep.2 hr))
          simp [this]
      · simp at h
  | .compactExpr r st, te, fa, env, i, n, (f, b), he, hd, h => by
      simp only [FCmd.ok] at h
      split at h
      · rename_i τ k ht
        simp only [Bool.and_eq_true, Bool.or_eq_true, decide_eq_true_eq] at h
        obtain ⟨w, hw, hty, hk⟩ := typeOf_sound he ht
        have hdep := hd.get hw
        simp only [FCmd.run, hw, Option.bind_some]
        rcases writeFits_sound h.1 hty hk with ⟨rfl, rfl⟩ | ⟨t, h1, h2⟩
        · rfl
        · obtain ⟨fs, rfl, -⟩ := hasTy_val h2
          have := hcall.fmt t _ {} h2 (by
            rcases h.2 with hs | hr
            · exact Or.inr ⟨hs, hdep.1⟩
            · exact Or.inl (hdep.2 hr))
          split
          · rename_i heq; simp at heq
          · simp [h1, this]
      · simp at h
  | .joinSQL r, te, fa, env, i, n, (f, b), he, hd, h => by
      simp only [FCmd.ok] at h
      split at h
      · rename_i ifc k ht
        simp only [Bool.and_eq_true, decide_eq_true_eq] at h
        obtain ⟨w, hw, hty, hk⟩ := typeOf_sound he ht
        have := hcall.join w f ifc hty (filled_nonNil (hk h.1)) ((hd.get hw).2 h.2)
        simp [FCmd.run, hw, this]
      · simp at h
  | .brk, te, fa, env, i, n, s, he, hd, h => rfl
  | .newline, te, fa, env, i, n, s, he, hd, h => rfl
  | .indent, te, fa, env, i, n, s, he, hd, h => rfl
  | .dedent, te, fa, env, i, n, s, he, hd, h => rfl
  | .setFlag, te, fa, env, i, n, s, he, hd, h => rfl
  | .ite c x y, te, fa, env, i, n, (f, b), he, hd, h => by
      simp only [FCmd.ok, Bool.and_eq_true] at h
      obtain ⟨z, h1, h2⟩ := cond_sound (env := env) { env := env, idx := i, len := n, beautify := f.beautify, flag := b } rfl c he h.1.1
      simp only [FCmd.run, h1, Option.bind_some]
      cases z
      · exact fcmd_sound hcall y i n (f, b) h2 hd h.2
      · exact fcmd_sound hcall x i n (f, b) h2 hd h.1.2
  | .loop r body, te, fa, env, i, n, s, he, hd, h => by
      simp only [FCmd.ok] at h
      split at h
      · rename_i e k ht
        simp only [Bool.and_eq_true] at h
        obtain ⟨w, hw, hty, -⟩ := typeOf_sound he ht
        have hel := hasTy_slice hty
        simp only [FCmd.run, hw, Option.bind_some]
        have hdw := (hd.get hw).1
        have loop : ∀ (l : List V) (j : Nat) (s : Fmt × Bool), (∀ x ∈ l, x ∈ w.items) →
            (loopFmt (fun i item s => body.run call (env ++ [item]) i w.items.length s) j l s).isSome = true := by
          intro l
          induction l with
          | nil => intro j s _; rfl
          | cons x l ih =>
            intro j s hl
            have hx := hl x (by simp)
            have hdx := depth_items hx
            have hd' : DepthOK d (env ++ [x]) := by
              intro y v hy
              rcases Nat.lt_trichotomy y env.length with hlt | heq | hgt
              · rw [List.getElem?_append_left hlt] at hy
                exact hd y v hy
              · subst heq
                simp at hy; subst hy
                omega
              · rw [List.getElem?_eq_none (by simp; omega)] at hy; simp at hy
            obtain ⟨s', hs⟩ := Option.isSome_iff_exists.1
              (fcmd_sound hcall body j w.items.length s (he.push h.1 (hel x hx).2 (hel x hx).1) hd' h.2)
            simp only [loopFmt, hs, Option.bind_some]
            exact ih (j + 1) s' (fun y hy => hl y (by simp [hy]))
        exact loop w.items 0 s (fun x hx => hx)
      · simp at h

/-! ### The whole table -/

/-- Every `FormatSQL` in the table passes the check. -/
theorem formatTable_ok : ∀ t : Ty, (formatBody t).ok required false [.val t] {} = true := by
  intro t; cases t <;> decide +kernel

/-- `writeJoinSQL` passes the check. -/
theorem joinBody_ok : ∀ i : Iface, joinBody.ok required true [.iface i] {} = true := by
  intro i; cases i <;> decide +kernel

theorem envOK_single {v : V} {τ : FTy} (h : v.hasTy req τ = true) (hn : v.nonNil = true) : EnvOK req [τ] {} [v] := by
  refine ⟨rfl, ?_, by simp, by simp, by simp, by simp⟩
  intro x τ' hx
  cases x with
  | zero => simp at hx; subst hx; exact ⟨_, rfl, h, hn⟩
  | succ x => simp at hx

theorem depthOK_single (v : V) : DepthOK v.depth [v] := by
  intro x w hx
  cases x with
  | zero => simp at hx; subst hx; simp
  | succ x => simp at hx

/-- With enough fuel formatting a tree never fails. -/
theorem formatF_safe : ∀ n : Nat,
    (∀ (t : Ty) (v : V) (f : Fmt), v.hasTy required (.val t) = true → 2 * v.depth + 1 ≤ n → (formatF n (.fmt t) v f).isSome = true) ∧
    (∀ (v : V) (f : Fmt) (i : Iface), v.hasTy required (.iface i) = true → v.nonNil = true → 2 * v.depth + 2 ≤ n →
      (formatF n .join v f).isSome = true)
  | 0 => ⟨by omega, by omega⟩
  | n + 1 => by
      obtain ⟨ih1, ih2⟩ := formatF_safe n
      constructor
      · intro t v f h hn
        have hcall : CallSafe required false v.depth (formatF n) := by
          refine ⟨?_, ?_⟩
          · intro t' w g hw hlt
            rcases hlt with hlt | ⟨hf, -⟩
            · exact ih1 t' w g hw (by omega)
            · simp at hf
          · intro w g i hw hnn hlt
            exact ih2 w g i hw hnn (by omega)
        have hnn : v.nonNil = true := by obtain ⟨fs, rfl, -⟩ := hasTy_val h; rfl
        have := fcmd_sound hcall (formatBody t) 0 0 (f, false) (envOK_single h hnn) (depthOK_single v) (formatTable_ok t)
        simp only [formatF, Proc.body, Option.isSome_map, this]
      · intro v f i h hnn hn
        have hcall : CallSafe required true v.depth (formatF n) := by
          refine ⟨?_, ?_⟩
          · intro t' w g hw hlt
            exact ih1 t' w g hw (by omega)
          · intro w g i hw hnn hlt
            exact ih2 w g i hw hnn (by omega)
        have := fcmd_sound hcall joinBody 0 0 (f, false) (envOK_single h hnn) (depthOK_single v) (joinBody_ok i)
        simp only [formatF, Proc.body, Option.isSome_map, this]

/-- Formatting a tree with its required fields succeeds, from any state of the formatter. -/
theorem writeExpr_safe {v : V} (h : v.isTree required) (f : Fmt) : (f.writeExpr v).isSome = true := by
  obtain ⟨t, fs, rfl, -, hf⟩ := hasTy_iface h.2 h.1
  exact (formatF_safe (2 * V.depth (.mk t fs) + 2)).1 t _ f (hasTy_of_structTy (by simp [FTy.admits]) hf) (by omega)

end Verif

/-
The formatter: indentation is restored, and the two modes print the same apart from white space.
-/
import Verif.Ast.Methods
import Verif.Spec.Text

namespace Verif

/-! ### Indentation -/

/-- Level at the end of a body, relative to the beginning of the method, if it is the same for all
inputs and never falls below the beginning. -/
def FCmd.lvl : FCmd → Nat → Option Nat
  | .seq a b, k => (a.lvl k).bind b.lvl
  | .indent, k => some (k + 1)
  | .dedent, k => match k with
    | 0 => none
    | k + 1 => some k
  | .ite _ a b, k => match a.lvl k, b.lvl k with
    | some x, some y => if x = y then some x else none
    | _, _ => none
  | .loop _ body, k => match body.lvl k with
    | some x => if x = k then some k else none
    | none => none
  | _, k => some k

/-- The settings of a formatter that formatting must leave alone. -/
structure SameSettings (f g : Fmt) : Prop where
  beautify : g.beautify = f.beautify
  indent : g.indent = f.indent

theorem SameSettings.refl (f : Fmt) : SameSettings f f := ⟨rfl, rfl⟩
theorem SameSettings.trans {f g h : Fmt} (a : SameSettings f g) (b : SameSettings g h) : SameSettings f h :=
  ⟨b.1.trans a.1, b.2.trans a.2⟩

theorem writeByte_settings (f : Fmt) (b : Nat) : SameSettings f (f.writeByte b) ∧ (f.writeByte b).level = f.level := by
  simp only [Fmt.writeByte, Fmt.writeIndentIfNeeded]
  split
  · split
    · exact ⟨⟨rfl, rfl⟩, rfl⟩
    · split <;> exact ⟨⟨rfl, rfl⟩, rfl⟩
  · exact ⟨⟨rfl, rfl⟩, rfl⟩

theorem writeString_settings : ∀ (s : Str) (f : Fmt),
    SameSettings f (f.writeString s) ∧ (f.writeString s).level = f.level
  | [], f => ⟨.refl f, rfl⟩
  | b :: s, f => by
      have h1 := writeByte_settings f b
      have h2 := writeString_settings s (f.writeByte b)
      exact ⟨h1.1.trans h2.1, h2.2.trans h1.2⟩

theorem newLine_settings (f : Fmt) : SameSettings f f.newLine ∧ f.newLine.level = f.level := by
  simp only [Fmt.newLine]
  split
  · exact writeByte_settings f 10
  · exact ⟨.refl f, rfl⟩

theorem brk_settings (f : Fmt) : SameSettings f f.brk ∧ f.brk.level = f.level := by
  simp only [Fmt.brk]
  split
  · exact newLine_settings f
  · exact writeByte_settings f 32

/-- What is asked of the procedures called. -/
def CallLevel (call : Proc → V → Fmt → Option Fmt) : Prop :=
  ∀ p v f f', call p v f = some f' → SameSettings f f' ∧ f'.level = f.level

theorem loopFmt_level {base k : Nat} {body : Nat → V → Fmt × Bool → Option (Fmt × Bool)}
    (h : ∀ i v s s', body i v s = some s' → s.1.level = base + k → SameSettings s.1 s'.1 ∧ s'.1.level = base + k) :
    ∀ (l : List V) (i : Nat) (s s' : Fmt × Bool), loopFmt body i l s = some s' → s.1.level = base + k →
      SameSettings s.1 s'.1 ∧ s'.1.level = base + k
  | [], i, s, s', hs, hl => by simp [loopFmt] at hs; subst hs; exact ⟨.refl _, hl⟩
  | v :: l, i, s, s', hs, hl => by
      simp only [loopFmt, Option.bind_eq_some_iff] at hs
      obtain ⟨s1, h1, h2⟩ := hs
      have a := h i v s s1 h1 hl
      have b := loopFmt_level h l (i + 1) s1 s' h2 a.2
      exact ⟨a.1.trans b.1, b.2⟩

theorem run_level {call : Proc → V → Fmt → Option Fmt} (hc : CallLevel call) : ∀ (c : FCmd) {k k' base : Nat}
    {env : List V} {i n : Nat} {f f' : Fmt} {b b' : Bool}, c.lvl k = some k' →
    c.run call env i n (f, b) = some (f', b') → f.level = base + k → SameSettings f f' ∧ f'.level = base + k'
  | .skip, k, k', base, env, i, n, f, f', b, b', hk, h, hl => by
      simp [FCmd.lvl] at hk; simp [FCmd.run] at h
      obtain ⟨rfl, rfl⟩ := h; subst hk; exact ⟨.refl _, hl⟩
  | .setFlag, k, k', base, env, i, n, f, f', b, b', hk, h, hl => by
      simp [FCmd.lvl] at hk; simp [FCmd.run] at h
      obtain ⟨rfl, rfl⟩ := h; subst hk; exact ⟨.refl _, hl⟩
  | .lit x, k, k', base, env, i, n, f, f', b, b', hk, h, hl => by
      simp [FCmd.lvl] at hk; simp [FCmd.run] at h
      obtain ⟨rfl, rfl⟩ := h; subst hk
      have := writeString_settings x f
      exact ⟨this.1, this.2.trans hl⟩
  | .strF r, k, k', base, env, i, n, f, f', b, b', hk, h, hl => by
      simp [FCmd.lvl] at hk; subst hk
      simp only [FCmd.run, Option.map_eq_some_iff, Prod.mk.injEq] at h
      obtain ⟨x, -, rfl, rfl⟩ := h
      have := writeString_settings x f
      exact ⟨this.1, this.2.trans hl⟩
  | .upperF r, k, k', base, env, i, n, f, f', b, b', hk, h, hl => by
      simp [FCmd.lvl] at hk; subst hk
      simp only [FCmd.run, Option.map_eq_some_iff, Prod.mk.injEq] at h
      obtain ⟨x, -, rfl, rfl⟩ := h
      have := writeString_settings (upper x) f
      exact ⟨this.1, this.2.trans hl⟩
  | .joinF r sep, k, k', base, env, i, n, f, f', b, b', hk, h, hl => by
      simp [FCmd.lvl] at hk; subst hk
      simp only [FCmd.run, Option.bind_eq_some_iff, Option.map_eq_some_iff, Prod.mk.injEq] at h
      obtain ⟨v, -, x, -, rfl, rfl⟩ := h
      have := writeString_settings (joinStr sep x) f
      exact ⟨this.1, this.2.trans hl⟩
  | .expr r st, k, k', base, env, i, n, f, f', b, b', hk, h, hl => by
      simp [FCmd.lvl] at hk; subst hk
      simp only [FCmd.run, Option.bind_eq_some_iff] at h
      obtain ⟨v, -, h⟩ := h
      split at h
      · simp at h; obtain ⟨rfl, rfl⟩ := h; exact ⟨.refl _, hl⟩
      · simp only [Option.bind_eq_some_iff, Option.map_eq_some_iff, Prod.mk.injEq] at h
        obtain ⟨t, -, g, hg, rfl, rfl⟩ := h
        have := hc _ _ _ _ hg
        exact ⟨this.1, this.2.trans hl⟩
  | .direct r t, k, k', base, env, i, n, f, f', b, b', hk, h, hl => by
      simp [FCmd.lvl] at hk; subst hk
      simp only [FCmd.run, Option.bind_eq_some_iff, Option.map_eq_some_iff, Prod.mk.injEq] at h
      obtain ⟨v, -, g, hg, rfl, rfl⟩ := h
      have := hc _ _ _ _ hg
      exact ⟨this.1, this.2.trans hl⟩
  | .joinSQL r, k, k', base, env, i, n, f, f', b, b', hk, h, hl => by
      simp [FCmd.lvl] at hk; subst hk
      simp only [FCmd.run, Option.bind_eq_some_iff, Option.map_eq_some_iff, Prod.mk.injEq] at h
      obtain ⟨v, -, g, hg, rfl, rfl⟩ := h
      have := hc _ _ _ _ hg
      exact ⟨this.1, this.2.trans hl⟩
  | .compactExpr r st, k, k', base, env, i, n, f, f', b, b', hk, h, hl => by
      simp [FCmd.lvl] at hk; subst hk
      simp only [FCmd.run, Option.bind_eq_some_iff, Option.map_eq_some_iff, Prod.mk.injEq] at h
      obtain ⟨v, -, g, -, rfl, rfl⟩ := h
      generalize hf2 : f.blankUnlessParen g.out = f2
      have h1 : SameSettings f f2 ∧ f2.level = f.level := by
        subst hf2
        unfold Fmt.blankUnlessParen
        split
        · exact ⟨.refl _, rfl⟩
        · split
          · exact ⟨.refl _, rfl⟩
          · exact writeByte_settings f 32
      have h2 := writeString_settings g.out f2
      exact ⟨h1.1.trans h2.1, (h2.2.trans h1.2).trans hl⟩
  | .brk, k, k', base, env, i, n, f, f', b, b', hk, h, hl => by
      simp [FCmd.lvl] at hk; simp [FCmd.run] at h
      obtain ⟨rfl, rfl⟩ := h; subst hk
      have := brk_settings f
      exact ⟨this.1, this.2.trans hl⟩
  | .newline, k, k', base, env, i, n, f, f', b, b', hk, h, hl => by
      simp [FCmd.lvl] at hk; simp [FCmd.run] at h
      obtain ⟨rfl, rfl⟩ := h; subst hk
      have := newLine_settings f
      exact ⟨this.1, this.2.trans hl⟩
  | .indent, k, k', base, env, i, n, f, f', b, b', hk, h, hl => by
      simp [FCmd.lvl] at hk; simp [FCmd.run] at h
      obtain ⟨rfl, rfl⟩ := h; subst hk
      exact ⟨⟨rfl, rfl⟩, by simp only [Fmt.incr, hl]; omega⟩
  | .dedent, k, k', base, env, i, n, f, f', b, b', hk, h, hl => by
      simp [FCmd.run] at h
      obtain ⟨rfl, rfl⟩ := h
      cases k with
      | zero => simp [FCmd.lvl] at hk
      | succ k =>
        simp [FCmd.lvl] at hk; subst hk
        simp only [Fmt.decr]
        split
        · exact ⟨⟨rfl, rfl⟩, by simp only [hl]; omega⟩
        · omega
  | .seq x y, k, k', base, env, i, n, f, f', b, b', hk, h, hl => by
      simp only [FCmd.lvl, Option.bind_eq_some_iff] at hk
      obtain ⟨k1, hk1, hk2⟩ := hk
      simp only [FCmd.run, Option.bind_eq_some_iff] at h
      obtain ⟨⟨f1, b1⟩, h1, h2⟩ := h
      have r1 := run_level hc x hk1 h1 hl
      have r2 := run_level hc y hk2 h2 r1.2
      exact ⟨r1.1.trans r2.1, r2.2⟩
  | .ite c x y, k, k', base, env, i, n, f, f', b, b', hk, h, hl => by
      simp only [FCmd.lvl] at hk
      split at hk
      · rename_i kx ky hx hy
        split at hk
        · simp at hk; subst hk
          rename_i hxy
          subst hxy
          simp only [FCmd.run, Option.bind_eq_some_iff] at h
          obtain ⟨z, -, h⟩ := h
          split at h
          · exact run_level hc x hx h hl
          · exact run_level hc y hy h hl
        · simp at hk
      · simp at hk
  | .loop r body, k, k', base, env, i, n, f, f', b, b', hk, h, hl => by
      simp only [FCmd.lvl] at hk
      split at hk
      · rename_i x hx
        split at hk
        · rename_i hxk
          simp at hk; subst hk; subst hxk
          simp only [FCmd.run, Option.bind_eq_some_iff] at h
          obtain ⟨v, -, h⟩ := h
          exact loopFmt_level (base := base) (k := x) (fun i item s s' hb hs => run_level hc body hx hb hs) _ _ _ _ h hl
        · simp at hk
      · simp at hk

theorem formatTable_lvl : ∀ t : Ty, (formatBody t).lvl 0 = some 0 := by
  intro t; cases t <;> decide +kernel

theorem joinBody_lvl : joinBody.lvl 0 = some 0 := by decide +kernel

theorem formatF_level : ∀ n, CallLevel (formatF n)
  | 0 => by intro p v f f' h; simp [formatF] at h
  | n + 1 => by
      intro p v f f' h
      simp only [formatF, Option.map_eq_some_iff] at h
      obtain ⟨⟨g, b⟩, h, rfl⟩ := h
      cases p with
      | fmt t => exact run_level (formatF_level n) _ (formatTable_lvl t) h (base := f.level) rfl
      | join => exact run_level (formatF_level n) _ joinBody_lvl h (base := f.level) rfl

/-! ### The text without white space -/

/-- The text a body writes in mode `m`, without white space, and the local bool.
`call` is the text of a procedure in the same mode, `callC` in compact mode. -/
def FCmd.text (m : Bool) (call callC : Proc → V → Option Str) :
    FCmd → (env : List V) → (idx len : Nat) → Bool → Option (Str × Bool)
  | .seq x y, env, i, n, b => (x.text m call callC env i n b).bind fun p =>
      (y.text m call callC env i n p.2).map fun q => (p.1 ++ q.1, q.2)
  | .lit x, _, _, _, b => some (dropBlanks x, b)
  | .strF r, env, _, _, b => ((r.get env).bind V.toStr?).map fun x => (dropBlanks x, b)
  | .upperF r, env, _, _, b => ((r.get env).bind V.toStr?).map fun x => (dropBlanks (upper x), b)
  | .joinF r sep, env, _, _, b =>
      (r.get env).bind fun v => (v.items.mapM V.toStr?).map fun l => (dropBlanks (joinStr sep l), b)
  | .expr r st, env, _, _, b => (r.get env).bind fun v => match st, v with
      | .iface, .nil => some ([], b)
      | st, v => (st.dispatch v).bind fun t => (call (.fmt t) v).map (·, b)
  | .direct r t, env, _, _, b => (r.get env).bind fun v => (call (.fmt t) v).map (·, b)
  | .joinSQL r, env, _, _, b => (r.get env).bind fun v => (call .join v).map (·, b)
  | .compactExpr r st, env, _, _, b => (r.get env).bind fun v => match st, v with
      | .iface, .nil => some ([], b)
      | st, v => (st.dispatch v).bind fun t => (callC (.fmt t) v).map (·, b)
  | .setFlag, _, _, _, _ => some ([], true)
  | .ite c x y, env, i, n, b =>
      (c.eval { env := env, idx := i, len := n, beautify := m, flag := b }).bind fun z =>
        if z then x.text m call callC env i n b else y.text m call callC env i n b
  | .loop r body, env, _, _, b => (r.get env).bind fun v =>
      loopText (fun i item b => body.text m call callC (env ++ [item]) i v.items.length b) 0 v.items b
  | _, _, _, _, b => some ([], b)
where
  /-- The text of a loop. -/
  loopText (body : Nat → V → Bool → Option (Str × Bool)) : Nat → List V → Bool → Option (Str × Bool)
  | _, [], b => some ([], b)
  | i, v :: l, b => (body i v b).bind fun p => (loopText body (i + 1) l p.2).map fun q => (p.1 ++ q.1, q.2)

/-- The text of a procedure. -/
def textF (m : Bool) : Nat → Proc → V → Option Str
  | 0, _, _ => none
  | n + 1, p, v =>
    (p.body.text m (textF m n) (textF false n) [v] 0 0 false).map
      Prod.fst

theorem dropBlanks_append (a b : Str) : dropBlanks (a ++ b) = dropBlanks a ++ dropBlanks b := by
  simp [dropBlanks]

theorem dropBlanks_nil_of_all {a : Str} (h : a.all isBlank = true) : dropBlanks a = [] := by
  simp only [dropBlanks, List.filter_eq_nil_iff]
  intro c hc
  simp [List.all_eq_true.1 h c hc]

theorem dropBlanks_replicate {ind : Str} (h : ind.all isBlank = true) (n : Nat) :
    dropBlanks (List.replicate n ind).flatten = [] := by
  apply dropBlanks_nil_of_all
  rw [List.all_eq_true]
  intro c hc
  obtain ⟨l, hl, hc⟩ := List.mem_flatten.1 hc
  rw [List.eq_of_mem_replicate hl] at hc
  exact List.all_eq_true.1 h c hc

theorem writeByte_text (f : Fmt) (hi : f.indent.all isBlank = true) (b : Nat) :
    dropBlanks (f.writeByte b).out = dropBlanks f.out ++ dropBlanks [b] := by
  simp only [Fmt.writeByte, Fmt.writeIndentIfNeeded]
  split
  · split
    · rename_i h; subst h; simp [dropBlanks_append]
    · split
      · simp [dropBlanks_append]
      · simp [dropBlanks_append, dropBlanks_replicate hi]
  · simp [dropBlanks_append]

theorem writeString_text : ∀ (s : Str) (f : Fmt), f.indent.all isBlank = true →
    dropBlanks (f.writeString s).out = dropBlanks f.out ++ dropBlanks s
  | [], f, _ => by simp [Fmt.writeString, dropBlanks]
  | b :: s, f, hi => by
      have h1 := writeByte_text f hi b
      have h2 := writeString_text s (f.writeByte b) (by rw [(writeByte_settings f b).1.indent]; exact hi)
      have : f.writeString (b :: s) = (f.writeByte b).writeString s := rfl
      rw [this, h2, h1, show b :: s = [b] ++ s from rfl, dropBlanks_append]
      simp

theorem newLine_text (f : Fmt) (hi : f.indent.all isBlank = true) : dropBlanks f.newLine.out = dropBlanks f.out := by
  simp only [Fmt.newLine]
  split
  · rw [writeByte_text f hi]; simp [dropBlanks, isBlank]
  · rfl

theorem brk_text (f : Fmt) (hi : f.indent.all isBlank = true) : dropBlanks f.brk.out = dropBlanks f.out := by
  simp only [Fmt.brk]
  split
  · exact newLine_text f hi
  · rw [writeByte_text f hi]; simp [dropBlanks, isBlank]

/-- `call` writes what `txt` says, without white space. -/
def CallText (m : Bool) (call : Proc → V → Fmt → Option Fmt) (txt : Proc → V → Option Str) : Prop :=
  ∀ p v f f', call p v f = some f' → f.beautify = m → f.indent.all isBlank = true →
    ∃ T, txt p v = some T ∧ dropBlanks f'.out = dropBlanks f.out ++ T ∧ SameSettings f f'

theorem loopFmt_text {m : Bool} {body : Nat → V → Fmt × Bool → Option (Fmt × Bool)}
    {txt : Nat → V → Bool → Option (Str × Bool)}
    (h : ∀ i v f b f' b', body i v (f, b) = some (f', b') → f.beautify = m → f.indent.all isBlank = true →
      ∃ T, txt i v b = some (T, b') ∧ dropBlanks f'.out = dropBlanks f.out ++ T ∧ SameSettings f f') :
    ∀ (l : List V) (i : Nat) (f : Fmt) (b : Bool) (f' : Fmt) (b' : Bool), loopFmt body i l (f, b) = some (f', b') →
      f.beautify = m → f.indent.all isBlank = true →
      ∃ T, FCmd.text.loopText txt i l b = some (T, b') ∧ dropBlanks f'.out = dropBlanks f.out ++ T ∧ SameSettings f f'
  | [], i, f, b, f', b', hs, hm, hi => by
      simp [loopFmt] at hs; obtain ⟨rfl, rfl⟩ := hs
      exact ⟨[], rfl, by simp, .refl _⟩
  | v :: l, i, f, b, f', b', hs, hm, hi => by
      simp only [loopFmt, Option.bind_eq_some_iff] at hs
      obtain ⟨⟨f1, b1⟩, h1, h2⟩ := hs
      obtain ⟨T1, a1, a2, a3⟩ := h i v f b f1 b1 h1 hm hi
      obtain ⟨T2, c1, c2, c3⟩ := loopFmt_text h l (i + 1) f1 b1 f' b' h2 (a3.beautify.trans hm) (by rw [a3.indent]; exact hi)
      exact ⟨T1 ++ T2, by simp [FCmd.text.loopText, a1, c1], by rw [c2, a2]; simp, a3.trans c3⟩

theorem run_text {m : Bool} {call : Proc → V → Fmt → Option Fmt} {txt txtC : Proc → V → Option Str}
    (hc : CallText m call txt) (hC : CallText false call txtC) : ∀ (c : FCmd)
    {env : List V} {i n : Nat} {f f' : Fmt} {b b' : Bool},
    c.run call env i n (f, b) = some (f', b') → f.beautify = m → f.indent.all isBlank = true →
    ∃ T, c.text m txt txtC env i n b = some (T, b') ∧ dropBlanks f'.out = dropBlanks f.out ++ T ∧ SameSettings f f'
  | .skip, env, i, n, f, f', b, b', h, hm, hi => by
      simp [FCmd.run] at h; obtain ⟨rfl, rfl⟩ := h
      exact ⟨[], rfl, by simp, .refl _⟩
  | .setFlag, env, i, n, f, f', b, b', h, hm, hi => by
      simp [FCmd.run] at h; obtain ⟨rfl, rfl⟩ := h
      exact ⟨[], rfl, by simp, .refl _⟩
  | .lit x, env, i, n, f, f', b, b', h, hm, hi => by
      simp [FCmd.run] at h; obtain ⟨rfl, rfl⟩ := h
      exact ⟨_, rfl, writeString_text x f hi, (writeString_settings x f).1⟩
  | .strF r, env, i, n, f, f', b, b', h, hm, hi => by
      simp only [FCmd.run, Option.map_eq_some_iff, Prod.mk.injEq] at h
      obtain ⟨x, hx, rfl, rfl⟩ := h
      exact ⟨_, by simp only [FCmd.text, hx, Option.map_some], writeString_text x f hi, (writeString_settings x f).1⟩
  | .upperF r, env, i, n, f, f', b, b', h, hm, hi => by
      simp only [FCmd.run, Option.map_eq_some_iff, Prod.mk.injEq] at h
      obtain ⟨x, hx, rfl, rfl⟩ := h
      exact ⟨_, by simp only [FCmd.text, hx, Option.map_some], writeString_text _ f hi, (writeString_settings _ f).1⟩
  | .joinF r sep, env, i, n, f, f', b, b', h, hm, hi => by
      simp only [FCmd.run, Option.bind_eq_some_iff, Option.map_eq_some_iff, Prod.mk.injEq] at h
      obtain ⟨v, hv, x, hx, rfl, rfl⟩ := h
      exact ⟨_, by simp only [FCmd.text, hv, hx, Option.bind_some, Option.map_some], writeString_text _ f hi,
        (writeString_settings _ f).1⟩
  | .expr r st, env, i, n, f, f', b, b', h, hm, hi => by
      simp only [FCmd.run, Option.bind_eq_some_iff] at h
      obtain ⟨v, hv, h⟩ := h
      simp only [FCmd.text, hv, Option.bind_some]
      split at h
      · simp at h; obtain ⟨rfl, rfl⟩ := h
        exact ⟨[], rfl, by simp, .refl _⟩
      · simp only [Option.bind_eq_some_iff, Option.map_eq_some_iff, Prod.mk.injEq] at h
        obtain ⟨t, ht, g, hg, rfl, rfl⟩ := h
        obtain ⟨T, a1, a2, a3⟩ := hc _ _ _ _ hg hm hi
        refine ⟨T, ?_, a2, a3⟩
        split
        · rename_i hne; exact absurd rfl (hne rfl)
        · simp [ht, a1]
  | .direct r t, env, i, n, f, f', b, b', h, hm, hi => by
      simp only [FCmd.run, Option.bind_eq_some_iff, Option.map_eq_some_iff, Prod.mk.injEq] at h
      obtain ⟨v, hv, g, hg, rfl, rfl⟩ := h
      obtain ⟨T, a1, a2, a3⟩ := hc _ _ _ _ hg hm hi
      exact ⟨T, by simp [FCmd.text, hv, a1], a2, a3⟩
  | .joinSQL r, env, i, n, f, f', b, b', h, hm, hi => by
      simp only [FCmd.run, Option.bind_eq_some_iff, Option.map_eq_some_iff, Prod.mk.injEq] at h
      obtain ⟨v, hv, g, hg, rfl, rfl⟩ := h
      obtain ⟨T, a1, a2, a3⟩ := hc _ _ _ _ hg hm hi
      exact ⟨T, by simp [FCmd.text, hv, a1], a2, a3⟩
  | .compactExpr r st, env, i, n, f, f', b, b', h, hm, hi => by
      simp only [FCmd.run, Option.bind_eq_some_iff, Option.map_eq_some_iff, Prod.mk.injEq] at h
      obtain ⟨v, hv, g, hg, rfl, rfl⟩ := h
      have hT : ∃ T, FCmd.text m txt txtC (.compactExpr r st) env i n b = some (T, b) ∧ dropBlanks g.out = T := by
        simp only [FCmd.text, hv, Option.bind_some]
        split at hg
        · simp at hg; subst hg; exact ⟨[], rfl, rfl⟩
        · simp only [Option.bind_eq_some_iff] at hg
          obtain ⟨t, ht, hg⟩ := hg
          obtain ⟨T, a1, a2, a3⟩ := hC _ _ _ _ hg rfl (by decide)
          refine ⟨T, ?_, by rw [a2]; simp [dropBlanks]⟩
          split
          · rename_i hne; exact absurd rfl (hne rfl)
          · simp [ht, a1]
      obtain ⟨T, hT1, hT2⟩ := hT
      refine ⟨T, hT1, ?_⟩
      generalize hf2 : f.blankUnlessParen g.out = f2
      have h1 : SameSettings f f2 ∧ dropBlanks f2.out = dropBlanks f.out := by
        subst hf2
        unfold Fmt.blankUnlessParen
        split
        · exact ⟨.refl _, rfl⟩
        · split
          · exact ⟨.refl _, rfl⟩
          · exact ⟨(writeByte_settings f 32).1, by rw [writeByte_text f hi]; simp [dropBlanks, isBlank]⟩
      exact ⟨by rw [writeString_text _ _ (by rw [h1.1.indent]; exact hi), h1.2, hT2],
        h1.1.trans (writeString_settings _ _).1⟩
  | .brk, env, i, n, f, f', b, b', h, hm, hi => by
      simp [FCmd.run] at h; obtain ⟨rfl, rfl⟩ := h
      exact ⟨[], rfl, by simp [brk_text f hi], (brk_settings f).1⟩
  | .newline, env, i, n, f, f', b, b', h, hm, hi => by
      simp [FCmd.run] at h; obtain ⟨rfl, rfl⟩ := h
      exact ⟨[], rfl, by simp [newLine_text f hi], (newLine_settings f).1⟩
  | .indent, env, i, n, f, f', b, b', h, hm, hi => by
      simp [FCmd.run] at h; obtain ⟨rfl, rfl⟩ := h
      exact ⟨[], rfl, by simp [Fmt.incr], ⟨rfl, rfl⟩⟩
  | .dedent, env, i, n, f, f', b, b', h, hm, hi => by
      simp [FCmd.run] at h; obtain ⟨rfl, rfl⟩ := h
      refine ⟨[], rfl, ?_, ?_⟩
      · simp only [Fmt.decr]; split <;> simp
      · simp only [Fmt.decr]; split <;> exact ⟨rfl, rfl⟩
  | .seq x y, env, i, n, f, f', b, b', h, hm, hi => by
      simp only [FCmd.run, Option.bind_eq_some_iff] at h
      obtain ⟨⟨f1, b1⟩, h1, h2⟩ := h
      obtain ⟨T1, a1, a2, a3⟩ := run_text hc hC x h1 hm hi
      obtain ⟨T2, c1, c2, c3⟩ := run_text hc hC y h2 (a3.beautify.trans hm) (by rw [a3.indent]; exact hi)
      exact ⟨T1 ++ T2, by simp [FCmd.text, a1, c1], by rw [c2, a2]; simp, a3.trans c3⟩
  | .ite c x y, env, i, n, f, f', b, b', h, hm, hi => by
      simp only [FCmd.run, Option.bind_eq_some_iff] at h
      obtain ⟨z, hz, h⟩ := h
      subst hm
      simp only [FCmd.text, hz, Option.bind_some]
      split at h
      · rename_i hzt; rw [if_pos hzt]; exact run_text hc hC x h rfl hi
      · rename_i hzt; rw [if_neg hzt]; exact run_text hc hC y h rfl hi
  | .loop r body, env, i, n, f, f', b, b', h, hm, hi => by
      simp only [FCmd.run, Option.bind_eq_some_iff] at h
      obtain ⟨v, hv, h⟩ := h
      simp only [FCmd.text, hv, Option.bind_some]
      refine loopFmt_text (txt := fun i item b => body.text m txt txtC (env ++ [item]) i v.items.length b) ?_ _ _ _ _ _ _ h hm hi
      intro i item f b f' b' hb hm hi
      exact run_text hc hC body hb hm hi

theorem formatF_text (m : Bool) : ∀ n, CallText m (formatF n) (textF m n) ∧ CallText false (formatF n) (textF false n)
  | 0 => ⟨by intro p v f f' h; simp [formatF] at h, by intro p v f f' h; simp [formatF] at h⟩
  | n + 1 => by
      have ih := formatF_text m n
      constructor
      · intro p v f f' h hm hi
        simp only [formatF, Option.map_eq_some_iff] at h
        obtain ⟨⟨g, b⟩, h, rfl⟩ := h
        obtain ⟨T, a1, a2, a3⟩ := run_text ih.1 ih.2 _ h hm hi
        refine ⟨T, ?_, a2, a3⟩
        simp only [textF]; rw [a1]; rfl
      · intro p v f f' h hm hi
        simp only [formatF, Option.map_eq_some_iff] at h
        obtain ⟨⟨g, b⟩, h, rfl⟩ := h
        obtain ⟨T, a1, a2, a3⟩ := run_text ih.2 ih.2 _ h hm hi
        refine ⟨T, ?_, a2, a3⟩
        simp only [textF]; rw [a1]; rfl

/-! ### The text does not depend on the mode -/

/-- A condition that does not look at the mode. -/
def Cond.modeFree : Cond → Bool
  | .beautify => false
  | .not a => a.modeFree
  | .and a b => a.modeFree && b.modeFree
  | .or a b => a.modeFree && b.modeFree
  | _ => true

/-- A body that does not look at the mode. -/
def FCmd.modeFree : FCmd → Bool
  | .seq a b => a.modeFree && b.modeFree
  | .ite c a b => c.modeFree && a.modeFree && b.modeFree
  | .loop _ b => b.modeFree
  | _ => true

theorem eval_modeFree : ∀ (c : Cond), c.modeFree = true → ∀ (env : List V) (i n : Nat) (m m' b : Bool),
    c.eval { env := env, idx := i, len := n, beautify := m, flag := b }
      = c.eval { env := env, idx := i, len := n, beautify := m', flag := b }
  | .beautify, h, env, i, n, m, m', b => by simp [Cond.modeFree] at h
  | .not a, h, env, i, n, m, m', b => by
      simp only [Cond.eval]; rw [eval_modeFree a h env i n m m' b]
  | .and x y, h, env, i, n, m, m', b => by
      simp only [Cond.modeFree, Bool.and_eq_true] at h
      simp only [Cond.eval]; rw [eval_modeFree x h.1 env i n m m' b, eval_modeFree y h.2 env i n m m' b]
  | .or x y, h, env, i, n, m, m', b => by
      simp only [Cond.modeFree, Bool.and_eq_true] at h
      simp only [Cond.eval]; rw [eval_modeFree x h.1 env i n m m' b, eval_modeFree y h.2 env i n m m' b]
  | .nonNil _, _, _, _, _, _, _, _ => rfl
  | .isTrue _, _, _, _, _, _, _, _ => rfl
  | .lenPos _, _, _, _, _, _, _, _ => rfl
  | .strEq _ _, _, _, _, _, _, _, _ => rfl
  | .natEq _ _, _, _, _, _, _, _, _ => rfl
  | .isTy _ _, _, _, _, _, _, _, _ => rfl
  | .idxPos, _, _, _, _, _, _, _ => rfl
  | .idxLast, _, _, _, _, _, _, _ => rfl
  | .flag, _, _, _, _, _, _, _ => rfl

/-- Two results agree if both exist. -/
def Agree {α : Type} (a b : Option α) : Prop := ∀ x y, a = some x → b = some y → x = y

theorem Agree.bind {α β : Type} {a b : Option α} {f g : α → Option β} (h : Agree a b)
    (h2 : ∀ x, Agree (f x) (g x)) : Agree (a.bind f) (b.bind g) := by
  intro x y hx hy
  rw [Option.bind_eq_some_iff] at hx hy
  obtain ⟨u, hu, hx⟩ := hx
  obtain ⟨w, hw, hy⟩ := hy
  have := h u w hu hw; subst this
  exact h2 u x y hx hy

theorem Agree.map {α β : Type} {a b : Option α} {f : α → β} (h : Agree a b) : Agree (a.map f) (b.map f) := by
  intro x y hx hy
  rw [Option.map_eq_some_iff] at hx hy
  obtain ⟨u, hu, rfl⟩ := hx
  obtain ⟨w, hw, rfl⟩ := hy
  rw [h u w hu hw]

theorem Agree.rfl {α : Type} {a : Option α} : Agree a a := by
  intro x y hx hy; rw [hx] at hy; exact Option.some.inj hy

theorem loopText_agree {t1 t2 : Nat → V → Bool → Option (Str × Bool)} (h : ∀ i v b, Agree (t1 i v b) (t2 i v b)) :
    ∀ (l : List V) (i : Nat) (b : Bool), Agree (FCmd.text.loopText t1 i l b) (FCmd.text.loopText t2 i l b)
  | [], i, b => .rfl
  | v :: l, i, b => by
      simp only [FCmd.text.loopText]
      exact (h i v b).bind fun p => (loopText_agree h l (i + 1) p.2).map

theorem text_agree {call1 call2 callC : Proc → V → Option Str} (hc : ∀ p v, Agree (call1 p v) (call2 p v)) :
    ∀ (c : FCmd), c.modeFree = true → ∀ (env : List V) (i n : Nat) (b : Bool),
      Agree (c.text true call1 callC env i n b) (c.text false call2 callC env i n b)
  | .seq x y, h, env, i, n, b => by
      simp only [FCmd.modeFree, Bool.and_eq_true] at h
      simp only [FCmd.text]
      exact (text_agree hc x h.1 env i n b).bind fun p => (text_agree hc y h.2 env i n p.2).map
  | .ite c x y, h, env, i, n, b => by
      simp only [FCmd.modeFree, Bool.and_eq_true] at h
      simp only [FCmd.text]
      rw [eval_modeFree c h.1.1 env i n true false b]
      refine Agree.rfl.bind fun z => ?_
      split
      · exact text_agree hc x h.1.2 env i n b
      · exact text_agree hc y h.2 env i n b
  | .loop r body, h, env, i, n, b => by
      simp only [FCmd.text]
      refine Agree.rfl.bind fun v => ?_
      exact loopText_agree (fun i item b => text_agree hc body h (env ++ [item]) i v.items.length b) _ _ _
  | .expr r st, h, env, i, n, b => by
      simp only [FCmd.text]
      refine Agree.rfl.bind fun v => ?_
      split
      · exact .rfl
      · exact Agree.rfl.bind fun t => (hc _ _).map
  | .direct r t, h, env, i, n, b => by
      simp only [FCmd.text]
      exact Agree.rfl.bind fun v => (hc _ _).map
  | .joinSQL r, h, env, i, n, b => by
      simp only [FCmd.text]
      exact Agree.rfl.bind fun v => (hc _ _).map
  | .compactExpr r st, _, _, _, _, _ => .rfl
  | .lit _, _, _, _, _, _ => .rfl
  | .strF _, _, _, _, _, _ => .rfl
  | .upperF _, _, _, _, _, _ => .rfl
  | .joinF _ _, _, _, _, _, _ => .rfl
  | .skip, _, _, _, _, _ => .rfl
  | .brk, _, _, _, _, _ => .rfl
  | .newline, _, _, _, _, _ => .rfl
  | .indent, _, _, _, _, _ => .rfl
  | .dedent, _, _, _, _, _ => .rfl
  | .setFlag, _, _, _, _, _ => .rfl

theorem formatTable_modeFree : ∀ t : Ty, t ≠ .BinaryOperation → (formatBody t).modeFree = true := by
  intro t ht; cases t <;> first | (exact absurd rfl ht) | decide +kernel

theorem joinBody_modeFree : joinBody.modeFree = true := by decide +kernel

theorem expr_flag {m : Bool} {call callC : Proc → V → Option Str} {r : Ref} {st : Static} {env : List V} {i n : Nat}
    {b : Bool} {p : Str × Bool} (h : (FCmd.expr r st).text m call callC env i n b = some p) : p.2 = b := by
  simp only [FCmd.text, Option.bind_eq_some_iff] at h
  obtain ⟨v, -, h⟩ := h
  split at h
  · simp at h; simp [← h]
  · simp only [Option.bind_eq_some_iff, Option.map_eq_some_iff] at h
    obtain ⟨t, -, T, -, rfl⟩ := h
    rfl

/-- `writeLogicalOperand` (parser/format.go:140-148) writes its operand. -/
theorem operand_text {m : Bool} {call callC : Proc → V → Option Str} {c : Cond} {r : Ref} {st : Static} {env : List V} {i n : Nat}
    {b : Bool} {p : Str × Bool}
    (h : (FCmd.ite c (.expr r st) (.seq .indent (.seq (.expr r st) .dedent))).text m call callC env i n b = some p) :
    (FCmd.expr r st).text m call callC env i n b = some p := by
  rw [FCmd.text] at h
  rw [Option.bind_eq_some_iff] at h
  obtain ⟨z, -, h⟩ := h
  split at h
  · exact h
  · rw [FCmd.text] at h
    rw [Option.bind_eq_some_iff] at h
    obtain ⟨q, hq, h⟩ := h
    change some ([], b) = some q at hq
    rw [Option.some.injEq] at hq
    subst hq
    rw [Option.map_eq_some_iff] at h
    obtain ⟨q, hq, rfl⟩ := h
    rw [FCmd.text, Option.bind_eq_some_iff] at hq
    obtain ⟨q1, hq1, hq⟩ := hq
    change some (q1.1 ++ [], q1.2) = some q at hq
    rw [Option.some.injEq] at hq
    subst hq
    simpa using hq1

theorem seq_text {m : Bool} {call callC : Proc → V → Option Str} {x y : FCmd} {env : List V} {i n : Nat}
    {b : Bool} {p : Str × Bool} (h : (FCmd.seq x y).text m call callC env i n b = some p) :
    ∃ q r, x.text m call callC env i n b = some q ∧ y.text m call callC env i n q.2 = some r ∧ p = (q.1 ++ r.1, r.2) := by
  rw [FCmd.text, Option.bind_eq_some_iff] at h
  obtain ⟨q, hq, h⟩ := h
  rw [Option.map_eq_some_iff] at h
  obtain ⟨r, hr, rfl⟩ := h
  exact ⟨q, r, hq, hr, rfl⟩

/-- A conditional blank writes no text. -/
theorem blank_text {m : Bool} {call callC : Proc → V → Option Str} {c : Cond} {env : List V} {i n : Nat}
    {b : Bool} {p : Str × Bool} (h : (FCmd.ite c (.lit b!" ") .skip).text m call callC env i n b = some p) :
    p = ([], b) := by
  rw [FCmd.text, Option.bind_eq_some_iff] at h
  obtain ⟨z, -, h⟩ := h
  split at h
  · change some (dropBlanks b!" ", b) = some p at h
    rw [Option.some.injEq] at h; rw [← h]; rfl
  · change some ([], b) = some p at h
    rw [Option.some.injEq] at h; rw [← h]

/-- The two ways to write a binary operation agree. -/
theorem binary_agree {call1 call2 callC : Proc → V → Option Str} (hc : ∀ p v, Agree (call1 p v) (call2 p v))
    {c1 c2 c3 c4 : Cond} {l r : Ref} {st : Static} {x y : FCmd} (hx : x.modeFree = true) (hy : y.modeFree = true)
    {env : List V} {i n : Nat} {b : Bool} :
    Agree
      ((FCmd.seq (.ite c1 (.expr l st) (.seq .indent (.seq (.expr l st) .dedent)))
        (.seq .newline (.seq x (.seq y (.seq .newline
          (.ite c2 (.expr r st) (.seq .indent (.seq (.expr r st) .dedent)))))))).text true call1 callC env i n b)
      ((FCmd.seq (.expr l st) (.seq (.ite c3 (.lit b!" ") .skip) (.seq x (.seq y
        (.seq (.ite c4 (.lit b!" ") .skip) (.expr r st)))))).text false call2 callC env i n b) := by
  intro p q hp hq
  obtain ⟨p1, pa, h1, hp1, hpa⟩ := seq_text hp
  obtain ⟨p2, pb, h2, hp2, hpb⟩ := seq_text hp1
  obtain ⟨p3, pc, h3, hp3, hpc⟩ := seq_text hp2
  obtain ⟨p4, pd, h4, hp4, hpd⟩ := seq_text hp3
  obtain ⟨p5, p6, h5, h6, hpe⟩ := seq_text hp4
  obtain ⟨q1, qa, g1, hq1, hqa⟩ := seq_text hq
  obtain ⟨q2, qb, g2, hq2, hqb⟩ := seq_text hq1
  obtain ⟨q3, qc, g3, hq3, hqc⟩ := seq_text hq2
  obtain ⟨q4, qd, g4, hq4, hqd⟩ := seq_text hq3
  obtain ⟨q5, q6, g5, g6, hqe⟩ := seq_text hq4
  subst hpa hpb hpc hpd hpe hqa hqb hqc hqd hqe
  have e1 := text_agree hc _ rfl env i n b _ _ (operand_text h1) g1
  subst e1
  have e2 := blank_text g2
  change some ([], p1.2) = some p2 at h2
  rw [Option.some.injEq] at h2; subst h2; subst e2
  have e3 := text_agree hc x hx env i n _ _ _ h3 g3; subst e3
  have e4 := text_agree hc y hy env i n _ _ _ h4 g4; subst e4
  have e5 := blank_text g5
  change some ([], p4.2) = some p5 at h5
  rw [Option.some.injEq] at h5; subst h5; subst e5
  have e6 := text_agree hc _ rfl env i n _ _ _ (operand_text h6) g6; subst e6
  simp

/-- Choosing between two bodies by a condition that needs `beautify`. -/
theorem choice_agree {call1 call2 callC : Proc → V → Option Str} {c : Cond} {x y : FCmd}
    {env : List V} {i n : Nat} {b : Bool}
    (h1 : Agree (x.text true call1 callC env i n b) (y.text false call2 callC env i n b))
    (h2 : Agree (y.text true call1 callC env i n b) (y.text false call2 callC env i n b)) :
    Agree ((FCmd.ite (.and c .beautify) x y).text true call1 callC env i n b)
      ((FCmd.ite (.and c .beautify) x y).text false call2 callC env i n b) := by
  intro p q hp hq
  rw [FCmd.text, Option.bind_eq_some_iff] at hp hq
  obtain ⟨z1, -, hp⟩ := hp
  obtain ⟨z2, hz2, hq⟩ := hq
  have hz2' : z2 = false := by
    rw [Cond.eval, Option.bind_eq_some_iff] at hz2
    obtain ⟨w, -, hw⟩ := hz2
    cases w <;> simp_all [Cond.eval]
  subst hz2'
  rw [if_neg (by simp)] at hq
  cases z1 with
  | false => rw [if_neg (by simp)] at hp; exact h2 p q hp hq
  | true => rw [if_pos rfl] at hp; exact h1 p q hp hq

theorem binaryOperation_agree {call1 call2 callC : Proc → V → Option Str}
    (hc : ∀ p v, Agree (call1 p v) (call2 p v)) (env : List V) (i n : Nat) (b : Bool) :
    Agree ((formatBody .BinaryOperation).text true call1 callC env i n b)
      ((formatBody .BinaryOperation).text false call2 callC env i n b) :=
  choice_agree (binary_agree hc rfl rfl) (text_agree hc _ rfl env i n b)

theorem textF_agree : ∀ (n : Nat) (p : Proc) (v : V), Agree (textF true n p v) (textF false n p v)
  | 0, p, v => .rfl
  | n + 1, p, v => by
      simp only [textF]
      refine Agree.map ?_
      cases p with
      | join => exact text_agree (textF_agree n) _ joinBody_modeFree _ _ _ _
      | fmt t =>
        by_cases ht : t = .BinaryOperation
        · subst ht; exact binaryOperation_agree (textF_agree n) _ _ _ _
        · exact text_agree (textF_agree n) _ (formatTable_modeFree t ht) _ _ _ _

end Verif

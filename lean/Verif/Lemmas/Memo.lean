/- Helper lemmas: the parser with the memo simulates the one without it. -/
import Verif.Spec.Memo
import Verif.Lemmas.Token
import Verif.Lemmas.Fuel

namespace Verif
open Spec

/-! ### Expressions -/

mutual
/-- The expression does not look into the memo. -/
def Exp.plain : Exp → Bool
  | .memoHas _ => false
  | .fld e _ | .deref e | .last e | .len e | .isNil e | .not e | .upper e | .isTy e _ | .posOf e _
  | .endOf e _ | .isUnit e | .tokText e | .matchKw e | .matchOneOf e => e.plain
  | .idx a b | .append a b | .appendAll a b | .and a b | .or a b | .eqStr a b | .eqNat a b | .lt a b
  | .add a b | .sub a b | .cat a b | .equalFold a b | .contains a b | .containsFold a b => a.plain && b.plain
  | .mk _ es | .error _ es | .matchKinds es => Exp.plainL es
  | _ => true
def Exp.plainL : List Exp → Bool
  | [] => true
  | e :: es => e.plain && Exp.plainL es
end

@[simp] theorem clear_lx (s : PS) : s.clear.lx = s.lx := rfl
@[simp] theorem clear_input (s : PS) : s.clear.input = s.input := rfl
@[simp] theorem clear_clear (s : PS) : s.clear.clear = s.clear := rfl

mutual
theorem eval_clear (s : PS) (env : List V) : ∀ e : Exp, e.plain = true → e.eval s.clear env = e.eval s env
  | .fld e i, h => by simp only [Exp.plain] at h; simp only [Exp.eval, eval_clear s env e h]
  | .deref e, h => by simp only [Exp.plain] at h; simp only [Exp.eval, eval_clear s env e h]
  | .last e, h => by simp only [Exp.plain] at h; simp only [Exp.eval, eval_clear s env e h]
  | .len e, h => by simp only [Exp.plain] at h; simp only [Exp.eval, eval_clear s env e h]
  | .isNil e, h => by simp only [Exp.plain] at h; simp only [Exp.eval, eval_clear s env e h]
  | .not e, h => by simp only [Exp.plain] at h; simp only [Exp.eval, eval_clear s env e h]
  | .upper e, h => by simp only [Exp.plain] at h; simp only [Exp.eval, eval_clear s env e h]
  | .isTy e t, h => by simp only [Exp.plain] at h; simp only [Exp.eval, eval_clear s env e h]
  | .posOf e t, h => by simp only [Exp.plain] at h; simp only [Exp.eval, eval_clear s env e h]
  | .endOf e t, h => by simp only [Exp.plain] at h; simp only [Exp.eval, eval_clear s env e h]
  | .isUnit e, h => by simp only [Exp.plain] at h; simp only [Exp.eval, eval_clear s env e h]
  | .tokText e, h => by simp only [Exp.plain] at h; simp only [Exp.eval, eval_clear s env e h]
  | .matchKw e, h => by simp only [Exp.plain] at h; simp only [Exp.eval, eval_clear s env e h, clear_lx]
  | .matchOneOf e, h => by simp only [Exp.plain] at h; simp only [Exp.eval, eval_clear s env e h, clear_lx]
  | .idx a b, h => by
    simp only [Exp.plain, Bool.and_eq_true] at h; simp only [Exp.eval, eval_clear s env a h.1, eval_clear s env b h.2]
  | .append a b, h => by
    simp only [Exp.plain, Bool.and_eq_true] at h; simp only [Exp.eval, eval_clear s env a h.1, eval_clear s env b h.2]
  | .appendAll a b, h => by
    simp only [Exp.plain, Bool.and_eq_true] at h; simp only [Exp.eval, eval_clear s env a h.1, eval_clear s env b h.2]
  | .and a b, h => by
    simp only [Exp.plain, Bool.and_eq_true] at h; simp only [Exp.eval, eval_clear s env a h.1, eval_clear s env b h.2]
  | .or a b, h => by
    simp only [Exp.plain, Bool.and_eq_true] at h; simp only [Exp.eval, eval_clear s env a h.1, eval_clear s env b h.2]
  | .eqStr a b, h => by
    simp only [Exp.plain, Bool.and_eq_true] at h; simp only [Exp.eval, eval_clear s env a h.1, eval_clear s env b h.2]
  | .eqNat a b, h => by
    simp only [Exp.plain, Bool.and_eq_true] at h; simp only [Exp.eval, eval_clear s env a h.1, eval_clear s env b h.2]
  | .lt a b, h => by
    simp only [Exp.plain, Bool.and_eq_true] at h; simp only [Exp.eval, eval_clear s env a h.1, eval_clear s env b h.2]
  | .add a b, h => by
    simp only [Exp.plain, Bool.and_eq_true] at h; simp only [Exp.eval, eval_clear s env a h.1, eval_clear s env b h.2]
  | .sub a b, h => by
    simp only [Exp.plain, Bool.and_eq_true] at h; simp only [Exp.eval, eval_clear s env a h.1, eval_clear s env b h.2]
  | .cat a b, h => by
    simp only [Exp.plain, Bool.and_eq_true] at h; simp only [Exp.eval, eval_clear s env a h.1, eval_clear s env b h.2]
  | .equalFold a b, h => by
    simp only [Exp.plain, Bool.and_eq_true] at h; simp only [Exp.eval, eval_clear s env a h.1, eval_clear s env b h.2]
  | .contains a b, h => by
    simp only [Exp.plain, Bool.and_eq_true] at h; simp only [Exp.eval, eval_clear s env a h.1, eval_clear s env b h.2]
  | .containsFold a b, h => by
    simp only [Exp.plain, Bool.and_eq_true] at h; simp only [Exp.eval, eval_clear s env a h.1, eval_clear s env b h.2]
  | .mk _ es, h => by simp only [Exp.plain] at h; simp only [Exp.eval, evalL_clear s env es h]
  | .error _ es, h => by simp only [Exp.plain] at h; simp only [Exp.eval, evalL_clear s env es h]
  | .matchKinds es, h => by simp only [Exp.plain] at h; simp only [Exp.eval, evalL_clear s env es h, clear_lx]
  | .nil, _ | .nat _, _ | .bool _, _ | .str _, _ | .empty, _ | .var _, _ | .cur, _ | .curKind, _ | .curString, _
  | .pos, _ | .end_, _ | .isEOF, _ | .strs _, _ => by simp only [Exp.eval, clear_lx]
  | .memoHas _, h => by simp [Exp.plain] at h
theorem evalL_clear (s : PS) (env : List V) : ∀ es : List Exp, Exp.plainL es = true →
    Exp.evalL s.clear env es = Exp.evalL s env es
  | [], _ => rfl
  | e :: es, h => by
    simp only [Exp.plainL, Bool.and_eq_true] at h
    simp only [Exp.evalL, eval_clear s env e h.1, evalL_clear s env es h.2]
end

/-- The call does not look into the memo. -/
def Prim.plain : Prim → Bool
  | .tryKind e | .expectKind e | .expectKw e | .wrap e => e.plain
  | _ => true

theorem wrapErr_clear (s : PS) (v : V) : wrapErr s.clear v = wrapErr s v := rfl

theorem prim_clear (s : PS) (env : List V) (p : Prim) (h : p.plain = true) : p.run s.clear env = p.run s env := by
  cases p <;> simp only [Prim.plain] at h <;> simp only [Prim.run, clear_lx] <;>
    first | rfl | (simp only [eval_clear s env _ h, wrapErr_clear]; done) | (simp only [eval_clear s env _ h]; rfl)

/-! ### The lexer stays reachable -/

theorem reach_advance {input : Str} {l : Lx} (h : Reach input l) : Reach input l.advance :=
  reach_next h (next_advance l)

theorem reach_takeKws {input : Str} (ks : List Str) : ∀ {l l' : Lx}, Reach input l → l.takeKws ks = some l' → Reach input l' := by
  induction ks with
  | nil => intro l l' h e; simp only [Lx.takeKws, Option.some.injEq] at e; exact e ▸ h
  | cons k ks ih =>
    intro l l' h e
    simp only [Lx.takeKws] at e
    split at e
    · exact ih (reach_advance h) e
    · simp at e

theorem reach_tryKind {input : Str} {l : Lx} (h : Reach input l) (k : Str) : Reach input (l.tryKind k).2 := by
  unfold Lx.tryKind
  split
  · exact reach_advance h
  · exact h

theorem reach_prim {input : Str} {s : PS} {env : List V} {p : Prim} {vs : List V} {l : Lx} (h : Reach input s.lx)
    (e : p.run s env = some (vs, l)) : Reach input l := by
  cases p with
  | consume =>
    simp only [Prim.run, Option.some.injEq] at e
    split at e
    · rename_i hc; simp only [Prod.mk.injEq] at e; exact e.2 ▸ .ok h hc
    · rename_i hc; simp only [Prod.mk.injEq] at e; exact e.2 ▸ .err h hc
  | tryKind k =>
    simp only [Prim.run, Option.map_eq_some_iff] at e
    obtain ⟨k, -, e⟩ := e
    simp only [Prod.mk.injEq] at e
    exact e.2 ▸ reach_tryKind h k
  | expectKind k =>
    simp only [Prim.run, Option.map_eq_some_iff] at e
    obtain ⟨k, -, e⟩ := e
    have := reach_tryKind h k
    split at e <;> rename_i hk <;> rw [hk] at this <;> simp only [Prod.mk.injEq] at e <;> exact e.2 ▸ this
  | expectKw k =>
    simp only [Prim.run, Option.map_eq_some_iff] at e
    obtain ⟨k, -, e⟩ := e
    split at e <;> simp only [Prod.mk.injEq] at e
    · exact e.2 ▸ h
    · exact e.2 ▸ reach_advance h
  | tryKws ks =>
    simp only [Prim.run, Option.some.injEq, Prod.mk.injEq] at e
    rw [← e.2]
    unfold Lx.tryKws
    split
    · rename_i hk; exact reach_takeKws ks h hk
    · exact h
  | peek =>
    simp only [Prim.run, Option.some.injEq, Lx.peek] at e
    cases hc : s.lx.consume with
    | ok l' => simp only [hc, Prod.mk.injEq] at e; exact e.2 ▸ h
    | err l' => simp only [hc, Prod.mk.injEq] at e; exact e.2 ▸ .err h hc
  | wrap x =>
    simp only [Prim.run, Option.map_eq_some_iff, Prod.mk.injEq] at e
    obtain ⟨_, -, -, e⟩ := e
    exact e ▸ h

/-! ### Statements -/

/-- The statement does not use the memo. -/
def Stmt.plain {Fn : Type} : Stmt Fn → Bool
  | .seq a b => a.plain && b.plain
  | .set _ _ e => e.plain
  | .setF _ _ _ e => e.plain
  | .ite _ c a b => c.plain && a.plain && b.plain
  | .loop b => b.plain
  | .ret _ es => Exp.plainL es
  | .call _ _ es _ => Exp.plainL es
  | .prim _ p _ => p.plain
  | .memoAdd _ _ => false
  | _ => true

theorem plain_noMemo {Fn : Type} : ∀ st : Stmt Fn, st.plain = true → st.noMemo = st
  | .seq a b, h => by
    simp only [Stmt.plain, Bool.and_eq_true] at h
    simp only [Stmt.noMemo, plain_noMemo a h.1, plain_noMemo b h.2]
  | .ite ln c a b, h => by
    simp only [Stmt.plain, Bool.and_eq_true] at h
    simp only [Stmt.noMemo, plain_noMemo a h.1.2, plain_noMemo b h.2]
  | .loop b, h => by
    simp only [Stmt.plain] at h
    simp only [Stmt.noMemo, plain_noMemo b h]
  | .skip, _ | .set .., _ | .setF .., _ | .brk, _ | .cont, _ | .ret .., _ | .call .., _ | .prim .., _ | .save, _
  | .restore, _ => rfl
  | .memoAdd .., h => by simp [Stmt.plain] at h

/-- An outcome without the contents of the memo. -/
def Out.clear : Out → Out
  | .next fr s => .next fr s.clear
  | .brk fr s => .brk fr s.clear
  | .cont fr s => .cont fr s.clear
  | .ret vs s => .ret vs s.clear
  | o => o

/-- The invariant of outcomes; `K` is the number of local variables. -/
def OFine (input : Str) (K : Nat) : Out → Prop
  | .next fr s | .brk fr s | .cont fr s => Fine input s ∧ Reach input fr.saved ∧ K ≤ fr.env.length
  | .ret _ s => Fine input s
  | .panic _ => True
  | .fuel => True

/-- The parser without the memo has the same outcome as `o` with enough fuel. -/
def OSim (input : Str) (K : Nat) (o : Out) (P : Nat → Out) : Prop := o = .fuel ∨ (OFine input K o ∧ ∃ m, P m = o.clear)

/-- The same for calls. -/
def CSim (input : Str) (o : COut) (P : Nat → COut) : Prop := match o with
  | .ret _ s => Fine input s ∧ ∃ m, P m = o.clear
  | .panic _ => ∃ m, P m = o
  | .fuel => True

/-- A statement is simulated. -/
def SSim (input : Str) (K : Nat) (call : Fn → List V → PS → COut) (n : Nat) (st : Stmt Fn) : Prop :=
  ∀ fr s, Fine input s → Reach input fr.saved ∧ K ≤ fr.env.length →
    OSim input K (st.run call n fr s) (fun m => st.noMemo.run (runFn retryTable m) m fr s.clear)

theorem retry_mono {st : Stmt Fn} {fr : Frame} {s : PS} {m m' : Nat} (h : m ≤ m') {o : Out}
    (hr : st.run (runFn retryTable m) m fr s = o) (ho : o ≠ .fuel) : st.run (runFn retryTable m') m' fr s = o := by
  rw [run_mono (runFn_mono retryTable m m' h) h st fr s (by rw [hr]; exact ho), hr]

theorem clear_ne_fuel {o : Out} (h : o ≠ .fuel) : o.clear ≠ .fuel := by cases o <;> simp_all [Out.clear]

variable {input : Str} {K : Nat} {call : Fn → List V → PS → COut} {n : Nat}

theorem ssim_seq {a b : Stmt Fn} (ha : SSim input K call n a) (hb : SSim input K call n b) : SSim input K call n (.seq a b) := by
  intro fr s hs hf
  rcases ha fr s hs hf with h | ⟨h1, m, h2⟩
  · left; simp [Stmt.run, h]
  · cases hae : a.run call n fr s with
    | next fr1 s1 =>
      rw [hae] at h1 h2
      rcases hb fr1 s1 h1.1 h1.2 with h | ⟨h3, m', h4⟩
      · left; simp [Stmt.run, hae, h]
      · by_cases hne : b.run call n fr1 s1 = .fuel
        · left; simp [Stmt.run, hae, hne]
        right
        refine ⟨by simpa [Stmt.run, hae] using h3, max m m', ?_⟩
        simp only [Stmt.noMemo, Stmt.run, hae]
        rw [retry_mono (Nat.le_max_left m m') h2 (by simp [Out.clear])]
        simp only [Out.clear]
        exact retry_mono (Nat.le_max_right m m') h4 (clear_ne_fuel hne)
    | fuel => left; simp [Stmt.run, hae]
    | _ =>
      right
      rw [hae] at h1 h2
      refine ⟨by simpa [Stmt.run, hae] using h1, m, ?_⟩
      simp only [Stmt.noMemo, Stmt.run, hae, h2, Out.clear]

theorem ssim_ite {ln : Nat} {c : Exp} (hc : c.plain = true) {a b : Stmt Fn} (ha : SSim input K call n a)
    (hb : SSim input K call n b) : SSim input K call n (.ite ln c a b) := by
  intro fr s hs hf
  simp only [Stmt.run, Stmt.noMemo, OSim]
  rw [eval_clear s fr.env c hc]
  cases (c.eval s fr.env).bind V.toBool? with
  | none => right; exact ⟨trivial, 0, rfl⟩
  | some x =>
    cases x with
    | true => exact ha fr s hs hf
    | false => exact hb fr s hs hf

theorem ssim_loopN {b : Stmt Fn} (hb : SSim input K call n b) : ∀ k fr s, Fine input s → Reach input fr.saved ∧ K ≤ fr.env.length →
    loopN (b.run call n) k fr s = .fuel ∨ (OFine input K (loopN (b.run call n) k fr s) ∧
      ∃ m, loopN (b.noMemo.run (runFn retryTable m) m) m fr s.clear = (loopN (b.run call n) k fr s).clear) := by
  intro k
  induction k with
  | zero => intro fr s _ _; left; rfl
  | succ k ih =>
    intro fr s hs hf
    have step : ∀ {fr1 s1 m} , Fine input s1 → Reach input fr1.saved ∧ K ≤ fr1.env.length →
        (b.noMemo.run (runFn retryTable m) m fr s.clear = .next fr1 s1.clear ∨
          b.noMemo.run (runFn retryTable m) m fr s.clear = .cont fr1 s1.clear) →
        loopN (b.run call n) (k + 1) fr s = loopN (b.run call n) k fr1 s1 →
        loopN (b.run call n) (k + 1) fr s = .fuel ∨ (OFine input K (loopN (b.run call n) (k + 1) fr s) ∧
          ∃ m, loopN (b.noMemo.run (runFn retryTable m) m) m fr s.clear = (loopN (b.run call n) (k + 1) fr s).clear) := by
      intro fr1 s1 m hs1 hf1 h2 heq
      rw [heq]
      rcases ih fr1 s1 hs1 hf1 with h | ⟨h3, m', h4⟩
      · exact Or.inl h
      · by_cases hne : loopN (b.run call n) k fr1 s1 = .fuel
        · exact Or.inl hne
        refine Or.inr ⟨h3, max m m' + 1, ?_⟩
        rw [← h4]
        have hm : m ≤ max m m' + 1 := by omega
        have e : loopN (b.noMemo.run (runFn retryTable (max m m' + 1)) (max m m' + 1)) (max m m') fr1 s1.clear =
            loopN (b.noMemo.run (runFn retryTable m') m') m' fr1 s1.clear := by
          refine loopN_mono (fun fr s hne => run_mono (runFn_mono retryTable _ _ (by omega)) (by omega) _ _ _ hne) m' _ (by omega) _ _ ?_
          rw [h4]; exact clear_ne_fuel hne
        rcases h2 with h2 | h2
        · simp only [loopN]
          rw [retry_mono hm h2 (by simp)]
          exact e
        · simp only [loopN]
          rw [retry_mono hm h2 (by simp)]
          exact e
    rcases hb fr s hs hf with h | ⟨h1, m, h2⟩
    · left; simp [loopN, h]
    · cases hbe : b.run call n fr s with
      | next fr1 s1 =>
        rw [hbe] at h1 h2
        exact step h1.1 h1.2 (Or.inl h2) (by simp only [loopN, hbe])
      | cont fr1 s1 =>
        rw [hbe] at h1 h2
        exact step h1.1 h1.2 (Or.inr h2) (by simp only [loopN, hbe])
      | brk fr1 s1 =>
        rw [hbe] at h1 h2
        refine Or.inr ⟨by simp only [loopN, hbe]; exact h1, m + 1, ?_⟩
        simp only [loopN, hbe]
        rw [retry_mono (Nat.le_succ m) h2 (by simp [Out.clear])]
        rfl
      | fuel => left; simp [loopN, hbe]
      | ret vs s1 =>
        rw [hbe] at h1 h2
        refine Or.inr ⟨by simpa [loopN, hbe] using h1, m + 1, ?_⟩
        simp only [loopN, hbe]
        rw [retry_mono (Nat.le_succ m) h2 (by simp [Out.clear])]
        rfl
      | panic l =>
        rw [hbe] at h1 h2
        refine Or.inr ⟨by simp [loopN, hbe, OFine], m + 1, ?_⟩
        simp only [loopN, hbe]
        rw [retry_mono (Nat.le_succ m) h2 (by simp [Out.clear])]
        rfl

@[simp] theorem storeAll_length (dst : List Nat) : ∀ (env vs : List V), (storeAll env dst vs).length = env.length := by
  induction dst with
  | nil => intro env vs; cases vs <;> rfl
  | cons x xs ih =>
    intro env vs
    cases vs with
    | nil => rfl
    | cons v vs => simp [storeAll, ih]

/-- Calls are simulated. -/
def CallSim (input : Str) (call : Fn → List V → PS → COut) : Prop := ∀ f args s, Fine input s →
  CSim input (call f args s) (fun m => runFn retryTable m f args s.clear)

theorem ssim_call (hcall : CallSim input call) {ln : Nat} {f : Fn} {es : List Exp} {dst : List Nat}
    (he : Exp.plainL es = true) : SSim input K call n (.call ln f es dst) := by
  intro fr s hs hf
  simp only [Stmt.run, Stmt.noMemo, OSim]
  rw [evalL_clear s fr.env es he]
  cases Exp.evalL s fr.env es with
  | none => exact Or.inr ⟨trivial, 0, rfl⟩
  | some vs =>
    have := hcall f vs s hs
    simp only
    cases hc : call f vs s with
    | ret rs s1 =>
      rw [hc] at this
      obtain ⟨h1, m, h2⟩ := this
      exact Or.inr ⟨⟨h1, hf.1, by simpa using hf.2⟩, m, by simp only at h2; rw [h2]; rfl⟩
    | panic l =>
      rw [hc] at this
      obtain ⟨m, h2⟩ := this
      exact Or.inr ⟨trivial, m, by simp only at h2; rw [h2]; rfl⟩
    | fuel => exact Or.inl rfl

theorem ssim_plain (hcall : CallSim input call) : ∀ st : Stmt Fn, st.plain = true → SSim input K call n st := by
  intro st
  induction st with
  | seq a b iha ihb =>
    intro h
    simp only [Stmt.plain, Bool.and_eq_true] at h
    exact ssim_seq (iha h.1) (ihb h.2)
  | ite ln c a b iha ihb =>
    intro h
    simp only [Stmt.plain, Bool.and_eq_true] at h
    exact ssim_ite h.1.1 (iha h.1.2) (ihb h.2)
  | loop b ih =>
    intro h fr s hs hf
    simp only [Stmt.plain] at h
    exact ssim_loopN (ih h) n fr s hs hf
  | call ln f es dst => intro h; exact ssim_call hcall h
  | skip => intro _ fr s hs hf; exact Or.inr ⟨⟨hs, hf⟩, 0, rfl⟩
  | brk => intro _ fr s hs hf; exact Or.inr ⟨⟨hs, hf⟩, 0, rfl⟩
  | cont => intro _ fr s hs hf; exact Or.inr ⟨⟨hs, hf⟩, 0, rfl⟩
  | save => intro _ fr s hs hf; exact Or.inr ⟨⟨hs, hs.1, hf.2⟩, 0, rfl⟩
  | restore => intro _ fr s hs hf; exact Or.inr ⟨⟨⟨hf.1, hs.2⟩, hf⟩, 0, rfl⟩
  | memoAdd => intro h; simp [Stmt.plain] at h
  | set ln x e =>
    intro h fr s hs hf
    simp only [Stmt.plain] at h
    simp only [Stmt.run, Stmt.noMemo, OSim, eval_clear s fr.env e h]
    cases e.eval s fr.env with
    | none => exact Or.inr ⟨trivial, 0, rfl⟩
    | some v => exact Or.inr ⟨⟨hs, hf.1, by simpa using hf.2⟩, 0, rfl⟩
  | setF ln x path e =>
    intro h fr s hs hf
    simp only [Stmt.plain] at h
    simp only [Stmt.run, Stmt.noMemo, OSim, eval_clear s fr.env e h]
    cases e.eval s fr.env with
    | none => exact Or.inr ⟨trivial, 0, rfl⟩
    | some v =>
      simp only
      cases fr.env[x]?.bind (fun w => setPath w path v) with
      | none => exact Or.inr ⟨trivial, 0, rfl⟩
      | some w => exact Or.inr ⟨⟨hs, hf.1, by simpa using hf.2⟩, 0, rfl⟩
  | ret ln es =>
    intro h fr s hs hf
    simp only [Stmt.plain] at h
    simp only [Stmt.run, Stmt.noMemo, OSim, evalL_clear s fr.env es h]
    cases Exp.evalL s fr.env es with
    | none => exact Or.inr ⟨trivial, 0, rfl⟩
    | some v => exact Or.inr ⟨hs, 0, rfl⟩
  | prim ln p dst =>
    intro h fr s hs hf
    simp only [Stmt.plain] at h
    simp only [Stmt.run, Stmt.noMemo, OSim, prim_clear s fr.env p h]
    cases hp : p.run s fr.env with
    | none => exact Or.inr ⟨trivial, 0, rfl⟩
    | some q =>
      obtain ⟨rs, l⟩ := q
      exact Or.inr ⟨⟨⟨reach_prim hs.1 hp, hs.2⟩, hf.1, by simpa using hf.2⟩, 0, rfl⟩

/-! ### Results -/

/-- Every `return` returns `k` values. -/
def Stmt.rets {Fn : Type} (k : Nat) : Stmt Fn → Bool
  | .seq a b => a.rets k && b.rets k
  | .ite _ _ a b => a.rets k && b.rets k
  | .loop b => b.rets k
  | .ret _ es => es.length == k
  | _ => true

/-- The end of the statement is not reached, and there is no `break` or `continue`. -/
def Stmt.ends {Fn : Type} : Stmt Fn → Bool × Bool
  | .seq a b => (b.ends.1, a.ends.2 && b.ends.2)
  | .ite _ _ a b => (a.ends.1 && b.ends.1, a.ends.2 && b.ends.2)
  | .loop _ => (false, false)
  | .brk => (true, false)
  | .cont => (true, false)
  | .ret _ _ => (true, true)
  | _ => (false, true)

theorem evalL_length {s : PS} {env : List V} : ∀ {es : List Exp} {vs : List V}, Exp.evalL s env es = some vs →
    vs.length = es.length
  | [], vs, h => by simp only [Exp.evalL, Option.some.injEq] at h; subst h; rfl
  | e :: es, vs, h => by
    simp only [Exp.evalL, Option.bind_eq_some_iff, Option.map_eq_some_iff] at h
    obtain ⟨v, -, ws, h, rfl⟩ := h
    simp [evalL_length h]

theorem rets_sound {Fn : Type} {call : Fn → List V → PS → COut} {n k : Nat} : ∀ (st : Stmt Fn), st.rets k = true →
    ∀ fr s vs s', st.run call n fr s = .ret vs s' → vs.length = k := by
  intro st
  induction st with
  | seq a b iha ihb =>
    intro h fr s vs s' hr
    simp only [Stmt.rets, Bool.and_eq_true] at h
    simp only [Stmt.run] at hr
    split at hr
    · exact ihb h.2 _ _ _ _ hr
    · exact iha h.1 _ _ _ _ hr
  | ite ln c a b iha ihb =>
    intro h fr s vs s' hr
    simp only [Stmt.rets, Bool.and_eq_true] at h
    simp only [Stmt.run] at hr
    split at hr
    · exact iha h.1 _ _ _ _ hr
    · exact ihb h.2 _ _ _ _ hr
    · simp at hr
  | loop b ih =>
    intro h fr s vs s' hr
    simp only [Stmt.rets] at h
    simp only [Stmt.run] at hr
    have : ∀ k fr s, loopN (b.run call n) k fr s = .ret vs s' → ∃ fr s, b.run call n fr s = .ret vs s' := by
      intro k
      induction k with
      | zero => intro fr s h; simp [loopN] at h
      | succ k ihk =>
        intro fr s h
        simp only [loopN] at h
        split at h
        · exact ihk _ _ h
        · exact ihk _ _ h
        · simp at h
        · exact ⟨_, _, h⟩
    obtain ⟨fr, s, hr⟩ := this _ _ _ hr
    exact ih h _ _ _ _ hr
  | ret ln es =>
    intro h fr s vs s' hr
    simp only [Stmt.rets, beq_iff_eq] at h
    simp only [Stmt.run] at hr
    split at hr
    · rename_i hv
      simp only [Out.ret.injEq] at hr
      rw [← hr.1, evalL_length hv, h]
    · simp at hr
  | call ln f es dst =>
    intro h fr s vs s' hr
    simp only [Stmt.run] at hr
    split at hr
    · split at hr <;> simp at hr
    · simp at hr
  | setF ln x path e =>
    intro h fr s vs s' hr
    simp only [Stmt.run] at hr
    split at hr
    · split at hr <;> simp at hr
    · simp at hr
  | skip => intro h fr s vs s' hr; simp [Stmt.run] at hr
  | brk => intro h fr s vs s' hr; simp [Stmt.run] at hr
  | cont => intro h fr s vs s' hr; simp [Stmt.run] at hr
  | save => intro h fr s vs s' hr; simp [Stmt.run] at hr
  | restore => intro h fr s vs s' hr; simp [Stmt.run] at hr
  | set => intro h fr s vs s' hr; simp only [Stmt.run] at hr; split at hr <;> simp at hr
  | prim => intro h fr s vs s' hr; simp only [Stmt.run] at hr; split at hr <;> simp at hr
  | memoAdd => intro h fr s vs s' hr; simp only [Stmt.run] at hr; split at hr <;> simp at hr

theorem ends_sound {Fn : Type} {call : Fn → List V → PS → COut} {n : Nat} : ∀ (st : Stmt Fn) fr s,
    (st.ends.1 = true → ∀ fr' s', st.run call n fr s ≠ .next fr' s') ∧
    (st.ends.2 = true → ∀ fr' s', st.run call n fr s ≠ .brk fr' s' ∧ st.run call n fr s ≠ .cont fr' s') := by
  intro st
  induction st with
  | seq a b iha ihb =>
    intro fr s
    simp only [Stmt.ends, Stmt.run, Bool.and_eq_true]
    cases ha : a.run call n fr s with
    | next fr1 s1 => exact ⟨(ihb fr1 s1).1, fun h => (ihb fr1 s1).2 h.2⟩
    | brk fr1 s1 => exact ⟨by simp, fun h => absurd ha ((iha fr s).2 h.1 fr1 s1).1⟩
    | cont fr1 s1 => exact ⟨by simp, fun h => absurd ha ((iha fr s).2 h.1 fr1 s1).2⟩
    | _ => simp
  | ite ln c a b iha ihb =>
    intro fr s
    simp only [Stmt.ends, Stmt.run, Bool.and_eq_true]
    split
    · exact ⟨fun h => (iha fr s).1 h.1, fun h => (iha fr s).2 h.1⟩
    · exact ⟨fun h => (ihb fr s).1 h.2, fun h => (ihb fr s).2 h.2⟩
    · simp
  | loop b ih => intro fr s; simp [Stmt.ends]
  | ret ln es => intro fr s; simp only [Stmt.run, Stmt.ends]; split <;> simp
  | call ln f es dst =>
    intro fr s
    simp only [Stmt.run, Stmt.ends]
    split
    · split <;> simp
    · simp
  | setF ln x path e =>
    intro fr s
    simp only [Stmt.run, Stmt.ends]
    split
    · split <;> simp
    · simp
  | skip => intro fr s; simp [Stmt.ends, Stmt.run]
  | brk => intro fr s; simp [Stmt.ends, Stmt.run]
  | cont => intro fr s; simp [Stmt.ends, Stmt.run]
  | save => intro fr s; simp [Stmt.ends, Stmt.run]
  | restore => intro fr s; simp [Stmt.ends, Stmt.run]
  | set => intro fr s; simp only [Stmt.run, Stmt.ends]; split <;> simp
  | prim => intro fr s; simp only [Stmt.run, Stmt.ends]; split <;> simp
  | memoAdd => intro fr s; simp only [Stmt.run, Stmt.ends]; split <;> simp

theorem runFn_length {Fn : Type} {table : Fn → Func Fn} {f : Fn} {k : Nat} (h1 : (table f).body.rets k = true)
    (h2 : (table f).body.ends = (true, true)) {n : Nat} {args : List V} {s : PS} {vs : List V} {s' : PS}
    (h : runFn table n f args s = .ret vs s') : vs.length = k := by
  cases n with
  | zero => simp [runFn] at h
  | succ n =>
    simp only [runFn] at h
    split at h
    · rename_i hr
      simp only [COut.ret.injEq] at h
      obtain ⟨rfl, rfl⟩ := h
      exact rets_sound _ h1 _ _ _ _ hr
    · simp at h
    · simp at h
    · rename_i hr; exact absurd hr ((ends_sound _ _ _).1 (by rw [h2]) _ _)
    · rename_i hr; exact absurd hr ((ends_sound _ _ _).2 (by rw [h2]) _ _).1
    · rename_i hr; exact absurd hr ((ends_sound _ _ _).2 (by rw [h2]) _ _).2

theorem any_length {n : Nat} {args : List V} {s : PS} {vs : List V} {s' : PS}
    (h : runFn fnTable n .parseAnyKeyword args s = .ret vs s') : vs.length = 2 := runFn_length rfl rfl h

theorem interval_length {n : Nat} {args : List V} {s : PS} {vs : List V} {s' : PS}
    (h : runFn fnTable n .parseInterval args s = .ret vs s') : vs.length = 2 := runFn_length rfl rfl h

/-! ### Without the memo the memo stays empty -/

/-- No statement adds to the memo, and only methods with `q` are called. -/
def Stmt.noAdd {Fn : Type} (q : Fn → Bool) : Stmt Fn → Bool
  | .seq a b => a.noAdd q && b.noAdd q
  | .ite _ _ a b => a.noAdd q && b.noAdd q
  | .loop b => b.noAdd q
  | .call _ f _ _ => q f
  | .memoAdd _ _ => false
  | _ => true

theorem noMemo_noAdd {Fn : Type} : ∀ st : Stmt Fn, st.noMemo.noAdd (fun _ => true) = true
  | .seq a b => by simp [Stmt.noMemo, Stmt.noAdd, noMemo_noAdd a, noMemo_noAdd b]
  | .ite ln c a b => by simp [Stmt.noMemo, Stmt.noAdd, noMemo_noAdd a, noMemo_noAdd b]
  | .loop b => by simp [Stmt.noMemo, Stmt.noAdd, noMemo_noAdd b]
  | .skip | .set .. | .setF .. | .brk | .cont | .ret .. | .call .. | .prim .. | .save | .restore | .memoAdd .. => rfl

/-- The state after an outcome. -/
def Out.state : Out → Option PS
  | .next _ s | .brk _ s | .cont _ s | .ret _ s => some s
  | _ => none

/-- Memo and input are the same. -/
def PS.Same (s s' : PS) : Prop := s'.memo = s.memo ∧ s'.input = s.input

theorem noAdd_same {Fn : Type} {q : Fn → Bool} {call : Fn → List V → PS → COut} {n : Nat}
    (hc : ∀ f args s rs s', q f = true → call f args s = .ret rs s' → s.Same s') : ∀ (st : Stmt Fn), st.noAdd q = true →
    ∀ fr s s', (st.run call n fr s).state = some s' → s.Same s' := by
  intro st
  induction st with
  | seq a b iha ihb =>
    intro h fr s s' hr
    simp only [Stmt.noAdd, Bool.and_eq_true] at h
    simp only [Stmt.run] at hr
    split at hr
    · rename_i fr1 s1 ha
      have h1 := iha h.1 fr s s1 (by rw [ha]; rfl)
      have h2 := ihb h.2 _ _ _ hr
      exact ⟨h2.1.trans h1.1, h2.2.trans h1.2⟩
    · exact iha h.1 _ _ _ hr
  | ite ln c a b iha ihb =>
    intro h fr s s' hr
    simp only [Stmt.noAdd, Bool.and_eq_true] at h
    simp only [Stmt.run] at hr
    split at hr
    · exact iha h.1 _ _ _ hr
    · exact ihb h.2 _ _ _ hr
    · simp [Out.state] at hr
  | loop b ih =>
    intro h fr s s' hr
    simp only [Stmt.noAdd] at h
    simp only [Stmt.run] at hr
    have : ∀ k fr s, (loopN (b.run call n) k fr s).state = some s' → s.Same s' := by
      intro k
      induction k with
      | zero => intro fr s h; simp [loopN, Out.state] at h
      | succ k ihk =>
        intro fr s hl
        simp only [loopN] at hl
        split at hl
        · rename_i ha
          have h1 := ih h fr s _ (by rw [ha]; rfl)
          have h2 := ihk _ _ hl
          exact ⟨h2.1.trans h1.1, h2.2.trans h1.2⟩
        · rename_i ha
          have h1 := ih h fr s _ (by rw [ha]; rfl)
          have h2 := ihk _ _ hl
          exact ⟨h2.1.trans h1.1, h2.2.trans h1.2⟩
        · rename_i ha
          simp only [Out.state, Option.some.injEq] at hl
          subst hl
          exact ih h fr s _ (by rw [ha]; rfl)
        · exact ih h fr s _ hl
    exact this _ _ _ hr
  | call ln f es dst =>
    intro h fr s s' hr
    simp only [Stmt.run] at hr
    split at hr
    · split at hr
      · rename_i hcall; simp only [Out.state, Option.some.injEq] at hr; subst hr; exact hc _ _ _ _ _ h hcall
      · simp [Out.state] at hr
      · simp [Out.state] at hr
    · simp [Out.state] at hr
  | memoAdd => intro h; simp [Stmt.noAdd] at h
  | skip => intro h fr s s' hr; simp only [Stmt.run, Out.state, Option.some.injEq] at hr; subst hr; exact ⟨rfl, rfl⟩
  | brk => intro h fr s s' hr; simp only [Stmt.run, Out.state, Option.some.injEq] at hr; subst hr; exact ⟨rfl, rfl⟩
  | cont => intro h fr s s' hr; simp only [Stmt.run, Out.state, Option.some.injEq] at hr; subst hr; exact ⟨rfl, rfl⟩
  | save => intro h fr s s' hr; simp only [Stmt.run, Out.state, Option.some.injEq] at hr; subst hr; exact ⟨rfl, rfl⟩
  | restore => intro h fr s s' hr; simp only [Stmt.run, Out.state, Option.some.injEq] at hr; subst hr; exact ⟨rfl, rfl⟩
  | ret ln es =>
    intro h fr s s' hr
    simp only [Stmt.run] at hr
    split at hr <;> simp only [Out.state, Option.some.injEq, reduceCtorEq] at hr
    subst hr; exact ⟨rfl, rfl⟩
  | set =>
    intro h fr s s' hr
    simp only [Stmt.run] at hr
    split at hr <;> simp only [Out.state, Option.some.injEq, reduceCtorEq] at hr
    subst hr; exact ⟨rfl, rfl⟩
  | setF =>
    intro h fr s s' hr
    simp only [Stmt.run] at hr
    split at hr
    · split at hr <;> simp only [Out.state, Option.some.injEq, reduceCtorEq] at hr
      subst hr; exact ⟨rfl, rfl⟩
    · simp [Out.state] at hr
  | prim =>
    intro h fr s s' hr
    simp only [Stmt.run] at hr
    split at hr <;> simp only [Out.state, Option.some.injEq, reduceCtorEq] at hr
    subst hr; exact ⟨rfl, rfl⟩

theorem retry_same : ∀ n f args s rs s', runFn retryTable n f args s = .ret rs s' → s.Same s' := by
  intro n
  induction n with
  | zero => intro f args s rs s' h; simp [runFn] at h
  | succ n ih =>
    intro f args s rs s' h
    simp only [runFn] at h
    have key := noAdd_same (call := runFn retryTable n) (n := n) (fun f args s rs s' _ h => ih f args s rs s' h) (retryTable f).body (noMemo_noAdd _)
    split at h <;> simp only [COut.ret.injEq, reduceCtorEq] at h <;> rename_i hr <;>
      (obtain ⟨rfl, rfl⟩ := h; exact key _ _ _ (by rw [hr]; rfl))

end Verif

/-
The check of `Verif.Semi.Check` is sound: two runs on texts that agree up to a `;` stay in step.
-/
import Verif.Semi.Check
import Verif.Lemmas.Reach

namespace Verif.Semi
open Verif Spec

/-- The current token is no `;`. -/
def NotSemi (l : Lx) : Prop := l.curKind ≠ b!";"

/-- What the check claims to know is true. -/
structure Sat (k : Know) (env : List V) (saved l : Lx) : Prop where
  cur : k.cur = true → NotSemi l
  nxt : k.nxt = true → ∀ l', l.consume = .ok l' → NotSemi l'
  sav : k.sav = true → NotSemi saved
  imp : ∀ x ∈ k.imp, env[x]? = some (.bool true) → NotSemi l
  pk : ∀ x ∈ k.pk, ∀ v, env[x]? = some v → v = .nil ∨ ∃ l', l.consume = .ok l' ∧ v = tokV l'.cur
  kd : ∀ x ∈ k.kd, ∀ v, env[x]? = some v → v = .str l.curKind

variable {k k' : Know} {env : List V} {saved l : Lx}

theorem Sat.le (h : Sat k env saved l) (hle : k.le k' = true) : Sat k' env saved l := by
  simp only [Know.le, Bool.and_eq_true, Bool.or_eq_true, Bool.not_eq_true', List.all_eq_true, List.contains_iff_mem] at hle
  obtain ⟨⟨⟨⟨⟨h1, h2⟩, h3⟩, h4⟩, h5⟩, h6⟩ := hle
  refine ⟨fun e => h.cur ?_, fun e => h.nxt ?_, fun e => h.sav ?_, fun x hx hv => ?_, fun x hx => h.pk x (h5 x hx), fun x hx => h.kd x (h6 x hx)⟩
  · rcases h1 with h1 | h1
    · rw [e] at h1; cases h1
    · exact h1
  · rcases h2 with h1 | h1
    · rw [e] at h1; cases h1
    · exact h1
  · rcases h3 with h1 | h1
    · rw [e] at h1; cases h1
    · exact h1
  · rcases h4 x hx with h1 | h1
    · exact h.cur h1
    · exact h.imp x h1 hv

theorem le_join_left (a b : Know) : a.le (a.join b) = true := by
  simp only [Know.le, Know.join, Bool.and_eq_true, Bool.or_eq_true, Bool.not_eq_true', List.all_eq_true, List.contains_iff_mem,
    List.mem_filter, List.mem_append]
  refine ⟨⟨⟨⟨⟨?_, ?_⟩, ?_⟩, fun x hx => hx.2.1⟩, fun x hx => hx.1⟩, fun x hx => hx.1⟩
  · cases a.cur <;> simp
  · cases a.nxt <;> simp
  · cases a.sav <;> simp

theorem le_join_right (a b : Know) : b.le (a.join b) = true := by
  simp only [Know.le, Know.join, Bool.and_eq_true, Bool.or_eq_true, Bool.not_eq_true', List.all_eq_true, List.contains_iff_mem,
    List.mem_filter, List.mem_append]
  refine ⟨⟨⟨⟨⟨?_, ?_⟩, ?_⟩, fun x hx => hx.2.2⟩, fun x hx => hx.2⟩, fun x hx => hx.2⟩
  · cases b.cur <;> simp
  · cases b.nxt <;> simp
  · cases b.sav <;> simp

theorem Sat.joinL (h : Sat k env saved l) : Sat (k.join k') env saved l := h.le (le_join_left k k')
theorem Sat.joinR (h : Sat k' env saved l) : Sat (k.join k') env saved l := h.le (le_join_right k k')

/-! ### Conditions -/

theorem kw_notSemi {k : Str} (h : l.matchKw k = true) : NotSemi l := by
  simp only [Lx.matchKw, Bool.and_eq_true, Lx.matchKinds] at h
  obtain ⟨h, -⟩ := h
  intro e
  rw [e, if_neg (by decide), if_pos (by decide)] at h
  cases h

theorem oneOf_notSemi {ks : List Str} (h : l.matchOneOf ks = true) : NotSemi l := by
  simp only [Lx.matchOneOf, List.any_eq_true] at h
  obtain ⟨k, -, h⟩ := h
  exact kw_notSemi h

theorem kinds_notSemi {ks : List Str} (h : l.matchKinds ks = true) (hk : b!";" ∉ ks) : NotSemi l := by
  intro e
  simp only [Lx.matchKinds, e] at h
  rw [if_neg (by simpa using hk), if_pos (by decide)] at h
  cases h

/-- A token of kind `;` is spelled `;`. -/
theorem semi_str {l l' : Lx} (h : l.consume = .ok l') {t : Token} (ht : l'.cur = some t) (hk : t.kind.toStr = b!";") : t.str = b!";" := by
  rw [consume_ok_iff] at h
  cases h with
  | eof => simp at ht
  | token hg hl hp he =>
    simp only [Option.some.injEq] at ht
    subst ht
    cases hl with
    | number _ _ => simp only at hk; split at hk <;> simp [Kind.toStr] at hk
    | signed _ _ _ _ => simp only at hk; split at hk <;> simp [Kind.toStr] at hk
    | word _ _ _ => simp only at hk; split at hk <;> simp [Kind.toStr] at hk
    | backquoted _ => simp [Kind.toStr] at hk
    | doublequoted _ => simp [Kind.toStr] at hk
    | string _ _ => simp [Kind.toStr] at hk
    | op2 h =>
      simp only [twoByteOps, List.mem_cons, List.not_mem_nil, or_false] at h
      rcases h with rfl | rfl | rfl | rfl | rfl | rfl | rfl | rfl | rfl <;> simp [twoByteKind, Kind.toStr] at hk
    | op1 => exact hk

theorem toBool_bind {o : Option V} {b : Bool} (h : o.bind V.toBool? = some b) : o = some (.bool b) := by
  cases o with
  | none => simp at h
  | some v =>
    simp only [Option.bind_some] at h
    cases v <;> simp [V.toBool?] at h
    rw [h]

theorem toStr_bind {o : Option V} {b : Str} (h : o.bind V.toStr? = some b) : o = some (.str b) := by
  cases o with
  | none => simp at h
  | some v =>
    simp only [Option.bind_some] at h
    cases v <;> simp [V.toStr?] at h
    rw [h]

theorem evalL_strs {s : PS} : ∀ {es : List Exp} {ks : List Str}, (Exp.evalL s env es).bind (List.mapM V.toStr?) = some ks →
    es.all noSemi = true → b!";" ∉ ks
  | [], ks, h, _ => by
    simp [Exp.evalL] at h
    subst h; simp
  | e :: es, ks, h, ha => by
    rw [List.all_cons, Bool.and_eq_true] at ha
    obtain ⟨h1, h2⟩ := ha
    cases e <;> simp only [noSemi] at h1 <;> try cases h1
    rename_i x
    simp only [Exp.evalL, Exp.eval, Option.bind_some] at h
    cases he : Exp.evalL s env es with
    | none => rw [he] at h; simp at h
    | some vs =>
      rw [he] at h
      simp only [Option.map_some, Option.bind_some, List.mapM_cons, V.toStr?] at h
      cases hm : vs.mapM V.toStr? with
      | none => rw [hm] at h; simp at h
      | some ks' =>
        rw [hm] at h
        simp only [Option.pure_def, Option.bind_eq_bind, Option.bind_some, Option.some.injEq] at h
        subst h
        have := evalL_strs (es := es) (ks := ks') (by rw [he]; exact hm) h2
        simp only [bne_iff_ne, ne_eq] at h1
        simp only [List.mem_cons, not_or]
        exact ⟨fun e => h1 e.symm, this⟩

theorem givenEq_sat {s : PS} {x y : Exp} (h : Sat k env saved s.lx) (he : (Exp.eqStr x y).eval s env = some (.bool true)) :
    Sat (k.givenEq x y) env saved s.lx := by
  unfold Know.givenEq
  split
  · rename_i st
    simp only [Exp.eval, Option.bind_some, V.toStr?, Option.map_some, Option.some.injEq, V.bool.injEq, beq_iff_eq] at he
    refine { h with cur := fun hc => ?_ }
    simp only [Bool.or_eq_true, bne_iff_ne] at hc
    rcases hc with hc | hc
    · exact h.cur hc
    · intro e; rw [he] at e; exact hc e
  · rename_i x i st
    simp only [Exp.eval, Option.bind_some, V.toStr?, Option.map_some] at he
    refine { h with nxt := fun hc => ?_ }
    simp only [Bool.or_eq_true, Bool.and_eq_true, bne_iff_ne, List.contains_iff_mem, beq_iff_eq] at hc
    rcases hc with hc | ⟨⟨rfl, hc⟩, hne⟩
    · exact h.nxt hc
    · intro l' hl
      cases hv : env[x]? with
      | none => rw [hv] at he; simp at he
      | some v =>
        rcases h.pk x hc v hv with rfl | ⟨l'', h1, h2⟩
        · rw [hv] at he; simp [V.field] at he
        rw [hl] at h1
        cases h1
        rw [hv, h2] at he
        cases ht : l'.cur with
        | none => rw [ht] at he; simp [tokV, V.field] at he
        | some t =>
          rw [ht] at he
          simp only [tokV, Token.toV, N.Token, V.field, Option.bind_some, List.getElem?_cons_succ, List.getElem?_cons_zero, V.toStr?,
            Option.map_some, Option.some.injEq, V.bool.injEq, beq_iff_eq] at he
          intro e
          simp only [Lx.curKind, ht] at e
          exact hne (he.symm.trans (semi_str hl ht e))
  · rename_i x st
    simp only [Exp.eval, Option.bind_some, V.toStr?, Option.map_some] at he
    refine { h with cur := fun hc => ?_ }
    simp only [Bool.or_eq_true, Bool.and_eq_true, bne_iff_ne, List.contains_iff_mem] at hc
    rcases hc with hc | ⟨hc, hne⟩
    · exact h.cur hc
    · cases hv : env[x]? with
      | none => rw [hv] at he; simp at he
      | some v =>
        rw [hv, h.kd x hc v hv] at he
        simp only [Option.bind_some, V.toStr?, Option.map_some, Option.some.injEq, V.bool.injEq, beq_iff_eq] at he
        intro e; rw [he] at e; exact hne e
  · exact h

theorem given_sat {s : PS} : ∀ (e : Exp) {k : Know} {b : Bool}, Sat k env saved s.lx → e.eval s env = some (.bool b) →
    Sat (k.given e b) env saved s.lx := by
  intro e
  induction e using Exp.rec (motive_2 := fun _ => True) with
  | matchKw x _ =>
    intro k b h he
    cases b with
    | false => exact h
    | true =>
      simp only [Exp.eval, Option.map_eq_some_iff] at he
      obtain ⟨y, -, hy⟩ := he
      exact { h with cur := fun _ => kw_notSemi (by simpa using hy) }
  | matchOneOf x _ =>
    intro k b h he
    cases b with
    | false => exact h
    | true =>
      simp only [Exp.eval, Option.map_eq_some_iff] at he
      obtain ⟨y, -, hy⟩ := he
      exact { h with cur := fun _ => oneOf_notSemi (by simpa using hy) }
  | matchKinds ks _ =>
    intro k b h he
    cases b with
    | false => exact h
    | true =>
      simp only [Exp.eval, Option.map_eq_some_iff] at he
      obtain ⟨y, hk, hy⟩ := he
      refine { h with cur := fun hc => ?_ }
      change (k.cur || ks.all noSemi) = true at hc
      rw [Bool.or_eq_true] at hc
      rcases hc with hc | hc
      · exact h.cur hc
      · exact kinds_notSemi (by simpa using hy) (evalL_strs hk hc)
  | not x ih =>
    intro k b h he
    simp only [Exp.eval, Option.map_eq_some_iff] at he
    obtain ⟨y, hy, hb⟩ := he
    have hy := toBool_bind hy
    have e : y = !b := by cases b <;> cases y <;> simp_all
    subst e
    have := ih h hy
    cases b <;> simpa [Know.given] using this
  | and x y ihx ihy =>
    intro k b h he
    simp only [Exp.eval] at he
    cases hx : (x.eval s env).bind V.toBool? with
    | none => rw [hx] at he; simp at he
    | some bx =>
      rw [hx] at he
      have hx := toBool_bind hx
      cases bx with
      | false =>
        simp at he
        subst he
        exact (ihx h hx).joinL
      | true =>
        simp at he
        cases b with
        | true => exact ihy (ihx h hx) he
        | false => exact (ihy (ihx h hx) he).joinR
  | or x y ihx ihy =>
    intro k b h he
    simp only [Exp.eval] at he
    cases hx : (x.eval s env).bind V.toBool? with
    | none => rw [hx] at he; simp at he
    | some bx =>
      rw [hx] at he
      have hx := toBool_bind hx
      cases bx with
      | true =>
        simp at he
        subst he
        exact (ihx h hx).joinL
      | false =>
        simp at he
        cases b with
        | false => exact ihy (ihx h hx) he
        | true => exact (ihy (ihx h hx) he).joinR
  | isNil x _ =>
    intro k b h he
    cases b with
    | false => cases x <;> exact h
    | true =>
      cases x <;> try exact h
      refine { h with cur := fun _ => ?_ }
      simp only [Exp.eval, Option.map_some, Option.some.injEq, V.bool.injEq] at he
      cases hc : s.lx.cur with
      | none => simp only [NotSemi, Lx.curKind, hc]; decide
      | some t => rw [hc] at he; simp [tokV, Token.toV, N.Token, V.nonNil] at he
  | var x =>
    intro k b h he
    cases b with
    | false => exact h
    | true =>
      refine { h with cur := fun hc => ?_ }
      change (k.cur || k.imp.contains x) = true at hc
      rw [Bool.or_eq_true, List.contains_iff_mem] at hc
      rcases hc with hc | hc
      · exact h.cur hc
      · exact h.imp x hc he
  | eqStr x y _ _ =>
    intro k b h he
    cases b with
    | false => exact h
    | true => exact givenEq_sat h he
  | nil => first | exact fun h _ => h | trivial
  | _ => first | trivial | exact fun h _ => h

end Verif.Semi

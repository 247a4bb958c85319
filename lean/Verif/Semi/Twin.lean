/-
Two runs on texts that agree up to a `;` stay in step.
-/
import Verif.Semi.Sound
import Verif.Relation.Sound

namespace Verif.Semi
open Verif Spec

/-- The lexers related by `S` look the same and, unless they are at a `;`, stay related when they read on. -/
structure Lock (S : Lx → Lx → Prop) : Prop where
  cur : ∀ {l m}, S l m → l.cur = m.cur
  off : ∀ {l m}, S l m → l.off = m.off
  eof : ∀ {l m}, S l m → l.isEOF = m.isEOF
  step : ∀ {l m}, S l m → NotSemi l → match l.consume, m.consume with
    | .ok l', .ok m' => S l' m'
    | .err l', .err m' => S l' m'
    | _, _ => False

/-- What expressions can see of the state. -/
structure View (s s' : PS) : Prop where
  cur : s.lx.cur = s'.lx.cur
  off : s.lx.off = s'.lx.off
  eof : s.lx.isEOF = s'.lx.isEOF
  memo : s.memo = s'.memo

section
variable {s s' : PS} {env : List V} (h : View s s')
include h

theorem view_kind : s.lx.curKind = s'.lx.curKind := by simp only [Lx.curKind, h.cur]
theorem view_string : s.lx.curString = s'.lx.curString := by simp only [Lx.curString, h.cur]
theorem view_kinds (ks : List Str) : s.lx.matchKinds ks = s'.lx.matchKinds ks := by
  unfold Lx.matchKinds
  rw [view_kind h, view_string h]
theorem view_kw (k : Str) : s.lx.matchKw k = s'.lx.matchKw k := by
  unfold Lx.matchKw
  rw [view_kinds h, view_string h]

mutual
theorem eval_view : ∀ e : Exp, e.eval s env = e.eval s' env
  | .nil | .nat _ | .bool _ | .str _ | .empty | .var _ | .strs _ => by simp only [Exp.eval]
  | .fld e _ | .deref e | .last e | .len e | .isNil e | .not e | .upper e | .isTy e _ | .posOf e _ | .endOf e _ | .isUnit e | .tokText e => by
    simp only [Exp.eval, eval_view e]
  | .mk _ es | .error _ es => by simp only [Exp.eval, evalL_view es]
  | .idx a b | .append a b | .appendAll a b | .and a b | .or a b | .eqStr a b | .eqNat a b | .lt a b | .add a b | .sub a b | .cat a b
  | .equalFold a b | .contains a b | .containsFold a b => by simp only [Exp.eval, eval_view a, eval_view b]
  | .cur => by simp only [Exp.eval, h.cur]
  | .curKind => by simp only [Exp.eval, Lx.curKind, h.cur]
  | .curString => by simp only [Exp.eval, Lx.curString, h.cur]
  | .pos => by simp only [Exp.eval, Lx.curPos, h.cur, h.off]
  | .end_ => by simp only [Exp.eval, Lx.curEnd, h.cur, h.off]
  | .isEOF => by simp only [Exp.eval, h.eof]
  | .matchKinds es => by simp only [Exp.eval, evalL_view es, view_kinds h]
  | .matchKw e => by simp only [Exp.eval, eval_view e, view_kw h]
  | .matchOneOf e => by
    have : ∀ ks, s.lx.matchOneOf ks = s'.lx.matchOneOf ks := by
      intro ks
      have e : s.lx.matchKw = s'.lx.matchKw := funext (view_kw h)
      simp only [Lx.matchOneOf, e]
    simp only [Exp.eval, eval_view e, this]
  | .memoHas e => by simp only [Exp.eval, eval_view e, h.memo]
theorem evalL_view : ∀ es : List Exp, Exp.evalL s env es = Exp.evalL s' env es
  | [] => by simp only [Exp.evalL]
  | e :: es => by simp only [Exp.evalL, eval_view e, evalL_view es]
end
end

variable {S : Lx → Lx → Prop} (hS : Lock S)
include hS

theorem Lock.advance {l m : Lx} (h : S l m) (hn : NotSemi l) : S l.advance m.advance := by
  have := hS.step h hn
  simp only [Lx.advance]
  revert this
  cases l.consume <;> cases m.consume <;> intro h <;> first | exact h | exact h.elim

omit hS in
/-- The states are in step. -/
structure SR (S : Lx → Lx → Prop) (s s' : PS) : Prop where
  lx : S s.lx s'.lx
  memo : s.memo = []
  memo' : s'.memo = []

theorem SR.view {s s' : PS} (h : SR S s s') : View s s' := ⟨hS.cur h.lx, hS.off h.lx, hS.eof h.lx, h.memo.trans h.memo'.symm⟩

/-! ### Calls on the lexer -/

theorem twin_kinds {l m : Lx} (h : S l m) (ks : List Str) : l.matchKinds ks = m.matchKinds ks := by
  unfold Lx.matchKinds Lx.curKind Lx.curString
  rw [hS.cur h]

theorem twin_kw {l m : Lx} (h : S l m) (k : Str) : l.matchKw k = m.matchKw k := by
  unfold Lx.matchKw Lx.curString
  rw [twin_kinds hS h, hS.cur h]

theorem twin_tryKind {l m : Lx} (h : S l m) {k : Str} (hk : k ≠ b!";") :
    (l.tryKind k).1 = (m.tryKind k).1 ∧ S (l.tryKind k).2 (m.tryKind k).2 := by
  simp only [Lx.tryKind, twin_kinds hS h, hS.cur h]
  cases hm : m.matchKinds [k] with
  | false => exact ⟨rfl, h⟩
  | true => exact ⟨rfl, hS.advance h (kinds_notSemi (ks := [k]) (by rw [twin_kinds hS h]; exact hm) (by simp; exact fun e => hk e.symm))⟩

theorem twin_takeKws : ∀ (ks : List Str) {l m : Lx}, S l m →
    match l.takeKws ks, m.takeKws ks with
    | some l', some m' => S l' m'
    | none, none => True
    | _, _ => False
  | [], l, m, h => h
  | k :: ks, l, m, h => by
    simp only [Lx.takeKws, twin_kw hS h]
    cases hm : m.matchKw k with
    | false => trivial
    | true => exact twin_takeKws ks (hS.advance h (kw_notSemi (k := k) (by rw [twin_kw hS h]; exact hm)))

theorem twin_tryKws {l m : Lx} (h : S l m) (ks : List Str) :
    (l.tryKws ks).1 = (m.tryKws ks).1 ∧ S (l.tryKws ks).2 (m.tryKws ks).2 := by
  have := twin_takeKws hS ks h
  simp only [Lx.tryKws]
  revert this
  cases l.takeKws ks <;> cases m.takeKws ks <;> intro h' <;> first | exact ⟨rfl, h⟩ | exact ⟨rfl, h'⟩ | exact h'.elim

omit hS in
theorem noSemi_str {e : Exp} (h : noSemi e = true) : ∃ s, e = .str s ∧ s ≠ b!";" := by
  cases e <;> simp only [noSemi] at h <;> first | exact ⟨_, rfl, by simpa using h⟩ | cases h

omit hS in
theorem storeAll_other {x : Nat} : ∀ {dst : List Nat} {vs env : List V}, x ∉ dst → (storeAll env dst vs)[x]? = env[x]?
  | [], _, _, _ => by simp [storeAll]
  | _ :: _, [], _, _ => by simp [storeAll]
  | y :: dst, v :: vs, env, h => by
    simp only [List.mem_cons, not_or] at h
    rw [storeAll, storeAll_other h.2, List.getElem?_set_ne (fun e => h.1 e.symm)]

omit hS in
theorem Sat.forget {k : Know} {env env' : List V} {saved l : Lx} (h : Sat k env saved l) {dst : List Nat}
    (he : ∀ x, x ∉ dst → env'[x]? = env[x]?) : Sat (k.forget dst) env' saved l := by
  refine ⟨h.cur, h.nxt, h.sav, fun x hx hv => ?_, fun x hx v hv => ?_, fun x hx v hv => ?_⟩ <;>
    simp only [Know.forget, List.mem_filter, Bool.not_eq_true', List.contains_eq_mem, decide_eq_false_iff_not] at hx <;>
    rw [he x hx.2] at hv
  · exact h.imp x hx.1 hv
  · exact h.pk x hx.1 v hv
  · exact h.kd x hx.1 v hv

omit hS in
theorem err_notSemi {l l' : Lx} (h : l.consume = .err l') : NotSemi l' := by
  simp only [NotSemi, Lx.curKind, (consume_err_shape h).1]
  decide

/-- A call on the lexer, in both runs. -/
theorem prim_twin {k : Know} {pr : Prim} {dst : List Nat} (hk : (primRes pr dst k).ok = true) {fr : Frame} {s s' : PS} (hs : SR S s s')
    (h : Sat k fr.env fr.saved s.lx) :
    match pr.run s fr.env, pr.run s' fr.env with
    | some (rs, l), some (rs', l') => rs = rs' ∧ S l l' ∧
        ∃ k', (primRes pr dst k).next = some k' ∧ Sat k' (storeAll fr.env dst rs) fr.saved l
    | none, none => True
    | _, _ => False := by
  have hm : ∀ {env l}, Sat (k.moved false) env fr.saved l :=
    ⟨fun h => by simp [Know.moved] at h, fun h => by simp [Know.moved] at h, h.sav, by simp [Know.moved], by simp [Know.moved], by simp [Know.moved]⟩
  cases pr with
  | consume =>
    have hn := hS.step hs.lx (h.cur hk)
    simp only [Prim.run]
    revert hn
    cases hc : s.lx.consume <;> cases s'.lx.consume <;> intro hn <;> simp only at hn
    · refine ⟨rfl, hn, _, rfl, ?_⟩
      exact ⟨fun e => h.nxt e _ hc, fun h => by simp [Know.moved] at h, h.sav, by simp [Know.moved], by simp [Know.moved], by simp [Know.moved]⟩
    · refine ⟨rfl, hn, _, rfl, ?_⟩
      have hq := err_notSemi hc
      exact ⟨fun _ => hq, fun h => by simp [Know.moved] at h, h.sav, by simp [Know.moved], by simp [Know.moved], by simp [Know.moved]⟩
  | peek =>
    have hn := hS.step hs.lx (h.cur hk)
    simp only [Prim.run, Lx.peek]
    revert hn
    cases hc : s.lx.consume <;> cases s'.lx.consume <;> intro hn <;> simp only at hn
    · rename_i l' _
      refine ⟨by simp only [hS.cur hn], hs.lx, _, rfl, ?_⟩
      have hf := h.forget (env' := storeAll fr.env dst [tokV l'.cur, .nil]) (fun x hx => storeAll_other hx)
      refine ⟨hf.cur, fun h => by simp at h, hf.sav, hf.imp, fun z hz v hv => ?_, fun x h => by simp at h⟩
      simp only at hz
      split at hz
      · split at hz
        · simp at hz
        · rename_i hxy
          simp only [beq_iff_eq] at hxy
          simp only [storeAll] at hv
          rw [List.mem_singleton.1 hz, List.getElem?_set_ne (fun e => hxy e.symm)] at hv
          have := List.getElem?_eq_some_iff.1 hv
          exact Or.inr ⟨l', hc, by simpa using this.2.symm⟩
      · simp at hz
    · rename_i l' _
      have hq := err_notSemi hc
      refine ⟨rfl, hn, _, rfl, fun _ => hq, fun h => by simp at h, h.sav, fun _ _ _ => hq, fun z hz v hv => ?_, fun x h => by simp at h⟩
      simp only at hz
      split at hz
      · split at hz
        · simp at hz
        · rename_i hxy
          simp only [beq_iff_eq] at hxy
          simp only [storeAll] at hv
          rw [List.mem_singleton.1 hz, List.getElem?_set_ne (fun e => hxy e.symm)] at hv
          have := List.getElem?_eq_some_iff.1 hv
          exact Or.inl (by simpa using this.2.symm)
      · simp at hz
  | tryKind e =>
    obtain ⟨x, rfl, hx⟩ := noSemi_str hk
    obtain ⟨h1, h2⟩ := twin_tryKind hS hs.lx hx
    simp only [Prim.run, Exp.eval, Option.bind_some, V.toStr?, Option.map_some]
    exact ⟨by rw [h1], h2, _, rfl, hm⟩
  | expectKind e =>
    obtain ⟨x, rfl, hx⟩ := noSemi_str hk
    obtain ⟨h1, h2⟩ := twin_tryKind hS hs.lx hx
    simp only [Prim.run, Exp.eval, Option.bind_some, V.toStr?, Option.map_some]
    revert h1 h2
    generalize s.lx.tryKind x = a
    generalize s'.lx.tryKind x = b
    obtain ⟨v, l⟩ := a
    obtain ⟨w, m⟩ := b
    intro h1 h2
    simp only at h1 h2
    subst h1
    cases v <;> exact ⟨by simp [kindErr, Lx.curPos, hS.cur h2, hS.off h2], h2, _, rfl, hm⟩
  | expectKw e =>
    simp only [Prim.run, eval_view (hs.view hS) e]
    cases (e.eval s' fr.env).bind V.toStr? with
    | none => trivial
    | some x =>
      simp only [Option.map_some, twin_kw hS hs.lx]
      cases hc : s'.lx.matchKw x with
      | false => exact ⟨by simp [keywordErr, Lx.curPos, hS.cur hs.lx, hS.off hs.lx], hs.lx, _, rfl, hm⟩
      | true => exact ⟨rfl, hS.advance hs.lx (kw_notSemi (k := x) (by rw [twin_kw hS hs.lx]; exact hc)), _, rfl, hm⟩
  | tryKws ks =>
    obtain ⟨h1, h2⟩ := twin_tryKws hS hs.lx ks
    simp only [Prim.run]
    exact ⟨by rw [h1], h2, _, rfl, hm⟩
  | wrap e => simp [primRes] at hk

omit hS in
/-- Two ends of a statement are in step and as the check says. -/
def TOut (S : Lx → Lx → Prop) (post : Bool) (r : Res) : Out → Out → Prop
  | .next fr s, .next fr' s' => fr.env = fr'.env ∧ S fr.saved fr'.saved ∧ SR S s s' ∧ ∃ k, r.next = some k ∧ Sat k fr.env fr.saved s.lx
  | .brk fr s, .brk fr' s' => fr.env = fr'.env ∧ S fr.saved fr'.saved ∧ SR S s s' ∧ ∃ k, r.brk = some k ∧ Sat k fr.env fr.saved s.lx
  | .cont fr s, .cont fr' s' => fr.env = fr'.env ∧ S fr.saved fr'.saved ∧ SR S s s' ∧ ∃ k, r.cont = some k ∧ Sat k fr.env fr.saved s.lx
  | .ret vs s, .ret ws s' => vs = ws ∧ SR S s s' ∧ (post = true → NotSemi s.lx)
  | .panic a, .panic b => a = b
  | .fuel, .fuel => True
  | _, _ => False

omit hS in
/-- Two ends of a call are in step; `semi`: the current token is no `;` any more. -/
def TCall (S : Lx → Lx → Prop) (notSemi : Prop) : COut → COut → Prop
  | .ret vs s, .ret ws s' => vs = ws ∧ SR S s s' ∧ (notSemi → NotSemi s.lx)
  | .panic a, .panic b => a = b
  | .fuel, .fuel => True
  | _, _ => False

omit hS in
theorem joinO_left {a b : Option Know} {k : Know} {env : List V} {saved l : Lx} (ha : a = some k) (h : Sat k env saved l) :
    ∃ k', joinO a b = some k' ∧ Sat k' env saved l := by
  subst ha
  cases b with
  | none => exact ⟨k, rfl, h⟩
  | some b => exact ⟨k.join b, rfl, h.joinL⟩

omit hS in
theorem joinO_right {a b : Option Know} {k : Know} {env : List V} {saved l : Lx} (hb : b = some k) (h : Sat k env saved l) :
    ∃ k', joinO a b = some k' ∧ Sat k' env saved l := by
  subst hb
  cases a with
  | none => exact ⟨k, rfl, h⟩
  | some a => exact ⟨a.join k, rfl, h.joinR⟩

omit hS in
theorem Sat.moved {k : Know} {env env' : List V} {saved l l' : Lx} {b : Bool} (h : Sat k env saved l) (hb : b = true → NotSemi l') :
    Sat (k.moved b) env' saved l' :=
  ⟨hb, fun h => by simp [Know.moved] at h, h.sav, by simp [Know.moved], by simp [Know.moved], by simp [Know.moved]⟩

omit hS in
theorem TOut.mono {post : Bool} {r r' : Res} {a b : Out} (h : TOut S post r a b)
    (h1 : ∀ k env saved l, r.next = some k → Sat k env saved l → ∃ k', r'.next = some k' ∧ Sat k' env saved l)
    (h2 : ∀ k env saved l, r.brk = some k → Sat k env saved l → ∃ k', r'.brk = some k' ∧ Sat k' env saved l)
    (h3 : ∀ k env saved l, r.cont = some k → Sat k env saved l → ∃ k', r'.cont = some k' ∧ Sat k' env saved l) : TOut S post r' a b := by
  cases a <;> cases b <;> try exact h
  · obtain ⟨e, f, g, k, i, j⟩ := h
    exact ⟨e, f, g, h1 k _ _ _ i j⟩
  · obtain ⟨e, f, g, k, i, j⟩ := h
    exact ⟨e, f, g, h2 k _ _ _ i j⟩
  · obtain ⟨e, f, g, k, i, j⟩ := h
    exact ⟨e, f, g, h3 k _ _ _ i j⟩

omit hS in
theorem leO_sat {o : Option Know} {k k' : Know} {env : List V} {saved l : Lx} (h : leO o k' = true) (ho : o = some k) (hs : Sat k env saved l) :
    Sat k' env saved l := by
  subst ho
  exact hs.le h

omit hS in
theorem loop_twin {post : Bool} {r : Res} {k : Know} (h1 : leO r.next k = true) (h2 : leO r.cont k = true) {f : Frame → PS → Out}
    (hf : ∀ fr fr' s s', fr.env = fr'.env → S fr.saved fr'.saved → SR S s s' → Sat k fr.env fr.saved s.lx →
      TOut S post r (f fr s) (f fr' s')) :
    ∀ (n : Nat) {fr fr' : Frame} {s s' : PS}, fr.env = fr'.env → S fr.saved fr'.saved → SR S s s' → Sat k fr.env fr.saved s.lx →
      TOut S post { ok := r.ok, next := r.brk } (loopN f n fr s) (loopN f n fr' s')
  | 0, _, _, _, _, _, _, _, _ => trivial
  | n + 1, fr, fr', s, s', he, hv, hs, hk => by
    have := hf fr fr' s s' he hv hs hk
    unfold loopN
    revert this
    cases f fr s <;> cases f fr' s' <;> intro h <;> try first | exact h | exact h.elim
    · obtain ⟨a, b, c, k', d, e⟩ := h
      exact loop_twin h1 h2 hf n a b c (leO_sat h1 d e)
    · obtain ⟨a, b, c, k', d, e⟩ := h
      exact loop_twin h1 h2 hf n a b c (leO_sat h2 d e)

section
variable {sig : Fn → Sig} {call : Fn → List V → PS → COut} {n : Nat} {post : Bool}
  (hcall : ∀ f vs s s', f ≠ .ParseStmts → SR S s s' → ((sig f).pre = true → NotSemi s.lx) →
    TCall S ((sig f).post = true ∧ NotSemi s.lx) (call f vs s) (call f vs s'))
include hcall

theorem stmt_twin : ∀ (st : Stmt Fn) {k : Know}, (check sig post st k).ok = true → ∀ {fr fr' : Frame} {s s' : PS}, fr.env = fr'.env →
    S fr.saved fr'.saved → SR S s s' → Sat k fr.env fr.saved s.lx →
    TOut S post (check sig post st k) (st.run call n fr s) (st.run call n fr' s')
  | .skip, _, _, _, _, _, _, he, hv, hs, hk => ⟨he, hv, hs, _, rfl, hk⟩
  | .brk, _, _, _, _, _, _, he, hv, hs, hk => ⟨he, hv, hs, _, rfl, hk⟩
  | .cont, _, _, _, _, _, _, he, hv, hs, hk => ⟨he, hv, hs, _, rfl, hk⟩
  | .save, _, _, _, _, _, _, he, hv, hs, hk => ⟨he, hs.lx, hs, _, rfl, { hk with sav := hk.cur }⟩
  | .restore, _, _, _, _, _, _, he, hv, hs, hk => ⟨he, hv, ⟨hv, hs.memo, hs.memo'⟩, _, rfl, hk.moved hk.sav⟩
  | .memoAdd _ _, _, hc, _, _, _, _, _, _, _, _ => by simp [check] at hc
  | .seq a b, k, hc, fr, fr', s, s', he, hv, hs, hk => by
    rw [run_seq, run_seq]
    simp only [check] at hc ⊢
    have ha := stmt_twin a (k := k) (by revert hc; split <;> simp +contextual) he hv hs hk
    cases hn : (check sig post a k).next with
    | none =>
      simp only [hn]
      revert ha
      cases a.run call n fr s <;> cases a.run call n fr' s' <;> intro ha <;> try first | exact ha | exact ha.elim
      obtain ⟨_, _, _, k', d, _⟩ := ha
      rw [hn] at d; cases d
    | some k' =>
      simp only [hn, Bool.and_eq_true] at hc ⊢
      revert ha
      cases a.run call n fr s <;> cases a.run call n fr' s' <;> intro ha <;> try first | exact ha | exact ha.elim
      · obtain ⟨e1, e2, e3, k'', d, e4⟩ := ha
        rw [hn] at d
        cases d
        refine (stmt_twin b hc.2 e1 e2 e3 e4).mono (fun k _ _ _ h hk => ⟨k, h, hk⟩) (fun k _ _ _ h hk => joinO_right h hk)
          (fun k _ _ _ h hk => joinO_right h hk)
      · obtain ⟨e1, e2, e3, k'', d, e4⟩ := ha
        exact ⟨e1, e2, e3, joinO_left d e4⟩
      · obtain ⟨e1, e2, e3, k'', d, e4⟩ := ha
        exact ⟨e1, e2, e3, joinO_left d e4⟩
  | .loop body, k, hc, fr, fr', s, s', he, hv, hs, hk => by
    simp only [check] at hc ⊢
    split at hc
    · rename_i hle
      simp only [hle, if_true] at hc ⊢
      rw [Bool.and_eq_true] at hle
      exact loop_twin hle.1 hle.2 (fun _ _ _ _ a b c d => stmt_twin body hc a b c d) n he hv hs hk
    · rename_i hle
      simp only [hle] at hc ⊢
      simp only [Bool.and_eq_true] at hc
      refine loop_twin (k := k.moved false) hc.1.2 hc.2 (fun _ _ _ _ a b c d => stmt_twin body hc.1.1 a b c d) n he hv hs (hk.moved (by simp))
  | .set ln x e, k, hc, fr, fr', s, s', he, hv, hs, hk => by
    rw [run_set, run_set, ← he, eval_view (hs.view hS)]
    cases hev : e.eval s' fr.env with
    | none => rfl
    | some v =>
      rw [← eval_view (hs.view hS)] at hev
      refine ⟨by simp only [he], hv, hs, _, rfl, ?_⟩
      have hf := hk.forget (dst := [x]) (env' := fr.env.set x v) (fun y hy => List.getElem?_set_ne (fun e => hy (by simp [e])))
      have hx : ∀ w, (fr.env.set x v)[x]? = some w → w = v := by
        intro w hw
        have := (List.getElem?_eq_some_iff.1 hw).2
        simpa using this.symm
      split
      · simp only [Exp.eval, Option.some.injEq] at hev
        subst hev
        refine { hf with imp := fun y hy hv => ?_ }
        rcases List.mem_cons.1 hy with rfl | hy
        · have := hx _ hv; simp at this
        · exact hf.imp y hy hv
      · simp only [Exp.eval, Option.some.injEq] at hev
        subst hev
        refine { hf with kd := fun y hy w hw => ?_ }
        rcases List.mem_cons.1 hy with rfl | hy
        · exact hx _ hw
        · exact hf.kd y hy w hw
      · split
        · rename_i hg
          refine { hf with imp := fun y hy hv => ?_ }
          rcases List.mem_cons.1 hy with rfl | hy
          · have := hx _ hv
            subst this
            exact (given_sat e hk hev).cur hg
          · exact hf.imp y hy hv
        · exact hf
  | .setF ln x path e, k, hc, fr, fr', s, s', he, hv, hs, hk => by
    rw [run_setF, run_setF, ← he, eval_view (hs.view hS)]
    cases hev : e.eval s' fr.env with
    | none => rfl
    | some v =>
      simp only [onSome]
      cases fr.env[x]?.bind (fun w => setPath w path v) with
      | none => rfl
      | some w => exact ⟨by simp only [he], hv, hs, _, rfl, hk.forget (fun y hy => List.getElem?_set_ne (fun e => hy (by simp [e])))⟩
  | .ite ln c a b, k, hc, fr, fr', s, s', he, hv, hs, hk => by
    simp only [check, Bool.and_eq_true] at hc
    rw [run_ite, run_ite, ← he, ← eval_view (hs.view hS)]
    cases hev : (c.eval s fr.env).bind V.toBool? with
    | none => rfl
    | some x =>
      have hev := toBool_bind hev
      cases x with
      | true =>
        exact (stmt_twin a hc.1 he hv hs (given_sat c hk hev)).mono (fun k _ _ _ h hk => joinO_left h hk) (fun k _ _ _ h hk => joinO_left h hk)
          (fun k _ _ _ h hk => joinO_left h hk)
      | false =>
        exact (stmt_twin b hc.2 he hv hs (given_sat c hk hev)).mono (fun k _ _ _ h hk => joinO_right h hk) (fun k _ _ _ h hk => joinO_right h hk)
          (fun k _ _ _ h hk => joinO_right h hk)
  | .ret ln es, k, hc, fr, fr', s, s', he, hv, hs, hk => by
    rw [run_ret, run_ret, ← he, evalL_view (hs.view hS)]
    cases Exp.evalL s' fr.env es with
    | none => rfl
    | some v =>
      refine ⟨rfl, hs, fun hp => hk.cur ?_⟩
      simpa [check, hp] using hc
  | .call ln f args dst, k, hc, fr, fr', s, s', he, hv, hs, hk => by
    simp only [check, Bool.and_eq_true, Bool.or_eq_true, Bool.not_eq_true', bne_iff_ne] at hc
    rw [run_call, run_call, ← he, evalL_view (hs.view hS)]
    cases Exp.evalL s' fr.env args with
    | none => rfl
    | some vs =>
      have := hcall f vs s s' hc.1 hs (fun hp => hk.cur (by rcases hc.2 with h | h; · rw [hp] at h; cases h
                                                            · exact h))
      simp only [onSome]
      revert this
      cases call f vs s <;> cases call f vs s' <;> intro h <;> try first | exact h | exact h.elim
      obtain ⟨h1, h2, h3⟩ := h
      refine ⟨by simp only [h1, he], hv, h2, _, rfl, hk.moved (fun hb => h3 ?_)⟩
      rw [Bool.and_eq_true] at hb
      exact ⟨hb.1, hk.cur hb.2⟩
  | .prim ln pr dst, k, hc, fr, fr', s, s', he, hv, hs, hk => by
    have := prim_twin hS hc hs hk
    simp only [Stmt.run, ← he]
    revert this
    cases pr.run s fr.env <;> cases pr.run s' fr.env <;> intro h <;> simp only at h
    · rfl
    · obtain ⟨h1, h2, h3⟩ := h
      exact ⟨by simp only [h1, he], hv, ⟨h2, hs.memo, hs.memo'⟩, h3⟩

end

/-- All methods called within `f` keep in step. -/
theorem runFn_twin {sig : Fn → Sig} (hsig : ∀ f, f ≠ .ParseStmts → checkFn sig f = true) : ∀ (n : Nat) (f : Fn) (vs : List V) (s s' : PS),
    f ≠ .ParseStmts → SR S s s' → ((sig f).pre = true → NotSemi s.lx) →
    TCall S ((sig f).post = true ∧ NotSemi s.lx) (runFn retryTable n f vs s) (runFn retryTable n f vs s')
  | 0, _, _, _, _, _, _, _ => trivial
  | n + 1, f, vs, s, s', hf, hs, hp => by
    have hc := hsig f hf
    simp only [checkFn, Bool.and_eq_true, Bool.or_eq_true, Bool.not_eq_true'] at hc
    obtain ⟨⟨⟨⟨h1, -⟩, -⟩, -⟩, h2⟩ := hc
    have hstep := @stmt_twin S hS sig (runFn retryTable n) n
    have hcall := runFn_twin hsig n
    have key : ∀ (post c : Bool), (c = true → NotSemi s.lx) →
        (check sig post (retryTable f).body { cur := c, nxt := false, sav := c, imp := [], pk := [], kd := [] }).ok = true →
        (post = true → ∀ k, (check sig post (retryTable f).body { cur := c, nxt := false, sav := c, imp := [], pk := [], kd := [] }).next = some k → k.cur = true) →
        (post = true → ∀ k, (check sig post (retryTable f).body { cur := c, nxt := false, sav := c, imp := [], pk := [], kd := [] }).brk = some k → k.cur = true) →
        (post = true → ∀ k, (check sig post (retryTable f).body { cur := c, nxt := false, sav := c, imp := [], pk := [], kd := [] }).cont = some k → k.cur = true) →
        TCall S (post = true) (runFn retryTable (n + 1) f vs s) (runFn retryTable (n + 1) f vs s') := by
      intro post c hcs hok hn hb hk
      have := stmt_twin hS (post := post) (n := n) hcall (retryTable f).body hok
        (fr := { env := vs ++ List.replicate ((retryTable f).locals - vs.length) V.nil, saved := s.lx })
        (fr' := { env := vs ++ List.replicate ((retryTable f).locals - vs.length) V.nil, saved := s'.lx }) rfl hs.lx hs
        ⟨hcs, by simp, hcs, by simp, by simp, by simp⟩
      unfold runFn
      revert this
      simp only
      generalize Stmt.run _ _ _ _ s = a
      generalize Stmt.run _ _ _ _ s' = b
      cases a <;> cases b <;> intro h <;> try first | exact h | exact h.elim
      · obtain ⟨_, _, h3, k, h4, h5⟩ := h
        exact ⟨rfl, h3, fun hp => h5.cur (hn hp k h4)⟩
      · obtain ⟨_, _, h3, k, h4, h5⟩ := h
        exact ⟨rfl, h3, fun hp => h5.cur (hb hp k h4)⟩
      · obtain ⟨_, _, h3, k, h4, h5⟩ := h
        exact ⟨rfl, h3, fun hp => h5.cur (hk hp k h4)⟩
    by_cases hpost : (sig f).post = true ∧ NotSemi s.lx
    · rcases h2 with h2 | h2
      · rw [hpost.1] at h2; cases h2
      · obtain ⟨⟨⟨a, b⟩, c⟩, d⟩ := h2
        have := key true true (fun _ => hpost.2) a (fun _ k hk => by rw [hk] at b; simpa using b) (fun _ k hk => by rw [hk] at c; simpa using c)
          (fun _ k hk => by rw [hk] at d; simpa using d)
        revert this
        cases runFn retryTable (n + 1) f vs s <;> cases runFn retryTable (n + 1) f vs s' <;> intro h <;> try first | exact h | exact h.elim
        exact ⟨h.1, h.2.1, fun _ => h.2.2 rfl⟩
    · have := key false (sig f).pre hp h1 (by simp) (by simp) (by simp)
      revert this
      cases runFn retryTable (n + 1) f vs s <;> cases runFn retryTable (n + 1) f vs s' <;> intro h <;> try first | exact h | exact h.elim
      exact ⟨h.1, h.2.1, fun h => absurd h hpost⟩

end Verif.Semi

/-
Statements: what the abstract results mean, and that the analysis of every statement is right.
-/
import Verif.Analysis.Sound.Eval

namespace Verif.An
open List (Forall₂)

variable {Fn : Type} {tb : Tables Fn} {sg : Sig} {input : Str} {hs : List Lx} {fr : Frame} {s : PS} {st : AS} {ln : Nat}

/-- A method with signature `sg`, called when the lexer was `h0`, returned `vs`. -/
def RetSem (tb : Tables Fn) (sg : Sig) (input : Str) (h0 : Lx) (vs : List V) (s : PS) : Prop :=
  LInv input s.lx ∧ s.input = input ∧ ∃ po ∈ sg.post, Forall₂ (fun a v => AV.sem tb.need input none v a) po.res vs ∧
    po.cur.sem input s.lx ∧ po.mv.sem s.lx h0

/-- The states in a list describe the outcome of a statement. -/
def OutSem (tb : Tables Fn) (sg : Sig) (input : Str) (hs : List Lx) (r : SR Fn) : Out → Prop
  | .next fr s => ∃ st ∈ r.next, ASem tb input st hs fr s
  | .brk fr s => ∃ st ∈ r.brk, ASem tb input st hs fr s
  | .cont fr s => ∃ st ∈ r.cont, ASem tb input st hs fr s
  | .ret vs s => ∃ h0 t, hs = h0 :: t ∧ RetSem tb sg input h0 vs s
  | .panic ln => ln ∈ tb.bad
  | .fuel => False

/-! ### Assignment -/

theorem key_unused {k : Key} {i : Nat} (h : k.uses i = false) {env : List V} {v : V} : k.val (env.set i v) = k.val env := by
  cases k <;> simp only [Key.uses, Bool.or_eq_false_iff, beq_eq_false_iff_ne, ne_eq] at h <;> simp only [Key.val]
  · rw [List.getElem?_set_ne h]
  · rw [List.getElem?_set_ne h.1, List.getElem?_set_ne h.2]
  · rw [List.getElem?_set_ne h]
  · rw [List.getElem?_set_ne h]

theorem assign_sound (h : ASem tb input st hs fr s) {x : XV} {v : V} (hx : x.sem tb.need input (some s.lx) v) (i : Nat) :
    ASem tb input (st.assign i x) hs { fr with env := fr.env.set i v } s :=
  { h with
    env := forall₂_set h.env hx
    facts := by
      intro k k' hk
      simp only [AS.assign, List.mem_filter, Bool.not_eq_true', Bool.or_eq_false_iff] at hk
      simp only [key_unused hk.2.1, key_unused hk.2.2]
      exact h.facts k k' hk.1 }

theorem assignAll_sound {xs : List XV} {vs : List V} (hx : Forall₂ (fun x v => XV.sem tb.need input (some s.lx) v x) xs vs) :
    ∀ (dst : List Nat) {st : AS} {fr : Frame}, ASem tb input st hs fr s →
    ASem tb input (st.assignAll dst xs) hs { fr with env := storeAll fr.env dst vs } s := by
  induction hx with
  | nil => intro dst st fr h; cases dst <;> exact h
  | cons h1 _ ih =>
    intro dst st fr h
    cases dst with
    | nil => exact h
    | cons i dst => exact ih dst (assign_sound h h1 i)

theorem assign1 (h : ASem tb input st hs fr s) {x : XV} {v : V} (hx : x.sem tb.need input (some s.lx) v) (dst : List Nat) :
    ASem tb input (st.assignAll dst [x]) hs { fr with env := storeAll fr.env dst [v] } s := assignAll_sound (.cons hx .nil) dst h

/-! ### The lexer changes -/

theorem release_env (hn : tokNeed tb.need) (h : ASem tb input st hs fr s) (lx : Option Lx) :
    Forall₂ (fun x v => XV.sem tb.need input lx v x) (st.env.map (XV.resolve st.cur)) fr.env := by
  have he := h.env
  generalize st.env = xs at he
  generalize fr.env = vs at he
  induction he with
  | nil => exact .nil
  | cons h1 _ ih => exact .cons (XV.sem_mono (resolve_sound hn h.inv h.cur h1)) ih

theorem step_sound (hn : tokNeed tb.need) (h : ASem tb input st hs fr s) {l : Lx} {c : CurS} {f : Mv → Mv} (hi : LInv input l)
    (hc : c.sem input l) (hf : ∀ m g, Mv.sem s.lx g m → Mv.sem l g (f m)) {s' : PS} (hs' : s'.lx = l) (hin : s'.input = s.input) :
    ASem tb input (st.step c f) hs fr s' := by
  subst hs'
  refine { env := release_env hn h _, cur := hc, mv := ?_, inv := hi, inp := hin.trans h.inp, saved := h.saved, smv := h.smv, sinv := h.sinv, facts := h.facts }
  have hm := h.mv
  simp only [AS.step]
  clear h
  generalize st.mv = ms at hm
  induction hm with
  | nil => exact .nil
  | cons h1 _ ih => exact .cons (hf _ _ h1) ih

theorem advance_sound (hn : tokNeed tb.need) (h : ASem tb input st hs fr s) {t : Token} (ht : s.lx.cur = some t) :
    ASem tb input st.advance hs fr { s with lx := s.lx.advance } :=
  step_sound (c := .any) hn h (linv_advance h.inv) trivial (fun _ _ hm => mv_strict hm (mu_advance_tok h.inv ht)) rfl rfl

/-! ### Forgetting, loop levels -/

theorem keep_env {lx : Option Lx} {xs : List XV} {vs : List V} {need : Ty → List PNeed} (h : Forall₂ (fun x v => XV.sem need input lx v x) xs vs)
    (live i : Nat) : Forall₂ (fun x v => XV.sem need input lx v x) (keep live i xs) vs := by
  induction h generalizing i with
  | nil => exact .nil
  | cons h1 _ ih =>
    refine .cons ?_ (ih _)
    split
    · exact h1
    · trivial

theorem as_keep (h : ASem tb input st hs fr s) (live : Nat) : ASem tb input (st.keep live) hs fr s := h.withEnv (keep_env h.env live 0)

theorem forall₂_append {α β : Type} {R : α → β → Prop} {a b : List α} {c d : List β} (h : Forall₂ R a c) (h' : Forall₂ R b d) :
    Forall₂ R (a ++ b) (c ++ d) := by
  induction h with
  | nil => exact h'
  | cons h _ ih => exact .cons h ih

theorem forall₂_take {α β : Type} {R : α → β → Prop} {a : List α} {c : List β} (h : Forall₂ R a c) (n : Nat) :
    Forall₂ R (a.take n) (c.take n) := by
  induction h generalizing n with
  | nil => simp
  | cons h _ ih => cases n with
    | zero => exact .nil
    | succ n => exact .cons h (ih n)

theorem as_push (h : ASem tb input st hs fr s) : ASem tb input st.push (hs ++ [s.lx]) fr s :=
  { h with
    mv := forall₂_append h.mv (.cons rfl .nil)
    smv := by obtain ⟨h1, h2, e, hm⟩ := h.smv; exact ⟨h1, h2 ++ [s.lx], by simp [e], hm⟩ }

theorem as_pop {l : Lx} (h : ASem tb input st (hs ++ [l]) fr s) : ASem tb input (st.pop hs.length) hs fr s :=
  { h with
    mv := by have := forall₂_take h.mv hs.length; simpa [AS.pop] using this
    smv := by
      obtain ⟨h1, h2, e, hm⟩ := h.smv
      refine ⟨h1.take hs.length, (hs.drop (h1.take hs.length).length), ?_, forall₂_take hm _⟩
      have : h1.take hs.length = hs.take (h1.take hs.length).length := by
        have e' := congrArg (List.take (min hs.length h1.length)) e
        rw [List.take_append_of_le_length (by omega), List.take_append_of_le_length (by omega)] at e'
        rw [List.length_take, e', ← List.take_take]; simp
      conv_rhs => lhs; rw [this]
      exact (List.take_append_drop _ _).symm }

theorem as_back {l : Lx} (h : ASem tb input st (hs ++ [l]) fr s) (live : Nat) :
    ASem tb input (((st.pop hs.length).push).keep live) (hs ++ [s.lx]) fr s := as_keep (as_push (as_pop h)) live

theorem mv_last {l : Lx} (h : ASem tb input st (hs ++ [l]) fr s) : ∃ m, st.mv[hs.length]? = some m ∧ Mv.sem s.lx l m := by
  obtain ⟨m, hm, hs'⟩ := forall₂_get' h.mv (i := hs.length) (b := l) (by simp)
  exact ⟨m, hm, hs'⟩

/-! ### Primitives -/

theorem wrap_sound (h : ASem tb input st hs fr s) {w : Bool} {v : V} (hv : IsErr input w v) : IsErr input true (wrapErr s v) := by
  rcases hv with ⟨p, l, c, rest, rfl, hp, hr, hlc⟩ | ⟨_, m, rfl⟩
  · simp only [wrapErr, V.toNat?, Option.getD_some, h.inp]
    split
    · exact Or.inl ⟨p, _, _, rest, rfl, hp, hr, Or.inr rfl⟩
    · rename_i hl
      refine Or.inl ⟨p, l, c, rest, rfl, hp, hr, ?_⟩
      rcases hlc with ⟨_, rfl, rfl⟩ | h
      · simp at hl
      · exact Or.inr h
  · simp only [wrapErr, V.toNat?, Option.getD_some, h.inp]
    exact Or.inl ⟨_, _, _, _, rfl, h.inv.curPos_le, rfl, Or.inr rfl⟩

theorem lexErr_sem {lx : Option Lx} {need : Ty → List PNeed} : (XV.v (.err true false)).sem need input lx lexErr :=
  Or.inr (Or.inr ⟨rfl, _, rfl⟩)

theorem parseErr_sem {l : Lx} (hi : LInv input l) {lx : Option Lx} {need : Ty → List PNeed} {a b c d : V} :
    (XV.v (.err true false)).sem need input lx (.mk .ParseError [.nat l.curPos, .nat 0, .nat 0, a, b, c, d]) :=
  Or.inr (Or.inl ⟨_, _, _, _, rfl, hi.curPos_le, rfl, Or.inl ⟨rfl, rfl, rfl⟩⟩)

theorem ofList_next {l : List AS} {f : AS → SR Fn} {b : AS} : b ∈ (SR.ofList l f).next ↔ ∃ st ∈ l, b ∈ (f st).next := by
  induction l with
  | nil => simp [SR.ofList]
  | cons a l ih => simp only [SR.ofList, List.foldr_cons, List.mem_append, List.mem_cons, exists_eq_or_imp] at ih ⊢; rw [ih]

theorem ofList_evs {l : List AS} {f : AS → SR Fn} : EvsOK tb sg (SR.ofList l f).evs ↔ ∀ st ∈ l, EvsOK tb sg (f st).evs := by
  induction l with
  | nil => simp [SR.ofList, EvsOK]
  | cons a l ih => simp only [SR.ofList, List.foldr_cons, evs_append, List.mem_cons, forall_eq_or_imp] at ih ⊢; rw [ih]

theorem consume_empty {l : Lx} (h : l.rest = []) : l.consume = .ok ⟨l.off, [], none⟩ := by
  obtain ⟨off, rest, cur⟩ := l
  simp only at h; subst h
  rw [consume_ok_iff]
  have := Spec.Step.eof (off := off) (g := []) (prev := cur) ?_
  · simpa using this
  · exact .gap .nil

theorem takeKws_le {l l' : Lx} (hi : LInv input l) : ∀ {ks : List Str}, l.takeKws ks = some l' → LInv input l' ∧ mu l' ≤ mu l := by
  intro ks
  induction ks generalizing l with
  | nil => intro h; simp [Lx.takeKws] at h; subst h; exact ⟨hi, Nat.le_refl _⟩
  | cons k ks ih =>
    intro h
    simp only [Lx.takeKws] at h
    split at h
    · obtain ⟨h1, h2⟩ := ih (linv_advance hi) h
      exact ⟨h1, Nat.le_trans h2 (mu_advance hi)⟩
    · simp at h

/-- The value stored for a primitive. -/
def PrimSem (tb : Tables Fn) (sg : Sig) (input : Str) (hs : List Lx) (fr : Frame) (s : PS) (ln : Nat) (dst : List Nat) (r : SR Fn)
    (o : Option (List V × Lx)) : Prop := EvsOK tb sg r.evs →
  (∀ vs l, o = some (vs, l) → ∃ st ∈ r.next, ASem tb input st hs { fr with env := storeAll fr.env dst vs } { s with lx := l }) ∧
  (o = none → ln ∈ tb.bad)

theorem set_noop {env : List V} {i : Nat} {v : V} (h : env.length ≤ i) : env.set i v = env := List.set_eq_of_length_le h

theorem aprim_consume (hn : tokNeed tb.need) (h : ASem tb input st hs fr s) (dst : List Nat) :
    PrimSem tb sg input hs fr s ln dst (aprim tb ln st .consume dst) (Prim.consume.run s fr.env) := by
  intro _
  refine ⟨fun vs l hv => ?_, by simp [Prim.run]⟩
  have hlen := h.env.length_eq
  have ok : ∀ l', s.lx.consume = .ok l' → ([V.nil], l') = (vs, l) := by
    intro l' hl; simp only [Prim.run, hl] at hv; simpa using hv
  have er : ∀ l', s.lx.consume = .err l' → ([lexErr], l') = (vs, l) := by
    intro l' hl; simp only [Prim.run, hl] at hv; simpa using hv
  have hcur := h.cur
  simp only [aprim]
  split
  · rename_i he
    rw [he] at hcur
    have := consume_empty hcur.2
    have e := ok _ this
    simp at e; obtain ⟨rfl, rfl⟩ := e
    refine ⟨_, List.mem_singleton.2 rfl, assign1 (s := { s with lx := _ }) (step_sound (c := .eof) hn h (linv_ok h.inv this) ⟨rfl, rfl⟩ (fun m g hm => mv_weak hm ?_) rfl rfl) (x := .v .nil) rfl dst⟩
    simp [mu]
  · rename_i m k he
    rw [he] at hcur
    obtain ⟨t, ht, _⟩ := hcur
    split
    · rename_i hd
      simp only [Bool.and_eq_true, beq_iff_eq, decide_eq_true_eq] at hd
      obtain ⟨rfl, hlen'⟩ := hd
      have hst : ∀ vs, storeAll fr.env [9999] vs = fr.env := by
        intro vs
        cases vs with
        | nil => rfl
        | cons v vs => simp only [storeAll]; rw [set_noop (by omega)]
      refine ⟨_, List.mem_singleton.2 rfl, ?_⟩
      rw [hst]
      have hl : l = s.lx.advance := by
        unfold Lx.advance
        cases hc : s.lx.consume with
        | ok l' => exact (congrArg Prod.snd (ok l' hc)).symm
        | err l' => exact (congrArg Prod.snd (er l' hc)).symm
      rw [hl]; exact advance_sound hn h ht
    · cases hc : s.lx.consume with
      | ok l' =>
        have e := ok l' hc
        simp at e; obtain ⟨rfl, rfl⟩ := e
        have hadv : mu l' < mu s.lx := by
          have := mu_advance_tok h.inv ht
          simpa [Lx.advance, hc] using this
        cases ht' : l'.cur with
        | some t' =>
          refine ⟨_, List.mem_cons_self, assign1 (s := { s with lx := l' }) (step_sound (c := .tok 0 .any) hn h (linv_ok h.inv hc) ⟨t', ht', ?_, trivial⟩ (fun m g hm => mv_strict hm hadv) rfl rfl) (x := .v .nil) rfl dst⟩
          have := (linv_ok h.inv hc).endp_le ht'; omega
        | none =>
          exact ⟨_, List.mem_cons_of_mem _ List.mem_cons_self, assign1 (s := { s with lx := l' }) (step_sound (c := .eof) hn h (linv_ok h.inv hc) ⟨ht', (consume_ok_shape hc).2.1 ht'⟩ (fun m g hm => mv_strict hm hadv) rfl rfl) (x := .v .nil) rfl dst⟩
      | err l' =>
        have e := er l' hc
        simp at e; obtain ⟨rfl, rfl⟩ := e
        have hadv : mu l' < mu s.lx := by
          have := mu_advance_tok h.inv ht
          simpa [Lx.advance, hc] using this
        exact ⟨_, List.mem_cons_of_mem _ (List.mem_cons_of_mem _ List.mem_cons_self), assign1 (s := { s with lx := l' }) (step_sound (c := .none) hn h (linv_err h.inv hc) (consume_err_shape hc).1 (fun m g hm => mv_strict hm hadv) rfl rfl) lexErr_sem dst⟩
  · cases hc : s.lx.consume with
    | ok l' =>
      have e := ok l' hc
      simp at e; obtain ⟨rfl, rfl⟩ := e
      have hadv : mu l' ≤ mu s.lx := by
        have := mu_advance h.inv
        simpa [Lx.advance, hc] using this
      cases ht' : l'.cur with
      | some t' =>
        refine ⟨_, List.mem_cons_self, assign1 (s := { s with lx := l' }) (step_sound (c := .tok 0 .any) hn h (linv_ok h.inv hc) ⟨t', ht', ?_, trivial⟩ (fun m g hm => mv_strict hm (mu_ok_tok h.inv hc ht')) rfl rfl) (x := .v .nil) rfl dst⟩
        have := (linv_ok h.inv hc).endp_le ht'; omega
      | none =>
        exact ⟨_, List.mem_cons_of_mem _ List.mem_cons_self, assign1 (s := { s with lx := l' }) (step_sound (c := .eof) hn h (linv_ok h.inv hc) ⟨ht', (consume_ok_shape hc).2.1 ht'⟩ (fun m g hm => mv_weak hm hadv) rfl rfl) (x := .v .nil) rfl dst⟩
    | err l' =>
      have e := er l' hc
      simp at e; obtain ⟨rfl, rfl⟩ := e
      have hadv : mu l' ≤ mu s.lx := by
        have := mu_advance h.inv
        simpa [Lx.advance, hc] using this
      exact ⟨_, List.mem_cons_of_mem _ (List.mem_cons_of_mem _ List.mem_cons_self), assign1 (s := { s with lx := l' }) (step_sound (c := .none) hn h (linv_err h.inv hc) (consume_err_shape hc).1 (fun m g hm => mv_weak hm hadv) rfl rfl) lexErr_sem dst⟩

/-- Primitives that test the current token and, if it is the one, consume it. -/
theorem test_sound {T : AS → List (Bool × AS)} {r : ER Fn} {e : Exp} {C : XV → Prop} {evs : List (Ev Fn)} {F : Bool × AS → AS}
    {dst : List Nat} (o : V → Option (List V × Lx)) (hr : ESem tb sg input hs fr s ln r (e.eval s fr.env))
    (hC : EvsOK tb sg evs → ∀ p ∈ r.outs, C p.1)
    (hT : ∀ v x st, C x → e.eval s fr.env = some v → x.sem tb.need input (some s.lx) v → ASem tb input st hs fr s →
      (o v = none → ln ∈ tb.bad) ∧ ∀ vs l, o v = some (vs, l) → ∃ p ∈ T st, ASem tb input (F p) hs { fr with env := storeAll fr.env dst vs } { s with lx := l }) :
    PrimSem tb sg input hs fr s ln dst ⟨(SR.ofList (r.outs.map Prod.snd) (fun st => (⟨(T st).map F, [], [], []⟩ : SR Fn))).next, [], [], r.evs ++ evs⟩
      ((e.eval s fr.env).bind o) := by
  intro hev
  simp only [evs_append] at hev
  obtain ⟨h1, h2⟩ := hr hev.1
  cases he : e.eval s fr.env with
  | none => exact ⟨by simp, fun _ => h2 he⟩
  | some v =>
    obtain ⟨x, st', hm, hx, hst⟩ := h1 v he
    have hc : C x := hC hev.2 _ hm
    obtain ⟨k1, k2⟩ := hT v x st' hc he hx hst
    simp only [Option.bind_some]
    refine ⟨fun vs l hv => ?_, k1⟩
    obtain ⟨p, hp, h'⟩ := k2 vs l hv
    exact ⟨F p, ofList_next.2 ⟨st', List.mem_map.2 ⟨_, hm, rfl⟩, List.mem_map.2 ⟨p, hp, rfl⟩⟩, h'⟩

theorem fail_false {m : String} {α : Type} {C : XV → Bool} {l : List (XV × α)}
    (h : EvsOK tb sg (if (l.all (fun p => C p.1)) = true then ([] : List (Ev Fn)) else [.fail m])) : ∀ p ∈ l, C p.1 = true := by
  split at h
  · rename_i hc; exact List.all_eq_true.1 hc
  · have := h (.fail m) (by simp); simp [Ev.ok] at this

theorem panic_or {α : Type} {C : α → Bool} {l : List α}
    (h : EvsOK tb sg (if (l.all C) = true then ([] : List (Ev Fn)) else [.panic ln])) : ∀ p ∈ l, C p = true ∨ ln ∈ tb.bad := by
  intro p hp
  rcases evs_if h with hc | hb
  · exact Or.inl (List.all_eq_true.1 hc p hp)
  · exact Or.inr hb

theorem mem_true_tok {l : Lx} {k : Str} (h : l.matchKinds [k] = true) (hk : k ≠ Kind.eof.toStr) : ∃ t, l.cur = some t := by
  refine matchKinds_eof h ?_
  rw [Bool.eq_false_iff, ne_eq, List.contains_iff_mem]
  simp; exact fun e => hk e.symm

theorem str_true {x : XV} {v : V} {lx : Option Lx} {need : Ty → List PNeed} (h : (x == .v (.str true)) = true) (hx : x.sem need input lx v) :
    ∃ k, v = .str k ∧ k ≠ Kind.eof.toStr := by
  rw [beq_iff_eq] at h; subst h
  obtain ⟨k, rfl, hk⟩ := hx
  exact ⟨k, rfl, hk rfl⟩

theorem tokV_ne {t : Token} : ∃ fs, tokV (some t) = .mk .Token fs := ⟨_, rfl⟩

theorem aprim_tryKind (hn : tokNeed tb.need) (h : ASem tb input st hs fr s) (k : Exp) (dst : List Nat) :
    PrimSem tb sg input hs fr s ln dst (aprim tb ln st (.tryKind k) dst) ((Prim.tryKind k).run s fr.env) := by
  have hrun : (Prim.tryKind k).run s fr.env = (k.eval s fr.env).bind (fun v => v.toStr?.map (fun k => ([(s.lx.tryKind k).1], (s.lx.tryKind k).2))) := by
    simp only [Prim.run]; cases k.eval s fr.env <;> rfl
  rw [hrun]
  simp only [aprim]
  refine test_sound (C := fun x => (x == .v (.str true)) = true) _ (aeval_sound hn k st h) (fun hev => fail_false (C := fun x => x == .v (.str true)) hev) ?_
  intro v x st' hc he hx hst
  obtain ⟨y, rfl, hy⟩ := str_true hc hx
  simp only [V.toStr?, Option.map_some]
  refine ⟨by simp, fun vs l hv => ?_⟩
  obtain ⟨st2, hm, hst2⟩ := testKindE_sound hst he hy
  refine ⟨_, hm, ?_⟩
  cases hmk : s.lx.matchKinds [y] with
  | true =>
    obtain ⟨t, ht⟩ := mem_true_tok hmk hy
    simp only [Lx.tryKind, hmk, if_true, Option.some.injEq, Prod.mk.injEq] at hv
    obtain ⟨rfl, rfl⟩ := hv
    simp only [if_true]
    exact assign1 (s := { s with lx := _ }) (advance_sound hn hst2 ht) (XV.sem_mono (resolve_sound hn hst2.inv hst2.cur (x := .v .curTok) ⟨_, rfl, rfl⟩)) dst
  | false =>
    simp only [Lx.tryKind, hmk, Option.some.injEq, Prod.mk.injEq, Bool.false_eq_true, if_false] at hv
    obtain ⟨rfl, rfl⟩ := hv
    exact assign1 hst2 (x := .v .nil) rfl dst

theorem aprim_expectKind (hn : tokNeed tb.need) (h : ASem tb input st hs fr s) (k : Exp) (dst : List Nat) :
    PrimSem tb sg input hs fr s ln dst (aprim tb ln st (.expectKind k) dst) ((Prim.expectKind k).run s fr.env) := by
  have hrun : (Prim.expectKind k).run s fr.env = (k.eval s fr.env).bind (fun v => v.toStr?.map (fun k => match s.lx.tryKind k with
      | (.nil, l) => ([kindErr l k], l)
      | (_, l) => ([.nil], l))) := by
    simp only [Prim.run]; cases k.eval s fr.env <;> rfl
  rw [hrun]
  simp only [aprim]
  refine test_sound (C := fun x => (x == .v (.str true)) = true) _ (aeval_sound hn k st h) (fun hev => fail_false (C := fun x => x == .v (.str true)) hev) ?_
  intro v x st' hc he hx hst
  obtain ⟨y, rfl, hy⟩ := str_true hc hx
  simp only [V.toStr?, Option.map_some]
  refine ⟨by simp, fun vs l hv => ?_⟩
  obtain ⟨st2, hm, hst2⟩ := testKindE_sound hst he hy
  refine ⟨_, hm, ?_⟩
  cases hmk : s.lx.matchKinds [y] with
  | true =>
    obtain ⟨t, ht⟩ := mem_true_tok hmk hy
    obtain ⟨fs, hfs⟩ := tokV_ne (t := t)
    simp only [Lx.tryKind, hmk, if_true, ht, hfs, Option.some.injEq, Prod.mk.injEq] at hv
    obtain ⟨rfl, rfl⟩ := hv
    simp only [if_true]
    exact assign1 (s := { s with lx := _ }) (advance_sound hn hst2 ht) (x := .v .nil) rfl dst
  | false =>
    simp only [Lx.tryKind, hmk, Option.some.injEq, Prod.mk.injEq, Bool.false_eq_true, if_false] at hv
    obtain ⟨rfl, rfl⟩ := hv
    exact assign1 hst2 (parseErr_sem hst2.inv) dst

theorem aprim_expectKw (hn : tokNeed tb.need) (h : ASem tb input st hs fr s) (k : Exp) (dst : List Nat) :
    PrimSem tb sg input hs fr s ln dst (aprim tb ln st (.expectKw k) dst) ((Prim.expectKw k).run s fr.env) := by
  have hrun : (Prim.expectKw k).run s fr.env = (k.eval s fr.env).bind (fun v => v.toStr?.map (fun k =>
      if !s.lx.matchKw k then ([keywordErr s.lx k], s.lx) else ([.nil], s.lx.advance))) := by
    simp only [Prim.run]; cases k.eval s fr.env <;> rfl
  rw [hrun]
  simp only [aprim]
  refine test_sound (C := fun x => isStr x = true ∨ ln ∈ tb.bad) _ (aeval_sound hn k st h) (fun hev => panic_or hev) ?_
  intro v x st' hc he hx hst
  refine ⟨fun hnone => ?_, fun vs l hv => ?_⟩
  · rcases hc with hc | hb
    · obtain ⟨y, rfl⟩ := isStr_sound hc hx
      simp [V.toStr?] at hnone
    · exact hb
  obtain ⟨y, rfl, hv⟩ := str1 hv
  replace hv : (if (!s.lx.matchKw y) = true then ([keywordErr s.lx y], s.lx) else ([V.nil], s.lx.advance)) = (vs, l) := by
    simpa [V.toStr?] using hv
  obtain ⟨st2, hm, hst2⟩ := testKwE_sound hst he
  refine ⟨_, hm, ?_⟩
  cases hmk : s.lx.matchKw y with
  | true =>
    obtain ⟨t, ht, _⟩ := matchKw_iff.1 hmk
    simp only [hmk, Bool.not_true, Bool.false_eq_true, if_false, Prod.mk.injEq] at hv
    obtain ⟨rfl, rfl⟩ := hv
    simp only [if_true]
    exact assign1 (s := { s with lx := _ }) (advance_sound hn hst2 ht) (x := .v .nil) rfl dst
  | false =>
    simp only [hmk, Bool.not_false, if_true, Prod.mk.injEq] at hv
    obtain ⟨rfl, rfl⟩ := hv
    exact assign1 hst2 (parseErr_sem hst2.inv) dst

theorem aprim_tryKws (hn : tokNeed tb.need) (h : ASem tb input st hs fr s) (ks : List Str) (dst : List Nat) :
    PrimSem tb sg input hs fr s ln dst (aprim tb ln st (.tryKws ks) dst) ((Prim.tryKws ks).run s fr.env) := by
  unfold aprim
  dsimp only
  split
  · intro hev; have := hev (.fail "tryKws") (by simp); simp [Ev.ok] at this
  · rename_i k
    intro _
    refine ⟨fun vs l hv => ?_, by simp [Prim.run]⟩
    obtain ⟨st2, hm, hst2⟩ := testKw_sound h k
    refine ⟨_, List.mem_map.2 ⟨_, hm, rfl⟩, ?_⟩
    cases hmk : s.lx.matchKw k with
    | true =>
      obtain ⟨t, ht, _⟩ := matchKw_iff.1 hmk
      simp only [Prim.run, Lx.tryKws, Lx.takeKws, hmk, if_true, Option.some.injEq, Prod.mk.injEq] at hv
      obtain ⟨rfl, rfl⟩ := hv
      simp only [if_true]
      exact assign1 (s := { s with lx := _ }) (advance_sound hn hst2 ht) (x := .v _) sem_bool dst
    | false =>
      simp only [Prim.run, Lx.tryKws, Lx.takeKws, hmk, Option.some.injEq, Prod.mk.injEq, Bool.false_eq_true, if_false] at hv
      obtain ⟨rfl, rfl⟩ := hv
      exact assign1 hst2 (x := .v _) sem_bool dst
  · rename_i k ks _
    intro _
    refine ⟨fun vs l hv => ?_, by simp [Prim.run]⟩
    simp only [Prim.run, Lx.tryKws] at hv
    split at hv
    · rename_i l' htk
      simp only [Lx.takeKws] at htk
      split at htk
      · rename_i hmk
        obtain ⟨t, ht, _⟩ := matchKw_iff.1 hmk
        simp only [Option.some.injEq, Prod.mk.injEq] at hv
        obtain ⟨rfl, rfl⟩ := hv
        obtain ⟨st2, hm, hst2⟩ := testKw_sound h k
        rw [hmk] at hm
        refine ⟨_, List.mem_append.2 (Or.inl (List.mem_map.2 ⟨_, List.mem_filter.2 ⟨hm, rfl⟩, rfl⟩)), ?_⟩
        obtain ⟨h1, h2⟩ := takeKws_le (linv_advance hst2.inv) htk
        refine assign1 (s := { s with lx := l' }) (step_sound (c := .any) hn hst2 h1 trivial (fun m g hm => mv_strict hm ?_) rfl rfl) (x := .v _) sem_bool dst
        have := mu_advance_tok hst2.inv ht
        omega
      · simp at htk
    · simp only [Option.some.injEq, Prod.mk.injEq] at hv
      obtain ⟨rfl, rfl⟩ := hv
      exact ⟨_, List.mem_append.2 (Or.inr (List.mem_singleton.2 rfl)), assign1 h (x := .v _) sem_bool dst⟩

theorem aprim_peek (hn : tokNeed tb.need) (h : ASem tb input st hs fr s) (dst : List Nat) :
    PrimSem tb sg input hs fr s ln dst (aprim tb ln st .peek dst) (Prim.peek.run s fr.env) := by
  intro _
  refine ⟨fun vs l hv => ?_, by simp [Prim.run]⟩
  simp only [Prim.run, Lx.peek] at hv
  cases hc : s.lx.consume with
  | ok l' =>
    simp only [hc, Option.some.injEq, Prod.mk.injEq] at hv
    obtain ⟨rfl, rfl⟩ := hv
    have ht : (XV.v (.ty (.ptr .Token) false .top .top)).sem tb.need input (some s.lx) (tokV l'.cur) := tokV_good (lx := some s.lx) hn (linv_ok h.inv hc)
    exact ⟨_, List.mem_cons_self, assignAll_sound (xs := [_, .v .nil]) (.cons ht (.cons rfl .nil)) dst h⟩
  | err l' =>
    simp only [hc, Option.some.injEq, Prod.mk.injEq] at hv
    obtain ⟨rfl, rfl⟩ := hv
    refine ⟨_, List.mem_cons_of_mem _ List.mem_cons_self, assignAll_sound (s := { s with lx := l' }) (xs := [.v .nil, _]) (.cons rfl (.cons lexErr_sem .nil)) dst
      (step_sound (c := .none) hn h (linv_err h.inv hc) (consume_err_shape hc).1 (fun m g hm => mv_weak hm ?_) rfl rfl)⟩
    have := mu_advance h.inv
    simpa [Lx.advance, hc] using this

theorem aprim_wrap (hn : tokNeed tb.need) (h : ASem tb input st hs fr s) (e : Exp) (dst : List Nat) :
    PrimSem tb sg input hs fr s ln dst (aprim tb ln st (.wrap e) dst) ((Prim.wrap e).run s fr.env) := by
  intro hev
  simp only [aprim, evs_append] at hev
  obtain ⟨h1, h2⟩ := aeval_sound hn e st h hev.1
  refine ⟨fun vs l hv => ?_, fun hnone => h2 (by simpa [Prim.run] using hnone)⟩
  simp only [Prim.run, Option.map_eq_some_iff] at hv
  obtain ⟨v, hv, he⟩ := hv
  simp only [Prod.mk.injEq] at he
  obtain ⟨rfl, rfl⟩ := he
  obtain ⟨x, st', hm, hx, hst⟩ := h1 v hv
  have hc := fail_false (C := fun x => match x with | .v (.err true _) => true | _ => false) hev.2 _ hm
  simp only at hc
  split at hc
  · rename_i w
    rcases hx with ⟨h, _⟩ | hx
    · simp at h
    · exact ⟨_, List.mem_map.2 ⟨_, hm, rfl⟩, assign1 hst (x := .v (.err true true)) (Or.inr (wrap_sound hst hx)) dst⟩
  · simp at hc

/-- The analysis of primitives is right. -/
theorem aprim_sound (hn : tokNeed tb.need) (h : ASem tb input st hs fr s) (p : Prim) (dst : List Nat) :
    PrimSem tb sg input hs fr s ln dst (aprim tb ln st p dst) (p.run s fr.env) := by
  cases p with
  | consume => exact aprim_consume hn h dst
  | tryKind k => exact aprim_tryKind hn h k dst
  | expectKind k => exact aprim_expectKind hn h k dst
  | expectKw k => exact aprim_expectKw hn h k dst
  | tryKws ks => exact aprim_tryKws hn h ks dst
  | peek => exact aprim_peek hn h dst
  | wrap e => exact aprim_wrap hn h e dst

/-! ### Assignment to fields -/

theorem get_of_length {α : Type} {l : List α} {i : Nat} (h : i < l.length) : ∃ a, l[i]? = some a := ⟨_, List.getElem?_eq_getElem h⟩

theorem setPath1 {t : Ty} {fs : List AV} {p e : PB} {lx : Option Lx} {w v : V} {i : Nat} {a : AV} {x : XV}
    (hx : x = .obj t fs p e) (hw : x.sem tb.need input lx w) (hi : i < fs.length) (ha : a.sem tb.need input none v) :
    ∃ w', setPath w [i] v = some w' ∧ (XV.obj t (fs.set i a) .top .top).sem tb.need input lx w' := by
  subst hx
  obtain ⟨vs, rfl, h1, _, _⟩ := hw
  obtain ⟨b, hb⟩ := get_of_length hi
  obtain ⟨u, hu, _⟩ := forall₂_get h1 hb
  refine ⟨.mk t (vs.set i v), by simp [setPath, hu], ⟨_, rfl, forall₂_set h1 ha, PB.res_top, PB.res_top⟩⟩

theorem asetPath_sound (hn : tokNeed tb.need) (h : ASem tb input st hs fr s) {x y w' : XV} {v w : V} {path : List Nat} {evs : List (Ev Fn)}
    (hx : x.sem tb.need input (some s.lx) w) (hy : y.sem tb.need input (some s.lx) v)
    (he : asetPath tb st.cur x path y = some (w', evs)) (hev : EvsOK tb sg evs) :
    ∃ u, setPath w path v = some u ∧ w'.sem tb.need input (some s.lx) u := by
  have hr : (x.resolve st.cur).sem tb.need input (some s.lx) w := XV.sem_mono (resolve_sound hn h.inv h.cur hx)
  have ha : EvsOK tb sg (flat tb st.cur y).2 → (flat tb st.cur y).1.sem tb.need input none v := flat_sound hn h.inv h.cur hy
  unfold asetPath at he
  generalize x.resolve st.cur = z at hr he
  dsimp only at he
  split at he
  · rename_i i t fs p e
    split at he
    · rename_i hi
      simp only [Option.some.injEq, Prod.mk.injEq] at he
      obtain ⟨rfl, rfl⟩ := he
      exact setPath1 rfl hr hi (ha hev)
    · simp at he
  · rename_i i y'
    split at he
    · rename_i t fs p e ho
      split at he
      · rename_i hi
        simp only [Option.some.injEq, Prod.mk.injEq] at he
        obtain ⟨rfl, rfl⟩ := he
        exact setPath1 rfl (open_sound ho hr) hi (ha hev)
      · simp at he
    · simp at he
  · rename_i i j t fs p e
    split at he
    · rename_i y' hy'
      split at he
      · rename_i u gs p' e' ho
        split at he
        · rename_i hj
          simp only [Option.some.injEq, Prod.mk.injEq] at he
          obtain ⟨rfl, rfl⟩ := he
          rw [evs_append] at hev
          obtain ⟨vs, rfl, h1, _, _⟩ := hr
          obtain ⟨w1, hw1, hs1⟩ := forall₂_get h1 hy'
          obtain ⟨w2, hw2, hs2⟩ := setPath1 (i := j) rfl (open_sound (lx := none) ho hs1) hj (ha hev.1)
          refine ⟨.mk t (vs.set i w2), ?_, ⟨_, rfl, forall₂_set h1 (weaken_sound hs2 hev.2), PB.res_top, PB.res_top⟩⟩
          rw [setPath]; simp only [hw1, Option.bind_some, hw2, Option.map_some]
        · simp at he
      · simp at he
    · simp at he
  · simp at he

/-! ### Conditions -/

/-- A state is in the list that belongs to the value of a condition. -/
def CondSem (tb : Tables Fn) (input : Str) (hs : List Lx) (fr : Frame) (s : PS) (ln : Nat) (A B : List AS) : Option Bool → Prop
  | some true => ∃ st ∈ A, ASem tb input st hs fr s
  | some false => ∃ st ∈ B, ASem tb input st hs fr s
  | none => ln ∈ tb.bad

theorem condSplit_sound {c : Exp} {r : ER Fn} (hr : ESem tb sg input hs fr s ln r (c.eval s fr.env))
    (hev : EvsOK tb sg (condSplit tb ln c r).2.2) : CondSem tb input hs fr s ln (condSplit tb ln c r).1 (condSplit tb ln c r).2.1
      ((c.eval s fr.env).bind V.toBool?) := by
  obtain ⟨outs, evs⟩ := r
  have he : EvsOK tb sg evs ∧ ∀ p ∈ outs, ∀ st, ASem tb input st hs fr s → p.2 = st → ∀ v, c.eval s fr.env = some v →
      p.1.sem tb.need input (some s.lx) v → CondSem tb input hs fr s ln (condSplit tb ln c ⟨outs, evs⟩).1 (condSplit tb ln c ⟨outs, evs⟩).2.1
        v.toBool? := by
    clear hr
    induction outs with
    | nil => exact ⟨hev, by simp⟩
    | cons p outs ih =>
      simp only [condSplit, List.foldr_cons] at hev ih ⊢
      have more : ∀ (a b : List AS), (∀ st ∈ (condSplit tb ln c ⟨outs, evs⟩).1, st ∈ a) → (∀ st ∈ (condSplit tb ln c ⟨outs, evs⟩).2.1, st ∈ b) →
          ∀ v : V, CondSem tb input hs fr s ln (condSplit tb ln c ⟨outs, evs⟩).1 (condSplit tb ln c ⟨outs, evs⟩).2.1 v.toBool? →
          CondSem tb input hs fr s ln a b v.toBool? := by
        intro a b ha hb v h
        revert h
        cases v.toBool? with
        | none => exact id
        | some b => cases b with
          | true => rintro ⟨st, h1, h2⟩; exact ⟨st, ha _ h1, h2⟩
          | false => rintro ⟨st, h1, h2⟩; exact ⟨st, hb _ h1, h2⟩
      simp only [condSplit] at more
      generalize hacc : List.foldr _ _ outs = acc at hev ih more ⊢
      obtain ⟨q, st⟩ := p
      split at hev
      · rename_i e
        simp only at e; subst e
        obtain ⟨i1, i2⟩ := ih hev
        refine ⟨i1, fun p hp => ?_⟩
        rcases List.mem_cons.1 hp with rfl | hp
        · intro st' h' e v hv hx
          simp only at e; subst e
          obtain ⟨b, rfl, hb⟩ := hx
          have := hb _ rfl; subst this
          exact ⟨_, List.mem_cons_self, h'⟩
        · intro st' h' e v hv hx
          exact more _ _ (fun _ h => List.mem_cons_of_mem _ h) (fun _ h => h) v (i2 p hp st' h' e v hv hx)
      · rename_i e
        simp only at e; subst e
        obtain ⟨i1, i2⟩ := ih hev
        refine ⟨i1, fun p hp => ?_⟩
        rcases List.mem_cons.1 hp with rfl | hp
        · intro st' h' e v hv hx
          simp only at e; subst e
          obtain ⟨b, rfl, hb⟩ := hx
          have := hb _ rfl; subst this
          exact ⟨_, List.mem_cons_self, h'⟩
        · intro st' h' e v hv hx
          exact more _ _ (fun _ h => h) (fun _ h => List.mem_cons_of_mem _ h) v (i2 p hp st' h' e v hv hx)
      · rename_i e
        simp only at e; subst e
        split at hev
        · rename_i j
          obtain ⟨i1, i2⟩ := ih hev
          refine ⟨i1, fun p hp => ?_⟩
          rcases List.mem_cons.1 hp with rfl | hp
          · intro st' h' e v hv hx
            simp only at e; subst e
            obtain ⟨b, rfl, hb⟩ := hx
            cases b
            · exact ⟨_, List.mem_cons_self, refine_sound h' hv sem_bool⟩
            · exact ⟨_, List.mem_cons_self, refine_sound h' hv sem_bool⟩
          · intro st' h' e v hv hx
            exact more _ _ (fun _ h => List.mem_cons_of_mem _ h) (fun _ h => List.mem_cons_of_mem _ h) v (i2 p hp st' h' e v hv hx)
        · rename_i hc
          obtain ⟨i1, i2⟩ := ih hev
          refine ⟨i1, fun p hp => ?_⟩
          rcases List.mem_cons.1 hp with rfl | hp
          · intro st' h' e v hv hx
            simp only at e; subst e
            obtain ⟨b, rfl, hb⟩ := hx
            cases b
            · exact ⟨_, List.mem_cons_self, h'⟩
            · exact ⟨_, List.mem_cons_self, h'⟩
          · intro st' h' e v hv hx
            exact more _ _ (fun _ h => List.mem_cons_of_mem _ h) (fun _ h => List.mem_cons_of_mem _ h) v (i2 p hp st' h' e v hv hx)
      · rename_i e1 e2 e3
        rw [evs_cons] at hev
        obtain ⟨i1, i2⟩ := ih hev.2
        have hbad : ln ∈ tb.bad := by simpa [Ev.ok, List.contains_iff_mem] using hev.1
        refine ⟨i1, fun p hp => ?_⟩
        rcases List.mem_cons.1 hp with rfl | hp
        · intro st' h' e v hv hx
          simp only at e; subst e
          cases v.toBool? with
          | none => exact hbad
          | some b => cases b <;> exact ⟨_, List.mem_cons_self, h'⟩
        · intro st' h' e v hv hx
          exact more _ _ (fun _ h => List.mem_cons_of_mem _ h) (fun _ h => List.mem_cons_of_mem _ h) v (i2 p hp st' h' e v hv hx)
  obtain ⟨h1, h2⟩ := hr he.1
  cases hv : c.eval s fr.env with
  | none => exact h2 hv
  | some v =>
    obtain ⟨x, st, hm, hx, hst⟩ := h1 v hv
    exact he.2 _ hm st hst rfl v hv hx

end Verif.An

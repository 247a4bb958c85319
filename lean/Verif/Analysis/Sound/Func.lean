/-
Loops, calls and methods: the analysis of statements is right, and a method whose conditions are all
met behaves as its signature says, with a recursion bound that is linear in the length of the input.
-/
import Verif.Analysis.Sound.Stmt

namespace Verif.An
open List (Forall₂)

variable {Fn : Type} {tb : Tables Fn} {sg : Sig} {input : Str} {hs : List Lx} {fr : Frame} {s : PS} {st : AS} {ln : Nat} {h0 : Lx}

/-- The abstract execution `A` describes the execution `B`. -/
def BodyOK (tb : Tables Fn) (sg : Sig) (input : Str) (h0 : Lx) (A : List AS → SR Fn) (B : Frame → PS → Out) : Prop :=
  ∀ xs hs fr s, hs.head? = some h0 → (∃ st ∈ xs, ASem tb input st hs fr s) → EvsOK tb sg (A xs).evs →
    OutSem tb sg input hs (A xs) (B fr s)

/-! ### Loops -/

theorem loopN_sound {A : List AS → SR Fn} {B : Frame → PS → Out} (hB : BodyOK tb sg input h0 A B) (hh : hs.head? = some h0)
    {xs : List AS} {live : Nat} (hev : EvsOK tb sg (A xs).evs)
    (hcov : ∀ l fr s, (∃ b ∈ backEdge live hs.length ((A xs).next ++ (A xs).cont), ASem tb input b (hs ++ [l]) fr s) →
      ∃ b ∈ xs, ASem tb input b (hs ++ [l]) fr s)
    {stuck : List AS} (hstuck : ∀ st ∈ (A xs).next ++ (A xs).cont, st.mv[hs.length]? = some .lt ∨
      (st ∈ stuck ∧ (st.mv[hs.length]? = some .eq ∨ st.mv[hs.length]? = some .le)))
    (hq : stuck ≠ [] → EvsOK tb sg (A (backEdge live hs.length stuck)).evs ∧
      ∀ st ∈ (A (backEdge live hs.length stuck)).next ++ (A (backEdge live hs.length stuck)).cont, st.mv[hs.length]? = some .lt) :
    ∀ k fr s, (∃ st ∈ xs, ASem tb input st (hs ++ [s.lx]) fr s) →
      (2 * mu s.lx + 2 ≤ k ∨ (2 * mu s.lx + 1 ≤ k ∧ ∃ st ∈ backEdge live hs.length stuck, ASem tb input st (hs ++ [s.lx]) fr s)) →
      OutSem tb sg input hs ⟨(A xs).brk.map (AS.pop hs.length), [], [], []⟩ (loopN B k fr s) := by
  intro k
  induction k with
  | zero => intro fr s _ h; omega
  | succ k ih =>
    intro fr s hx hk
    have hh' : (hs ++ [s.lx]).head? = some h0 := by
      cases hs with
      | nil => simp at hh
      | cons a t => simpa using hh
    have ho := hB xs (hs ++ [s.lx]) fr s hh' hx hev
    have again : ∀ fr' s', (∃ st ∈ (A xs).next ++ (A xs).cont, ASem tb input st (hs ++ [s.lx]) fr' s') →
        (∀ st2 ∈ backEdge live hs.length stuck, ASem tb input st2 (hs ++ [s.lx]) fr s →
          ∃ st ∈ (A (backEdge live hs.length stuck)).next ++ (A (backEdge live hs.length stuck)).cont, ASem tb input st (hs ++ [s.lx]) fr' s') →
        OutSem tb sg input hs ⟨(A xs).brk.map (AS.pop hs.length), [], [], []⟩ (loopN B k fr' s') := by
      rintro fr' s' ⟨st', hm, hst'⟩ h2
      refine ih fr' s' (hcov _ _ _ ⟨_, List.mem_map.2 ⟨st', hm, rfl⟩, as_back hst' live⟩) ?_
      obtain ⟨m, hm1, hm2⟩ := mv_last hst'
      rcases hk with hk | ⟨hk, st2, hst2, hs2⟩
      · rcases hstuck st' hm with he | ⟨hin, he⟩
        · rw [hm1] at he; simp at he; subst he
          simp only [Mv.sem] at hm2
          left; omega
        · right
          refine ⟨?_, _, List.mem_map.2 ⟨st', hin, rfl⟩, as_back hst' live⟩
          rcases he with he | he <;> rw [hm1] at he <;> simp at he <;> subst he <;> simp only [Mv.sem] at hm2
          · rw [hm2]; omega
          · omega
      · obtain ⟨st3, hm3, hst3⟩ := h2 st2 hst2 hs2
        have hne : stuck ≠ [] := by rintro rfl; simp [backEdge] at hst2
        have he := (hq hne).2 st3 hm3
        obtain ⟨m', hm1', hm2'⟩ := mv_last hst3
        rw [hm1'] at he; simp at he; subst he
        simp only [Mv.sem] at hm2'
        left; omega
    have q2 : ∀ st2 ∈ backEdge live hs.length stuck, ASem tb input st2 (hs ++ [s.lx]) fr s →
        OutSem tb sg input (hs ++ [s.lx]) (A (backEdge live hs.length stuck)) (B fr s) := by
      intro st2 hm2 hs2
      have hne : stuck ≠ [] := by rintro rfl; simp [backEdge] at hm2
      exact hB _ _ fr s hh' ⟨st2, hm2, hs2⟩ (hq hne).1
    simp only [loopN]
    cases hb : B fr s with
    | next fr' s' =>
      rw [hb] at ho q2
      obtain ⟨st', hm, hst'⟩ := ho
      refine again fr' s' ⟨st', List.mem_append.2 (Or.inl hm), hst'⟩ (fun st2 h1 h2 => ?_)
      obtain ⟨st3, h3, h4⟩ := q2 st2 h1 h2
      exact ⟨st3, List.mem_append.2 (Or.inl h3), h4⟩
    | cont fr' s' =>
      rw [hb] at ho q2
      obtain ⟨st', hm, hst'⟩ := ho
      refine again fr' s' ⟨st', List.mem_append.2 (Or.inr hm), hst'⟩ (fun st2 h1 h2 => ?_)
      obtain ⟨st3, h3, h4⟩ := q2 st2 h1 h2
      exact ⟨st3, List.mem_append.2 (Or.inr h3), h4⟩
    | brk fr' s' =>
      rw [hb] at ho
      obtain ⟨st', hm, hst'⟩ := ho
      exact ⟨_, List.mem_map.2 ⟨st', hm, rfl⟩, as_pop hst'⟩
    | ret vs s' =>
      rw [hb] at ho
      obtain ⟨h1, t, e, hr⟩ := ho
      cases hs with
      | nil => simp at hh
      | cons a hs =>
        simp only [List.cons_append, List.cons.injEq] at e
        obtain ⟨rfl, _⟩ := e
        exact ⟨a, hs, rfl, hr⟩
    | panic l => rw [hb] at ho; exact ho
    | fuel => rw [hb] at ho; exact ho

/-- The conditions collected so far are not lost. -/
theorem aloop_evs {A : List AS → SR Fn} {live m : Nat} : ∀ k xs evs, EvsOK tb sg (aloop tb live A m k xs evs).evs → EvsOK tb sg evs := by
  intro k
  induction k with
  | zero => intro xs evs hev; have := hev (.fail "loop") (by simp [aloop]); simp [Ev.ok] at this
  | succ k ih =>
    intro xs evs hev
    simp only [aloop] at hev
    split at hev
    · split at hev
      · exact (evs_append.1 hev).1
      · split at hev
        · have := hev (.fail "stuck") (by simp); simp [Ev.ok] at this
        · exact (evs_append.1 hev).1
    · exact (evs_append.1 (ih _ _ hev)).1

theorem aloop_sound (hn : tokNeed tb.need) {A : List AS → SR Fn} {B : Frame → PS → Out} (hB : BodyOK tb sg input h0 A B)
    (hh : hs.head? = some h0) {live n : Nat} (hN : 4 * input.length + 4 ≤ n) :
    ∀ k xs evs, EvsOK tb sg (aloop tb live A hs.length k xs evs).evs → (∃ st ∈ xs, ASem tb input st (hs ++ [s.lx]) fr s) →
      EvsOK tb sg evs ∧ OutSem tb sg input hs (aloop tb live A hs.length k xs evs) (loopN B n fr s) := by
  intro k
  induction k with
  | zero => intro xs evs hev _; have := hev (.fail "loop") (by simp [aloop]); simp [Ev.ok] at this
  | succ k ih =>
    intro xs evs hev hx
    simp only [aloop] at hev ⊢
    split at hev
    · rename_i hc
      rw [if_pos hc]
      obtain ⟨sx, hsx, hss⟩ := hx
      have hmu := mu_le hss.inv
      have hx : ∃ st ∈ xs, ASem tb input st (hs ++ [s.lx]) fr s := ⟨sx, hsx, hss⟩
      have hend : ∀ st ∈ (A xs).next ++ (A xs).cont, st.mv[hs.length]? = some .lt ∨
          st ∈ ((A xs).next ++ (A xs).cont).filter (fun st => st.mv[hs.length]? != some .lt) := by
        intro st hm
        rcases Classical.em (st.mv[hs.length]? = some .lt) with h | h
        · exact Or.inl h
        · exact Or.inr (List.mem_filter.2 ⟨hm, by simp only [bne_iff_ne, ne_eq]; exact h⟩)
      generalize ((A xs).next ++ (A xs).cont).filter (fun st => st.mv[hs.length]? != some .lt) = stuck at hev hend ⊢
      split at hev
      · rename_i he
        rw [if_pos he]
        rw [List.isEmpty_iff] at he; subst he
        simp only [evs_append] at hev
        refine ⟨hev.1, ?_⟩
        have := loopN_sound (stuck := []) (live := live) hB hh hev.2.1 (fun l fr s h => allCovered_sound hn hc hev.2.2 h)
          (fun st hm => Or.inl ((hend st hm).elim id (by simp))) (by simp) n fr s hx (by omega)
        revert this
        cases loopN B n fr s <;> exact id
      · rename_i he
        rw [if_neg he]
        split at hev
        · have := hev (.fail "stuck") (by simp); simp [Ev.ok] at this
        · rename_i hall
          rw [if_neg hall]
          simp only [Bool.not_eq_true', Bool.not_eq_false, List.all_eq_true, Bool.or_eq_true, beq_iff_eq] at hall
          simp only [evs_append] at hev
          refine ⟨hev.1, ?_⟩
          have := loopN_sound (stuck := stuck) (live := live) hB hh hev.2.1 (fun l fr s h => allCovered_sound hn hc hev.2.2.1 h)
            (fun st hm => (hend st hm).imp id (fun h => ⟨h, hall st h⟩)) (fun _ => ⟨hev.2.2.2.1, fun st hm => ?_⟩) n fr s hx (by omega)
          · revert this
            cases loopN B n fr s <;> exact id
          · have := hev.2.2.2.2 _ (List.mem_map.2 ⟨st, hm, rfl⟩)
            simp only [Ev.ok, beq_iff_eq] at this
            cases hmv : st.mv[hs.length]? with
            | none => rw [hmv] at this; simp at this
            | some m => rw [hmv] at this; simp at this; rw [this]
    · rename_i hc
      rw [if_neg hc]
      have he := evs_append.1 (aloop_evs _ _ _ hev)
      obtain ⟨b, hb, h⟩ := hx
      exact ⟨he.1, (ih _ _ hev (join_sound hn he.2 ⟨b, List.mem_append.2 (Or.inl hb), h⟩)).2⟩

/-! ### Calls and returns -/

theorem dropRes_sound {xs : List XV} {vs : List V} {lx : Option Lx} {need : Ty → List PNeed}
    (h : Forall₂ (fun x v => XV.sem need input lx v x) xs vs) : Forall₂ (fun x v => XV.sem need input lx v x) (dropRes xs) vs := by
  unfold dropRes
  split
  · rename_i h'
    clear h'
    induction h with
    | nil => exact .nil
    | cons h1 _ ih =>
      refine .cons ?_ ih
      dsimp only
      split
      · exact h1
      · trivial
  · exact h

theorem flatRes_sound (hn : tokNeed tb.need) (h : ASem tb input st hs fr s) {xs : List XV} {vs : List V}
    (hx : Forall₂ (fun x v => XV.sem tb.need input (some s.lx) v x) xs vs) (hev : EvsOK tb sg (flatRes tb st xs).2) :
    Forall₂ (fun a v => AV.sem tb.need input none v a) (flatRes tb st xs).1 vs := by
  induction hx with
  | nil => exact .nil
  | cons h1 _ ih =>
    simp only [flatRes, evs_append] at hev ⊢
    exact .cons (flat_sound hn h.inv h.cur h1 hev.1) (ih hev.2)

theorem flatAll_sound (hn : tokNeed tb.need) (h : ASem tb input st hs fr s) {xs : List XV} {vs : List V}
    (hx : Forall₂ (fun x v => XV.sem tb.need input (some s.lx) v x) xs vs) (hev : EvsOK tb sg (flatAll tb st xs).2) :
    Forall₂ (fun a v => AV.sem tb.need input (some s.lx) v a) (flatAll tb st xs).1 vs := by
  induction hx with
  | nil => exact .nil
  | cons h1 _ ih =>
    simp only [flatAll, evs_append] at hev ⊢
    refine .cons ?_ (ih hev.2)
    split
    · exact h1
    · rename_i hne
      exact AV.sem_mono (flat_sound hn h.inv h.cur h1 (by
        have := hev.1
        split at this
        · exact absurd rfl hne
        · exact this))

theorem pick_sound {c : CurS} {args : List AV} : ∀ {l : List Sig} {sg : Sig}, pick c args l = some sg →
    sg ∈ l ∧ all2 (argLe c) args sg.args = true ∧ c.le sg.cur = true := by
  intro l
  induction l with
  | nil => intro sg h; simp [pick] at h
  | cons a l ih =>
    intro sg h
    simp only [pick] at h
    split at h
    · rename_i hc
      rw [Bool.and_eq_true] at hc
      simp at h; subst h
      exact ⟨by simp, hc⟩
    · obtain ⟨h1, h2⟩ := ih h
      exact ⟨List.mem_cons_of_mem _ h1, h2⟩

theorem args_sound (hn : tokNeed tb.need) (h : ASem tb input st hs fr s) {as bs : List AV} {vs : List V}
    (hl : all2 (argLe st.cur) as bs = true) (ha : Forall₂ (fun a v => AV.sem tb.need input (some s.lx) v a) as vs) :
    Forall₂ (fun a v => AV.sem tb.need input (some s.lx) v a) bs vs := by
  rw [all2_forall₂] at hl
  induction hl generalizing vs with
  | nil => exact ha
  | cons h1 _ ih =>
    cases ha with
    | cons h2 h3 =>
      refine .cons ?_ (ih h3)
      simp only [argLe, Bool.or_eq_true] at h1
      rcases h1 with h1 | h1
      · exact AV.le_sound h1 h2
      · exact AV.sem_mono (xv_leV_sound h1 (resolve_av_sound hn h.inv h.cur h2))

/-- How a call ends, for a method with signature `sg`. -/
def COutSem (tb : Tables Fn) (sg : Sig) (input : Str) (h0 : Lx) : COut → Prop
  | .ret vs s => RetSem tb sg input h0 vs s
  | .panic ln => ln ∈ tb.bad
  | .fuel => False

/-- The arguments and the lexer are as the signature requires. -/
structure CallPre (tb : Tables Fn) (sg : Sig) (input : Str) (args : List V) (s : PS) : Prop where
  args : Forall₂ (fun a v => AV.sem tb.need input (some s.lx) v a) sg.args args
  cur : sg.cur.sem input s.lx
  inv : LInv input s.lx
  inp : s.input = input

/-- The calls from a method with signature `sg` that was called when the lexer was `h0`. -/
def CallOK (tb : Tables Fn) (sg : Sig) (input : Str) (h0 : Lx) (call : Fn → List V → PS → COut) : Prop :=
  ∀ f sg', sg' ∈ tb.sig f → ∀ args s, CallPre tb sg' input args s →
    (mu s.lx < mu h0 ∨ (mu s.lx ≤ mu h0 ∧ sg'.rank < sg.rank)) → COutSem tb sg' input s.lx (call f args s)

theorem mv_head (h : ASem tb input st hs fr s) (hh : hs.head? = some h0) : Mv.sem s.lx h0 ((st.mv[0]?).getD .un) := by
  cases hs with
  | nil => simp at hh
  | cons a hs =>
    simp at hh; subst hh
    have := h.mv
    cases hm : st.mv with
    | nil => rw [hm] at this; cases this
    | cons m ms => rw [hm] at this; cases this with | cons h1 _ => exact h1

theorem outsem_ofList {xs : List AS} {f : AS → SR Fn} {o : Out} (hm : st ∈ xs)
    (hb : ∀ st ∈ xs, (f st).brk = [] ∧ (f st).cont = []) (h : OutSem tb sg input hs (f st) o) : OutSem tb sg input hs (SR.ofList xs f) o := by
  cases o with
  | next fr s => obtain ⟨b, h1, h2⟩ := h; exact ⟨b, ofList_next.2 ⟨st, hm, h1⟩, h2⟩
  | brk fr s => obtain ⟨b, h1, h2⟩ := h; rw [(hb st hm).1] at h1; simp at h1
  | cont fr s => obtain ⟨b, h1, h2⟩ := h; rw [(hb st hm).2] at h1; simp at h1
  | ret vs s => exact h
  | panic l => exact h
  | fuel => exact h

theorem ret_sound (hn : tokNeed tb.need) (es : List Exp) (ln : Nat) : BodyOK tb sg input h0
    (fun xs => SR.ofList xs fun st =>
      let r := aevalL tb ln st es
      ⟨[], [], [], r.outs.foldr (fun p acc =>
        let q := flatRes tb p.2 (dropRes p.1)
        .ret q.1 p.2.cur ((p.2.mv[0]?).getD .un) :: (q.2 ++ acc)) r.evs⟩)
    (fun fr s => match Exp.evalL s fr.env es with
      | some vs => .ret vs s
      | none => .panic ln) := by
  rintro xs hs fr s hh ⟨st, hm, h⟩ hev
  refine outsem_ofList hm (fun _ _ => ⟨rfl, rfl⟩) ?_
  have hev := ofList_evs.1 hev st hm
  dsimp only at hev ⊢
  have hsp : ∀ (l : List (List XV × AS)) (ev : List (Ev Fn)),
      EvsOK tb sg (l.foldr (fun p acc => (Ev.ret (flatRes tb p.2 (dropRes p.1)).1 p.2.cur ((p.2.mv[0]?).getD .un) : Ev Fn) ::
        ((flatRes tb p.2 (dropRes p.1)).2 ++ acc)) ev) ↔
      (∀ p ∈ l, Ev.ok tb sg (Ev.ret (flatRes tb p.2 (dropRes p.1)).1 p.2.cur ((p.2.mv[0]?).getD .un) : Ev Fn) = true ∧
        EvsOK tb sg (flatRes tb p.2 (dropRes p.1)).2) ∧ EvsOK tb sg ev := by
    intro l ev
    induction l with
    | nil => simp
    | cons a l ih => simp only [List.foldr_cons, evs_cons, evs_append, ih, List.mem_cons, forall_eq_or_imp, and_assoc]
  have hev := (hsp _ _).1 hev
  obtain ⟨h1, h2⟩ := aevalL_sound hn es st h hev.2
  cases hv : Exp.evalL s fr.env es with
  | none => exact h2 hv
  | some vs =>
    obtain ⟨ys, st', hm', hx, hst⟩ := h1 vs hv
    obtain ⟨k1, k2⟩ := hev.1 _ hm'
    have hf := flatRes_sound hn hst (dropRes_sound hx) k2
    simp only [Ev.ok, List.any_eq_true, Post.covers, Bool.and_eq_true] at k1
    obtain ⟨po, hpo, ⟨k3, k4⟩, k5⟩ := k1
    cases hs with
    | nil => simp at hh
    | cons a t =>
      simp at hh; subst hh
      refine ⟨a, t, rfl, hst.inv, hst.inp, po, hpo, ?_, curS_le_sound k4 hst.cur, mv_cmp_sound k5 (mv_head hst rfl)⟩
      rw [all2_forall₂] at k3
      clear hsp hv h1 h2 hev hm' hx k2 hpo
      generalize (flatRes tb st' (dropRes ys)).1 = as at hf k3
      generalize po.res = bs at k3
      induction k3 generalizing vs with
      | nil => exact hf
      | cons h _ ih => cases hf with | cons h1 h2 => exact .cons (AV.le_sound h h1) (ih _ h2)

theorem call_sound (hn : tokNeed tb.need) {call : Fn → List V → PS → COut} (hc : CallOK tb sg input h0 call) (f : Fn) (es : List Exp)
    (dst : List Nat) (ln : Nat) : BodyOK tb sg input h0
    (fun xs => SR.ofList xs fun st =>
      let r := aevalL tb ln st es
      r.outs.foldr (fun p acc =>
        let q := flatAll tb p.2 p.1
        let outs := ((pick p.2.cur q.1 (tb.sig f)).elim [] Sig.post).map fun po =>
          match po.mv with
          | .eq => { p.2 with cur := if p.2.cur.le po.cur then p.2.cur else po.cur }.assignAll dst (po.res.map .v)
          | m => (p.2.step po.cur (fun a => a.after m)).assignAll dst (po.res.map .v)
        ⟨outs ++ acc.next, [], [], q.2 ++ (.call f q.1 p.2.cur ((p.2.mv[0]?).getD .un) :: acc.evs)⟩) ⟨[], [], [], r.evs⟩)
    (fun fr s => match Exp.evalL s fr.env es with
      | some vs => match call f vs s with
        | .ret rs s' => .next { fr with env := storeAll fr.env dst rs } s'
        | .panic l => .panic l
        | .fuel => .fuel
      | none => .panic ln) := by
  rintro xs hs fr s hh ⟨st, hm, h⟩ hev
  refine outsem_ofList hm (fun st _ => ?_) ?_
  · dsimp only
    generalize (aevalL tb ln st es).outs = l
    cases l <;> exact ⟨rfl, rfl⟩
  have hev := ofList_evs.1 hev st hm
  dsimp only at hev ⊢
  have hsp : ∀ (O : List XV × AS → List AS) (l : List (List XV × AS)) (ev : List (Ev Fn)),
      let r : SR Fn := l.foldr (fun p (acc : SR Fn) => (⟨O p ++ acc.next, [], [], (flatAll tb p.2 p.1).2 ++
        (.call f (flatAll tb p.2 p.1).1 p.2.cur ((p.2.mv[0]?).getD .un) :: acc.evs)⟩ : SR Fn)) ⟨[], [], [], ev⟩
      (EvsOK tb sg r.evs ↔ (∀ p ∈ l, EvsOK tb sg (flatAll tb p.2 p.1).2 ∧
        Ev.ok tb sg (.call f (flatAll tb p.2 p.1).1 p.2.cur ((p.2.mv[0]?).getD .un) : Ev Fn) = true) ∧ EvsOK tb sg ev) ∧
      (∀ b, b ∈ r.next ↔ ∃ p ∈ l, b ∈ O p) := by
    intro O l ev
    induction l with
    | nil => simp
    | cons a l ih =>
      simp only [List.foldr_cons, evs_cons, evs_append, List.mem_cons, forall_eq_or_imp, and_assoc, List.mem_append, exists_eq_or_imp] at ih ⊢
      exact ⟨by rw [ih.1], fun b => by rw [ih.2]⟩
  have hsp := hsp (fun p => ((pick p.2.cur (flatAll tb p.2 p.1).1 (tb.sig f)).elim [] Sig.post).map fun po =>
          match po.mv with
          | .eq => { p.2 with cur := if p.2.cur.le po.cur then p.2.cur else po.cur }.assignAll dst (po.res.map .v)
          | m => (p.2.step po.cur (fun a => a.after m)).assignAll dst (po.res.map .v)) (aevalL tb ln st es).outs (aevalL tb ln st es).evs
  dsimp only at hsp
  generalize List.foldr _ _ (aevalL tb ln st es).outs = R at hev hsp ⊢
  have hev := hsp.1.1 hev
  obtain ⟨h1, h2⟩ := aevalL_sound hn es st h hev.2
  cases hv : Exp.evalL s fr.env es with
  | none => exact h2 hv
  | some vs =>
    obtain ⟨ys, st', hm', hx, hst⟩ := h1 vs hv
    obtain ⟨k1, k2⟩ := hev.1 _ hm'
    have hmem := fun b => (hsp.2 b).2
    have hf := flatAll_sound hn hst hx k1
    simp only at k2 hf
    simp only [Ev.ok] at k2
    cases hp : pick st'.cur (flatAll tb st' ys).1 (tb.sig f) with
    | none => rw [hp] at k2; simp at k2
    | some sg' =>
      rw [hp] at k2
      simp only [Option.elim_some, Bool.or_eq_true, Bool.and_eq_true, beq_iff_eq, decide_eq_true_eq] at k2
      obtain ⟨p1, p2, p3⟩ := pick_sound hp
      have hmv := mv_head hst hh
      have hpre : CallPre tb sg' input vs s := ⟨args_sound hn hst p2 hf, curS_le_sound p3 hst.cur, hst.inv, hst.inp⟩
      have hres := hc f sg' p1 vs s hpre (by
        rcases k2 with k2 | ⟨k2, k3⟩
        · rw [k2] at hmv; exact Or.inl hmv
        · refine Or.inr ⟨?_, k3⟩
          rcases k2 with k2 | k2 <;> rw [k2] at hmv
          · exact hmv
          · simp only [Mv.sem] at hmv; rw [hmv]; exact Nat.le_refl _)
      dsimp only
      cases hcall : call f vs s with
      | panic l => rw [hcall] at hres; exact hres
      | fuel => rw [hcall] at hres; exact hres
      | ret rs s' =>
        rw [hcall] at hres
        obtain ⟨i1, i2, po, hpo, r1, r2, r3⟩ := hres
        have rx : Forall₂ (fun x v => XV.sem tb.need input (some s'.lx) v x) (po.res.map .v) rs := by
          clear hmem hp hcall
          generalize po.res = as at r1
          induction r1 with
          | nil => exact .nil
          | cons h _ ih => exact .cons (XV.sem_mono (x := .v _) h) ih
        refine ⟨_, hmem _ ⟨_, hm', List.mem_map.2 ⟨po, by simp only [hp]; exact hpo, rfl⟩⟩, ?_⟩
        split
        · rename_i he
          rw [he] at r3
          simp only [Mv.sem] at r3
          have hst' : ASem tb input { st' with cur := if st'.cur.le po.cur then st'.cur else po.cur } hs fr s' := by
            refine ⟨by rw [r3]; exact hst.env, ?_, by rw [r3]; exact hst.mv, i1, i2, hst.saved, hst.smv, hst.sinv, hst.facts⟩
            simp only
            split
            · rw [r3]; exact hst.cur
            · exact r2
          exact assignAll_sound rx dst hst'
        · exact assignAll_sound rx dst (step_sound hn hst i1 r2 (fun m g hm => mv_after hm r3) rfl (i2.trans hst.inp.symm))

/-! ### Statements -/

theorem fail_ev {m : String} {l : List (Ev Fn)} (h : EvsOK tb sg l) (hm : Ev.fail m ∈ l) : False := by
  have := h _ hm; simp [Ev.ok] at this

theorem setFOut_sound (hn : tokNeed tb.need) (h : ASem tb input st hs fr s) {x : Nat} {path : List Nat} {y : XV} {v : V}
    (hy : y.sem tb.need input (some s.lx) v) (hev : EvsOK tb sg (setFOut tb ln x path (y, st)).2) :
    match fr.env[x]?.bind (fun w => setPath w path v) with
    | some w => ∃ st' ∈ (setFOut tb ln x path (y, st)).1, ASem tb input st' hs { fr with env := fr.env.set x w } s
    | none => ln ∈ tb.bad := by
  unfold setFOut at hev ⊢
  dsimp only at hev ⊢
  cases hx : st.env[x]? with
  | none => rw [hx] at hev; exact (fail_ev hev (m := "setF") (by simp)).elim
  | some w =>
    rw [hx] at hev
    obtain ⟨u, hu, hw⟩ := env_get h hx
    dsimp only at hev ⊢
    simp only [hu, Option.bind_some]
    split at hev
    · rename_i w' evs hs'
      obtain ⟨u', hu', hw'⟩ := asetPath_sound hn h hw hy hs' hev
      simp only [hu']
      exact ⟨_, List.mem_singleton.2 rfl, assign_sound h hw' x⟩
    · split at hev
      · rename_i i t p e _
        split at hev
        · rename_i w' evs hs'
          rw [evs_cons] at hev
          have hbad : ln ∈ tb.bad := by simpa [Ev.ok, List.contains_iff_mem] using hev.1
          rcases good_ptr.1 hw.1 with rfl | ⟨vs, rfl, hg⟩
          · simp only [setPath]; exact hbad
          · obtain ⟨u', hu', hw'⟩ := asetPath_sound hn h (x := .obj t (expand tb t) .top .top) ⟨vs, rfl, expand_sound hg, PB.res_top, PB.res_top⟩ hy hs' hev.2
            simp only [hu']
            exact ⟨_, List.mem_singleton.2 rfl, assign_sound h hw' x⟩
        · exact (fail_ev hev (m := "setF") (by simp)).elim
      · simp only [XV.sem, AV.sem] at hw; subst hw
        simp only [setPath]
        exact panic_bad hev (by simp)
      · exact (fail_ev hev (m := "setF") (by simp)).elim

/-- The analysis of statements is right. -/
theorem astmt_sound (hn : tokNeed tb.need) {call : Fn → List V → PS → COut} (hc : CallOK tb sg input h0 call) {n : Nat}
    (hN : 4 * input.length + 4 ≤ n) : ∀ (c : Stmt Fn) (lv : Live), BodyOK tb sg input h0 (astmt tb c lv) (c.run call n)
  | .skip, lv => fun xs hs fr s _ h _ => by rw [astmt, Stmt.run]; exact h
  | .brk, lv => fun xs hs fr s _ h _ => by rw [astmt, Stmt.run]; exact h
  | .cont, lv => fun xs hs fr s _ h _ => by rw [astmt, Stmt.run]; exact h
  | .seq a b, lv => fun xs hs fr s hh h hev => by
    simp only [astmt, evs_append] at hev
    simp only [astmt, Stmt.run]
    have ha := astmt_sound hn hc hN a _ xs hs fr s hh h hev.1
    cases hr : a.run call n fr s with
    | next fr' s' =>
      rw [hr] at ha
      have hb := astmt_sound hn hc hN b lv _ hs fr' s' hh ha hev.2
      dsimp only
      cases hr' : b.run call n fr' s' with
      | next => rw [hr'] at hb; exact hb
      | brk => rw [hr'] at hb; obtain ⟨st, h1, h2⟩ := hb; exact ⟨st, List.mem_append.2 (Or.inr h1), h2⟩
      | cont => rw [hr'] at hb; obtain ⟨st, h1, h2⟩ := hb; exact ⟨st, List.mem_append.2 (Or.inr h1), h2⟩
      | ret => rw [hr'] at hb; exact hb
      | panic => rw [hr'] at hb; exact hb
      | fuel => rw [hr'] at hb; exact hb
    | brk => rw [hr] at ha; obtain ⟨st, h1, h2⟩ := ha; exact ⟨st, List.mem_append.2 (Or.inl h1), h2⟩
    | cont => rw [hr] at ha; obtain ⟨st, h1, h2⟩ := ha; exact ⟨st, List.mem_append.2 (Or.inl h1), h2⟩
    | ret => rw [hr] at ha; exact ha
    | panic => rw [hr] at ha; exact ha
    | fuel => rw [hr] at ha; exact ha
  | .set ln x e, lv => fun xs hs fr s hh h hev => by
    rw [astmt] at hev ⊢
    rw [Stmt.run]
    obtain ⟨st, hm, h⟩ := h
    refine outsem_ofList hm (fun _ _ => ⟨rfl, rfl⟩) ?_
    obtain ⟨h1, h2⟩ := aeval_sound hn e st h (ofList_evs.1 hev st hm)
    cases hv : e.eval s fr.env with
    | none => exact h2 hv
    | some v =>
      obtain ⟨y, st', hm', hy, hst⟩ := h1 v hv
      exact ⟨_, List.mem_map.2 ⟨_, hm', rfl⟩, assign_sound hst hy x⟩
  | .setF ln x path e, lv => fun xs hs fr s hh h hev => by
    rw [astmt] at hev ⊢
    rw [Stmt.run]
    obtain ⟨st, hm, h⟩ := h
    have hsp : ∀ (l : List (XV × AS)) (ev : List (Ev Fn)),
        let r : SR Fn := l.foldr (fun p (acc : SR Fn) =>
          (⟨(setFOut tb ln x path p).1 ++ acc.next, [], [], (setFOut tb ln x path p).2 ++ acc.evs⟩ : SR Fn)) ⟨[], [], [], ev⟩
        r.brk = [] ∧ r.cont = [] ∧ (EvsOK tb sg r.evs → EvsOK tb sg ev ∧ ∀ p ∈ l, EvsOK tb sg (setFOut tb ln x path p).2) ∧
          ∀ p ∈ l, ∀ b ∈ (setFOut tb ln x path p).1, b ∈ r.next := by
      intro l ev
      induction l with
      | nil => exact ⟨rfl, rfl, fun h => ⟨h, by simp⟩, by simp⟩
      | cons a l ih =>
        obtain ⟨_, _, i3, i4⟩ := ih
        simp only [List.foldr_cons, evs_append, List.mem_cons, forall_eq_or_imp, List.mem_append]
        exact ⟨trivial, trivial, fun h => ⟨(i3 h.2).1, h.1, (i3 h.2).2⟩, fun b hb => Or.inl hb, fun p hp b hb => Or.inr (i4 p hp b hb)⟩
    refine outsem_ofList hm (fun st _ => ⟨(hsp _ _).1, (hsp _ _).2.1⟩) ?_
    obtain ⟨_, _, k1, k2⟩ := hsp (aeval tb ln st e).outs (aeval tb ln st e).evs
    have hev := k1 (ofList_evs.1 hev st hm)
    obtain ⟨h1, h2⟩ := aeval_sound hn e st h hev.1
    cases hv : e.eval s fr.env with
    | none => exact h2 hv
    | some v =>
      obtain ⟨y, st', hm', hy, hst⟩ := h1 v hv
      have := setFOut_sound hn hst hy (hev.2 _ hm')
      dsimp only
      cases hb : fr.env[x]?.bind (fun w => setPath w path v) with
      | none => rw [hb] at this; exact this
      | some w =>
        rw [hb] at this
        obtain ⟨st2, h3, h4⟩ := this
        exact ⟨st2, k2 _ hm' _ h3, h4⟩
  | .ite ln c a b, lv => fun xs hs fr s hh h hev => by
    rw [astmt] at hev ⊢
    rw [Stmt.run]
    dsimp only at hev ⊢
    simp only [evs_append] at hev
    obtain ⟨e1, e2, e3, e4, e5, e6⟩ := hev
    have hr : ESem tb sg input hs fr s ln (xs.foldr (fun st (acc : ER Fn) => (⟨(aeval tb ln st c).outs ++ acc.outs, (aeval tb ln st c).evs ++ acc.evs⟩ : ER Fn)) ⟨[], []⟩)
        (c.eval s fr.env) := by
      obtain ⟨st, hm, h⟩ := h
      have hsp := er_fold (tb := tb) (sg := sg) (fun st => aeval tb ln st c) [] xs
      simp only at hsp
      intro hev
      obtain ⟨h1, h2⟩ := aeval_sound hn c st h ((hsp.2.1 hev).1 st hm)
      refine ⟨fun v hv => ?_, h2⟩
      obtain ⟨y, st', hm', h'⟩ := h1 v hv
      exact ⟨y, st', (hsp.1 _).2 ⟨st, hm, hm'⟩, h'⟩
    have hcs := condSplit_sound hr e1
    cases hv : (c.eval s fr.env).bind V.toBool? with
    | none => rw [hv] at hcs; exact hcs
    | some bv =>
      rw [hv] at hcs
      cases bv with
      | true =>
        obtain ⟨st, hm, h⟩ := hcs
        have hj := join_sound hn e2 ⟨_, List.mem_map.2 ⟨st, hm, rfl⟩, as_keep h _⟩
        have ho := astmt_sound hn hc hN a lv _ hs fr s hh hj e4
        dsimp only
        cases hr' : a.run call n fr s with
        | next =>
          rw [hr'] at ho
          obtain ⟨st2, h1, h2⟩ := ho
          exact join_sound hn e6 ⟨_, List.mem_map.2 ⟨st2, List.mem_append.2 (Or.inl h1), rfl⟩, as_keep h2 _⟩
        | brk => rw [hr'] at ho; obtain ⟨st, h1, h2⟩ := ho; exact ⟨st, List.mem_append.2 (Or.inl h1), h2⟩
        | cont => rw [hr'] at ho; obtain ⟨st, h1, h2⟩ := ho; exact ⟨st, List.mem_append.2 (Or.inl h1), h2⟩
        | ret => rw [hr'] at ho; exact ho
        | panic => rw [hr'] at ho; exact ho
        | fuel => rw [hr'] at ho; exact ho
      | false =>
        obtain ⟨st, hm, h⟩ := hcs
        have hj := join_sound hn e3 ⟨_, List.mem_map.2 ⟨st, hm, rfl⟩, as_keep h _⟩
        have ho := astmt_sound hn hc hN b lv _ hs fr s hh hj e5
        dsimp only
        cases hr' : b.run call n fr s with
        | next =>
          rw [hr'] at ho
          obtain ⟨st2, h1, h2⟩ := ho
          exact join_sound hn e6 ⟨_, List.mem_map.2 ⟨st2, List.mem_append.2 (Or.inr h1), rfl⟩, as_keep h2 _⟩
        | brk => rw [hr'] at ho; obtain ⟨st, h1, h2⟩ := ho; exact ⟨st, List.mem_append.2 (Or.inr h1), h2⟩
        | cont => rw [hr'] at ho; obtain ⟨st, h1, h2⟩ := ho; exact ⟨st, List.mem_append.2 (Or.inr h1), h2⟩
        | ret => rw [hr'] at ho; exact ho
        | panic => rw [hr'] at ho; exact ho
        | fuel => rw [hr'] at ho; exact ho
  | .loop body, lv => fun xs hs fr s hh h hev => by
    rw [Stmt.run]
    obtain ⟨st, hm, h⟩ := h
    cases xs with
    | nil => simp at hm
    | cons x xs =>
      rw [astmt] at hev ⊢
      dsimp only at hev ⊢
      split at hev
      · rename_i hl
        rw [if_pos hl]
        have hlen : x.mv.length = hs.length := by
          have := List.all_eq_true.1 hl st hm
          rw [beq_iff_eq] at this
          rw [← this]; exact h.mv.length_eq
        rw [hlen] at hev ⊢
        simp only [evs_append] at hev
        have he := aloop_evs _ _ _ hev.1
        have hj := join_sound hn he ⟨_, List.mem_map.2 ⟨st, hm, rfl⟩, as_keep (as_push h) _⟩
        have := (aloop_sound hn (astmt_sound hn hc hN body _) hh hN _ _ _ hev.1 hj).2
        have hno : ∀ (B : Frame → PS → Out) k fr s, match loopN B k fr s with | .brk _ _ => False | .cont _ _ => False | _ => True := by
          intro B k
          induction k with
          | zero => intro fr s; trivial
          | succ k ih =>
            intro fr s
            simp only [loopN]
            cases B fr s with
            | next => exact ih _ _
            | cont => exact ih _ _
            | brk => trivial
            | ret => trivial
            | panic => trivial
            | fuel => trivial
        have hno := hno (body.run call n) n fr s
        cases hr' : loopN (body.run call n) n fr s with
        | next =>
          rw [hr'] at this
          obtain ⟨st2, h1, h2⟩ := this
          exact join_sound hn hev.2 ⟨_, List.mem_map.2 ⟨st2, h1, rfl⟩, as_keep h2 _⟩
        | brk => rw [hr'] at hno; exact hno.elim
        | cont => rw [hr'] at hno; exact hno.elim
        | ret => rw [hr'] at this; exact this
        | panic => rw [hr'] at this; exact this
        | fuel => rw [hr'] at this; exact this
      · exact (fail_ev hev (m := "levels") (by simp)).elim
  | .ret ln es, lv => fun xs hs fr s hh h hev => by
    rw [astmt] at hev ⊢
    rw [Stmt.run]
    exact ret_sound hn es ln xs hs fr s hh h hev
  | .call ln f args dst, lv => fun xs hs fr s hh h hev => by
    rw [astmt] at hev ⊢
    rw [Stmt.run]
    exact call_sound hn hc f args dst ln xs hs fr s hh h hev
  | .prim ln p dst, lv => fun xs hs fr s hh h hev => by
    rw [astmt] at hev ⊢
    rw [Stmt.run]
    obtain ⟨st, hm, h⟩ := h
    obtain ⟨h1, h2⟩ := aprim_sound hn h p dst (ofList_evs.1 hev st hm)
    cases hv : p.run s fr.env with
    | none => exact h2 hv
    | some r =>
      obtain ⟨vs, l⟩ := r
      obtain ⟨st', hm', hst⟩ := h1 vs l hv
      exact ⟨st', ofList_next.2 ⟨st, hm, hm'⟩, hst⟩
  | .save, lv => fun xs hs fr s hh h hev => by
    rw [astmt, Stmt.run]
    obtain ⟨st, hm, h⟩ := h
    exact ⟨_, List.mem_map.2 ⟨st, hm, rfl⟩, ⟨h.env, h.cur, h.mv, h.inv, h.inp, h.cur, ⟨hs, [], by simp, h.mv⟩, h.inv, h.facts⟩⟩
  | .restore, lv => fun xs hs fr s hh h hev => by
    rw [astmt, Stmt.run]
    obtain ⟨st, hm, h⟩ := h
    refine ⟨_, List.mem_map.2 ⟨st, hm, rfl⟩, ⟨release_env hn h _, h.saved, ?_, h.sinv, h.inp, h.saved, h.smv, h.sinv, h.facts⟩⟩
    obtain ⟨h1, h2, rfl, hsm⟩ := h.smv
    have l1 := hsm.length_eq
    have l2 := h.mv.length_eq
    simp only [List.length_append] at l2
    refine forall₂_append hsm ?_
    have : st.mv.length - st.smv.length = h2.length := by omega
    rw [this]
    clear l1 l2 this hsm h hh
    induction h2 with
    | nil => exact .nil
    | cons a l ih => exact .cons trivial ih
  | .memoAdd ln e, lv => fun xs hs fr s hh h hev => by
    rw [astmt] at hev ⊢
    rw [Stmt.run]
    obtain ⟨st, hm, h⟩ := h
    refine outsem_ofList hm (fun _ _ => ⟨rfl, rfl⟩) ?_
    have hev := evs_append.1 (ofList_evs.1 hev st hm)
    obtain ⟨h1, h2⟩ := aeval_sound hn e st h hev.1
    cases hv : e.eval s fr.env with
    | none => exact h2 hv
    | some v =>
      obtain ⟨y, st', hm', hy, hst⟩ := h1 v hv
      cases hv' : v.toNat? with
      | none =>
        simp only [Option.bind_some, hv']
        rcases panic_or hev.2 _ hm' with hc | hb
        · obtain ⟨k, rfl⟩ := isNat_sound hn hst hc hy; simp [V.toNat?] at hv'
        · exact hb
      | some k =>
        simp only [Option.bind_some, hv']
        exact ⟨st', List.mem_map.2 ⟨_, hm', rfl⟩, ⟨hst.env, hst.cur, hst.mv, hst.inv, hst.inp, hst.saved, hst.smv, hst.sinv, hst.facts⟩⟩

/-! ### Methods -/

/-- All methods meet their conditions. -/
def Checked (tb : Tables Fn) (table : Fn → Func Fn) : Prop := ∀ f, check tb table f = true

/-- A method with a recursion bound `n` behaves as its signature says if the bound is large enough:
`K` is larger than all ranks. -/
theorem runFn_sound (hn : tokNeed tb.need) {table : Fn → Func Fn} (hck : Checked tb table) {K : Nat}
    (hK : ∀ f sg, sg ∈ tb.sig f → sg.rank < K) : ∀ n f sg, sg ∈ tb.sig f → ∀ args s, CallPre tb sg input args s →
    4 * input.length + 5 + K * mu s.lx + sg.rank ≤ n → COutSem tb sg input s.lx (runFn table n f args s) := by
  intro n
  induction n with
  | zero => intro f sg _ args s _ h; omega
  | succ n ih =>
    intro f sg hsg args s hp hf
    have hev : EvsOK tb sg (afunc tb table f sg) := List.all_eq_true.1 (List.all_eq_true.1 (hck f) sg hsg)
    simp only [afunc, evs_append] at hev
    have hcall : CallOK tb sg input s.lx (runFn table n) := by
      intro g sg' hg args' s' hp' hm
      refine ih g sg' hg args' s' hp' ?_
      rcases hm with hm | ⟨hm, hr⟩
      · have h1 : K * (mu s'.lx + 1) ≤ K * mu s.lx := Nat.mul_le_mul_left K hm
        have h2 := hK g sg' hg
        rw [Nat.mul_add] at h1
        omega
      · have h1 : K * mu s'.lx ≤ K * mu s.lx := Nat.mul_le_mul_left K hm
        omega
    have hent : ASem tb input (entry sg (table f).locals) [s.lx] ⟨args ++ List.replicate ((table f).locals - args.length) V.nil, s.lx⟩ s := by
      have hl := hp.args.length_eq
      refine ⟨?_, hp.cur, .cons rfl .nil, hp.inv, hp.inp, hp.cur, ⟨[s.lx], [], rfl, .cons rfl .nil⟩, hp.inv, by simp [entry]⟩
      simp only [entry, hl]
      refine forall₂_append ?_ ?_
      · have := hp.args
        generalize sg.args = as at this
        clear hl hcall hp
        induction this with
        | nil => exact .nil
        | cons h _ ih => exact .cons h ih
      · generalize (table f).locals - args.length = k
        induction k with
        | zero => exact .nil
        | succ k ih => exact .cons rfl ih
    have ho := astmt_sound hn hcall (n := n) (by omega) (table f).body ⟨0, 0, 0⟩ [entry sg (table f).locals] [s.lx] _ s rfl
      ⟨_, List.mem_singleton.2 rfl, hent⟩ hev.1
    have fin : ∀ st ∈ (astmt tb (table f).body ⟨0, 0, 0⟩ [entry sg (table f).locals]).next ++
        ((astmt tb (table f).body ⟨0, 0, 0⟩ [entry sg (table f).locals]).brk ++ (astmt tb (table f).body ⟨0, 0, 0⟩ [entry sg (table f).locals]).cont),
        ∀ fr s', ASem tb input st [s.lx] fr s' → RetSem tb sg input s.lx [] s' := by
      intro st hm fr s' h
      have := hev.2 _ (List.mem_map.2 ⟨st, hm, rfl⟩)
      simp only [Ev.ok, List.any_eq_true, Post.covers, Bool.and_eq_true] at this
      obtain ⟨po, hpo, ⟨k3, k4⟩, k5⟩ := this
      refine ⟨h.inv, h.inp, po, hpo, ?_, curS_le_sound k4 h.cur, mv_cmp_sound k5 (mv_head h rfl)⟩
      rw [all2_forall₂] at k3
      generalize po.res = l at k3
      cases k3; exact .nil
    simp only [runFn]
    cases hr : (table f).body.run (runFn table n) n ⟨args ++ List.replicate ((table f).locals - args.length) V.nil, s.lx⟩ s with
    | next fr' s' =>
      rw [hr] at ho
      obtain ⟨st, h1, h2⟩ := ho
      exact fin st (List.mem_append.2 (Or.inl h1)) _ _ h2
    | brk fr' s' =>
      rw [hr] at ho
      obtain ⟨st, h1, h2⟩ := ho
      exact fin st (List.mem_append.2 (Or.inr (List.mem_append.2 (Or.inl h1)))) _ _ h2
    | cont fr' s' =>
      rw [hr] at ho
      obtain ⟨st, h1, h2⟩ := ho
      exact fin st (List.mem_append.2 (Or.inr (List.mem_append.2 (Or.inr h1)))) _ _ h2
    | ret vs s' =>
      rw [hr] at ho
      obtain ⟨h1, t, e, h2⟩ := ho
      simp at e; obtain ⟨rfl, _⟩ := e
      exact h2
    | panic l => rw [hr] at ho; exact ho
    | fuel => rw [hr] at ho; exact ho

end Verif.An

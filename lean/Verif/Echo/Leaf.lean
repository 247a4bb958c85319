/-
Tactics for the results of parser methods.  No definition here is part of the model.
-/
import Verif.Echo.Post

namespace Verif.Echo
open Verif.Spec

theorem Val.open {l l' : Lx} {v : V} (h : Val l v l') (hp : v.plain = true) : ∃ us, Reads l us l' ∧ Echo .n v us := h.2 hp
theorem Opt.open {pre : List E} {l l' : Lx} {v : V} (h : Opt pre l v l') (hp : v.plain = true) : ∃ us, Reads l us l' ∧ Echo (.o pre) v us := h.2 hp
theorem Ext.open {e : V} {l l' : Lx} {v : V} (h : Ext e l v l') (hp : v.plain = true) :
    e.plain = true ∧ ∀ us, Echo .n e us → ∃ ws, Reads l ws l' ∧ Echo .n v (us ++ ws) := h.2 hp
theorem Ext.refl {e : V} {l : Lx} : Ext e l e l := ⟨id, fun hp => ⟨hp, fun us he => ⟨[], .nil, by simpa using he⟩⟩⟩
theorem plain_list {vs : List V} (h : V.plainL vs = true) : (V.list vs).plain = true := by rw [V.plain]; exact h
theorem plain_nil : V.nil.plain = true := rfl
theorem DotsDone.open {l l' : Lx} {v : V} (h : DotsDone l v l') (hp : v.plain = true) : ∃ us, Reads l us l' ∧ Echo (.l [.op b!"."]) v us := h hp
theorem closes_nonNil {l : Lx} (h : (tokV l.cur).nonNil = false) : Closes l := fun t ht => by rw [ht] at h; simp [tokV, V.nonNil, Token.toV, N.Token] at h
theorem ItemsDone.open {l l' : Lx} {v : V} (h : ItemsDone l v l') (hp : v.plain = true) : ∃ us, Reads l us l' ∧ Echo (.l Verif.Echo.comma) v us := h hp
theorem Pre.open {pre : List E} {l l' : Lx} {v : V} (h : Pre pre l v l') (hp : v.plain = true) : ∃ us, Reads l us l' ∧ Echo (.p pre) v us := by
  obtain ⟨_, _, h⟩ := h; exact h hp
theorem Items.open {l l' : Lx} {v : V} (h : Items l v l') (hc : Closes l') (hp : v.plain = true) : ∃ us, Reads l us l' ∧ Echo (.l Verif.Echo.comma) v us := h.done hc hp

theorem Reads.num' {l l' : Lx} {t : Token} {us : List E} {ks : Str} (ht : l.cur = some t) (h : l.matchKinds [ks] = true) (hr : Reads l.advance us l')
    (hk : ks = Kind.int.toStr ∨ ks = Kind.float.toStr := by decide) : Reads l (.num t.str :: us) l' := by
  rcases hk with rfl | rfl
  · obtain ⟨t', ht', h1⟩ := tok_of_kind (k := .int) h
    rw [ht] at ht'; cases ht'
    exact .tok ht ⟨.inl h1, rfl⟩ hr
  · obtain ⟨t', ht', h1⟩ := tok_of_kind (k := .float) h
    rw [ht] at ht'; cases ht'
    exact .tok ht ⟨.inr h1, rfl⟩ hr

theorem Reads.str' {l l' : Lx} {t : Token} {us : List E} (ht : l.cur = some t) (h : l.matchKinds [Kind.string.toStr] = true) (hr : Reads l.advance us l') :
    Reads l (.str t.str :: us) l' := by
  obtain ⟨t', ht', h1⟩ := tok_of_kind (k := .string) h
  rw [ht] at ht'; cases ht'
  exact .tok ht ⟨h1, rfl⟩ hr

theorem str_of_op {l : Lx} {t : Token} {k : Str} (hl : Clean l) (ht : l.cur = some t) (h : l.matchKinds [k] = true)
    (hk : k.length ≤ 2 ∧ k ≠ [] := by decide) : t.str = k := by
  obtain ⟨t', ht', h1⟩ := tok_of_op h (by rintro rfl; simp [Kind.toStr] at hk) (by rintro rfl; simp [Kind.toStr] at hk)
  rw [ht] at ht'; cases ht'
  refine (hl.reg ht).op k ?_
  unfold isKind at h1
  cases hh : t.kind <;> rw [hh] at h1 <;> simp_all [Kind.toStr] <;> subst h1 <;> simp at hk

theorem closes_op2 {l : Lx} {k : Str} (h : l.matchKinds [k] = true) (hk : k = b!")" ∨ k = b!"]") : Closes l := closes_op h hk
theorem tokText_op {l : Lx} {t : Token} {k : Str} (hl : Clean l) (ht : l.cur = some t) (h : l.matchKinds [k] = true)
    (hk : k.length ≤ 2 ∧ k ≠ [] := by decide) : tokText t = k := by
  have h1 := str_of_op hl ht h hk
  obtain ⟨t', ht', h2⟩ := tok_of_op h (by rintro rfl; simp [Kind.toStr] at hk) (by rintro rfl; simp [Kind.toStr] at hk)
  rw [ht] at ht'; cases ht'
  have : (t.kind.toStr == Kind.keyword.toStr) = false := by
    rw [h2]; simp only [beq_eq_false_iff_ne]; rintro he; simp only [Kind.toStr] at he; subst he; simp at hk
  unfold tokText
  rw [this, h1]; rfl
theorem tokText_kw {l : Lx} {t : Token} {k : Str} (ht : l.cur = some t) (h : l.matchKw k = true) (hk : upper k = k := by decide) : tokText t = k := by
  obtain ⟨t', ht', h1, h2⟩ := An.matchKw_iff.1 h
  rw [ht] at ht'; cases ht'
  unfold tokText
  rw [h1]
  exact h2.trans hk
theorem ext_intro {v : V} {us ws xs : List E} {l l' : Lx} (h : Echo .n v xs) (hx : xs = us ++ ws) (hr : Reads l ws l') :
    ∃ ws, Reads l ws l' ∧ Echo .n v (us ++ ws) := ⟨ws, hr, hx ▸ h⟩

theorem echo_intro {k : K} {v : V} {us : List E} {l l' : Lx} (h : Echo k v us) (hr : Reads l us l') : ∃ us, Reads l us l' ∧ Echo k v us := ⟨us, hr, h⟩
theorem Val.ext {l l1 l2 : Lx} {e v : V} (he : Val l e l1) (h : Ext e l1 v l2) : Val l v l2 := by
  refine ⟨h.1 he.1, fun hp => ?_⟩
  obtain ⟨hp, h2⟩ := h.2 hp
  obtain ⟨us, hr, h3⟩ := he.2 hp
  obtain ⟨ws, hr', h4⟩ := h2 us h3
  exact ⟨_, hr.trans hr', h4⟩
theorem Ext.trans {a b c : V} {l l1 l2 : Lx} (h : Ext a l b l1) (h' : Ext b l1 c l2) : Ext a l c l2 := by
  refine ⟨h'.1 ∘ h.1, fun hp => ?_⟩
  obtain ⟨hp, h2⟩ := h'.2 hp
  obtain ⟨hp, h3⟩ := h.2 hp
  refine ⟨hp, fun us he => ?_⟩
  obtain ⟨ws, hr, h4⟩ := h3 us he
  obtain ⟨ws', hr', h5⟩ := h2 _ h4
  rw [List.append_assoc] at h5
  exact ⟨_, hr.trans hr', h5⟩
theorem Val.ext2 {l l1 l2 : Lx} {a v e : V} (h : Val l a l1) (hv : e = .nil → Ext a l1 v l2) : Ok2 (Val l) [v, e] l2 := Ok2.of fun he => h.ext (hv he)
theorem Ext.trans2 {l l1 l2 : Lx} {a b v e : V} (h : Ext a l b l1) (hv : e = .nil → Ext b l1 v l2) : Ok2 (Ext a l) [v, e] l2 := Ok2.of fun he => h.trans (hv he)

theorem val_column {l l' : Lx} {v : V} (h : Val l v l') : Val l (.mk .ColumnExpr [v, .nil]) l' := by
  refine ⟨by simp, fun hp => ?_⟩
  simp only [V.plain, V.plainL, plainNode, Bool.and_eq_true] at hp
  obtain ⟨us, hr, he⟩ := h.2 hp.2.1
  exact ⟨us, hr, by simpa using Echo.column he .onil⟩
theorem val_alias {l l1 l' : Lx} {v w : V} (h : Val l v l1) (hk : l1.matchKw b!"AS" = true) (hw : Val l1.advance w l') : Val l (.mk .ColumnExpr [v, w]) l' := by
  refine ⟨by simp, fun hp => ?_⟩
  simp only [V.plain, V.plainL, plainNode, Bool.and_eq_true] at hp
  obtain ⟨us, hr, he⟩ := h.2 hp.2.1
  obtain ⟨ws, hr', he'⟩ := hw.2 hp.2.2.1
  exact ⟨_, hr.trans (.sp (.kw' hk (.sp hr'))), .column he (.osome he')⟩

theorem Opt.none {pre : List E} {l : Lx} : Opt pre l .nil l := ⟨fun _ => rfl, fun _ => ⟨[], .nil, .onil⟩⟩
theorem Opt.stay {pre : List E} {l l' : Lx} (h : Opt pre l .nil l') : l' = l := h.1 rfl
theorem Some1.open {l l' : Lx} {v : V} (h : Some1 l v l') (hp : v.plain = true) :
    ∃ vs us, v = .list vs ∧ vs ≠ [] ∧ Reads l us l' ∧ Echo (.l Verif.Echo.comma) v us := by
  obtain ⟨vs, h1, h2, h3⟩ := h
  obtain ⟨us, h4, h5⟩ := h3 hp
  exact ⟨vs, us, h1, h2, h4, h5⟩
theorem Val.opt0 {l l' : Lx} {v : V} (h : Val l v l') : Opt [] l v l' := by
  refine ⟨fun hn => absurd hn h.1, fun hp => ?_⟩
  obtain ⟨us, hr, he⟩ := h.2 hp
  exact ⟨_, hr, Echo.osome (pre := []) he⟩
theorem Val.opt1 {l l' : Lx} {v : V} (h : Val l v l') : Opt [.sp] l v l' := by
  refine ⟨fun hn => absurd hn h.1, fun hp => ?_⟩
  obtain ⟨us, hr, he⟩ := h.2 hp
  exact ⟨_, .sp hr, Echo.osome (pre := [.sp]) he⟩
theorem Tail.open {pre : List E} {l l' : Lx} {v : V} (h : Tail pre l v l') (hp : v.plain = true) : ∃ us, Reads l us l' ∧ Echo .n v (pre ++ us) := h.2 hp
theorem Rest.open {l l' : Lx} {v : V} (h : Rest l v l') (hp : v.plain = true) : ∃ us, Reads l us l' ∧ Echo .j v us := h.2 hp
theorem Rest.stay {l l' : Lx} (h : Rest l .nil l') : l' = l := h.1 rfl
theorem Rest.none {l : Lx} : Rest l .nil l := ⟨fun _ => rfl, fun _ => ⟨[], .nil, .jnil⟩⟩

theorem Reads.blank {l l' : Lx} {us : List E} {b : Bool} (h : Reads l us l') : Reads l (bl b ++ us) l' := by
  cases b
  · exact h
  · exact .sp h
theorem Reads.as' {l l' : Lx} {us : List E} (h : l.matchKw b!"AS" = true) (hr : Reads l.advance us l') : Reads l (.as_ :: us) l' := by
  obtain ⟨t, ht, h1, h2⟩ := An.matchKw_iff.1 h
  exact .tok ht ⟨h1, h2⟩ hr
theorem Reads.noAs' {l l' : Lx} {us : List E} {ks : List Str} (h : l.matchKinds ks = true) (hr : Reads l us l')
    (hk : ∀ k ∈ ks, k = Kind.ident.toStr ∨ k = Kind.keyword.toStr := by decide) : Reads l (.as_ :: us) l' := by
  obtain ⟨t, ht⟩ := cur_of_kinds h (by
    rw [Bool.eq_false_iff]; intro hc; rcases hk _ (List.contains_iff_mem.1 hc) with h | h <;> simp [Kind.toStr] at h)
  refine .noAs ht ?_ hr
  simp only [Lx.matchKinds, Lx.curKind, ht, List.contains_iff_mem] at h
  by_cases hc : t.kind.toStr ∈ ks
  · exact hk _ hc
  · by_cases h2 : t.kind.toStr = Kind.keyword.toStr
    · exact .inr h2
    · simp [hc, h2] at h
theorem Reads.raw' {l l' : Lx} {t : Token} {us : List E} {k : Str} (ht : l.cur = some t) (h : l.matchKw k = true) (hr : Reads l.advance us l') :
    Reads l (.raw t.str :: us) l' := by
  obtain ⟨t', ht', h1, h2⟩ := An.matchKw_iff.1 h
  rw [ht] at ht'; cases ht'
  exact .tok ht ⟨h1, rfl⟩ hr

theorem Reads.raw2 {l l' : Lx} {t : Token} {us : List E} {k k' : Str} (ht : l.cur = some t) (h : l.matchKw k = true ∨ l.matchKw k' = true)
    (hr : Reads l.advance us l') : Reads l (.raw t.str :: us) l' := by
  rcases h with h | h <;> exact .raw' ht h hr
theorem Val.ne {l l' : Lx} {v : V} (h : Val l v l') : v ≠ .nil := h.1

theorem Tail.ne {pre : List E} {l l' : Lx} {v : V} (h : Tail pre l v l') : v ≠ .nil := h.1
theorem asc_only {l : Lx} (h : l.matchKw b!"ASC" = true ∨ l.matchKw b!"ASCENDING" = true) (hl : Clean l) : l.matchKw b!"ASC" = true := by
  rcases h with h | h
  · exact h
  · obtain ⟨t, ht, h1, h2⟩ := An.matchKw_iff.1 h
    exact absurd h2 ((hl.reg ht).asc h1).1
theorem desc_only {l : Lx} (h : l.matchKw b!"DESC" = true ∨ l.matchKw b!"DESCENDING" = true) (hl : Clean l) : l.matchKw b!"DESC" = true := by
  rcases h with h | h
  · exact h
  · obtain ⟨t, ht, h1, h2⟩ := An.matchKw_iff.1 h
    exact absurd h2 ((hl.reg ht).asc h1).2

open Lean Meta Elab Tactic in
/-- Open what is known of the parts. -/
elab "openAll" : tactic => do
  let mut k := 0
  let mut progress := true
  let mut used : Array FVarId := #[]
  while progress do
    progress := false
    let g ← getMainGoal
    let r ← g.withContext do
      let plainHyp (v : Expr) (c : Name) : MetaM (Option Expr) := do
        for d in (← getLCtx) do
          unless d.isImplementationDetail do
            let t ← instantiateMVars d.type
            if v.isAppOfArity ``V.list 1 && t.isAppOfArity ``Eq 3 && (t.getArg! 1).isAppOfArity ``V.plainL 1 && (t.getArg! 1).getArg! 0 == v.getArg! 0
                && (t.getArg! 2).isConstOf ``Bool.true then return some (← mkAppM ``plain_list #[d.toExpr])
            if t.isAppOfArity ``Eq 3 && (t.getArg! 1).isAppOfArity c 1 && (t.getArg! 1).getArg! 0 == v && (t.getArg! 2).isConstOf ``Bool.true then return some d.toExpr
        if v.isConstOf ``V.nil then return some (mkConst ``plain_nil)
        return none
      let closesProof (l : Expr) : MetaM (Option Expr) := do
        for d in (← getLCtx) do
          unless d.isImplementationDetail do
            let t ← instantiateMVars d.type
            if t.isAppOfArity ``Eq 3 && (t.getArg! 1).isAppOfArity ``V.nonNil 1 && ((t.getArg! 1).getArg! 0).isAppOfArity ``tokV 1
                && (((t.getArg! 1).getArg! 0).getArg! 0).isAppOfArity ``Lx.cur 1 && ((((t.getArg! 1).getArg! 0).getArg! 0).getArg! 0) == l
                && (t.getArg! 2).isConstOf ``Bool.false then return some (← mkAppM ``closes_nonNil #[d.toExpr])
            if t.isAppOfArity ``Closes 1 && t.getArg! 0 == l then return some d.toExpr
            if t.isAppOfArity ``Eq 3 && (t.getArg! 1).isAppOfArity ``Lx.matchKinds 2 && (t.getArg! 1).getArg! 0 == l && (t.getArg! 2).isConstOf ``Bool.true then
              if let some h ← observing? (mkAppM ``closes_op2 #[d.toExpr]) then
                let ty ← inferType h
                let p := ty.bindingDomain!
                if (← whnfD (← mkDecide p)).isConstOf ``Bool.true then
                  if let some q ← observing? (mkDecideProof p) then return some (mkApp h q)
        return none
      for d in (← getLCtx) do
        unless d.isImplementationDetail || used.contains d.fvarId do
          let t := (← instantiateMVars d.type).consumeMData
          if t.isAppOfArity ``And 2 || t.isAppOfArity ``Exists 2 then return some (d.fvarId, none)
          if t.isAppOfArity ``Eq 3 && (t.getArg! 1).isFVar && (t.getArg! 2).isAppOfArity ``V.list 1 then return some (d.fvarId, none)
          if t.isAppOfArity ``Eq 3 && (t.getArg! 0).isConstOf ``Lx && (t.getArg! 1).isFVar then return some (d.fvarId, none)
          if t.isAppOfArity ``Val 3 then
            if let some h ← plainHyp (t.getArg! 1) ``V.plain then return some (d.fvarId, some (← mkAppM ``Val.open #[d.toExpr, h]))
          if t.isAppOfArity ``Opt 4 && (t.getArg! 2).isConstOf ``V.nil then
            return some (d.fvarId, some (← mkAppM ``Opt.stay #[d.toExpr]))
          if t.isAppOfArity ``Rest 3 && (t.getArg! 1).isConstOf ``V.nil then
            return some (d.fvarId, some (← mkAppM ``Rest.stay #[d.toExpr]))
          if t.isAppOfArity ``Opt 4 then
            if let some h ← plainHyp (t.getArg! 2) ``V.plain then return some (d.fvarId, some (← mkAppM ``Opt.open #[d.toExpr, h]))
          if t.isAppOfArity ``Pre 4 then
            if let some h ← plainHyp (t.getArg! 2) ``V.plain then return some (d.fvarId, some (← mkAppM ``Pre.open #[d.toExpr, h]))
          if t.isAppOfArity ``Ext 4 then
            if let some h ← plainHyp (t.getArg! 2) ``V.plain then return some (d.fvarId, some (← mkAppM ``Ext.open #[d.toExpr, h]))
          if t.isAppOfArity ``Tail 4 then
            if let some h ← plainHyp (t.getArg! 2) ``V.plain then return some (d.fvarId, some (← mkAppM ``Tail.open #[d.toExpr, h]))
          if t.isAppOfArity ``Some1 3 then
            if let some h ← plainHyp (t.getArg! 1) ``V.plain then return some (d.fvarId, some (← mkAppM ``Some1.open #[d.toExpr, h]))
          if t.isAppOfArity ``Rest 3 then
            if let some h ← plainHyp (t.getArg! 1) ``V.plain then return some (d.fvarId, some (← mkAppM ``Rest.open #[d.toExpr, h]))
          if t.isAppOfArity ``ItemsDone 3 then
            if let some h ← plainHyp (t.getArg! 1) ``V.plain then return some (d.fvarId, some (← mkAppM ``ItemsDone.open #[d.toExpr, h]))
          if t.isAppOfArity ``DotsDone 3 then
            if let some h ← plainHyp (t.getArg! 1) ``V.plain then return some (d.fvarId, some (← mkAppM ``DotsDone.open #[d.toExpr, h]))
          if t.isAppOfArity ``Dots 3 then
            for d' in (← getLCtx) do
              unless d'.isImplementationDetail do
                let t' := (← instantiateMVars d'.type).consumeMData
                if t'.isAppOfArity ``Val 3 && t'.getArg! 0 == t.getArg! 2 then
                  return some (d.fvarId, some (← mkAppM ``Dots.item #[d.toExpr, d'.toExpr]))
          if t.isAppOfArity ``Items 3 then
            let mut item : Option Expr := none
            for d' in (← getLCtx) do
              unless d'.isImplementationDetail do
                let t' := (← instantiateMVars d'.type).consumeMData
                if t'.isAppOfArity ``Val 3 && t'.getArg! 0 == t.getArg! 2 then item := some d'.toExpr
            if let some x := item then return some (d.fvarId, some (← mkAppM ``Items.item #[d.toExpr, x]))
            if let some h ← plainHyp (t.getArg! 1) ``V.plain then
              if let some hc ← closesProof (t.getArg! 2) then return some (d.fvarId, some (← mkAppM ``Items.open #[d.toExpr, hc, h]))
          if t.isArrow && t.bindingDomain!.isAppOfArity ``Eq 3 && (t.bindingDomain!.getArg! 1).isAppOfArity ``V.plain 1 then
            if let some h ← plainHyp ((t.bindingDomain!.getArg! 1).getArg! 0) ``V.plain then return some (d.fvarId, some (mkApp d.toExpr h))
          if t.isForall && !t.isArrow && t.bindingBody!.isArrow && t.bindingBody!.bindingDomain!.isAppOfArity ``Echo 3 then
            let v := t.bindingBody!.bindingDomain!.getArg! 1
            for d' in (← getLCtx) do
              let t' ← instantiateMVars d'.type
              if t'.isAppOfArity ``Echo 3 && t'.getArg! 1 == v && t'.getArg! 0 == t.bindingBody!.bindingDomain!.getArg! 0 then
                return some (d.fvarId, some (mkApp2 d.toExpr (t'.getArg! 2) d'.toExpr))
      return none
    if let some (f, p) := r then
      progress := true
      k := k + 1
      used := used.push f
      match p with
      | none =>
        let subs ← g.cases f
        replaceMainGoal (subs.map (·.mvarId)).toList
      | some p =>
        let ty ← g.withContext (inferType p)
        let (_, g) ← (← g.assert `hh ty p).intro1P
        replaceMainGoal [g]

open Lean Meta Elab Tactic in
/-- Forget what the conditions were. -/
elab "clearW" : tactic => do
  let g ← getMainGoal
  let mut g := g
  for d in (← g.getDecl).lctx do
    unless d.isImplementationDetail do
      if d.userName.toString.startsWith "hw" then g ← g.tryClear d.fvarId
  replaceMainGoal [g]

/-- Results that need no more thought. -/
macro "results" : tactic => `(tactic| first
  | assumption
  | with_reducible exact Ok2.ok (by assumption)
  | with_reducible exact Ok3.of (by assumption)
  | with_reducible exact Opt.none
  | with_reducible exact Rest.none
  | with_reducible exact Val.opt0 (by assumption)
  | with_reducible exact Val.opt1 (by assumption)
  | with_reducible exact Some1.one (by assumption)
  | with_reducible exact Some1.add (by assumption) (by assumption) (by assumption)
  | with_reducible exact Items.some (by assumption) (by assumption)
  | with_reducible exact Listed.of (Items.item (by assumption) (by assumption))
  | with_reducible exact Pre.item (by assumption) (by assumption)
  | with_reducible exact Items.start
  | with_reducible exact Pre.start
  | with_reducible exact Ext.refl
  | with_reducible exact Dots.start (by assumption) (by assumption)
  | with_reducible exact Dots.next (Dots.item (by assumption) (by assumption)) (by assumption)
  | with_reducible exact Items.start0
  | with_reducible exact Items.next (Items.item (by assumption) (by assumption)) (by assumption)
  | with_reducible exact val_column (by assumption)
  | with_reducible exact val_alias (by assumption) (by assumption) (by assumption)
  | with_reducible exact Items.next (Items.item (by assumption) (val_column (by assumption))) (by assumption)
  | with_reducible exact Items.next (Items.item (by assumption) (val_alias (by assumption) (by assumption) (by assumption))) (by assumption)
  | with_reducible exact Val.ext2 (by assumption) (by assumption)
  | with_reducible exact Ext.trans2 (by assumption) (by assumption)
  | with_reducible exact Val.ext (by assumption) (by assumption)
  | with_reducible exact Ext.trans (by assumption) (by assumption))

/-- Read the elements. -/
macro "reads" : tactic => `(tactic| (
  try simp only [List.append_assoc, List.cons_append, List.nil_append, List.append_nil, if_true, Bool.false_eq_true, if_false]
  repeat' first
    | with_reducible exact Reads.nil
    | assumption
    | with_reducible apply Reads.sp
    | refine Reads.op' (by assumption) ?_
    | refine Reads.kw' (by assumption) ?_
    | refine Reads.word' (by assumption) (by assumption) ?_
    | refine Reads.num' (by assumption) (by assumption) ?_
    | refine Reads.str' (by assumption) (by assumption) ?_
    | refine Reads.raw' (by assumption) (by assumption) ?_
    | refine Reads.raw2 (by assumption) (by assumption) ?_
    | refine Reads.as' (by assumption) ?_
    | refine Reads.noAs' (by assumption) ?_
    | refine Reads.trans (by assumption) ?_
    | apply Reads.blank))

open Lean Meta Elab Tactic in
/-- The constructors of `Echo` for a type of nodes. -/
def ctorsFor (t : Name) : MetaM (List Name) := do
  let some (.inductInfo i) := (← getEnv).find? ``Echo | return []
  i.ctors.filterM fun c => do
    let v := (← getConstInfo c).type.getForallBody.getArg! 1
    return v.isAppOfArity ``V.mk 2 && (v.getArg! 0).isConstOf t

/-- Elements of the parts. -/
syntax "parts" : tactic

open Lean Meta Elab Tactic in
/-- The same for a node that is not the outermost. -/
elab "subNode" : tactic => do
  let g ← getMainGoal
  let t ← g.withContext do instantiateMVars (← g.getType)
  unless t.isAppOfArity ``Echo 3 do throwError "subNode"
  let v := t.getArg! 1
  unless v.isAppOfArity ``V.mk 2 do throwError "subNode"
  let some n := (v.getArg! 0).constName? | throwError "subNode"
  let cs ← ctorsFor n
  for c in cs do
    let s ← saveState
    try
      withoutRecover (evalTactic (← `(tactic| (apply $(mkIdent c) <;> (parts; done)))))
      return
    catch _ => s.restore
  throwError "subNode"

macro_rules
  | `(tactic| parts) => `(tactic| (
  repeat' first
    | assumption
    | decide
    | with_reducible exact Val.ne (by assumption)
    | with_reducible exact Echo.onil
    | with_reducible rfl
    | (simp; done)
    | apply Echo.osome
    | subNode))

syntax "echoBy " ident : tactic
macro_rules
  | `(tactic| echoBy $c) => `(tactic| (
      apply echo_intro
      · apply $c <;> (parts; done)
      · reads; done))

syntax "extBy " ident : tactic
macro_rules
  | `(tactic| extBy $c) => `(tactic| (
      apply ext_intro
      · apply $c <;> (parts; done)
      · first | (simp only [List.append_assoc, List.cons_append, List.nil_append]; first | done | rfl) | rfl
      · reads; done))

open Lean Meta Elab Tactic in
/-- Try the constructors for the type of the node. -/
elab "echoNode" : tactic => do
  let g ← getMainGoal
  let t ← g.withContext do instantiateMVars (← g.getType)
  let some e := t.find? (fun e => e.isAppOfArity ``Echo 3) | throwError "echoNode: {t}"
  let v := e.getArg! 1
  unless v.isAppOfArity ``V.mk 2 do throwError "echoNode: {v}"
  let some n := (v.getArg! 0).constName? | throwError "echoNode: {v}"
  let cs ← ctorsFor n
  if cs.isEmpty then throwError "echoNode: no constructor for {n}"
  let isExt := (e.getArg! 2).isAppOf ``HAppend.hAppend
  for c in cs do
    let s ← saveState
    try
      if isExt then withoutRecover (evalTactic (← `(tactic| extBy $(mkIdent c))))
      else withoutRecover (evalTactic (← `(tactic| echoBy $(mkIdent c))))
      return
    catch ex =>
      if cs.length == 1 then throw ex
      s.restore
  throwError "echoNode: no constructor of {cs} fits"

/-- The class of the node. -/
macro "plain" h:ident : tactic => `(tactic|
  simp only [V.plain, V.plainL, plainNode, Bool.and_eq_true, Bool.and_true, Bool.true_and, Bool.false_and, Bool.and_false, Bool.false_eq_true, and_true, true_and, Bool.not_true, Bool.not_false, Bool.not_eq_eq_eq_not] at $h:ident)

set_option hygiene false in
/-- A node that extends another. -/
macro "ext" : tactic => `(tactic| (
  clearW
  refine ⟨by first | assumption | (with_reducible exact Val.ne (by assumption)) | (with_reducible exact Tail.ne (by assumption)) | (simp; done) | (intro _; assumption), fun hg => ?_⟩
  first
    | (plain hg; done)
    | (try plain hg
       refine ⟨by simp_all, fun us0 he0 => ?_⟩
       openAll
       echoNode)))

open Lean Meta Elab Tactic in
/-- Succeed if the goal starts with this. -/
elab "headIs " n:ident : tactic => do
  let g ← getMainGoal
  g.withContext do
  let t := (← instantiateMVars (← g.getType)).consumeMData
  unless t.getAppFn.isConstOf (← realizeGlobalConstNoOverload n) do throwError "headIs"

open Lean Meta Elab Tactic in
/-- Use what is known if there is no error. -/
elab "specErr" h:ident : tactic => do
  let h ← getFVarId h
  let mut g ← getMainGoal
  let ht ← g.withContext do instantiateMVars (← h.getType)
  for d in (← g.getDecl).lctx do
    unless d.isImplementationDetail do
      let t ← g.withContext do instantiateMVars d.type
      if t.isArrow && t.bindingDomain! == ht then
        let (_, g') ← (← g.assert d.userName (t.bindingBody!.headBeta) (mkApp d.toExpr (mkFVar h))).intro1P
        g ← g'.tryClear d.fvarId
        g ← Sym.destr g d.userName
  replaceMainGoal [g]

/-- A node of the class. -/
syntax "echo" : tactic
set_option hygiene false in
macro_rules
  | `(tactic| echo) => `(tactic| first
  | results
  | (headIs And; refine ⟨?_, ?_⟩ <;> echo)
  | (headIs Exists; apply Exists.intro; echo)
  | (headIs Ne; first | assumption | exact Val.ne (by assumption) | (simp; done))
  | (headIs Eq; first | with_reducible rfl | rfl)
  | (headIs True; trivial)
  | (headIs Ok2; refine Ok2.of (fun he => ?_); specErr he; beta_reduce; echo)
  | (headIs Ok3; refine Ok3.of (fun he => ?_); specErr he; beta_reduce; echo)
  | (headIs Items; refine Items.next (Items.item (by assumption) ?_) (by assumption); echo; done)
  | (headIs Or; first | (refine Or.inl ?_; echo; done) | (refine Or.inr ?_; echo; done))
  | (headIs Opt; (first | refine Val.opt1 ?_ | refine Val.opt0 ?_); echo; done)
  | (headIs Opt; clearW; refine ⟨fun hn => absurd hn (by first | assumption | (with_reducible exact Val.ne (by assumption)) | (with_reducible exact Tail.ne (by assumption))), fun hg => ?_⟩; openAll; apply echo_intro; (first | assumption | (apply Echo.osome; assumption)); reads; done)
  | (headIs LookC; refine LookC.of ?_; first | assumption | (intro _; exact closes_kw (by assumption)))
  | (headIs Rest; clearW; refine ⟨fun hn => absurd hn (by first | assumption | (with_reducible exact Val.ne (by assumption)) | (simp; done)), fun hg => ?_⟩; first | (plain hg; done) | (try plain hg; openAll; first | echoNode | (apply echo_intro; assumption; reads; done)))
  | (headIs ItemsDone; clearW; intro hg; openAll; apply echo_intro; assumption; reads; done)
  | (clearW
     refine ⟨by first | assumption | (with_reducible exact Val.ne (by assumption)) | (with_reducible exact Tail.ne (by assumption)) | (simp; done) | (intro _; assumption), fun hg => ?_⟩
     first
     | (plain hg; done)
     | (try plain hg
        openAll
        first | echoNode | (apply echo_intro; assumption; reads; done))))

set_option hygiene false in
/-- The usual proof for a method. -/
macro "auto" : tactic => `(tactic| (method; enter hr; sym; all_goals echo))

end Verif.Echo

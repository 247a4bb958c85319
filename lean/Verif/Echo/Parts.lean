/-
What is written for the parts of a node: other nodes, lists of them, and parts that may be missing.
No definition here is part of the model.
-/
import Verif.Echo.Text
import Mathlib.Tactic.CasesM

namespace Verif.Echo
open Verif.Spec

/-- The formatter writes these elements for this node. -/
structure PN (m : Bool) (v : V) (us : List E) : Prop where
  node : ∃ t fs, v = .mk t fs
  call : ∀ t τ, v.ty? = some t → v.hasTy noReq τ = true → ∀ k, CallW m (formatF k) (.fmt t) v us

/-- The elements with separators. -/
def sepd (sep : List E) : List (List E) → List (List E)
  | [] => []
  | u :: us => u :: us.map (sep ++ ·)

/-- The elements of a list. -/
def PL (m : Bool) (sep : List E) (v : V) (us : List E) : Prop :=
  ∃ uss, us = (sepd sep uss).flatten ∧ List.Forall₂ (PN m) v.items uss
/-- A list with `pre` before each element. -/
def PP (m : Bool) (pre : List E) (v : V) (us : List E) : Prop :=
  ∃ uss : List (List E), us = (uss.map (pre ++ ·)).flatten ∧ List.Forall₂ (PN m) v.items uss
/-- The elements of a `WITH` clause. -/
def PW (m : Bool) (v : V) (us : List E) : Prop :=
  ∀ p q x τ, v = .mk .WithClause [p, q, x] → v.hasTy noReq τ = true → ∃ us', us = [.kw b!"WITH", .sp] ++ us' ∧ x.items ≠ [] ∧ PL m comma x us'
/-- A part that may be missing. -/
def PO (m : Bool) (pre : List E) (v : V) (us : List E) : Prop :=
  (v = .nil ∧ us = []) ∨ ∃ us', us = pre ++ us' ∧ PN m v us' ∧ PW m v us'
/-- Words. -/
def PM (m : Bool) (v : V) (us : List E) : Prop :=
  ∃ ss : List Str, v.items = ss.map .str ∧ Rend m us (joinStr b!" " ss) ∧ (nl us → 10 ∉ joinStr b!" " ss)
/-- The rest of a join. -/
def PJ (m : Bool) (v : V) (us : List E) : Prop :=
  (v = .nil ∧ us = []) ∨ (v ≠ .nil ∧ ∀ τ, v.hasTy noReq τ = true → ∀ k, CallW m (formatF k) .join v us)

/-- What is to be shown. -/
def PK (m : Bool) : K → V → List E → Prop
  | .n, v, us => PN m v us ∧ PW m v us
  | .l sep, v, us => PL m sep v us
  | .o pre, v, us => PO m pre v us
  | .p pre, v, us => PP m pre v us
  | .m, v, us => PM m v us
  | .j, v, us => PJ m v us

/-- The static type fits. -/
inductive StOk : Static → V → Prop
  | p {t v} : v.hasTy noReq (.ptr t) = true → StOk (.ptr t) v
  | i {i v} : v.hasTy noReq (.iface i) = true → StOk .iface v

variable {m : Bool} {env : List V} {i n k : Nat} {b b' b'' : Bool} {us ws : List E}

theorem PN.ne {v : V} (h : PN m v us) : v ≠ .nil := by
  obtain ⟨t, fs, rfl⟩ := h.node
  simp
theorem PN.nonNil {v : V} (h : PN m v us) : v.nonNil = true := by
  obtain ⟨t, fs, rfl⟩ := h.node
  rfl

theorem hasTy_ptr {t u : Ty} {fs : List V} (h : (V.mk t fs).hasTy noReq (.ptr u) = true) : t = u := by
  simp only [V.hasTy, FTy.admits, Bool.and_eq_true, decide_eq_true_eq] at h
  exact h.1.symm

theorem wrE {r : Ref} {st : Static} {v : V} (hv : r.get env = some v) (hp : PN m v us) (hs : StOk st v) : Wr m (formatF k) (.expr r st) env i n b us b := by
  obtain ⟨t, fs, rfl⟩ := hp.node
  cases hs with
  | p h =>
    have := hasTy_ptr h
    subst this
    exact wr_exprP hv (hp.call _ _ rfl h k)
  | i h => exact wr_exprI hv rfl (hp.call _ _ rfl h k)

/-- The text consists of these elements. -/
def TextOf (m : Bool) (us : List E) (x : Str) : Prop := Rend m us x ∧ (nl us → 10 ∉ x)
theorem textOf_one {u : E} (h : u ≠ .sp) : TextOf m [u] u.text := ⟨.one h, nl_one⟩
theorem textOf_toks {x : Str} (h : x.contains 10 = false) : TextOf m (toks [] x) x := ⟨rend_toks m x [], fun _ => by simpa using h⟩
theorem wr_strH {call : Proc → V → Fmt → Option Fmt} {r : Ref} {x : Str} (hr : (r.get env).bind V.toStr? = some x) (h : TextOf m us x) :
    Wr m call (.strF r) env i n b us b := wr_str hr h.1 h.2

theorem wrN {r : Ref} {v : V} {x y : FCmd} (hv : r.get env = some v) (hp : PN m v ws) (hx : Wr m (formatF k) x env i n b us b') :
    Wr m (formatF k) (.ite (.nonNil r) x y) env i n b us b' := wr_iteT (by simp [Cond.eval, hv, hp.nonNil]) hx

theorem wrO {r : Ref} {pre : List E} {v : V} {x : FCmd} (hv : r.get env = some v) (ho : PO m pre v us)
    (hx : ∀ us', PN m v us' → Wr m (formatF k) x env i n b (pre ++ us') b) : Wr m (formatF k) (.ite (.nonNil r) x .skip) env i n b us b := by
  obtain ⟨rfl, rfl⟩ | ⟨us', rfl, hn, _⟩ := ho
  · exact wr_iteF (by simp [Cond.eval, hv, V.nonNil]) wr_skip
  · exact wr_iteT (by simp [Cond.eval, hv, hn.nonNil]) (hx us' hn)

theorem wrO0 {r : Ref} {v : V} {st : Static} (hv : r.get env = some v) (ho : PO m [] v us) (hs : StOk st v) :
    Wr m (formatF k) (.ite (.nonNil r) (.expr r st) .skip) env i n b us b :=
  wrO hv ho fun _ hn => wrE hv hn hs
theorem wrO1 {r : Ref} {v : V} {st : Static} {x : Str} {pre : List E} (hv : r.get env = some v) (ho : PO m pre v us) (hs : StOk st v) (he : toks [] x = pre := by rfl) (hx : x.contains 10 = false := by decide) :
    Wr m (formatF k) (.ite (.nonNil r) (.seq (.lit x) (.expr r st)) .skip) env i n b us b :=
  wrO hv (he ▸ ho) fun _ hn => wr_seq (wr_lit hx) (wrE hv hn hs)
theorem wrO2 {r : Ref} {v : V} {st : Static} (hv : r.get env = some v) (ho : PO m [.sp] v us) (hs : StOk st v) :
    Wr m (formatF k) (.ite (.nonNil r) (.seq .brk (.expr r st)) .skip) env i n b us b :=
  wrO hv ho fun _ hn => wr_seq wr_brk (wrE hv hn hs)
theorem wrO3 {r : Ref} {v : V} {st : Static} {x : Str} {pre : List E} (hv : r.get env = some v) (ho : PO m pre v us) (hs : StOk st v) (he : .sp :: toks [] x = pre := by rfl) (hx : x.contains 10 = false := by decide) :
    Wr m (formatF k) (.ite (.nonNil r) (.seq .brk (.seq (.lit x) (.expr r st))) .skip) env i n b us b :=
  wrO hv (he ▸ ho) fun us' hn => (wr_seq wr_brk (wr_seq (wr_lit hx) (wrE hv hn hs)) : Wr m _ _ _ _ _ _ ([.sp] ++ (toks [] x ++ us')) _)

/-! ### Loops -/

/-- The static type of the elements of a slice. -/
inductive StOks : Static → V → Prop
  | p {t v} : v.hasTy noReq (.slice (.ptr t)) = true → StOks (.ptr t) v
  | i {i v} : v.hasTy noReq (.slice (.iface i)) = true → StOks .iface v

theorem allTy_mem {e : FTy} : ∀ {l : List V}, V.allTy noReq l e = true → ∀ v ∈ l, v.hasTy noReq e = true
  | [], _, v, hv => by simp at hv
  | w :: l, h, v, hv => by
    simp only [V.allTy, Bool.and_eq_true] at h
    rcases List.mem_cons.1 hv with rfl | hv
    · exact h.1.2
    · exact allTy_mem h.2 v hv
theorem slice_mem {e : FTy} {v : V} (h : v.hasTy noReq (.slice e) = true) : ∀ x ∈ v.items, x.hasTy noReq e = true := by
  cases v with
  | list l => simp only [V.hasTy] at h; exact allTy_mem h
  | _ => intro x hx; simp [V.items] at hx
theorem StOks.mem {st : Static} {v x : V} (h : StOks st v) (hx : x ∈ v.items) : StOk st x := by
  cases h with
  | p h => exact .p (slice_mem h x hx)
  | i h => exact .i (slice_mem h x hx)

/-- Elements of a list with what is written for each. -/
theorem wr_loop' {r : Ref} {v : V} {body : FCmd} {uss : List (List E)} {g : Nat → List E → List E} (hv : r.get env = some v) (hf : List.Forall₂ (PN m) v.items uss)
    (hb : ∀ j x us, x ∈ v.items → PN m x us → Wr m (formatF k) body (env ++ [x]) j v.items.length b (g j us) b) :
    Wr m (formatF k) (.loop r body) env i n b (uss.mapIdx g).flatten b := by
  refine wr_loop hv ?_
  have key : ∀ (l : List V) (uss : List (List E)) (j : Nat) (g : Nat → List E → List E), (∀ x ∈ l, x ∈ v.items) → List.Forall₂ (PN m) l uss →
      (∀ i x us, x ∈ v.items → PN m x us → Wr m (formatF k) body (env ++ [x]) (j + i) v.items.length b (g i us) b) →
      List.Forall₂ (fun (x : Nat × V) us => Wr m (formatF k) body (env ++ [x.2]) x.1 v.items.length b us b) ((l.zipIdx j).map fun x => (x.2, x.1)) (uss.mapIdx g) := by
    intro l
    induction l with
    | nil => intro uss j g _ h _; cases h; simp
    | cons x l ih =>
      intro uss j g hm h hb
      cases h with
      | cons h1 h2 =>
        rw [List.zipIdx_cons, List.map_cons, List.mapIdx_cons]
        refine .cons (hb 0 x _ (hm x List.mem_cons_self) h1) ?_
        refine ih _ (j + 1) _ (fun y hy => hm y (List.mem_cons_of_mem _ hy)) h2 fun i y us hy hp => ?_
        have := hb (i + 1) y us hy hp
        rwa [show j + (i + 1) = j + 1 + i by omega] at this
  exact key v.items uss 0 g (fun _ h => h) hf (by simpa using hb)

theorem sepd_eq (sep : List E) (uss : List (List E)) : sepd sep uss = uss.mapIdx (fun j u => (if 0 < j then sep else []) ++ u) := by
  cases uss with
  | nil => rfl
  | cons u us =>
    rw [List.mapIdx_cons]
    simp only [sepd, Nat.lt_irrefl, if_false, List.nil_append, Nat.zero_lt_succ, if_true]
    congr 1
    exact (List.mapIdx_eq_iff.2 fun i => by simp).symm

/-- The separator after all but the last. -/
theorem sepd_after (sep : List E) : ∀ uss : List (List E), (sepd sep uss).flatten = (uss.mapIdx (fun j u => u ++ (if j + 1 = uss.length then [] else sep))).flatten
  | [] => rfl
  | [u] => by simp [sepd]
  | u :: w :: us => by
    have ih := sepd_after sep (w :: us)
    rw [List.mapIdx_cons, List.flatten_cons]
    simp only [sepd, List.map_cons, List.flatten_cons, List.length_cons, Nat.add_right_cancel_iff] at ih ⊢
    rw [← ih]
    simp

theorem item_get {v : V} (he : env.length = 1) : Ref.get (env ++ [v]) ⟨1, []⟩ = some v := by
  match env, he with
  | [a], _ => rfl

theorem wrLA {r : Ref} {st : Static} {v : V} {x : Str} {sep : List E} (hv : r.get env = some v) (hl : PL m sep v us) (hs : StOks st v) (he : env.length = 1 := by rfl)
    (hx : toks [] x = sep := by rfl) (hc : x.contains 10 = false := by decide) :
    Wr m (formatF k) (.loop r (.seq (.ite .idxPos (.lit x) .skip) (.expr ⟨1, []⟩ st))) env i n b us b := by
  obtain ⟨uss, rfl, hf⟩ := hl
  rw [sepd_eq]
  refine wr_loop' (g := fun j u => (if 0 < j then sep else []) ++ u) hv hf fun j y us hm hp => ?_
  refine wr_seq ?_ (wrE (item_get he) hp (hs.mem hm))
  by_cases hj : 0 < j
  · rw [if_pos hj, ← hx]; exact wr_iteT (by simp [Cond.eval, hj]) (wr_lit hc)
  · rw [if_neg hj]; exact wr_iteF (by simp [Cond.eval, hj]) wr_skip

theorem wrLB {r : Ref} {st : Static} {v : V} {x : Str} {sep : List E} (hv : r.get env = some v) (hl : PL m sep v us) (hs : StOks st v) (he : env.length = 1 := by rfl)
    (hx : toks [] x = sep := by rfl) (hc : x.contains 10 = false := by decide) :
    Wr m (formatF k) (.loop r (.seq (.expr ⟨1, []⟩ st) (.ite (.not .idxLast) (.lit x) .skip))) env i n b us b := by
  obtain ⟨uss, rfl, hf⟩ := hl
  rw [sepd_after, ← hf.length_eq]
  refine wr_loop' (g := fun j u => u ++ (if j + 1 = v.items.length then [] else sep)) hv hf fun j y us hm hp => ?_
  refine wr_seq (wrE (item_get he) hp (hs.mem hm)) ?_
  by_cases hj : j + 1 = v.items.length
  · rw [if_pos hj]; exact wr_iteF (by simp [Cond.eval, hj]) wr_skip
  · rw [if_neg hj, ← hx]; exact wr_iteT (by simp [Cond.eval, hj]) (wr_lit hc)

theorem wrLC {r : Ref} {st : Static} {v : V} (hv : r.get env = some v) (hl : PL m comma v us) (hne : v.items ≠ []) (hs : StOks st v) (he : env.length = 1 := by rfl) :
    Wr m (formatF k) (.loop r (.seq (.ite (.not .idxPos) .brk (.seq (.lit b!",") .brk)) (.expr ⟨1, []⟩ st))) env i n b ([.sp] ++ us) b := by
  obtain ⟨uss, rfl, hf⟩ := hl
  have : [E.sp] ++ (sepd comma uss).flatten = (uss.mapIdx (fun j u => (if 0 < j then comma else [.sp]) ++ u)).flatten := by
    generalize v.items = l at hf hne
    cases hf with
    | nil => exact absurd rfl hne
    | @cons _ u _ us =>
      rw [sepd_eq, List.mapIdx_cons, List.mapIdx_cons]
      simp
  rw [this]
  refine wr_loop' (g := fun j u => (if 0 < j then comma else [.sp]) ++ u) hv hf fun j y us hm hp => ?_
  refine wr_seq ?_ (wrE (item_get he) hp (hs.mem hm))
  by_cases hj : 0 < j
  · rw [if_pos hj]
    refine wr_iteF (by simp [Cond.eval, hj]) (wr_seq (us := [.op b!","]) ?_ wr_brk)
    exact wr_lit (x := b!",") rfl
  · rw [if_neg hj]; exact wr_iteT (by simp [Cond.eval, hj]) wr_brk

theorem wrLP {r : Ref} {st : Static} {v : V} {x : FCmd} {pre : List E} (hv : r.get env = some v) (hl : PP m pre v us) (hs : StOks st v)
    (hx : ∀ env j n, Wr m (formatF k) x env j n b pre b) (he : env.length = 1 := by rfl) :
    Wr m (formatF k) (.loop r (.seq x (.expr ⟨1, []⟩ st))) env i n b us b := by
  obtain ⟨uss, rfl, hf⟩ := hl
  have : uss.map (pre ++ ·) = uss.mapIdx (fun _ u => pre ++ u) := (List.mapIdx_eq_iff.2 fun i => by simp).symm
  rw [this]
  refine wr_loop' (g := fun j u => pre ++ u) hv hf fun j y us hm hp => ?_
  exact wr_seq (hx _ _ _) (wrE (item_get he) hp (hs.mem hm))

/-- The body of a node's formatter. -/
theorem pn_mk {t : Ty} {fs : List V} (h : (∃ τ, (V.mk t fs).hasTy noReq τ = true) → ∀ k, ∃ b', Wr m (formatF k) (formatBody t) [.mk t fs] 0 0 false us b') : PN m (.mk t fs) us := by
  refine ⟨⟨t, fs, rfl⟩, fun t' τ ht hτ k => ?_⟩
  cases ht
  cases k with
  | zero => exact callW_zero
  | succ k =>
    obtain ⟨b', h⟩ := h ⟨τ, hτ⟩ k
    exact callW_succ h
theorem pw_ne {t : Ty} {fs : List V} (h : t ≠ .WithClause) : PW m (.mk t fs) us := by
  intro p q x τ he
  cases he
  exact absurd rfl h

end Verif.Echo

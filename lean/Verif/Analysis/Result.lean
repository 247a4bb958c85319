/-
What the analysis says about the results of the parser.
-/
import Verif.Analysis.Checked
import Verif.Lemmas.Fuel
import Verif.Spec.Parsed
import Verif.Spec.Required

namespace Verif.An
open List (Forall₂)

theorem cert_tokNeed : tokNeed Cert.tables.need := by
  intro nd h
  change nd ∈ [PNeed.bound 0 0, PNeed.bound 1 0] at h
  simpa using h

/-- No signature has a rank above 11. -/
theorem cert_rank : ∀ f sg, sg ∈ Cert.tables.sig f → sg.rank < 12 := by
  have h : ∀ f, (Cert.tables.sig f).all (fun sg => decide (sg.rank < 12)) = true := by
    intro f; cases f <;> rfl
  intro f sg hs
  have := List.all_eq_true.1 (h f) sg hs
  simpa using this

/-- What is known about the outcome of the parser. -/
def Result (input : Str) : COut → Prop
  | .ret vs _ => (∃ v e, vs = [v, e] ∧ IsErr input true e) ∨
      (∃ v, vs = [v, .nil] ∧ Good Cert.need input.length v (.slice (.iface .Expr)))
  | .panic ln => ln ∈ Cert.bad
  | .fuel => False

theorem result_of {table : Fn → Func Fn} (hchk : Checked Cert.tables table) (input : Str) (n : Nat) (hn : parseFuel input ≤ n) :
    Result input (runFn table n .ParseStmts [] (PS.new input)) := by
  have hsig : ∃ sg, Cert.tables.sig .ParseStmts = [sg] ∧ sg.args = [] ∧ sg.cur = .none ∧ sg.rank < 12 ∧
      ∀ po ∈ sg.post, po.res = [.top, .err true true] ∨
        ∃ p e, po.res = [.ty (.slice (.iface .Expr)) false p e, .nil] ∨ po.res = [.empty, .nil] ∨ po.res = [.nil, .nil] := by
    refine ⟨_, rfl, rfl, rfl, by decide, ?_⟩
    intro po hpo
    simp only [List.mem_cons, List.not_mem_nil, or_false] at hpo
    rcases hpo with rfl | rfl | rfl | rfl | rfl | rfl <;>
      first
        | exact Or.inl rfl
        | exact Or.inr ⟨_, _, Or.inl rfl⟩
        | exact Or.inr ⟨.top, .top, Or.inr (Or.inr rfl)⟩
  obtain ⟨sg, hs, ha, hc, hr, hp⟩ := hsig
  have hmu := mu_le (linv_new (input := input))
  have hpre : CallPre Cert.tables sg input [] (PS.new input) := by
    refine ⟨?_, ?_, linv_new, rfl⟩
    · rw [ha]; exact .nil
    · rw [hc]; rfl
  have := runFn_sound cert_tokNeed hchk cert_rank n .ParseStmts sg (by rw [hs]; simp) [] (PS.new input) hpre
    (by simp only [parseFuel] at hn
        have : mu (PS.new input).lx = mu (Lx.new input) := rfl
        omega)
  revert this
  cases runFn table n .ParseStmts [] (PS.new input) with
  | ret vs s =>
    rintro ⟨-, -, po, hpo, hres, -, -⟩
    rcases hp po hpo with h | ⟨p, e, h | h | h⟩
    · rw [h] at hres
      cases hres with
      | cons h1 h2 => cases h2 with
        | cons h2 h3 => cases h3; exact Or.inl ⟨_, _, rfl, by simpa [AV.sem] using h2⟩
    all_goals
      rw [h] at hres
      cases hres with
      | cons h1 h2 => cases h2 with
        | cons h2 h3 =>
          cases h3
          simp only [AV.sem] at h2
          subst h2
          refine Or.inr ⟨_, rfl, ?_⟩
          first
            | exact h1.1
            | (rcases h1 with rfl | rfl <;> simp [good_nil, nullable, good_list])
            | (simp only [AV.sem] at h1; subst h1; simp [good_nil, nullable])
  | panic ln => exact id
  | fuel => exact id

theorem result_ge (input : Str) (n : Nat) (hn : parseFuel input ≤ n) :
    Result input (runFn fnTable n .ParseStmts [] (PS.new input)) := result_of checked input n hn

theorem result (input : Str) : Result input (parseStmts input) := result_ge input _ (Nat.le_refl _)

/-! ### Parts of a finished value -/

variable {need : Ty → List PNeed} {N : Nat}

mutual
/-- Every struct inside a finished value is finished. -/
theorem good_structs : ∀ (v : V) (τ : FTy), Good need N v τ →
    ∀ w ∈ v.structs, ∃ t fs, w = .mk t fs ∧ GoodS need N t fs
  | .mk t fs, τ, h, w, hw => by
    rw [good_mk] at h
    simp only [V.structs, V.nodes, if_true, List.mem_cons] at hw
    rcases hw with rfl | hw
    · exact ⟨t, fs, rfl, h.2⟩
    · exact goodF_structs fs _ h.2.1 w hw
  | .list l, τ, h, w, hw => by
    rw [good_list] at h
    obtain ⟨e, -, h⟩ := h
    simp only [V.structs, V.nodes] at hw
    exact goodL_structs l e (fun v hv => (h v hv).2) w hw
  | .nil, _, _, w, hw => by simp [V.structs, V.nodes] at hw
  | .nat _, _, _, w, hw => by simp [V.structs, V.nodes] at hw
  | .bool _, _, _, w, hw => by simp [V.structs, V.nodes] at hw
  | .str _, _, _, w, hw => by simp [V.structs, V.nodes] at hw
theorem goodF_structs : ∀ (l : List V) (τs : List FTy), GoodF need N l τs →
    ∀ w ∈ V.nodesL (fun _ => true) l, ∃ t fs, w = .mk t fs ∧ GoodS need N t fs
  | [], _, _, w, hw => by simp [V.nodesL] at hw
  | v :: l, [], h, _, _ => by simp [GoodF] at h
  | v :: l, τ :: τs, h, w, hw => by
    simp only [GoodF] at h
    simp only [V.nodesL, List.mem_append] at hw
    rcases hw with hw | hw
    · exact good_structs v τ h.1 w hw
    · exact goodF_structs l τs h.2 w hw
theorem goodL_structs : ∀ (l : List V) (e : FTy), (∀ v ∈ l, Good need N v e) →
    ∀ w ∈ V.nodesL (fun _ => true) l, ∃ t fs, w = .mk t fs ∧ GoodS need N t fs
  | [], _, _, w, hw => by simp [V.nodesL] at hw
  | v :: l, e, h, w, hw => by
    simp only [V.nodesL, List.mem_append] at hw
    rcases hw with hw | hw
    · exact good_structs v e (h v (by simp)) w hw
    · exact goodL_structs l e (fun v hv => h v (by simp [hv])) w hw
end

/-- The statements returned are finished values. -/
theorem parses_good {input : Str} {vs : List V} (h : Parses input vs) :
    ∀ v ∈ vs, v.nonNil = true ∧ Good Cert.need input.length v (.iface .Expr) := by
  obtain ⟨v, s, h, rfl⟩ := h
  have hr := result input
  rw [h] at hr
  rcases hr with ⟨_, _, h1, h2⟩ | ⟨_, h1, h2⟩
  · simp only [List.cons.injEq] at h1
    obtain ⟨rfl, rfl, -⟩ := h1
    have := h2.nonNil; simp [V.nonNil] at this
  · simp only [List.cons.injEq] at h1
    obtain ⟨rfl, -⟩ := h1
    rcases good_slice.1 h2 with rfl | ⟨l, rfl, hl⟩
    · simp [V.items]
    · exact hl

/-- Every struct inside the statements returned is finished. -/
theorem parses_structs {input : Str} {vs : List V} (h : Parses input vs) {v : V} (hv : v ∈ vs) {t : Ty} {fs : List V}
    (hw : V.mk t fs ∈ v.structs) : GoodS Cert.need input.length t fs := by
  obtain ⟨t', fs', e, hg⟩ := good_structs v _ (parses_good h v hv).2 _ hw
  simp only [V.mk.injEq] at e
  obtain ⟨rfl, rfl⟩ := e
  exact hg

/-! ### Typing -/

/-- Requirements of `Spec.Required` as requirements of the analysis. -/
def ofNeed : Need → PNeed
  | .filled i => .filled i
  | .either i j => .either i j

theorem ofNeed_holds {t : Ty} {fs : List V} {nd : Need} (h : (ofNeed nd).holds N t fs) : nd.holds fs = true := by
  cases nd with
  | filled i =>
    obtain ⟨v, hv, h⟩ := h
    simp [Need.holds, hv, h]
  | either i j =>
    rcases h with ⟨v, hv, h⟩ | ⟨v, hv, h⟩
    · simp [Need.holds, hv, h]
    · simp [Need.holds, hv, h]

mutual
/-- A finished value has its type, and meets the requirements `req` if all structs in it do. -/
theorem good_hasTy {req : Ty → List Need} : ∀ (v : V) (τ : FTy), Good need N v τ →
    (∀ t fs, V.mk t fs ∈ v.structs → GoodS need N t fs → ∀ nd ∈ req t, nd.holds fs = true) → v.hasTy req τ = true
  | .mk t fs, τ, h, hr => by
    rw [good_mk] at h
    have h1 : V.fieldsTy req fs (schema t) = true :=
      goodF_hasTy fs _ h.2.1 (fun t' fs' hm => hr t' fs' (by simp [V.structs, V.nodes, hm]))
    have h2 : (req t).all (Need.holds fs) = true :=
      List.all_eq_true.2 (hr t fs (by simp [V.structs, V.nodes]) h.2)
    cases τ <;> simp_all [V.hasTy]
  | .list l, τ, h, hr => by
    rw [good_list] at h
    obtain ⟨e, rfl, h⟩ := h
    simp only [V.hasTy]
    exact goodL_hasTy l e h (fun t' fs' hm => hr t' fs' (by simpa [V.structs, V.nodes] using hm))
  | .nil, τ, h, _ => by cases τ <;> simp_all [Good, V.hasTy]
  | .nat _, τ, h, _ => by cases τ <;> simp_all [Good, V.hasTy]
  | .bool _, τ, h, _ => by cases τ <;> simp_all [Good, V.hasTy]
  | .str _, τ, h, _ => by cases τ <;> simp_all [Good, V.hasTy]
theorem goodF_hasTy {req : Ty → List Need} : ∀ (l : List V) (τs : List FTy), GoodF need N l τs →
    (∀ t fs, V.mk t fs ∈ V.nodesL (fun _ => true) l → GoodS need N t fs → ∀ nd ∈ req t, nd.holds fs = true) →
    V.fieldsTy req l τs = true
  | [], [], _, _ => rfl
  | [], _ :: _, h, _ => by simp [GoodF] at h
  | _ :: _, [], h, _ => by simp [GoodF] at h
  | v :: l, τ :: τs, h, hr => by
    simp only [GoodF] at h
    simp only [V.fieldsTy, Bool.and_eq_true]
    exact ⟨good_hasTy v τ h.1 (fun t fs hm => hr t fs (by simp only [V.nodesL, List.mem_append]; exact Or.inl hm)),
      goodF_hasTy l τs h.2 (fun t fs hm => hr t fs (by simp [V.nodesL, hm]))⟩
theorem goodL_hasTy {req : Ty → List Need} : ∀ (l : List V) (e : FTy), (∀ v ∈ l, v.nonNil = true ∧ Good need N v e) →
    (∀ t fs, V.mk t fs ∈ V.nodesL (fun _ => true) l → GoodS need N t fs → ∀ nd ∈ req t, nd.holds fs = true) →
    V.allTy req l e = true
  | [], _, _, _ => rfl
  | v :: l, e, h, hr => by
    simp only [V.allTy, Bool.and_eq_true]
    exact ⟨⟨(h v (by simp)).1, good_hasTy v e (h v (by simp)).2 (fun t fs hm => hr t fs (by simp only [V.nodesL, List.mem_append]; exact Or.inl hm))⟩,
      goodL_hasTy l e (fun w hw => h w (by simp [hw])) (fun t fs hm => hr t fs (by simp [V.nodesL, hm]))⟩
end

/-- The requirements are in the table of the analysis, or follow from the type of the field, except that
on the parameters of functions. -/
theorem required_need : ∀ t : Ty, ∀ nd ∈ required t, ofNeed nd ∈ Cert.need t ∨
    (∃ i u, nd = .filled i ∧ (schema t)[i]? = some (.val u)) ∨ (t = .FunctionExpr ∧ nd = .filled 1) := by
  have h : ∀ t : Ty, (required t).all (fun nd => (Cert.need t).contains (ofNeed nd) ||
      (match nd with
        | .filled i => (match (schema t)[i]? with | some (.val _) => true | _ => false)
        | _ => false) ||
      (decide (t = .FunctionExpr) && decide (nd = .filled 1))) = true := by
    intro t; cases t <;> decide +kernel
  intro t nd hnd
  have := List.all_eq_true.1 (h t) nd hnd
  simp only [Bool.or_eq_true, or_assoc] at this
  rcases this with h | h | h
  · exact Or.inl (by simpa using h)
  · right; left
    split at h
    · rename_i i
      split at h
      · rename_i u hu; exact ⟨i, u, rfl, hu⟩
      · simp at h
    · simp at h
  · exact Or.inr (Or.inr (by simpa using h))

/-- The statements returned are syntax trees. -/
theorem parses_isTree_noReq {input : Str} {vs : List V} (h : Parses input vs) {v : V} (hv : v ∈ vs) : v.isTree noReq := by
  obtain ⟨h1, h2⟩ := parses_good h v hv
  exact ⟨h1, good_hasTy v _ h2 (fun t fs _ _ nd hnd => by simp [noReq] at hnd)⟩

/-- They have their required fields, if all functions have their parameters. -/
theorem parses_isTree {input : Str} {vs : List V} (h : Parses input vs) {v : V} (hv : v ∈ vs) (hp : v.hasParams) :
    v.isTree required := by
  obtain ⟨h1, h2⟩ := parses_good h v hv
  refine ⟨h1, good_hasTy v _ h2 (fun t fs hm hg nd hnd => ?_)⟩
  rcases required_need t nd hnd with hn | ⟨i, u, rfl, hi⟩ | ⟨rfl, rfl⟩
  · exact ofNeed_holds (hg.2 _ hn)
  · have hf := hg.1
    rw [goodF_iff] at hf
    obtain ⟨w, hw, hgw⟩ := forall₂_get' hf hi
    obtain ⟨gs, rfl, -⟩ := good_val.1 hgw
    simp [Need.holds, hw, V.filled]
  · obtain ⟨w, hw, hnn⟩ := hp fs hm
    simp only [Need.holds, hw, Option.map_some, Option.getD_some]
    have : Good Cert.need input.length w (.ptr .ParamExprList) := by
      have := hg.1
      rw [goodF_iff] at this
      obtain ⟨τ, hτ, hg⟩ := forall₂_get this hw
      have : some (FTy.ptr .ParamExprList) = some τ := hτ ▸ rfl
      simp at this; subst this; exact hg
    rcases good_ptr.1 this with rfl | ⟨_, rfl, _⟩
    · simp [V.nonNil] at hnn
    · rfl

end Verif.An

/-
The formatter writes the elements of the tree: lists, joins, windows and queries.
-/
import Verif.Echo.Print2

namespace Verif.Echo
open Verif.Spec

variable {env : List V} {i n k : Nat} {b b' b'' : Bool} {us ws : List E}

/-- The number of a `TOP` clause. -/
theorem top_num {m : Bool} {v : V} {us : List E} (h : PN m v us) (ht : v.ty? = some .NumberLiteral) (hτ : v.hasTy noReq (.ptr .NumberLiteral) = true)
    {x : Str} (hx : (v.field 2).bind V.toStr? = some x) : ∀ f : Fmt, Set m f → (m = true → nl us) → Adds m us f (f.writeString x) := by
  intro f hf hn
  refine h.call _ _ ht hτ 1 f _ hf hn ?_
  obtain ⟨t, fs, rfl⟩ := h.node
  cases ht
  have e : Proc.body (.fmt .NumberLiteral) = .strF (rf 2) := rfl
  rw [formatF, e]
  simp [FCmd.run, Ref.get, getSels, Sel.get, hx]

theorem wr_top {m : Bool} {v p q t : V} {us : List E} {call : Proc → V → Fmt → Option Fmt} (h : PN m v us) (ht : v.ty? = some .NumberLiteral)
    (hτ : v.hasTy noReq (.ptr .NumberLiteral) = true) :
    Wr m call (.strF ⟨0, [.f 2, .f 2]⟩) [.mk .TopClause [p, q, v, t]] i n b us b := by
  intro f s' hf hn he
  have e : Ref.get [.mk .TopClause [p, q, v, t]] ⟨0, [.f 2, .f 2]⟩ = v.field 2 := by
    change (v.field 2).bind some = _
    exact Option.bind_fun_some _
  simp only [FCmd.run, e, Option.map_eq_some_iff] at he
  obtain ⟨x, hx, rfl⟩ := he
  exact ⟨rfl, top_num h ht hτ hx f hf hn⟩

theorem p_top {m} {p q v us} : PK m .n v us → v.ty? = some .NumberLiteral → PK m .n (.mk .TopClause [p, q, v, .bool false]) ([.kw b!"TOP", .sp] ++ us) := by
  intros
  wnode
  apply Exists.intro
  apply Wr.cast
  · apply wr_seq
    · wrs
    · apply wr_seq
      · exact wr_top (by assumption) (by assumption) (by assumption)
      · wrs
  · wfin
theorem p_topTies {m} {p q v us} : PK m .n v us → v.ty? = some .NumberLiteral →
      PK m .n (.mk .TopClause [p, q, v, .bool true]) ([.kw b!"TOP", .sp] ++ us ++ [.sp, .kw b!"WITH", .sp, .kw b!"TIES"]) := by
  intros
  wnode
  apply Exists.intro
  apply Wr.cast
  · apply wr_seq
    · wrs
    · apply wr_seq
      · exact wr_top (by assumption) (by assumption) (by assumption)
      · wrs
  · wfin
theorem p_with_ {m} {p q vs us} : PK m (.l comma) (.list vs) us → vs ≠ [] → PK m .n (.mk .WithClause [p, q, .list vs]) ([.kw b!"WITH", .sp] ++ us) := by
  intro h hne
  refine ⟨pn_mk ?_, ?_⟩
  · rintro ⟨τ, hτ⟩ k
    simp only [PK] at h
    simp only [V.hasTy.eq_9, V.fieldsTy, schema, Bool.and_eq_true, Bool.and_true] at hτ
    casesm* _ ∧ _
    unfold formatBody
    dsimp only
    apply Exists.intro
    apply Wr.cast
    · wrs
    · wfin
  · rintro p q x τ he -
    cases he
    exact ⟨us, rfl, hne, h⟩
theorem p_window {m} {p q a b c us vs ws} : PK m (.o []) a us → PK m (.o []) b vs → PK m (.o []) c ws →
      PK m .n (.mk .WindowExpr [p, q, a, b, c, .nil])
        ([.op b!"("] ++ us ++ bl (a.nonNil && b.nonNil) ++ vs ++ bl ((a.nonNil || b.nonNil) && c.nonNil) ++ ws ++ [.op b!")"]) := by
  intro h1 h2 h3
  simp only [PK] at h1 h2 h3
  refine ⟨pn_mk ?_, pw_ne (by decide)⟩
  rintro ⟨τ, hτ⟩ k
  simp only [V.hasTy, V.fieldsTy, schema, Bool.and_eq_true, Bool.and_true] at hτ
  casesm* _ ∧ _
  unfold formatBody
  dsimp only
  obtain ⟨rfl, rfl⟩ | ⟨us, rfl, h1, _⟩ := h1 <;> obtain ⟨rfl, rfl⟩ | ⟨vs, rfl, h2, _⟩ := h2 <;> obtain ⟨rfl, rfl⟩ | ⟨ws, rfl, h3, _⟩ := h3
  all_goals
    apply Exists.intro
    apply Wr.cast
    · repeat' first
        | exact wr_flag
        | exact wr_lit
        | exact wr_skip
        | exact wrE rfl (by assumption) (by st)
        | apply wr_seq
        | (apply wrN rfl; focus assumption)
        | (apply wr_iteT; focus evalc) | (apply wr_iteF; focus evalc)
    · try have e1 := h1.nonNil
      try have e2 := h2.nonNil
      try have e3 := h3.nonNil
      simp [toks, flush, isBlank, isLetter, bl, show V.nil.nonNil = false from rfl, *]

theorem wrJ {m : Bool} {r : Ref} {v : V} {t : FTy} (hv : r.get env = some v) (hj : PJ m v us) (ht : v.hasTy noReq t = true) :
    Wr m (formatF k) (.ite (.nonNil r) (.joinSQL r) .skip) env i n b us b := by
  obtain ⟨rfl, rfl⟩ | ⟨hn, hj⟩ := hj
  · exact wr_iteF (by simp [Cond.eval, hv, V.nonNil]) wr_skip
  · refine wr_iteT (by simp [Cond.eval, hv]; cases v <;> simp_all [V.nonNil]) (wr_joinSQL hv (hj _ ht k))
theorem p_join {m} {p a b us ws} : PK m .n a us → PK m .j b ws → PK m .n (.mk .JoinExpr [p, a, b, .nil, .nil]) (us ++ ws) := by
  intros
  wnode
  apply Exists.intro
  apply Wr.cast
  · apply wr_seq
    · wrs
    · exact wrJ rfl (by assumption) (by assumption)
  · wfin
theorem p_jnil {m} : PK m .j .nil [] := by
  exact .inl ⟨rfl, rfl⟩

/-- The body of the procedure for the rest of a join. -/
theorem pj_mk {m : Bool} {v : V} {us : List E} (hn : v ≠ .nil) (h : (∃ τ, v.hasTy noReq τ = true) → ∀ k, ∃ b', Wr m (formatF k) joinBody [v] 0 0 false us b') : PJ m v us := by
  refine .inr ⟨hn, fun τ hτ k => ?_⟩
  cases k with
  | zero => exact callW_zero
  | succ k =>
    obtain ⟨b', h⟩ := h ⟨τ, hτ⟩ k
    exact callW_succ h
theorem p_jtable {m} {v us} : v.ty? = some .JoinTableExpr → PK m .n v us → PK m .j v ([.op b!","] ++ us) := by
  intro ht h
  simp only [PK] at h ⊢
  obtain ⟨h, _⟩ := h
  refine pj_mk h.ne ?_
  rintro ⟨τ, hτ⟩ k
  unfold joinBody
  obtain ⟨t, fs, rfl⟩ := h.node
  cases ht
  refine ⟨false, wr_iteT (by simp [Cond.eval, Ref.get, getSels, V.ty?]) (wr_seq (us := [.op b!","]) (wr_lit (x := b!",")) ?_)⟩
  exact wr_exprI rfl rfl (h.call _ _ rfl hτ k)
theorem p_jcomma {m} {p a b us ws} : PK m .n a us → PK m .j b ws → PK m .j (.mk .JoinExpr [p, a, b, .nil, .nil]) ([.op b!","] ++ us ++ ws) := by
  intro ha hb
  simp only [PK] at ha hb ⊢
  refine pj_mk (by simp) ?_
  rintro ⟨τ, hτ⟩ k
  unfold joinBody
  simp only [V.hasTy, V.fieldsTy, schema, Bool.and_eq_true, Bool.and_true] at hτ
  casesm* _ ∧ _
  apply Exists.intro
  apply wr_iteF
  · simp [Cond.eval, Ref.get, getSels, V.ty?]
  apply wr_seq
  · apply wr_iteT
    · evalc
    · apply wr_seq
      · exact wr_lit (x := b!",")
      · wrs
  · exact wrJ rfl (by assumption) (by assumption)
theorem mapM_str (ss : List Str) : ss.mapM (m := Option) (V.toStr? ∘ V.str) = some ss := by
  induction ss with
  | nil => rfl
  | cons s ss ih => simp [List.mapM_cons, ih, V.toStr?]
theorem joinStr_snoc (sep s : Str) : ∀ ss : List Str, ss ≠ [] → joinStr sep (ss ++ [s]) = joinStr sep ss ++ sep ++ s
  | [], h => absurd rfl h
  | [a], _ => by simp [joinStr]
  | a :: c :: r, _ => by
    have := joinStr_snoc sep s (c :: r) (by simp)
    simp only [List.cons_append] at this ⊢
    simp [joinStr, this]
theorem p_jmods {m} {p a b ms c us vs ws xs} : PK m .m (.list ms) us → ms ≠ [] → PK m .n a vs → PK m (.o [.sp]) c ws → PK m .j b xs →
      PK m .j (.mk .JoinExpr [p, a, b, .list ms, c]) ([.sp] ++ us ++ [.sp] ++ vs ++ ws ++ xs) := by
  intro hm hne ha hc hb
  simp only [PK] at ha hb hc hm ⊢
  refine pj_mk (by simp) ?_
  rintro ⟨τ, hτ⟩ k
  unfold joinBody
  simp only [V.hasTy, V.fieldsTy, schema, Bool.and_eq_true, Bool.and_true] at hτ
  casesm* _ ∧ _
  obtain ⟨ss, h1, h2, h3⟩ := hm
  apply Exists.intro
  apply Wr.cast
  · apply wr_iteF
    · simp [Cond.eval, Ref.get, getSels, V.ty?]
    apply wr_seq
    · apply wr_iteF
      · simpa [Cond.eval, Ref.get, getSels, Sel.get, V.field, V.items] using hne
      · apply wr_seq
        · wrs
        apply wr_seq
        · refine wr_join (l := ss) rfl ?_ h2 h3
          rw [h1, List.mapM_map]
          exact mapM_str ss
        wrs
    · exact wrJ rfl (by assumption) (by assumption)
  · wfin

theorem pm_one {m : Bool} {s : Str} {u : E} (hu : u ≠ .sp) (ht : u.text = s) : PM m (.list [.str s]) [u] :=
  ⟨[s], rfl, by simpa [joinStr, ← ht] using Rend.one hu, fun h => by simpa [joinStr, ← ht] using nl_one h⟩
theorem pm_snoc {m : Bool} {vs : List V} {us : List E} {s : Str} {u : E} (hne : vs ≠ []) (hu : u ≠ .sp) (ht : u.text = s) (h : PM m (.list vs) us) :
    PM m (.list (vs ++ [.str s])) (us ++ [.sp, u]) := by
  obtain ⟨ss, h1, h2, h3⟩ := h
  have hss : ss ≠ [] := by rintro rfl; simp [V.items] at h1; exact hne h1
  simp only [V.items] at h1
  refine ⟨ss ++ [s], by simp [V.items, h1], ?_, fun h => ?_⟩
  · rw [joinStr_snoc _ _ _ hss, List.append_assoc]
    exact h2.append (.sp rfl (ht ▸ .one hu))
  · obtain ⟨h4, h5⟩ := nl_append.1 h
    rw [joinStr_snoc _ _ _ hss]
    have h6 := h5 u (by simp)
    rw [ht] at h6
    simp [h3 h4, h6]
theorem p_mone {m} {s} : PK m .m (.list [.str s]) [.raw s] := by
  exact pm_one (by simp) rfl
theorem p_mkw {m} {s} : PK m .m (.list [.str s]) [.kw s] := by
  exact pm_one (by simp) rfl
theorem p_msnoc {m} {vs us s} : vs ≠ [] → PK m .m (.list vs) us → PK m .m (.list (vs ++ [.str s])) (us ++ [.sp, .raw s]) := by
  exact fun hne h => pm_snoc hne (by simp) rfl h
theorem p_mkws {m} {vs us s} : vs ≠ [] → PK m .m (.list vs) us → PK m .m (.list (vs ++ [.str s])) (us ++ [.sp, .kw s]) := by
  exact fun hne h => pm_snoc hne (by simp) rfl h
theorem p_lnil0 {m} {sep} : PK m (.l sep) .nil [] := by
  exact ⟨[], rfl, .nil⟩
theorem p_lnil {m} {sep} : PK m (.l sep) (.list []) [] := by
  exact ⟨[], rfl, .nil⟩
theorem p_lone {m} {sep v us} : PK m .n v us → PK m (.l sep) (.list [v]) us := by
  exact fun h => ⟨[us], by simp [sepd], .cons h.1 .nil⟩
theorem p_lcons {m} {sep v w vs us ws} : PK m .n v us → PK m (.l sep) (.list (w :: vs)) ws → PK m (.l sep) (.list (v :: w :: vs)) (us ++ sep ++ ws) := by
  rintro h ⟨uss, rfl, hf⟩
  simp only [V.items] at hf
  cases hf with
  | @cons _ u _ uss h1 h2 => exact ⟨us :: u :: uss, by simp [sepd], .cons h.1 (.cons h1 h2)⟩
theorem p_onil {m} {pre} : PK m (.o pre) .nil [] := by
  exact .inl ⟨rfl, rfl⟩
theorem p_osome {m} {pre v us} : PK m .n v us → PK m (.o pre) v (pre ++ us) := by
  exact fun h => .inr ⟨us, rfl, h.1, h.2⟩
theorem p_pnil {m} {pre} : PK m (.p pre) (.list []) [] := by
  exact ⟨[], rfl, .nil⟩
theorem p_psnoc {m} {pre v vs us ws} : PK m (.p pre) (.list vs) us → PK m .n v ws → PK m (.p pre) (.list (vs ++ [v])) (us ++ pre ++ ws) := by
  rintro ⟨uss, rfl, hf⟩ h
  exact ⟨uss ++ [ws], by simp, List.rel_append hf (.cons h.1 .nil)⟩

end Verif.Echo

/-
The formatter writes the elements of the tree: queries, and the whole.
-/
import Verif.Echo.Print3

namespace Verif.Echo
open Verif.Spec

variable {m : Bool} {env : List V} {i n k : Nat} {b b' b'' : Bool} {us ws : List E}

/-- The `WITH` clause of a query. -/
theorem wr_with {w : V} {us : List E} {x : FCmd} (hv : Ref.get env (rf 2) = some w) (ho : PO m [] w us) (hp : w.hasTy noReq (.ptr .WithClause) = true)
    (hx : ∀ v us, Ref.get env ⟨0, [.f 2, .f 2]⟩ = some v → v.items ≠ [] → PL m comma v us → StOks (.ptr .CTEStmt) v → Wr m (formatF k) x env i n b ([.sp] ++ us) b) :
    Wr m (formatF k) (.ite (.nonNil (rf 2)) (.seq (.lit b!"WITH") (.seq .indent (.seq x (.seq .dedent .brk)))) .skip) env i n b (us ++ bl w.nonNil) b := by
  obtain ⟨rfl, rfl⟩ | ⟨us', rfl, hn, hw⟩ := ho
  · exact wr_iteF (by simp [Cond.eval, hv, V.nonNil]) wr_skip
  obtain ⟨t, fs, rfl⟩ := hn.node
  have := hasTy_ptr hp
  subst this
  have hp' := hp
  simp only [V.hasTy, schema, Bool.and_eq_true] at hp'
  obtain ⟨_, h1, _⟩ := hp'
  match fs, h1, hv, hp with
  | [p, q, v], h1, hv, hp =>
    simp only [V.fieldsTy, Bool.and_eq_true] at h1
    obtain ⟨ws, rfl, hne, hl⟩ := hw p q v _ rfl hp
    have hg : Ref.get env ⟨0, [.f 2, .f 2]⟩ = some v := by
      unfold Ref.get at hv ⊢
      cases h0 : env[0]? with
      | none => simp [h0] at hv
      | some r =>
        simp only [h0, Option.bind_some, getSels, Sel.get] at hv ⊢
        rw [Option.bind_fun_some] at hv
        rw [hv]; rfl
    refine wr_iteT (by simp [Cond.eval, hv, V.nonNil]) ?_
    refine Wr.cast (wr_seq (wr_lit (x := b!"WITH")) (wr_seq wr_indent (wr_seq (hx v ws hg hne hl (.p h1.2.2.1)) (wr_seq wr_dedent wr_brk)))) ?_
    simp [toks, flush, isBlank, isLetter, bl, V.nonNil]
  | [], h1, _, _ => simp [V.fieldsTy] at h1
  | [_], h1, _, _ => simp [V.fieldsTy] at h1
  | [_, _], h1, _, _ => simp [V.fieldsTy] at h1
  | _ :: _ :: _ :: _ :: _, h1, _, _ => simp [V.fieldsTy] at h1

/-- The set operations. -/
theorem wr_ops {a b' c d : V} {ua ub uc ud : List E} {x y z w : Nat} {sa sb sc sd : Str}
    (ga : Ref.get env (rf x) = some a) (gb : Ref.get env (rf y) = some b') (gc : Ref.get env (rf z) = some c) (gd : Ref.get env (rf w) = some d)
    (ha : PO m (.sp :: (toks [] sa ++ [.sp])) a ua) (hb : PO m (.sp :: (toks [] sb ++ [.sp])) b' ub) (hc : PO m (.sp :: (toks [] sc ++ [.sp])) c uc)
    (hd : PO m (.sp :: (toks [] sd ++ [.sp])) d ud)
    (ta : a.hasTy noReq (.ptr .SelectQuery) = true) (tb : b'.hasTy noReq (.ptr .SelectQuery) = true) (tc : c.hasTy noReq (.ptr .SelectQuery) = true) (td : d.hasTy noReq (.ptr .SelectQuery) = true)
    (h1 : a ≠ .nil → b' = .nil ∧ c = .nil ∧ d = .nil) (h2 : b' ≠ .nil → c = .nil ∧ d = .nil) (h3 : c ≠ .nil → d = .nil)
    (la : sa.contains 10 = false := by decide) (lb : sb.contains 10 = false := by decide) (lc : sc.contains 10 = false := by decide) (ld : sd.contains 10 = false := by decide) :
    Wr m (formatF k) (.ite (.nonNil (rf x)) (.seq .brk (.seq (.lit sa) (.seq .brk (.expr (rf x) (.ptr .SelectQuery)))))
      (.ite (.nonNil (rf y)) (.seq .brk (.seq (.lit sb) (.seq .brk (.expr (rf y) (.ptr .SelectQuery)))))
      (.ite (.nonNil (rf z)) (.seq .brk (.seq (.lit sc) (.seq .brk (.expr (rf z) (.ptr .SelectQuery)))))
      (.ite (.nonNil (rf w)) (.seq .brk (.seq (.lit sd) (.seq .brk (.expr (rf w) (.ptr .SelectQuery))))) .skip)))) env i n b (ua ++ ub ++ uc ++ ud) b := by
  have nil_of : ∀ {v : V} {pre us : List E}, PO m pre v us → v = .nil → us = [] := by
    rintro v pre us (⟨rfl, rfl⟩ | ⟨us', rfl, hn, _⟩) h
    · rfl
    · exact absurd h hn.ne
  have one : ∀ {r : Ref} {v : V} {s : Str} {us : List E}, Ref.get env r = some v → PO m (.sp :: (toks [] s ++ [.sp])) v us → v ≠ .nil → v.hasTy noReq (.ptr .SelectQuery) = true →
      s.contains 10 = false → Wr m (formatF k) (.seq .brk (.seq (.lit s) (.seq .brk (.expr r (.ptr .SelectQuery))))) env i n b us b := by
    rintro r v s us hg (⟨rfl, rfl⟩ | ⟨us', rfl, hn, _⟩) hne ht hl
    · exact absurd rfl hne
    · refine Wr.cast (wr_seq wr_brk (wr_seq (wr_lit hl) (wr_seq wr_brk (wrE hg hn (.p ht))))) (by simp)
  have nn : ∀ {v : V}, v ≠ .nil → v.nonNil = true := by intro v h; cases v <;> first | rfl | exact absurd rfl h
  by_cases e1 : a = .nil
  · rw [nil_of ha e1]
    refine wr_iteF (by simp [Cond.eval, ga, e1, V.nonNil]) ?_
    by_cases e2 : b' = .nil
    · rw [nil_of hb e2]
      refine wr_iteF (by simp [Cond.eval, gb, e2, V.nonNil]) ?_
      by_cases e3 : c = .nil
      · rw [nil_of hc e3]
        refine wr_iteF (by simp [Cond.eval, gc, e3, V.nonNil]) ?_
        by_cases e4 : d = .nil
        · rw [nil_of hd e4]
          exact wr_iteF (by simp [Cond.eval, gd, e4, V.nonNil]) wr_skip
        · exact wr_iteT (by simp [Cond.eval, gd, nn e4]) (Wr.cast (one gd hd e4 td ld) (by simp))
      · rw [nil_of hd (h3 e3)]
        exact wr_iteT (by simp [Cond.eval, gc, nn e3]) (Wr.cast (one gc hc e3 tc lc) (by simp))
    · rw [nil_of hc (h2 e2).1, nil_of hd (h2 e2).2]
      exact wr_iteT (by simp [Cond.eval, gb, nn e2]) (Wr.cast (one gb hb e2 tb lb) (by simp))
  · rw [nil_of hb (h1 e1).1, nil_of hc (h1 e1).2.1, nil_of hd (h1 e1).2.2]
    exact wr_iteT (by simp [Cond.eval, ga, nn e1]) (Wr.cast (one ga ha e1 ta la) (by simp))

/-- `DISTINCT`. -/
theorem wr_distinct {d : Bool} {v : V} {us : List E} {x y : Nat} {st : Static} (hx : Ref.get env (rf x) = some (.bool d)) (hy : Ref.get env (rf y) = some v) (ho : PO m [.sp] v us)
    (hd : v.nonNil = true → d = true) (hs : StOk st v) :
    Wr m (formatF k) (.ite (.isTrue (rf x)) (.seq (.lit b!" DISTINCT") (.ite (.nonNil (rf y)) (.seq (.lit b!" ") (.expr (rf y) st)) .skip)) .skip) env i n b
      ((if d then [.sp, .kw b!"DISTINCT"] else []) ++ us) b := by
  cases d with
  | true => exact wr_iteT (by simp [Cond.eval, hx, V.toBool?]) (wr_seq (wr_lit (x := b!" DISTINCT")) (wrO1 hy ho hs))
  | false =>
    obtain ⟨rfl, rfl⟩ | ⟨us', rfl, hn, _⟩ := ho
    · exact wr_iteF (by simp [Cond.eval, hx, V.toBool?]) wr_skip
    · exact absurd (hd hn.nonNil) (by simp)

theorem p_select {m} {p q w d don top its fr pw wh gb hv ob lb lm st fm ua ud ex is u0 u1 u2 u3 u4 u5 u6 u7 u8 u9 u10 u11 u12 u13 u14 u15 u16 u17} :       PK m (.o []) w u0 → PK m (.o [.sp]) don u1 → (don.nonNil = true → d = true) → PK m (.o [.sp]) top u2 → PK m (.l comma) (.list its) u3 → its ≠ [] →
      PK m (.o [.sp]) fr u4 → PK m (.o [.sp]) pw u5 → PK m (.o [.sp]) wh u6 → PK m (.o [.sp]) gb u7 → PK m (.o [.sp]) hv u8 →
      PK m (.o [.sp]) ob u9 → PK m (.o [.sp]) lb u10 → PK m (.o [.sp]) lm u11 → PK m (.o [.sp]) st u12 → PK m (.o [.sp]) fm u13 →
      PK m (.o [.sp, .kw b!"UNION", .sp, .kw b!"ALL", .sp]) ua u14 → PK m (.o [.sp, .kw b!"UNION", .sp, .kw b!"DISTINCT", .sp]) ud u15 →
      PK m (.o [.sp, .kw b!"EXCEPT", .sp]) ex u16 → PK m (.o [.sp, .kw b!"INTERSECT", .sp]) is u17 →
      (ua ≠ .nil → ud = .nil ∧ ex = .nil ∧ is = .nil) → (ud ≠ .nil → ex = .nil ∧ is = .nil) → (ex ≠ .nil → is = .nil) →
      PK m .n (.mk .SelectQuery [p, q, w, top, .bool d, don, .list its, fr, .nil, pw, wh, gb, .bool false, hv, ob, lb, lm, st, fm, ua, ud, ex, is])
        (u0 ++ bl w.nonNil ++ [.kw b!"SELECT"] ++ (if d then [.sp, .kw b!"DISTINCT"] else []) ++ u1 ++ u2 ++ [.sp] ++ u3 ++ u4 ++ u5 ++ u6 ++ u7 ++ u8 ++ u9 ++ u10 ++
          u11 ++ u12 ++ u13 ++ u14 ++ u15 ++ u16 ++ u17) := by
  intro h0 h1 hd h2 h3 hne h4 h5 h6 h7 h8 h9 h10 h11 h12 h13 h14 h15 h16 h17 c1 c2 c3
  simp only [PK] at h0 h1 h2 h3 h4 h5 h6 h7 h8 h9 h10 h11 h12 h13 h14 h15 h16 h17
  refine ⟨pn_mk ?_, pw_ne (by decide)⟩
  rintro ⟨τ, hτ⟩ k
  simp only [V.hasTy, V.fieldsTy, schema, Bool.and_eq_true, Bool.and_true] at hτ
  casesm* _ ∧ _
  have hl : V.hasTy noReq (.list its) (.slice (.ptr .SelectItem)) = true := by simpa only [V.hasTy]
  unfold formatBody
  dsimp only
  apply Exists.intro
  apply Wr.cast
  · apply wr_seq
    · exact wr_with rfl h0 (by assumption) fun v us hg hn hl hs => wrLC hg hl hn hs
    apply wr_seq
    · exact wr_lit
    apply wr_seq
    · exact wr_distinct (d := d) rfl rfl h1 hd (.p (by assumption))
    apply wr_seq
    · exact wrO1 rfl h2 (.p (by assumption))
    apply wr_seq
    · exact wr_indent
    apply wr_seq
    · exact wrLC rfl h3 hne (.p hl)
    apply wr_seq
    · exact wr_dedent
    apply wr_seq
    · exact wrO2 rfl h4 (.p (by assumption))
    apply wr_seq
    · exact wr_iteF rfl wr_skip
    apply wr_seq
    · exact wrO2 rfl h5 (.p (by assumption))
    apply wr_seq
    · exact wrO2 rfl h6 (.p (by assumption))
    apply wr_seq
    · exact wrO2 rfl h7 (.p (by assumption))
    apply wr_seq
    · exact wrO2 rfl h8 (.p (by assumption))
    apply wr_seq
    · exact wrO2 rfl h9 (.p (by assumption))
    apply wr_seq
    · exact wrO2 rfl h10 (.p (by assumption))
    apply wr_seq
    · exact wrO2 rfl h11 (.p (by assumption))
    apply wr_seq
    · exact wrO2 rfl h12 (.p (by assumption))
    apply wr_seq
    · exact wrO2 rfl h13 (.p (by assumption))
    exact wr_ops rfl rfl rfl rfl h14 h15 h16 h17 (by assumption) (by assumption) (by assumption) (by assumption) c1 c2 c3
  · simp [toks, flush, isBlank, isLetter]

/-- The formatter writes the elements of the tree. -/
theorem print (m : Bool) {K : K} {v : V} {us : List E} (h : Echo K v us) : PK m K v us := by
  induction h with
  | lnil0 => exact p_lnil0 
  | lnil => exact p_lnil 
  | lone a0 i0 => exact p_lone i0
  | lcons a0 a1 i0 i1 => exact p_lcons i0 i1
  | onil => exact p_onil 
  | osome a0 i0 => exact p_osome i0
  | pnil => exact p_pnil 
  | psnoc a0 a1 i0 i1 => exact p_psnoc i0 i1
  | word => exact p_word 
  | wordStr => exact p_wordStr 
  | star => exact p_star 
  | num => exact p_num 
  | dotNum => exact p_dotNum 
  | str => exact p_str 
  | placeholder => exact p_placeholder 
  | binOp a0 a1 a2 i1 i2 => exact p_binOp a0 i1 i2
  | binKw a0 a1 a2 i1 i2 => exact p_binKw a0 i1 i2
  | binNot a0 a1 a2 i1 i2 => exact p_binNot a0 i1 i2
  | cast a0 a1 i0 i1 => exact p_cast i0 i1
  | global a0 a1 i0 i1 => exact p_global i0 i1
  | globalNot a0 a1 i0 i1 => exact p_globalNot i0 i1
  | unaryOp a0 a1 i1 => exact p_unaryOp a0 i1
  | unaryKw a0 a1 i1 => exact p_unaryKw a0 i1
  | path a0 i0 => exact p_path i0
  | nested a0 a1 i0 i1 => exact p_nested i0 i1
  | index a0 a1 i0 i1 => exact p_index i0 i1
  | params a0 a1 i0 i1 => exact p_params i0 i1
  | args a0 i0 => exact p_args i0
  | exprs a0 i0 => exact p_exprs i0
  | exprsD a0 i0 => exact p_exprsD i0
  | column a0 a1 i0 i1 => exact p_column i0 i1
  | func a0 a1 i0 i1 => exact p_func i0 i1
  | object a0 a1 i0 i1 => exact p_object i0 i1
  | array a0 i0 => exact p_array i0
  | ternary a0 a1 a2 i0 i1 i2 => exact p_ternary i0 i1 i2
  | isNull a0 i0 => exact p_isNull i0
  | isNotNull a0 i0 => exact p_isNotNull i0
  | between a0 a1 a2 i0 i1 i2 => exact p_between i0 i1 i2
  | notBetween a0 a1 a2 i0 i1 i2 => exact p_notBetween i0 i1 i2
  | when a0 a1 i0 i1 => exact p_when i0 i1
  | caseEnd a0 a1 a2 i0 i1 i2 => exact p_caseEnd i0 i1 i2
  | intervalFrom a0 a1 i0 i1 => exact p_intervalFrom i0 i1
  | extract a0 i0 => exact p_extract i0
  | distinctOn a0 i0 => exact p_distinctOn i0
  | top a0 a1 i0 => exact p_top i0 a1
  | topTies a0 a1 i0 => exact p_topTies i0 a1
  | item a0 a1 a2 i0 i1 i2 => exact p_item i0 i1 i2
  | from_ a0 i0 => exact p_from_ i0
  | prewhere a0 i0 => exact p_prewhere i0
  | where_ a0 i0 => exact p_where_ i0
  | having a0 i0 => exact p_having i0
  | group a0 a1 i0 => exact p_group i0 a1
  | groupAs a0 a1 a2 i0 => exact p_groupAs i0 a1 a2
  | groupSets a0 a1 i0 => exact p_groupSets i0 a1
  | groupAll => exact p_groupAll 
  | order a0 a1 a2 i0 i1 i2 => exact p_order i0 i1 i2
  | orderDir a0 a1 a2 a3 i1 i2 i3 => exact p_orderDir a0 i1 i2 i3
  | fill a0 a1 a2 a3 i0 i1 i2 i3 => exact p_fill i0 i1 i2 i3
  | interItem a0 a1 i0 i1 => exact p_interItem i0 i1
  | inter0 => exact p_inter0 
  | inter a0 a1 i0 => exact p_inter i0 a1
  | orderBy a0 a1 a2 i0 i2 => exact p_orderBy i0 a1 i2
  | limitBy a0 a1 a2 a3 i0 i1 => exact p_limitBy i0 i1 a2 a3
  | limit a0 a1 i0 => exact p_limit i0 a1
  | limitOff a0 a1 a2 a3 i0 i1 => exact p_limitOff i0 i1 a2 a3
  | offset a0 a1 i0 => exact p_offset i0 a1
  | limit0 => exact p_limit0 
  | bool => exact p_bool 
  | setting a0 a1 i0 i1 => exact p_setting i0 i1
  | settings a0 a1 i0 => exact p_settings i0 a1
  | format a0 i0 => exact p_format i0
  | cte a0 a1 a2 i0 i1 => exact p_cte i0 i1 a2
  | cteName a0 a1 a2 i0 i1 => exact p_cteName i0 i1 a2
  | with_ a0 a1 i0 => exact p_with_ i0 a1
  | tableName a0 i0 => exact p_tableName i0
  | tableName2 a0 a1 a2 i0 i1 => exact p_tableName2 i0 i1 a2
  | tableArgs a0 i0 => exact p_tableArgs i0
  | tableFunc a0 a1 i0 i1 => exact p_tableFunc i0 i1
  | subParen a0 i0 => exact p_subParen i0
  | sub a0 i0 => exact p_sub i0
  | «alias» a0 a1 a2 i0 i1 => exact p_alias i0 i1 a2
  | table a0 i0 => exact p_table i0
  | tableFinal a0 i0 => exact p_tableFinal i0
  | ratio a0 a1 i0 i1 => exact p_ratio i0 i1
  | sample a0 a1 i0 i1 => exact p_sample i0 i1
  | joinTable a0 a1 i0 i1 => exact p_joinTable i0 i1
  | joinFinal a0 i0 => exact p_joinFinal i0
  | on a0 i0 => exact p_on i0
  | using_ a0 i0 => exact p_using_ i0
  | join a0 a1 i0 i1 => exact p_join i0 i1
  | jnil => exact p_jnil 
  | jtable a0 a1 i1 => exact p_jtable a0 i1
  | jcomma a0 a1 i0 i1 => exact p_jcomma i0 i1
  | jmods a0 a1 a2 a3 a4 i0 i2 i3 i4 => exact p_jmods i0 a1 i2 i3 i4
  | mone => exact p_mone 
  | mkw => exact p_mkw 
  | msnoc a0 a1 i1 => exact p_msnoc a0 i1
  | mkws a0 a1 i1 => exact p_mkws a0 i1
  | partition a0 i0 => exact p_partition i0
  | window a0 a1 a2 i0 i1 i2 => exact p_window i0 i1 i2
  | over a0 a1 i0 i1 => exact p_over i0 i1
  | select a0 a1 a2 a3 a4 a5 a6 a7 a8 a9 a10 a11 a12 a13 a14 a15 a16 a17 a18 a19 a20 a21 a22 i0 i1 i3 i4 i6 i7 i8 i9 i10 i11 i12 i13 i14 i15 i16 i17 i18 i19 => exact p_select i0 i1 a2 i3 i4 a5 i6 i7 i8 i9 i10 i11 i12 i13 i14 i15 i16 i17 i18 i19 a20 a21 a22

end Verif.Echo

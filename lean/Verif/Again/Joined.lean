/-
Round trips of lists of statements.  No definition here is part of the model.
-/
import Verif.Again.Line

namespace Verif.Again
open Verif.Spec Verif.Echo

variable {m : Bool} {us ws : List E} {os ts : List Token} {v w : V} {vs : List V} {b c : Str}

/-- The text is printed as elements that are read as these statements. -/
def Reads (m : Bool) (b : Str) (vs : List V) : Prop :=
  ∃ us, Rend m us b ∧ us.IsChain (fun a b => adj a b = true) ∧ Good m us ∧ ∀ p os, ¬ AfterOperand p → LexedP p us os → Statements os vs

theorem good_semi : GoodE m (.op b!";") :=
  ⟨fun _ => ⟨{ pos := 0, endp := 0, str := b!";", kind := .op b!";" },
    .op1 (by decide) (by decide) (by simp [Digit]) (by simp [WordStart]) (by decide) (by decide) (by decide) (by decide) rfl⟩, fun _ => by decide⟩

theorem reads_nil : Reads m [] [] := ⟨[], .nil, .nil, good_nil.2 trivial, fun p os _ l => by cases lp_nil l; exact .none⟩
/-- A semicolon may stand at once after the last element of a statement. -/
theorem adj_semi {u : E} (h : lt u = true) : adj u (.op b!";") = true := by
  cases u <;> simp [lt, leftOps] at h
  case op => rcases h with rfl | rfl | rfl | rfl | rfl | rfl | rfl | rfl | rfl | rfl | rfl <;> rfl
  all_goals rfl

theorem rend_blanks {g : Str} (hg : g.all isBlank = true) (h : Rend m us b) : Rend m (g.map (fun _ => E.sp) ++ us) (g ++ b) := by
  induction g with
  | nil => exact h
  | cons c g ih =>
    simp only [List.all_cons, Bool.and_eq_true] at hg
    exact .sp hg.1 (ih hg.2)
theorem chain_blanks {g : Str} (h : us.IsChain (fun a b => adj a b = true)) : (g.map (fun _ => E.sp) ++ us).IsChain (fun a b => adj a b = true) := by
  induction g with
  | nil => exact h
  | cons c g ih => exact List.isChain_cons.2 ⟨fun _ _ => adj_sp, ih⟩
theorem good_blanks {g : Str} : Good m (g.map fun _ => E.sp) := by
  induction g with
  | nil => exact good_nil.2 trivial
  | cons c g ih => simp only [List.map_cons]; dgood
theorem lp_blanks {g : Str} {p : Option Token} (h : LexedP p (g.map (fun _ => E.sp) ++ us) os) : LexedP p us os := by
  induction g with
  | nil => exact h
  | cons c g ih => exact ih (lp_sp h)

theorem reads_cons {g g' : Str} (hg : g.all isBlank = true) (hg' : g'.all isBlank = true) (hne : g' ≠ []) (h : Rend m us b) (hi : Inv hd us) (ho : Good m us)
    (hr : ∀ p os, Free ts p → LexedP p us os → Statement os v) (h' : Reads m c vs) : Reads m (b ++ (g ++ (59 :: (g' ++ c)))) (v :: vs) := by
  obtain ⟨ws, h1, i1, g1, r1⟩ := h'
  have gs : GoodE m (.op b!";") := good_semi
  have g2 : Good m (g.map fun _ => E.sp) := good_blanks
  have g3 : Good m (g'.map fun _ => E.sp) := good_blanks
  refine ⟨us ++ (g.map (fun _ => E.sp) ++ .op b!";" :: (g'.map (fun _ => E.sp) ++ ws)), h.append (rend_blanks hg (.tok (u := .op b!";") (by simp) (rend_blanks hg' h1))), ?_, by dgood,
    fun p os hp l => ?_⟩
  · refine List.isChain_append.2 ⟨hi.chain, chain_blanks (List.isChain_cons.2 ⟨fun w hw => ?_, chain_blanks i1⟩), fun u hu w hw => ?_⟩
    · cases g' with
      | nil => exact absurd rfl hne
      | cons x g' => cases hw; rfl
    · cases g with
      | nil => cases hw; exact adj_semi (hi.last _ hu)
      | cons x g => cases hw; cases u <;> rfl
  · obtain ⟨a, d, _, rfl, l1, l2⟩ := lp_app l
    obtain ⟨s, os, rfl, hs, _, l3⟩ := lp_op (lp_blanks l2)
    refine .more (hr _ _ (fun t ht hsg => hp) l1) hs (r1 _ _ ?_ (lp_blanks l3))
    rintro ⟨t, ht, he⟩
    cases ht
    rw [isSign] at hs; rw [hs] at he
    simp [EndsOperand] at he

/-- The texts, each with a semicolon between blanks after it. -/
def ended (g g' : Str) (bs : List Str) : Str := (bs.map (· ++ (g ++ 59 :: g'))).flatten

theorem reads_all {g g' : Str} {a : Str} {ind : Str} {ts : List Token} {vs ws : List V} (hx : g.all isBlank = true) (hy : g'.all isBlank = true) (hz : g' ≠ []) (hs : Scan (Lx.new a) ts true) (hq : Statements ts vs)
    (hp : Parses a ws) (hu : PlainUsing ts) (he : PlainEngine ts) (hn : m = true → ∀ t ∈ ts, 10 ∉ t.str) (hi : ind.all isBlank = true) : ∀ {xs : List V} {bs : List Str},
    List.Forall₂ (fun w b => ((initial m ind).writeExpr w).map Fmt.out = some b) xs bs → (∀ w ∈ xs, w ∈ ws ∧ (w.norm id).kept = true ∧ (w.norm id).orderly = true) →
    Reads m (ended g g' bs) (xs.map (V.norm id))
  | _, _, .nil, _ => reads_nil
  | _, _, .cons hf h, hk => by
    obtain ⟨hw, h1, h2⟩ := hk _ List.mem_cons_self
    obtain ⟨f, hf', rfl⟩ := Option.map_eq_some_iff.1 hf
    obtain ⟨os, h3, h4⟩ := statement_of hs hq hp hw
    obtain ⟨us, hpk, hpl, hnp, hg, hr⟩ := say_statement h4 ((fit_of hs hn hu).infix h3) h1 h2 (engine_infix he h3)
    have ht := An.parses_isTree_noReq hp hw
    rw [write_normed ht (readers_normed ht hnp)] at hf'
    have := reads_cons hx hy hz (writes hi hpk (tree_normed ht).2 (fun h u hu' => (hg u hu').line h) hf') (hpl _ (tree_normed ht).2) hg hr
      (reads_all hx hy hz hs hq hp hu he hn hi h fun w hw => hk w (List.mem_cons_of_mem _ hw))
    simpa [ended] using this

theorem reads_parses (h : Reads m b vs) : ∃ ws, Parses b ws ∧ ws.map (V.norm id) = vs := by
  obtain ⟨us, h1, h2, h3, h4⟩ := h
  obtain ⟨ts, h5, h6⟩ := lexP h1 h2 (fun u hu => (h3 u hu).fits) 0 none
  exact C47_statements_accepted b ts vs h5.scan (h4 _ _ (fun h => by obtain ⟨_, h, _⟩ := h; cases h) h6)

/-- Trees of the grammar that are the same up to positions are written in the same way. -/
theorem writes_same {a a' : Str} {ts : List Token} {vs ws ws' : List V} {w' : V} (hs : Scan (Lx.new a) ts true) (hq : Statements ts vs) (hp : Parses a ws) (hu : PlainUsing ts) (he : PlainEngine ts)
    (hw : w ∈ ws) (hk : (w.norm id).kept = true) (ho : (w.norm id).orderly = true) (hp' : Parses a' ws') (hw' : w' ∈ ws') (hn : w'.norm id = w.norm id) (g : Fmt) : g.writeExpr w' = g.writeExpr w := by
  obtain ⟨os, h3, h4⟩ := statement_of hs hq hp hw
  obtain ⟨us, hpk, hpl, hnp, hg, hr⟩ := say_statement (m := false) h4 ((fit_of hs (by simp) hu).infix h3) hk ho (engine_infix he h3)
  have ht := An.parses_isTree_noReq hp hw
  have ht' := An.parses_isTree_noReq hp' hw'
  rw [write_normed ht (readers_normed ht hnp), write_normed ht' (readers_normed ht' (hn ▸ hnp)), hn]

theorem forall₂_same {R : V → Str → Prop} : ∀ {ws ws' : List V} {bs : List Str}, List.Forall₂ R ws bs → ws'.map (V.norm id) = ws.map (V.norm id) →
    (∀ w ∈ ws, ∀ w' ∈ ws', w'.norm id = w.norm id → ∀ b, R w b → R w' b) → List.Forall₂ R ws' bs
  | _, [], _, .nil, _, _ => .nil
  | _, _ :: _, _, .nil, h, _ => by simp at h
  | _, [], _, .cons _ _, h, _ => by simp at h
  | _, w' :: ws', _, .cons h1 h2, h, hi => by
    simp only [List.map_cons, List.cons.injEq] at h
    exact .cons (hi _ List.mem_cons_self _ List.mem_cons_self h.1 _ h1)
      (forall₂_same h2 h.2 fun w hw w' hw' => hi w (List.mem_cons_of_mem _ hw) w' (List.mem_cons_of_mem _ hw'))

theorem again_all {g g' : Str} {a : Str} {ind : Str} {ts : List Token} {vs ws : List V} {bs : List Str} (hx : g.all isBlank = true) (hy : g'.all isBlank = true) (hz : g' ≠ []) (hs : Scan (Lx.new a) ts true)
    (hq : Statements ts vs) (hp : Parses a ws) (hk : ∀ v ∈ vs, v.kept = true ∧ v.orderly = true) (hu : PlainUsing ts) (he : PlainEngine ts) (hn : m = true → ∀ t ∈ ts, 10 ∉ t.str)
    (hi : ind.all isBlank = true) (hf : List.Forall₂ (fun w b => ((initial m ind).writeExpr w).map Fmt.out = some b) ws bs) :
    ∃ ws', Parses (ended g g' bs) ws' ∧ ws'.map (V.norm id) = vs ∧ List.Forall₂ (fun w b => ((initial m ind).writeExpr w).map Fmt.out = some b) ws' bs := by
  obtain rfl := C47_statements_tree a ts vs ws hs hq hp
  have hk' : ∀ w ∈ ws, (w.norm id).kept = true ∧ (w.norm id).orderly = true := fun w hw => hk _ (List.mem_map.2 ⟨w, hw, rfl⟩)
  obtain ⟨ws', h1, h2⟩ := reads_parses (reads_all hx hy hz hs hq hp hu he hn hi hf fun w hw => ⟨hw, hk' w hw⟩)
  refine ⟨ws', h1, h2, forall₂_same hf h2 fun w hw w' hw' hn b hb => ?_⟩
  rw [writes_same hs hq hp hu he hw (hk' w hw).1 (hk' w hw).2 h1 hw' hn]
  exact hb

end Verif.Again

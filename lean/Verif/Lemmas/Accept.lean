/-
`Accept` with any visitor: which methods of the visitor are called, on which nodes, in which order.
-/
import Verif.Lemmas.Walk
import Verif.Lemmas.AcceptTable
import Verif.Spec.Visit

namespace Verif

/-- The children `Accept` goes to, in order. -/
def acceptKids (t : Ty) (v : V) : List (Static × V) := ((acceptBody t).kids [v]).getD []

/-- The nodes `Accept` visits if no error occurs, in order. -/
def acceptL : Nat → V → List V
  | 0, _ => []
  | f + 1, v => match v with
    | .mk t fs => ((acceptKids t (.mk t fs)).flatMap fun k => acceptL f k.2) ++ [.mk t fs]
    | _ => []

/-- What the record of one traversal looks like. -/
structure Recorded {ε : Type} (all : List V) (l : List (Ev ε)) (e : Option ε) : Prop where
  nested : Nested l
  ends : endsWith l e
  done : e = none → visited l = all

/-- Outcome of a traversal: state, record, error. -/
def Outcome {σ ε : Type} (r : WRes (AState (σ × List (Ev ε)) ε)) (tr : List (Ev ε)) (all : List V) : Prop :=
  ∃ s' l, ((r = .go { st := (s', tr ++ l) } ∧ Recorded all l none) ∨
    ∃ e, r = .stop { st := (s', tr ++ l), err := some e } ∧ Recorded all l (some e))

theorem visited_append {ε : Type} : ∀ (a b : List (Ev ε)), visited (a ++ b) = visited a ++ visited b
  | [], b => rfl
  | x :: a, b => by cases x <;> simp [visited, visited_append a b]

theorem endsWith_append {ε : Type} {a b : List (Ev ε)} {e : Option ε} (ha : endsWith a none) (hb : endsWith b e) :
    endsWith (a ++ b) e := by
  cases e with
  | none =>
    intro x hx
    rcases List.mem_append.1 hx with h | h
    · exact ha x h
    · exact hb x h
  | some e =>
    obtain ⟨c, v, d, rfl, h1, h2⟩ := hb
    refine ⟨a ++ c, v, d, by simp, ?_, h2⟩
    intro x hx
    rcases List.mem_append.1 hx with h | h
    · exact ha x h
    · exact h1 x h

theorem acceptF_record {σ ε : Type} (vis : Visitor σ ε) : ∀ (f : Nat) (t : Ty) (fs : List V),
    V.isTree required (.mk t fs) → (V.mk t fs).depth < f → ∀ s tr,
    Outcome (acceptF (recording vis) f t (.mk t fs) { st := (s, tr) }) tr (acceptL f (.mk t fs))
  | 0, t, fs, _, hd, _, _ => by omega
  | f + 1, t, fs, ht, hd, s, tr => by
      obtain ⟨t', fs', hv, hN, hf⟩ := isTree_cases ht
      simp only [V.mk.injEq] at hv
      obtain ⟨rfl, rfl⟩ := hv
      obtain ⟨ks, hk, hp, hok⟩ := bodyOK_sound (acceptTable_ok t (isNode_of_noPair hN)) hf
      have hd' := visits_depth hok hp
      have kids : ∀ (l : List (Static × V)), (∀ k ∈ l, k ∈ ks) → ∀ s tr,
          Outcome (visitAll (callMethod (acceptF (recording vis) f)) l { st := (s, tr) }) tr (l.flatMap fun k => acceptL f k.2) := by
        intro l
        induction l with
        | nil =>
          intro _ s tr
          exact ⟨s, [], Or.inl ⟨by simp [visitAll], .nil, by simp [endsWith], fun _ => rfl⟩⟩
        | cons k l ih =>
          intro hl s tr
          obtain ⟨st, c⟩ := k
          have hkok := hok (st, c) (hl _ (by simp))
          have hc : c.isTree required := ⟨hkok.2.1 rfl, hkok.1⟩
          obtain ⟨tc, fc, rfl, -, -⟩ := isTree_cases hc
          have hdc := hd' (st, .mk tc fc) (hl _ (by simp)) hc.1
          have hdisp := hkok.2.2 tc fc rfl
          simp only at hdisp
          simp only [visitAll, callMethod, hdisp, List.flatMap_cons]
          obtain ⟨s1, l1, h1⟩ := acceptF_record vis f tc fc hc (by simp only at hdc; omega) s tr
          rcases h1 with ⟨h1, r1⟩ | ⟨e, h1, r1⟩
          · rw [h1]
            obtain ⟨s2, l2, h2⟩ := ih (fun k hk => hl k (by simp [hk])) s1 (tr ++ l1)
            rcases h2 with ⟨h2, r2⟩ | ⟨e, h2, r2⟩
            · refine ⟨s2, l1 ++ l2, Or.inl ⟨by simpa using h2, .append r1.nested r2.nested,
                endsWith_append r1.ends r2.ends, fun _ => ?_⟩⟩
              rw [visited_append, r1.done rfl, r2.done rfl]
            · exact ⟨s2, l1 ++ l2, Or.inr ⟨e, by simpa using h2, .append r1.nested r2.nested,
                endsWith_append r1.ends r2.ends, by simp⟩⟩
          · rw [h1]
            exact ⟨s1, l1, Or.inr ⟨e, rfl, r1.nested, r1.ends, by simp⟩⟩
      obtain ⟨s1, l1, h1⟩ := kids ks (fun _ h => h) (vis.enter t (.mk t fs) s) (tr ++ [.enter (.mk t fs)])
      simp only [acceptF, acceptL, acceptKids, hk, Option.getD_some]
      rw [run_kids _ _ _ hk]
      simp only [recording] at h1 ⊢
      rcases h1 with ⟨h1, r1⟩ | ⟨e, h1, r1⟩
      · rw [h1]
        simp only
        cases hvis : (vis.visit t (.mk t fs) s1).2 with
        | none =>
          refine ⟨_, .enter (.mk t fs) :: (l1 ++ [.visit (.mk t fs) none]) ++ [.leave (.mk t fs)],
            Or.inl ⟨by simp only [List.append_assoc, List.cons_append, List.nil_append]; rfl, .node _ (.append r1.nested (.visit _ _)), ?_, fun _ => ?_⟩⟩
          · intro x hx
            simp only [List.cons_append, List.mem_cons, List.mem_append, List.append_assoc, List.nil_append,
              List.not_mem_nil, or_false] at hx
            rcases hx with rfl | hx | rfl | rfl
            · rfl
            · exact r1.ends x hx
            · rfl
            · rfl
          · simp [visited, visited_append, r1.done rfl]
        | some e =>
          refine ⟨_, .enter (.mk t fs) :: (l1 ++ [.visit (.mk t fs) (some e)]) ++ [.leave (.mk t fs)],
            Or.inr ⟨e, by simp only [List.append_assoc, List.cons_append, List.nil_append]; rfl, .node _ (.append r1.nested (.visit _ _)), ?_, by simp⟩⟩
          refine ⟨.enter (.mk t fs) :: l1, .mk t fs, [.leave (.mk t fs)], by simp, ?_, by simp [Ev.isLeave]⟩
          intro x hx
          rcases List.mem_cons.1 hx with rfl | hx
          · rfl
          · exact r1.ends x hx
      · rw [h1]
        refine ⟨_, .enter (.mk t fs) :: l1 ++ [.leave (.mk t fs)],
          Or.inr ⟨e, by simp only [List.append_assoc, List.cons_append, List.nil_append]; rfl, .node _ r1.nested, ?_, by simp⟩⟩
        obtain ⟨a, v, b, rfl, h2, h3⟩ := r1.ends
        refine ⟨.enter (.mk t fs) :: a, v, b ++ [.leave (.mk t fs)], by simp, ?_, ?_⟩
        · intro x hx
          rcases List.mem_cons.1 hx with rfl | hx
          · rfl
          · exact h2 x hx
        · intro x hx
          rcases List.mem_append.1 hx with hx | hx
          · exact h3 x hx
          · simp at hx; subst hx; rfl

theorem acceptL_postOrder : ∀ (f : Nat) (v : V), v.isTree required → v.depth < f →
    PostOrder Ty.isNodeNoPair v (acceptL f v)
  | 0, v, _, hd => by omega
  | f + 1, v, ht, hd => by
      obtain ⟨t, fs, rfl, hN, hf⟩ := isTree_cases ht
      obtain ⟨ks, hk, hp, hok⟩ := bodyOK_sound (acceptTable_ok t (isNode_of_noPair hN)) hf
      have hd' := visits_depth hok hp
      simp only [acceptL, acceptKids, hk, Option.getD_some]
      rw [kids_perm hok] at hp
      refine .node hp ?_
      have : ∀ (l : List (Static × V)), (∀ k ∈ l, k ∈ ks) →
          PostOrders Ty.isNodeNoPair ((l.map Prod.snd).filter V.nonNil) (l.flatMap fun k => acceptL f k.2) := by
        intro l
        induction l with
        | nil => intro _; exact .nil
        | cons k l ih =>
          intro hl
          have ih := ih fun x hx => hl x (by simp [hx])
          have hkok := hok k (hl _ (by simp))
          have h0 : k.2.isTree required := ⟨hkok.2.1 rfl, hkok.1⟩
          rw [List.map_cons, List.filter_cons_of_pos h0.1, List.flatMap_cons]
          exact .cons (acceptL_postOrder f k.2 h0 (by have := hd' k (hl k (by simp)) h0.1; omega)) ih
      exact this ks fun _ h => h

/-! ### Recording changes nothing -/

/-- Forget the record. -/
def forget {σ ε : Type} : WRes (AState (σ × List (Ev ε)) ε) → WRes (AState σ ε)
  | .go s => .go { st := s.st.1, err := s.err }
  | .stop s => .stop { st := s.st.1, err := s.err }
  | .panic => .panic

theorem loopRun_sim {σ τ : Type} (π : σ → τ) (ρ : WRes σ → WRes τ) (h1 : ∀ s, ρ (.go s) = .go (π s))
    (h2 : ∀ s, ρ (.stop s) = .stop (π s)) (h3 : ρ .panic = .panic)
    {a : V → σ → WRes σ} {b : V → τ → WRes τ} (h : ∀ v s, ρ (a v s) = b v (π s)) :
    ∀ (l : List V) (s : σ), ρ (loopRun a l s) = loopRun b l (π s)
  | [], s => by simp [loopRun, h1]
  | v :: l, s => by
      simp only [loopRun]
      rw [← h v s]
      cases a v s with
      | go s' => simp only [h1]; exact loopRun_sim π ρ h1 h2 h3 h l s'
      | stop s' => simp only [h2]
      | panic => simp only [h3]

theorem run_sim {σ τ : Type} (π : σ → τ) (ρ : WRes σ → WRes τ) (h1 : ∀ s, ρ (.go s) = .go (π s))
    (h2 : ∀ s, ρ (.stop s) = .stop (π s)) (h3 : ρ .panic = .panic)
    {a : Static → V → σ → WRes σ} {b : Static → V → τ → WRes τ} (h : ∀ st v s, ρ (a st v s) = b st v (π s)) :
    ∀ (c : WCmd) (env : List V) (s : σ), ρ (c.run a env s) = c.run b env (π s)
  | .skip, env, s => by simp [WCmd.run, h1]
  | .seq x y, env, s => by
      simp only [WCmd.run]
      rw [← run_sim π ρ h1 h2 h3 h x env s]
      cases x.run a env s with
      | go s' => simp only [h1]; exact run_sim π ρ h1 h2 h3 h y env s'
      | stop s' => simp only [h2]
      | panic => simp only [h3]
  | .visit r st, env, s => by
      simp only [WCmd.run]
      cases r.get env with
      | none => exact h3
      | some v => exact h st v s
  | .guard r body, env, s => by
      simp only [WCmd.run]
      cases r.get env with
      | none => exact h3
      | some v =>
        simp only
        split
        · exact run_sim π ρ h1 h2 h3 h body env s
        · exact h1 s
  | .loop r body, env, s => by
      simp only [WCmd.run]
      cases r.get env with
      | none => exact h3
      | some v => exact loopRun_sim π ρ h1 h2 h3 (fun item s => run_sim π ρ h1 h2 h3 h body (env ++ [item]) s) _ s

theorem forget_acceptF {σ ε : Type} (vis : Visitor σ ε) : ∀ (f : Nat) (t : Ty) (v : V) (s : AState (σ × List (Ev ε)) ε),
    forget (acceptF (recording vis) f t v s) = acceptF vis f t v { st := s.st.1, err := s.err }
  | 0, t, v, s => rfl
  | f + 1, t, v, s => by
      simp only [acceptF]
      have := run_sim (fun s : AState (σ × List (Ev ε)) ε => ({ st := s.st.1, err := s.err } : AState σ ε)) forget
        (fun _ => rfl) (fun _ => rfl) rfl (a := callMethod (acceptF (recording vis) f)) (b := callMethod (acceptF vis f))
        (by
          intro st c s
          simp only [callMethod]
          cases st.dispatch c with
          | none => rfl
          | some t => exact forget_acceptF vis f t c s) (acceptBody t) [v] { s with st := (recording vis).enter t v s.st }
      simp only [recording] at this ⊢
      rw [← this]
      generalize WCmd.run _ (acceptBody t) [v] _ = r
      cases r with
      | panic => rfl
      | stop s2 => rfl
      | go s2 =>
        simp only [forget]
        cases (vis.visit t v s2.st.1).2 <;> rfl

/-! ### A visitor without errors -/

theorem loopRun_no_stop {σ : Type} {body : V → σ → WRes σ} (h : ∀ v s s', body v s ≠ .stop s') :
    ∀ (l : List V) (s s' : σ), loopRun body l s ≠ .stop s'
  | [], s, s' => by simp [loopRun]
  | v :: l, s, s' => by
      simp only [loopRun]
      have := h v s
      cases hb : body v s with
      | go s2 => exact loopRun_no_stop h l s2 s'
      | stop s2 => exact absurd hb (this s2)
      | panic => simp

theorem run_no_stop {σ : Type} {call : Static → V → σ → WRes σ} (h : ∀ st v s s', call st v s ≠ .stop s') :
    ∀ (c : WCmd) (env : List V) (s s' : σ), c.run call env s ≠ .stop s'
  | .skip, env, s, s' => by simp [WCmd.run]
  | .seq a b, env, s, s' => by
      simp only [WCmd.run]
      cases ha : a.run call env s with
      | go s2 => exact run_no_stop h b env s2 s'
      | stop s2 => exact absurd ha (run_no_stop h a env s s2)
      | panic => simp
  | .visit r st, env, s, s' => by
      simp only [WCmd.run]
      cases r.get env with
      | none => simp
      | some v => exact h st v s s'
  | .guard r body, env, s, s' => by
      simp only [WCmd.run]
      cases r.get env with
      | none => simp
      | some v =>
        simp only
        split
        · exact run_no_stop h body env s s'
        · simp
  | .loop r body, env, s, s' => by
      simp only [WCmd.run]
      cases r.get env with
      | none => simp
      | some v => exact loopRun_no_stop (fun item s s' => run_no_stop h body (env ++ [item]) s s') _ s s'

theorem acceptF_no_stop {σ ε : Type} {vis : Visitor σ ε} (hvis : ∀ t n s, (vis.visit t n s).2 = none) :
    ∀ (f : Nat) (t : Ty) (v : V) (s s' : AState σ ε), acceptF vis f t v s ≠ .stop s'
  | 0, t, v, s, s' => by simp [acceptF]
  | f + 1, t, v, s, s' => by
      simp only [acceptF]
      have hr := run_no_stop (call := callMethod (acceptF vis f)) (by
        intro st c s s'
        simp only [callMethod]
        cases st.dispatch c with
        | none => simp
        | some t => exact acceptF_no_stop hvis f t c s s') (acceptBody t) [v] { s with st := vis.enter t v s.st }
      split
      · simp
      · rename_i s2 h2; exact absurd h2 (hr s2)
      · rename_i s2 h2
        have := hvis t v s2.st
        split
        · rename_i e he; rw [this] at he; simp at he
        · simp

end Verif

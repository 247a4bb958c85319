/-
The tactic `fin`: a return of a tree with positions in it that the parser computes from other trees.
It finds proofs that the kernel checks; no definition here is part of the model.
-/
import Verif.Complete.Stmt

namespace Verif.Complete
open Verif.Spec Verif.Group Verif.Echo

theorem r_retA {n : Nat} {env : List V} {sv : Lx} {s : PS} {R : List V → PS → Prop} {call : Fn → List V → PS → COut} {I B : Frame → PS → Prop} {ln : Nat} {es : List Exp} (p : Exp)
    (hn : p.eval s env = none → Exp.evalL s env es = none)
    (h : ∀ w, p.eval s env = some w → RetL ((Stmt.ret (Fn := Fn) ln es).run call n ⟨env, sv⟩ s) I B R) (hg : Good ln := by rfl) :
    RetL ((Stmt.ret (Fn := Fn) ln es).run call n ⟨env, sv⟩ s) I B R := by
  cases hp : p.eval s env with
  | some w => exact h w hp
  | none =>
    rw [run_ret]
    simp only [hn hp, onSome]
    exact hg

namespace Tac
open Lean Meta Elab Tactic Verif.Echo.Sym

partial def finGo (d : Nat) (g : MVarId) : TacticM (List MVarId) := do
  let some (g, stmt, st) ← view g | return [g]
  g.withContext do
  unless stmt.isAppOf ``Stmt.ret do return [g]
  let es := stmt.getArg! 2
  match ← (evalL st es).run with
  | .ok _ => doRet d g stmt st
  | .error q =>
    let hty ← mkEq (mkApp3 (.const ``Exp.eval []) st.s st.env q) (← mkAppOptM ``Option.none #[vT])
    let pf ← withLocalDeclD `hn hty fun h => do mkLambdaFVars #[h] (← noneE.noneL st q h es)
    let [g] ← rule g ``r_retA #[q, pf] | throwError "retA"
    let (_, g) ← g.introN 2 [nm "w" d, nm "hw" d]
    finGo (d + 1) g

/-- A return with positions in it. -/
elab "fin" : tactic => do
  let g ← getMainGoal
  replaceMainGoal (← finGo 100 g)

end Tac
end Verif.Complete

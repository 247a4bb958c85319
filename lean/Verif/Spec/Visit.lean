/-
Recording what a visitor is told.
-/
import Verif.Ast.Methods
import Verif.Spec.Tree

namespace Verif

/-- A visitor that does what `vis` does and keeps a record. -/
def recording {σ ε : Type} (vis : Visitor σ ε) : Visitor (σ × List (Ev ε)) ε where
  enter t v s := (vis.enter t v s.1, s.2 ++ [.enter v])
  visit t v s := let r := vis.visit t v s.1; ((r.1, s.2 ++ [.visit v r.2]), r.2)
  leave t v s := (vis.leave t v s.1, s.2 ++ [.leave v])

/-- `Pruned p v l`: `l` starts with `v`; if `p v` it goes on with the children of `v`, in some
order, each followed at once by what is below it, and otherwise it ends there
(what the comment of `Walk`, parser/walk.go:10-11, promises for a callback that returns `p`). -/
inductive Pruned (isN : Ty → Bool) (p : V → Bool) : V → List V → Prop
  | cut {v} : p v = false → Pruned isN p v [v]
  | node {v : V} {kids : List V} {ls : List (List V)} : p v = true → kids.Perm (v.children isN) → ls.length = kids.length →
      (∀ (i : Nat) (k : V) (l : List V), kids[i]? = some k → ls[i]? = some l → Pruned isN p k l) → Pruned isN p v (v :: ls.flatten)

end Verif

/-
Which precedence the parser sees.  No definition here is part of the model.
-/
import Verif.Complete.Heads

namespace Verif.Complete
open Verif.Spec Verif.Echo Verif.Echo.Sym Verif.Complete.Tac

/-- The precedence the parser sees at a place. -/
def Prec (l : Lx) (q : Nat) : Prop := Fw .getNextPrecedence [] l (Res [.nat q] l)

/-- The kinds that may follow an expression. -/
def endKinds : List Str := [b!"<ident>", b!",", b!")", b!"]", b!";", b!":"]
/-- The words that may follow an expression. -/
def endWords : List Str :=
  [b!"AS", b!"FROM", b!"PREWHERE", b!"WHERE", b!"GROUP", b!"HAVING", b!"ORDER", b!"LIMIT", b!"OFFSET", b!"WHEN", b!"THEN", b!"ELSE", b!"END",
   b!"ASC", b!"ASCENDING", b!"DESC", b!"DESCENDING", b!"JOIN", b!"CROSS", b!"INNER", b!"LEFT", b!"RIGHT", b!"FULL", b!"ANY", b!"ALL", b!"ASOF", b!"SEMI",
   b!"BY", b!"SETTINGS", b!"FORMAT", b!"UNION", b!"EXCEPT", b!"INTERSECT", b!"PRIMARY", b!"SAMPLE", b!"TTL", b!"COMMENT", b!"PARTITION"]

variable {l : Lx} {t : Token}

set_option linter.unusedVariables false

theorem prec_end (h : Starts endKinds endWords l) : Prec l 0 := by
  unfold Prec
  start; fw []
  exact ⟨rfl, rfl⟩

theorem prec_op {s : Str} {q : Nat} (ht : l.cur = some t) (hk : t.kind = .op s)
    (hq : (s, q) ∈ [(b!"=", 8), (b!"==", 8), (b!"!=", 8), (b!"<>", 8), (b!"<", 8), (b!"<=", 8), (b!">", 8), (b!">=", 8), (b!"||", 11), (b!"+", 12), (b!"-", 12),
      (b!"*", 13), (b!"/", 13), (b!"%", 13), (b!"->", 1), (b!"?", 2), (b!"::", 16)]) : Prec l q := by
  simp only [List.mem_cons, Prod.mk.injEq, List.not_mem_nil, or_false] at hq
  unfold Prec
  rcases hq with ⟨rfl, rfl⟩ | ⟨rfl, rfl⟩ | ⟨rfl, rfl⟩ | ⟨rfl, rfl⟩ | ⟨rfl, rfl⟩ | ⟨rfl, rfl⟩ | ⟨rfl, rfl⟩ | ⟨rfl, rfl⟩ | ⟨rfl, rfl⟩ | ⟨rfl, rfl⟩ | ⟨rfl, rfl⟩ | ⟨rfl, rfl⟩ |
    ⟨rfl, rfl⟩ | ⟨rfl, rfl⟩ | ⟨rfl, rfl⟩ | ⟨rfl, rfl⟩ | ⟨rfl, rfl⟩
  all_goals
    start; fw []
    exact ⟨rfl, rfl⟩
theorem prec_word {k : Str} {q : Nat} (ht : l.cur = some t) (hk : t.kind = .keyword) (hs : upper t.str = k)
    (hq : (k, q) ∈ [(b!"OR", 3), (b!"AND", 4), (b!"IS", 7), (b!"LIKE", 9), (b!"ILIKE", 9), (b!"REGEXP", 9), (b!"BETWEEN", 9), (b!"IN", 10)]) : Prec l q := by
  simp only [List.mem_cons, Prod.mk.injEq, List.not_mem_nil, or_false] at hq
  unfold Prec
  rcases hq with ⟨rfl, rfl⟩ | ⟨rfl, rfl⟩ | ⟨rfl, rfl⟩ | ⟨rfl, rfl⟩ | ⟨rfl, rfl⟩ | ⟨rfl, rfl⟩ | ⟨rfl, rfl⟩ | ⟨rfl, rfl⟩
  all_goals
    start; fw []
    exact ⟨rfl, rfl⟩
theorem prec_not {k : Str} {q : Nat} {t' : Token} (hn : NoErr l) (ht : l.cur = some t) (hk : t.kind = .keyword) (hs : upper t.str = b!"NOT")
    (ht' : l.advance.cur = some t') (hk' : t'.kind = .keyword) (hs' : upper t'.str = k)
    (hq : (k, q) ∈ [(b!"IN", 10), (b!"LIKE", 9), (b!"ILIKE", 9), (b!"BETWEEN", 9)]) : Prec l q := by
  simp only [List.mem_cons, Prod.mk.injEq, List.not_mem_nil, or_false] at hq
  unfold Prec
  rcases hq with ⟨rfl, rfl⟩ | ⟨rfl, rfl⟩ | ⟨rfl, rfl⟩ | ⟨rfl, rfl⟩
  all_goals
    start; fw [c_peekKw]
    exact ⟨rfl, rfl⟩
theorem c_typeIn (a : V) (ht : l.cur = some t) (hk : t.kind = .keyword) (hs : upper t.str = b!"IN") : Fw .parseJoinType [a] l (Res [.nil] l) := by
  start; fw []
  exact ⟨rfl, rfl⟩
theorem c_typeNot (a : V) (ht : l.cur = some t) (hk : t.kind = .keyword) (hs : upper t.str = b!"NOT") : Fw .parseJoinType [a] l (Res [.nil] l) := by
  start; fw []
  exact ⟨rfl, rfl⟩
theorem c_modsIn {t' : Token} (a : V) (hn : NoErr l) (ht : l.cur = some t) (hk : t.kind = .keyword) (hs : upper t.str = b!"GLOBAL")
    (ht' : l.advance.cur = some t') (hk' : t'.kind = .keyword) (hs' : upper t'.str = b!"IN" ∨ upper t'.str = b!"NOT") :
    Fw .parseJoinModifiers [a] l (Res [.nil, .nil] l) := by
  rcases hs' with hs' | hs'
  · have e := fun a => c_typeIn a ht' hk' hs'
    start; fw [e]
    refine r_iteT rfl ?_
    fw []
    exact ⟨rfl, rfl⟩
  · have e := fun a => c_typeNot a ht' hk' hs'
    start; fw [e]
    refine r_iteT rfl ?_
    fw []
    exact ⟨rfl, rfl⟩
theorem c_afterLocality {t' : Token} (hn : NoErr l) (ht : l.cur = some t) (hk : t.kind = .keyword) (hs : upper t.str = b!"GLOBAL")
    (ht' : l.advance.cur = some t') (hk' : t'.kind = .keyword) (hs' : upper t'.str = b!"IN" ∨ upper t'.str = b!"NOT") :
    Fw .peekJoinAfterLocality [] l (Res [.bool false] l) := by
  have e := fun a => c_modsIn a hn ht hk hs ht' hk' hs'
  start; fw [e]
  exact ⟨rfl, rfl⟩
theorem prec_global {t' : Token} (hn : NoErr l) (ht : l.cur = some t) (hk : t.kind = .keyword) (hs : upper t.str = b!"GLOBAL")
    (ht' : l.advance.cur = some t') (hk' : t'.kind = .keyword) (hs' : upper t'.str = b!"IN" ∨ upper t'.str = b!"NOT") : Prec l 10 := by
  have e := c_afterLocality hn ht hk hs ht' hk' hs'
  unfold Prec
  start; fw [e]
  exact ⟨rfl, rfl⟩

end Verif.Complete

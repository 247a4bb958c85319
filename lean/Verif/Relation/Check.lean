/-
A type system for the methods of the parser that tracks which values may depend on positions or on
the spelling of words.  A program that it accepts cannot tell apart texts with the same tokens
(`Verif.Relation.Sound`).
-/
import Verif.Spec.Same

namespace Verif

namespace RTy
/-- Equal values. -/
def isExact : RTy → Bool
  | .nul | .emp | .exact | .int => true
  | _ => false

/-- `a` is a stronger condition than `b`. -/
def le : RTy → RTy → Bool
  | _, .rel => true
  | .nul, b => match b with | .nul | .emp | .exact | .zero | .st _ | .ls _ | .tok => true | _ => false
  | .emp, b => match b with | .emp | .exact | .zero | .ls _ => true | _ => false
  | .exact, b => match b with | .exact | .zero => true | _ => false
  | .int, b => match b with | .exact | .int | .num | .zero => true | _ => false
  | .num, b => decide (b = .num)
  | .zero, b => decide (b = .zero)
  | .st t, b => decide (b = .st t)
  | .ls t, b => decide (b = .ls t)
  | .tok, b => decide (b = .tok) || decide (b = .st .Token)
  | .rel, _ => false

/-- A condition weaker than both, one that nil may meet. -/
def join (a b : RTy) : RTy := match a, b with
  | .nul, .int | .int, .nul | .int, .int | .emp, .int | .int, .emp => .exact
  | .zero, b | b, .zero => if b.le .zero then .zero else .rel
  | .emp, .ls t | .ls t, .emp => .ls t
  | .num, _ | _, .num => .rel
  | .nul, b => b
  | a, .nul => a
  | .int, .exact | .exact, .int | .emp, .exact | .exact, .emp => .exact
  | .tok, .st .Token | .st .Token, .tok => .st .Token
  | a, b => if a = b then a else .rel
end RTy

/-- `e` is one of the given strings. -/
def Exp.isLit (ws : List Str) : Exp → Bool
  | .str w => ws.contains w
  | _ => false

/-- `e` is a number other than 0. -/
def Exp.isPos : Exp → Bool
  | .nat (_ + 1) => true
  | _ => false

/-- The slice of type `τ` with an element of type `α` at its end. -/
def appended : RTy → RTy → RTy
  | .nul, .st t | .emp, .st t => .ls t
  | .ls t, .st u => if t = u then .ls t else .rel
  | _, _ => .rel

/-- `Pos()` (`false`) or `End()` (`true`) of this type asks whether a position is 0 (parser/ast.go:3722, 5069, 5133). -/
def fussy : Bool → Ty → Bool
  | false, .IntervalExpr | true, .WindowClause | true, .WindowFrameExtendExpr => true
  | _, _ => false

/-- `Pos()` or `End()` of a value of type `τ`. -/
def posTy (which : Bool) (τ : RTy) : Static → Option RTy
  | .iface => some .num
  | .ptr t => if fussy which t && decide (τ ≠ .st t) then none
    else some (if which && decide (t = .WindowDefinition) && decide (τ = .st t) then .zero else .num)

/-- The fields of a struct of type `t`, from number `i` on, may have the types `τs`. -/
def fitsFields (t : Ty) : Nat → List RTy → Bool
  | _, [] => true
  | i, τ :: τs => τ.le (fieldTy t i) && fitsFields t (i + 1) τs

/-- The elements of a slice. -/
def RTy.elem : RTy → RTy
  | .ls t => .st t
  | _ => .rel

mutual
/-- What is known about the value of an expression if the variables meet `Γ`; `none` if it may tell
apart what should not be told apart. -/
def Exp.infer (Γ : List RTy) : Exp → Option RTy
  | .nil => some .nul
  | .nat _ => some .int
  | .empty => some .emp
  | .bool _ | .str _ | .curKind | .isEOF | .strs _ => some .exact
  | .var i => Γ[i]?
  | .fld e i => (e.infer Γ).map (fun τ => match τ with
    | .st t => fieldTy t i
    | .tok => fieldTy .Token i
    | τ => if τ.isExact then .exact else .rel)
  | .deref e => e.infer Γ
  | .mk t fs => (Exp.inferL Γ fs).bind (fun τs =>
      if fitsFields t 0 τs then
        some (if t = .KeywordArgForm ∧ τs.all RTy.isExact then .exact else .st t) else none)
  | .last e => (e.infer Γ).map (fun τ => if τ.isExact then .exact else τ.elem)
  | .idx e i => (e.infer Γ).bind (fun τ => (i.infer Γ).bind (fun ι =>
      if ι.isExact then some (if τ.isExact then .exact else .rel) else none))
  | .len e => (e.infer Γ).map (fun _ => .int)
  | .append e a => (e.infer Γ).bind (fun τ => (a.infer Γ).map (fun α =>
      if τ.isExact && α.isExact then .exact else appended τ α))
  | .appendAll e a => (e.infer Γ).bind (fun τ => (a.infer Γ).map (fun α =>
      if τ.isExact && α.isExact then .exact else .rel))
  | .isNil e | .not e | .upper e | .isTy e _ | .memoHas e => (e.infer Γ).map (fun _ => .exact)
  | .and a b | .or a b => (a.infer Γ).bind (fun _ => (b.infer Γ).map (fun β => if β.isExact then .exact else .rel))
  | .eqStr a b | .contains a b => (a.infer Γ).bind (fun α => (b.infer Γ).bind (fun β =>
      if (α.isExact && β.isExact) || b.isLit exactWords then some .exact else none))
  | .eqNat a b | .lt a b => (a.infer Γ).bind (fun α => (b.infer Γ).bind (fun β =>
      if α.isExact && β.isExact then some .exact else none))
  | .add a b => (a.infer Γ).bind (fun α => (b.infer Γ).map (fun β =>
      if α.isExact && β.isExact then .int else if b.isPos then .zero else .num))
  | .sub a b => (a.infer Γ).bind (fun α => (b.infer Γ).map (fun β =>
      if α.isExact && β.isExact then .int else .num))
  | .cat a b => (a.infer Γ).bind (fun α => (b.infer Γ).bind (fun β =>
      if α.isExact && β.isExact then some .exact
      else if a.isLit prefixes || b.isLit suffixes then some .rel else none))
  | .equalFold a b | .containsFold a b => (a.infer Γ).bind (fun _ => (b.infer Γ).map (fun _ => .exact))
  | .posOf e st => (e.infer Γ).bind (fun τ => posTy false τ st)
  | .endOf e st => (e.infer Γ).bind (fun τ => posTy true τ st)
  | .isUnit e | .matchKw e | .matchOneOf e => (e.infer Γ).bind (fun τ => if τ.isExact then some .exact else none)
  | .tokText e => (e.infer Γ).bind (fun τ => if τ.isExact || decide (τ = .tok) then some .exact else none)
  | .error _ args => (Exp.inferL Γ args).map (fun _ => .exact)
  | .cur => some .tok
  | .curString => some .rel
  | .pos | .end_ => some .num
  | .matchKinds ks => (Exp.inferL Γ ks).bind (fun τs => if τs.all RTy.isExact then some .exact else none)
/-- The same for a list. -/
def Exp.inferL (Γ : List RTy) : List Exp → Option (List RTy)
  | [] => some []
  | e :: es => (e.infer Γ).bind (fun τ => (Exp.inferL Γ es).map (τ :: ·))
end

/-- The types of the results of a primitive. -/
def Prim.infer (Γ : List RTy) : Prim → Option (List RTy)
  | .consume => some [.exact]
  | .tryKind k => (k.infer Γ).bind (fun τ => if τ.isExact then some [.tok] else none)
  | .expectKind k | .expectKw k => (k.infer Γ).bind (fun τ => if τ.isExact then some [.rel] else none)
  | .tryKws _ => some [.exact]
  | .peek => some [.tok, .exact]
  | .wrap e => (e.infer Γ).map (fun _ => [.rel])

/-- Values with the types `τs` may be stored in the variables `dst`. -/
def fitsDst (Γ : List RTy) : List Nat → List RTy → Bool
  | x :: xs, τ :: τs => (match Γ[x]? with
    | some σ => τ.le σ
    | none => true) && fitsDst Γ xs τs
  | _, _ => true

/-- A value of type `τ` may be stored in the field of a `σ` reached by `path`. -/
def fitsPath (τ : RTy) : RTy → List Nat → Bool
  | σ, [] => τ.le σ
  | .st t, i :: p => fitsPath τ (fieldTy t i) p
  | _, _ :: _ => false

/-- The parameter and variable types of a method, and its result types. -/
structure Sig where
  vars : List RTy
  rets : List RTy
deriving Repr

/-- Results of type `τs` fit the declared types. -/
def fits : List RTy → List RTy → Bool
  | [], [] => true
  | τ :: τs, σ :: σs => τ.le σ && fits τs σs
  | _, _ => false

/-- Arguments of type `τs` fit the variables of a method; the other variables begin as nil. -/
def fitsArgs : List RTy → List RTy → Bool
  | [], σs => σs.all (RTy.le .nul)
  | τ :: τs, σ :: σs => τ.le σ && fitsArgs τs σs
  | _ :: _, [] => false

/-- The statement cannot tell apart what should not be told apart. -/
def Stmt.typed {Fn : Type} (sig : Fn → Sig) (Γ ρ : List RTy) : Stmt Fn → Bool
  | .skip | .brk | .cont | .save | .restore => true
  | .seq a b => a.typed sig Γ ρ && b.typed sig Γ ρ
  | .set _ x e => (match e.infer Γ with
    | some τ => fitsDst Γ [x] [τ]
    | none => false)
  | .setF _ x path e => (match e.infer Γ, Γ[x]? with
    | some τ, some σ => !path.isEmpty && fitsPath τ σ path
    | _, _ => false)
  | .ite _ c a b => (c.infer Γ).isSome && a.typed sig Γ ρ && b.typed sig Γ ρ
  | .loop b => b.typed sig Γ ρ
  | .ret _ es => (match Exp.inferL Γ es with
    | some τs => fits τs ρ
    | none => false)
  | .call _ f args dst => (match Exp.inferL Γ args with
    | some τs => fitsArgs τs (sig f).vars && fitsDst Γ dst (sig f).rets
    | none => false)
  | .prim _ p dst => (match p.infer Γ with
    | some τs => fitsDst Γ dst τs
    | none => false)
  | .memoAdd _ _ => false

/-- A method is well-typed. -/
def Func.typed {Fn : Type} (sig : Fn → Sig) (fn : Func Fn) (s : Sig) : Bool :=
  decide (s.vars.length = fn.locals) && fn.body.typed sig s.vars s.rets

end Verif

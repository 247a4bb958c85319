/-
The tactic `sym`: symbolic execution of a parser method by the rules of `Echo.Rules`.
It finds proofs that the kernel checks; no definition here is part of the model.
-/
import Lean
import Verif.Echo.Rules

namespace Verif.Echo.Sym
open Lean Meta Elab Tactic

/-- A state of the symbolic execution. -/
structure St where
  s : Expr
  l : Expr
  m : Expr
  env : Expr
  vals : Array Expr

/-- The proof by the theorem `thm` of the type `ty`, with proofs of its explicit premises. -/
def byThm (ty : Expr) (thm : Name) (prems : Array Expr := #[]) : MetaM Expr := do
  let c ← mkConstWithFreshMVarLevels thm
  let (xs, bis, concl) ← forallMetaTelescope (← inferType c)
  unless ← isDefEq concl ty do throwError "byThm {thm}: {concl} is not {ty}"
  let mut k := 0
  for x in xs, bi in bis do
    if bi.isExplicit then
      let some p := prems[k]? | throwError "byThm {thm}: premises"
      unless ← isDefEq (← inferType x) (← inferType p) do throwError "byThm {thm}: premise {← inferType x} is not {← inferType p}"
      x.mvarId!.assign p
      k := k + 1
  instantiateMVars (mkAppN c xs)

def vNil : Expr := .const ``V.nil []
def vNat (e : Expr) : Expr := .app (.const ``V.nat []) e
def vStr (e : Expr) : Expr := .app (.const ``V.str []) e
def vBool (e : Expr) : Expr := .app (.const ``V.bool []) e
def vT : Expr := .const ``V []
def strT : Expr := .const ``Str []
def listV (xs : Array Expr) : MetaM Expr := mkListLit vT xs.toList
def evalTy (st : St) (e v : Expr) : MetaM Expr := do mkEq (mkApp3 (.const ``Exp.eval []) st.s st.env e) (← mkAppM ``Option.some #[v])
def evalLTy (st : St) (e v : Expr) : MetaM Expr := do mkEq (mkApp3 (.const ``Exp.evalL []) st.s st.env e) (← mkAppM ``Option.some #[v])

/-- The elements of a literal list. -/
partial def elems (e : Expr) : MetaM (Option (Array Expr)) := do
  let e ← whnfR e
  if e.isAppOf ``List.nil then return some #[]
  if e.isAppOf ``List.cons then
    let a := e.getAppArgs
    let some r ← elems a[2]! | return none
    return some (#[a[1]!] ++ r)
  return none

/-- A hypothesis with the property. -/
def findHyp (p : Expr → MetaM Bool) : MetaM (Option (Expr × Expr)) := do
  for d in (← getLCtx) do
    unless d.isImplementationDetail do
      let t ← instantiateMVars d.type
      if ← p t then return some (d.toExpr, t)
  return none

/-- `x = some t` or `x = none` from the context. -/
def findOpt (x : Expr) : MetaM (Option (Expr × Expr)) :=
  findHyp fun t => return t.isAppOfArity ``Eq 3 && t.getArg! 1 == x && ((t.getArg! 2).isAppOf ``Option.some || (t.getArg! 2).isAppOf ``Option.none)

/-- Is this value known to be nil, or known not to be? -/
def nilness (v : Expr) : MetaM (Option Bool) := do
  if v.isAppOf ``V.nil then return some true
  if v.isAppOf ``V.mk || v.isAppOf ``V.list || v.isAppOf ``V.str || v.isAppOf ``V.nat || v.isAppOf ``V.bool then return some false
  if v.isAppOf ``kindErr || v.isAppOf ``keywordErr || v.isAppOf ``plainErr || v.isAppOf ``lexErr || v.isAppOf ``tokMk then return some false
  return none

/-- Postconditions that say that the value is not nil. -/
def neHeads : List Name := [`Verif.Echo.Val]

/-- A Boolean that is a constant: the constant, and a proof unless it is so by definition. -/
partial def knownBool (x : Expr) : MetaM (Option (Bool × Option Expr)) := do
  if x.isConstOf ``Bool.true then return some (true, none)
  if x.isConstOf ``Bool.false then return some (false, none)
  if let some (h, t) ← findHyp fun t => return t.isAppOfArity ``Eq 3 && t.getArg! 1 == x && ((t.getArg! 2).isConstOf ``Bool.true || (t.getArg! 2).isConstOf ``Bool.false) then
    return some ((t.getArg! 2).isConstOf ``Bool.true, some h)
  if x.isAppOfArity ``Bool.not 1 then
    match ← knownBool (x.getArg! 0) with
    | some (b, none) => return some (!b, none)
    | some (b, some h) => return some (!b, some (← mkCongrArg (.const ``Bool.not []) h))
    | none => return none
  if x.isAppOfArity ``V.nonNil 1 then
    let v := x.getArg! 0
    if let some b ← nilness v then return some (!b, none)
    if let some (h, _) ← findHyp fun t => return t.isAppOfArity ``Ne 3 && t.getArg! 1 == v && (t.getArg! 2).isConstOf ``V.nil then
      return some (true, some (← mkAppM ``nonNil_ne #[h]))
    -- a postcondition that begins with `v ≠ nil`
    if let some (h, _) ← findHyp fun t => return neHeads.contains (t.getAppFn.constName?.getD .anonymous) && t.getAppNumArgs ≥ 3 && t.getArg! (t.getAppNumArgs - 2) == v then
      return some (true, some (← mkAppM ``nonNil_ne #[← mkAppM ``And.left #[h]]))
  if !x.hasFVar && !x.hasMVar then
    let y ← whnfD x
    if y.isConstOf ``Bool.true then return some (true, none)
    if y.isConstOf ``Bool.false then return some (false, none)
  return none

def unTok (v : Expr) : MetaM Expr := do
  if v.isAppOf ``tokMk then
    match ← delta? v (· == ``tokMk) with
    | some v => return v.headBeta
    | none => return v
  else return v

/-- Expressions whose values are truth values. -/
def boolThm (p : Expr) : Option Name := match p.getAppFn.constName? with
    | some ``Exp.eqStr => some ``bool_eqStr
    | some ``Exp.eqNat => some ``bool_eqNat
    | some ``Exp.lt => some ``bool_lt
    | some ``Exp.equalFold => some ``bool_equalFold
    | some ``Exp.isUnit => some ``bool_isUnit
    | some ``Exp.not => some ``bool_not
    | some ``Exp.contains => some ``bool_contains
    | some ``Exp.matchOneOf => some ``bool_matchOneOf
    | some ``Exp.matchKw => some ``bool_matchKw
    | some ``Exp.matchKinds => some ``bool_matchKinds
    | some ``Exp.isNil => some ``bool_isNil
    | some ``Exp.isEOF => some ``bool_isEOF
    | some ``Exp.and => if (boolThm' (p.getArg! 1)) then some ``bool_and else none
    | some ``Exp.or => if (boolThm' (p.getArg! 1)) then some ``bool_or else none
    | _ => none
where
  boolThm' (p : Expr) : Bool := match p.getAppFn.constName? with
    | some ``Exp.and | some ``Exp.or => (p.getAppArgs)[1]?.isSome
    | some c => [``Exp.eqStr, ``Exp.eqNat, ``Exp.lt, ``Exp.equalFold, ``Exp.isUnit, ``Exp.not, ``Exp.contains, ``Exp.matchOneOf, ``Exp.matchKw,
        ``Exp.matchKinds, ``Exp.isNil, ``Exp.isEOF].contains c
    | none => false

partial def boolProof (st : St) (p h : Expr) : MetaM Expr := do
  let some thm := boolThm p | throwError "boolProof {p}"
  if p.isAppOf ``Exp.and || p.isAppOf ``Exp.or then
    let b := p.getArg! 1
    let hb ← withLocalDeclD `w vT fun w => do
      let ty ← evalTy st b w
      withLocalDeclD `hw ty fun hw => do
        mkLambdaFVars #[w, hw] (← boolProof st b hw)
    mkAppM thm #[hb, h]
  else mkAppM thm #[h]

/-- Evaluation: the value and the proof, or the expression whose value is not known. -/
abbrev EvM := ExceptT Expr MetaM

def stuck {α : Type} (e : Expr) : EvM α := ExceptT.mk (pure (.error e))

/-- A truth value that is not known because of a part. -/
def whole {α : Type} (e : Expr) (x : EvM α) : EvM α := fun s => do
  match ← x s with
  | .error p => if (boolThm e).isSome then return .error e else return .error p
  | .ok a => return .ok a

def boolLit (b : Bool) : Expr := .const (if b then ``Bool.true else ``Bool.false) []

mutual
partial def evalE (st : St) (e0 : Expr) : EvM (Expr × Expr) := do
  let e ← whnfR e0
  let a := e.getAppArgs
  -- a value assumed
  if let some (h, t) ← findHyp fun t => return t.isAppOfArity ``Eq 3 && (t.getArg! 1).isAppOfArity ``Exp.eval 3 && (t.getArg! 1).getArg! 2 == e && (t.getArg! 1).getArg! 1 == st.env && (t.getArg! 1).getArg! 0 == st.s then
    return ((t.getArg! 2).getArg! 1, h)
  let leaf (v : Expr) (thm : Name) (ps : Array Expr := #[]) : EvM (Expr × Expr) := do
    return (v, ← byThm (← evalTy st e v) thm ps)
  let bool (x : Expr) (thm : Name) (ps : Array Expr) : EvM (Expr × Expr) := do
    let p ← byThm (← evalTy st e (vBool x)) thm ps
    match ← (knownBool x : MetaM _) with
    | some (b, none) => return (vBool (boolLit b), ← mkExpectedTypeHint p (← evalTy st e (vBool (boolLit b))))
    | some (b, some h) => return (vBool (boolLit b), ← mkAppM ``ev_rw #[p, h])
    | none => return (vBool x, p)
  match e.getAppFn.constName? with
  | some ``Exp.nil => leaf vNil ``ev_nil
  | some ``Exp.nat => leaf (vNat a[0]!) ``ev_nat
  | some ``Exp.bool => leaf (vBool a[0]!) ``ev_bool
  | some ``Exp.str => leaf (vStr a[0]!) ``ev_str
  | some ``Exp.strs => leaf (← mkAppM ``V.list #[← mkAppM ``List.map #[.const ``V.str [], a[0]!]]) ``ev_strs
  | some ``Exp.empty => leaf (mkApp (.const ``V.list []) (← listV #[])) ``ev_empty
  | some ``Exp.var =>
    let some j ← (getNatValue? a[0]! : MetaM _) | stuck e
    let some v := st.vals[j]? | stuck e
    let h ← mkExpectedTypeHint (← mkEqRefl (← mkAppM ``Option.some #[v])) (← mkEq (← mkAppM ``getElem? #[st.env, a[0]!]) (← mkAppM ``Option.some #[v]))
    let p ← byThm (← evalTy st e v) ``ev_var #[h]
    if v.isAppOfArity ``tokV 1 then
      if let some (hx, t) ← (findOpt (v.getArg! 0) : MetaM _) then
        if (t.getArg! 2).isAppOf ``Option.some then
          let v' := mkApp (.const ``tokMk []) ((t.getArg! 2).getArg! 1)
          return (v', ← mkAppM ``ev_some #[p, hx])
        else return (vNil, ← mkAppM ``ev_none #[p, hx])
    return (v, p)
  | some ``Exp.cur =>
    let x ← mkAppM ``Lx.cur #[st.l]
    let p ← byThm (← evalTy st e (mkApp (.const ``tokV []) x)) ``ev_cur
    if let some (hx, t) ← (findOpt x : MetaM _) then
      if (t.getArg! 2).isAppOf ``Option.some then
        let v' := mkApp (.const ``tokMk []) ((t.getArg! 2).getArg! 1)
        return (v', ← mkAppM ``ev_some #[p, hx])
      else return (vNil, ← mkAppM ``ev_none #[p, hx])
    return (mkApp (.const ``tokV []) x, p)
  | some ``Exp.fld =>
    let (v, p) ← evalE st a[0]!
    let v ← (unTok v : MetaM _)
    unless v.isAppOfArity ``V.mk 2 do stuck e
    let some fs ← (elems (v.getArg! 1) : MetaM _) | stuck e
    let some j ← (getNatValue? a[1]! : MetaM _) | stuck e
    let some w := fs[j]? | stuck e
    let h ← mkExpectedTypeHint (← mkEqRefl (← mkAppM ``Option.some #[w])) (← mkEq (← mkAppM ``getElem? #[v.getArg! 1, a[1]!]) (← mkAppM ``Option.some #[w]))
    leaf w ``ev_fld #[p, h]
  | some ``Exp.deref =>
    let (v, p) ← evalE st a[0]!
    unless v.isAppOfArity ``V.mk 2 do stuck e
    leaf v ``ev_deref #[p]
  | some ``Exp.mk =>
    let (vs, p) ← evalL st a[1]!
    leaf (mkApp2 (.const ``V.mk []) a[0]! (← listV vs)) ``ev_mk #[p]
  | some ``Exp.append =>
    let (x, q) ← evalE st a[1]!
    let (v, p) ← evalE st a[0]!
    let one ← listV #[x]
    if v.isAppOfArity ``V.list 1 then
      leaf (mkApp (.const ``V.list []) (← mkAppM ``HAppend.hAppend #[v.getArg! 0, one])) ``ev_appendL #[p, q]
    else leaf (mkApp (.const ``V.list []) (← mkAppM ``HAppend.hAppend #[mkApp (.const ``V.items []) v, one])) ``ev_append #[p, q]
  | some ``Exp.isNil =>
    let (v, p) ← evalE st a[0]!
    bool (mkApp (.const ``Bool.not []) (mkApp (.const ``V.nonNil []) v)) ``ev_isNil #[p]
  | some ``Exp.not =>
    if a[0]!.isAppOf ``Exp.isNil then
      let (v, p) ← evalE st (a[0]!.getArg! 0)
      bool (mkApp (.const ``V.nonNil []) v) ``ev_notNil #[p]
    else
      let (v, p) ← evalE st a[0]!
      unless v.isAppOf ``V.bool do stuck e
      bool (mkApp (.const ``Bool.not []) (v.getArg! 0)) ``ev_not #[p]
  | some ``Exp.and =>
    let (v, p) ← whole e (evalE st a[0]!)
    unless v.isAppOf ``V.bool do stuck e
    let x := v.getArg! 0
    if x.isConstOf ``Bool.false then leaf (vBool x) ``ev_and_false #[p]
    else
      let (w, q) ← whole e (evalE st a[1]!)
      if x.isConstOf ``Bool.true then leaf w ``ev_and_true #[p, q]
      else
        unless w.isAppOf ``V.bool do stuck e
        bool (← mkAppM ``Bool.and #[x, w.getArg! 0]) ``ev_and #[p, q]
  | some ``Exp.or =>
    let (v, p) ← whole e (evalE st a[0]!)
    unless v.isAppOf ``V.bool do stuck e
    let x := v.getArg! 0
    if x.isConstOf ``Bool.true then leaf (vBool x) ``ev_or_true #[p]
    else
      let (w, q) ← whole e (evalE st a[1]!)
      if x.isConstOf ``Bool.false then leaf w ``ev_or_false #[p, q]
      else
        unless w.isAppOf ``V.bool do stuck e
        bool (← mkAppM ``Bool.or #[x, w.getArg! 0]) ``ev_or #[p, q]
  | some ``Exp.eqStr =>
    let (v, p) ← evalE st a[0]!
    let (w, q) ← evalE st a[1]!
    unless v.isAppOf ``V.str && w.isAppOf ``V.str do stuck e
    bool (← mkAppM ``BEq.beq #[v.getArg! 0, w.getArg! 0]) ``ev_eqStr #[p, q]
  | some ``Exp.eqNat =>
    let (v, p) ← evalE st a[0]!
    let (w, q) ← evalE st a[1]!
    unless v.isAppOf ``V.nat && w.isAppOf ``V.nat do stuck e
    bool (← mkAppM ``BEq.beq #[v.getArg! 0, w.getArg! 0]) ``ev_eqNat #[p, q]
  | some ``Exp.lt =>
    let (v, p) ← evalE st a[0]!
    let (w, q) ← evalE st a[1]!
    unless v.isAppOf ``V.nat && w.isAppOf ``V.nat do stuck e
    bool (← mkDecide (← mkAppM ``LT.lt #[v.getArg! 0, w.getArg! 0])) ``ev_lt #[p, q]
  | some ``Exp.cat =>
    let (v, p) ← evalE st a[0]!
    let (w, q) ← evalE st a[1]!
    unless v.isAppOf ``V.str && w.isAppOf ``V.str do stuck e
    leaf (vStr (← mkAppM ``HAppend.hAppend #[v.getArg! 0, w.getArg! 0])) ``ev_cat #[p, q]
  | some ``Exp.equalFold =>
    let (v, p) ← evalE st a[0]!
    let (w, q) ← evalE st a[1]!
    unless v.isAppOf ``V.str && w.isAppOf ``V.str do stuck e
    bool (← mkAppM ``Verif.equalFold #[v.getArg! 0, w.getArg! 0]) ``ev_equalFold #[p, q]
  | some ``Exp.upper =>
    let (v, p) ← evalE st a[0]!
    unless v.isAppOf ``V.str do stuck e
    leaf (vStr (← mkAppM ``Verif.upper #[v.getArg! 0])) ``ev_upper #[p]
  | some ``Exp.isTy =>
    let (v, p) ← evalE st a[0]!
    bool (← mkDecide (← mkEq (← mkAppM ``V.ty? #[v]) (← mkAppM ``Option.some #[a[1]!]))) ``ev_isTy #[p]
  | some ``Exp.len =>
    let (v, p) ← evalE st a[0]!
    unless v.isAppOf ``V.list do stuck e
    leaf (vNat (← mkAppM ``List.length #[v.getArg! 0])) ``ev_len #[p]
  | some ``Exp.error =>
    let (_, p) ← evalL st a[1]!
    leaf (mkApp (.const ``plainErr []) a[0]!) ``ev_error #[p]
  | some ``Exp.curKind => leaf (vStr (← mkAppM ``Lx.curKind #[st.l])) ``ev_curKind
  | some ``Exp.curString => leaf (vStr (← mkAppM ``Lx.curString #[st.l])) ``ev_curString
  | some ``Exp.pos => leaf (vNat (← mkAppM ``Lx.curPos #[st.l])) ``ev_pos
  | some ``Exp.end_ => leaf (vNat (← mkAppM ``Lx.curEnd #[st.l])) ``ev_end
  | some ``Exp.isEOF => bool (← mkAppM ``Lx.isEOF #[st.l]) ``ev_isEOF #[]
  | some ``Exp.matchKinds =>
    let (vs, p) ← evalL st a[0]!
    unless vs.all (·.isAppOf ``V.str) do stuck e
    let ks ← mkListLit strT (vs.map (·.getArg! 0)).toList
    let p ← mkExpectedTypeHint p (← evalLTy st a[0]! (← mkAppM ``List.map #[.const ``V.str [], ks]))
    bool (← mkAppM ``Lx.matchKinds #[st.l, ks]) ``ev_matchKinds #[p]
  | some ``Exp.matchKw =>
    let (v, p) ← evalE st a[0]!
    unless v.isAppOf ``V.str do stuck e
    bool (← mkAppM ``Lx.matchKw #[st.l, v.getArg! 0]) ``ev_matchKw #[p]
  | some ``Exp.matchOneOf =>
    unless a[0]!.isAppOf ``Exp.strs do stuck e
    bool (← mkAppM ``Lx.matchOneOf #[st.l, a[0]!.getArg! 0]) ``ev_matchOneOf #[]
  | some ``Exp.memoHas =>
    let (v, p) ← evalE st a[0]!
    unless v.isAppOf ``V.nat do stuck e
    bool (← mkAppM ``List.contains #[st.m, v.getArg! 0]) ``ev_memoHas #[p]
  | some ``Exp.tokText =>
    let (v, p) ← evalE st a[0]!
    unless v.isAppOf ``tokMk do stuck e
    leaf (vStr (mkApp (.const ``Echo.tokText []) (v.getArg! 0))) ``ev_tokText #[p]
  | _ => stuck e
partial def evalL (st : St) (es : Expr) : EvM (Array Expr × Expr) := do
  let some xs ← (elems es : MetaM _) | stuck es
  let mut vs : Array Expr := #[]
  let mut ps : Array Expr := #[]
  for x in xs do
    let (v, p) ← evalE st x
    vs := vs.push v
    ps := ps.push p
  let mut pf ← byThm (← evalLTy st (← mkListLit (.const ``Exp []) []) (← listV #[])) ``ev_lnil
  for j in [0:xs.size] do
    pf ← mkAppM ``ev_lcons #[ps[xs.size - 1 - j]!, pf]
  return (vs, pf)
end

/-- A proof that `e` has no value from the hypothesis `h` that `p` has none. -/
partial def noneE (st : St) (p h e : Expr) : MetaM Expr := do
  let e ← whnfR e
  if e == p then return h
  let a := e.getAppArgs
  match e.getAppFn.constName? with
  | some ``Exp.mk =>
    let q ← noneL a[1]!
    mkAppOptM ``no_mk #[st.s, st.env, a[0]!, a[1]!, q]
  | some ``Exp.append =>
    let q ← noneE st p h a[1]!
    mkAppOptM ``no_append #[st.s, st.env, a[0]!, a[1]!, q]
  | _ => throwError "noneE {e}"
where
  noneL (es : Expr) : MetaM Expr := do
    let es ← whnfR es
    unless es.isAppOf ``List.cons do throwError "noneL"
    let a := es.getAppArgs
    if (a[1]!.find? (· == p)).isSome then
      mkAppOptM ``no_head #[st.s, st.env, a[1]!, a[2]!, ← noneE st p h a[1]!]
    else
      mkAppOptM ``no_tail #[st.s, st.env, a[1]!, a[2]!, ← noneL a[2]!]

/-- The values of the variables. -/
partial def envVals (e : Expr) : MetaM (Array Expr) := do
  let e ← whnfR e
  let a := e.getAppArgs
  match e.getAppFn.constName? with
  | some ``List.nil => return #[]
  | some ``List.cons => return #[a[1]!] ++ (← envVals a[2]!)
  | some ``List.set =>
    let vs ← envVals a[1]!
    let some j ← getNatValue? a[2]! | throwError "envVals {a[2]!}"
    return if j < vs.size then vs.set! j a[3]! else vs
  | some ``storeAll =>
    let mut vs ← envVals a[0]!
    let some ds ← elems a[1]! | throwError "envVals"
    let some rs ← elems a[2]! | throwError "envVals {a[2]!}"
    for d in ds, r in rs do
      let some j ← getNatValue? d | throwError "envVals {d}"
      if j < vs.size then vs := vs.set! j r
    return vs
  | _ => throwError "envVals {e}"

/-- The statement and the state of the goal, in normal form. -/
def view (g : MVarId) : MetaM (Option (MVarId × Expr × St)) := g.withContext do
  let t := (← instantiateMVars (← g.getType)).consumeMData.headBeta
  unless t.isAppOfArity ``Verif.Group.RetL 4 do return none
  let o ← whnfR (t.getArg! 0)
  unless o.isAppOfArity ``Stmt.run 6 do return none
  let a := o.getAppArgs
  let mut stmt ← whnf a[3]!
  if stmt.isAppOfArity ``Stmt.seq 3 then
    let x ← whnf (stmt.getArg! 1)
    stmt := mkApp3 stmt.getAppFn (stmt.getArg! 0) x (stmt.getArg! 2)
  let fr ← whnfR a[4]!
  let s ← whnfR a[5]!
  unless fr.isAppOfArity ``Frame.mk 2 && s.isAppOfArity ``PS.mk 3 do return none
  let vals ← envVals (fr.getArg! 0)
  let env ← listV vals
  let fr' := mkApp2 fr.getAppFn env (fr.getArg! 1)
  let o' := mkAppN o.getAppFn #[a[0]!, a[1]!, a[2]!, stmt, fr', s]
  let t' := mkAppN t.getAppFn #[o', t.getArg! 1, t.getArg! 2, t.getArg! 3]
  let g ← g.replaceTargetDefEq t'
  return some (g, stmt, { s, l := s.getArg! 0, m := s.getArg! 1, env, vals })

partial def cleanProof (l : Expr) : MetaM Expr := do
  if let some (h, _) ← findHyp fun t => return t.isAppOfArity ``Clean 1 && t.getArg! 0 == l then return h
  if l.isAppOfArity ``Lx.advance 1 then return ← mkAppM ``Clean.adv #[← cleanProof (l.getArg! 0)]
  throwError "no proof of Clean {l}"

/-- Apply a rule; the given proofs are those of its first premises. -/
def rule (g : MVarId) (thm : Name) (prems : Array Expr := #[]) : MetaM (List MVarId) := g.withContext do
  let c ← mkConstWithFreshMVarLevels thm
  let (xs, bis, concl) ← forallMetaTelescope (← inferType c)
  unless ← isDefEq concl (← g.getType) do throwError "rule {thm}: {concl} is not {← g.getType}"
  let mut rest : List MVarId := []
  let mut k := 0
  for x in xs, bi in bis do
    if bi.isExplicit then
      match prems[k]? with
      | some p =>
        unless ← isDefEq (← inferType x) (← inferType p) do throwError "rule {thm}: premise {← inferType x} is not {← inferType p}"
        x.mvarId!.assign p
      | none => rest := rest ++ [x.mvarId!]
      k := k + 1
  g.assign (← instantiateMVars (mkAppN c xs))
  return rest

def nm (s : String) (d : Nat) : Name := .mkSimple s!"{s}{d}"

/-- Take the hypothesis apart, if it says that something exists or is a conjunction. -/
partial def destr (g : MVarId) (n : Name) : MetaM MVarId := do
  let some d := (← g.getDecl).lctx.findFromUserName? n | return g
  let t ← g.withContext (instantiateMVars d.type)
  if t.isAppOfArity ``Exists 2 then
    let x := (t.getArg! 1).bindingName!
    let subs ← g.cases d.fvarId #[{ varNames := [x, n] }]
    let some s := subs[0]? | throwError "destr"
    destr s.mvarId n
  else if t.isAppOfArity ``And 2 then
    let l ← g.withContext (mkAppM ``And.left #[d.toExpr])
    let r ← g.withContext (mkAppM ``And.right #[d.toExpr])
    let n2 := Name.mkSimple (n.toString ++ "b")
    let isEq := (t.getArg! 0).isAppOfArity ``Eq 3 && ((t.getArg! 0).getArg! 1).isFVar && ((t.getArg! 0).getArg! 2).isAppOf ``V.mk
    let (_, g) ← (← g.assert (if isEq then n else n2) (t.getArg! 1) r).intro1P
    let (f, g) ← (← g.assert (if isEq then n2 else n) (t.getArg! 0) l).intro1P
    let g ← g.tryClear d.fvarId
    if isEq then
      match ← observing? (subst g f) with
      | some g => destr g n
      | none => destr g n
    else destr (← destr g n) n2
  else return g

/-- Turn hypotheses `nil = nil → p` into `p`. -/
def specNil (g : MVarId) : MetaM MVarId := do
  let mut g := g
  let lctx := (← g.getDecl).lctx
  for d in lctx do
    unless d.isImplementationDetail do
      let t ← g.withContext (instantiateMVars d.type)
      if t.isArrow && t.bindingDomain!.isAppOfArity ``Eq 3 && (t.bindingDomain!.getArg! 1).isConstOf ``V.nil && (t.bindingDomain!.getArg! 2).isConstOf ``V.nil then
        let pf ← g.withContext (return mkApp d.toExpr (← mkEqRefl vNil))
        let (_, g') ← (← g.assert d.userName t.bindingBody! pf).intro1P
        g ← g'.tryClear d.fvarId
        if d.userName.toString.startsWith "hv" then g ← destr g d.userName
  return g

/-- Replace the variable in `h : x = v` or remember the equation. -/
def substOr (g : MVarId) (h : FVarId) : MetaM MVarId := do
  match ← observing? (subst g h) with
  | some g => specNil g
  | none => return g

def tacOn (g : MVarId) (stx : TSyntax `tactic) : TacticM (List MVarId) := do
  let saved ← getGoals
  setGoals [g]
  evalTactic stx
  let gs ← getUnsolvedGoals
  setGoals saved
  return gs

/-- Split a conjunction. -/
partial def splitAnd (g : MVarId) (n : Name) : MetaM MVarId := do
  let some d := (← g.getDecl).lctx.findFromUserName? n | return g
  let t ← g.withContext (instantiateMVars d.type)
  unless t.isAppOfArity ``And 2 do return g
  let l ← g.withContext (mkAppM ``And.left #[d.toExpr])
  let r ← g.withContext (mkAppM ``And.right #[d.toExpr])
  let n2 := Name.mkSimple (n.toString ++ "b")
  let (_, g) ← (← g.assert n2 (t.getArg! 1) r).intro1P
  let (_, g) ← (← g.assert n (t.getArg! 0) l).intro1P
  let g ← g.tryClear d.fvarId
  splitAnd (← splitAnd g n) n2

/-- Normal form of a condition. -/
def norm (g : MVarId) (n : Name) : TacticM MVarId := do
  unless n.toString.startsWith "c" do return g
  let gs ← tacOn g (← `(tactic| try simp only [Bool.not_eq_true', Bool.not_eq_false', Bool.or_eq_false_iff, Bool.and_eq_true, Bool.or_eq_true] at $(mkIdent n):ident))
  let [g] := gs | throwError "norm"
  splitAnd g n

/-- Attempts to finish a leaf. -/
def leaf (g : MVarId) : TacticM (List MVarId) := do
  let t ← g.withContext do instantiateMVars (← g.getType)
  let t := (← Core.betaReduce t).replace fun e =>
    if e.isAppOfArity ``PS.lx 1 && (e.getArg! 0).isAppOfArity ``PS.mk 3 then some ((e.getArg! 0).getArg! 0) else none
  let g ← g.replaceTargetDefEq t
  let stx ← `(tactic| first
    | with_reducible exact Ok2.mkErr | with_reducible exact Ok2.err (by first | assumption | (intro h; cases h; done))
    | with_reducible exact Ok2.of (by assumption) | with_reducible exact Ok3.of (by assumption)
    | with_reducible exact Ok2.kindErr | with_reducible exact Ok2.kwErr | with_reducible exact Ok2.plainErr
    | with_reducible exact Ok3.kindErr | with_reducible exact Ok3.kwErr | with_reducible exact Ok3.plainErr
    | with_reducible exact Ok1.kindErr | with_reducible exact Ok1.kwErr | with_reducible exact Ok1.plainErr
    | with_reducible exact Ok3.mkErr | with_reducible exact Ok3.err (by first | assumption | (intro h; cases h; done))
    | with_reducible exact Look.of | with_reducible exact LookN.of | with_reducible exact LookC.no | with_reducible refine Ret1.of ?_
    | with_reducible exact Ok1.mkErr | with_reducible exact Ok1.err (by assumption) | with_reducible exact Ok1.of (by assumption)
    | with_reducible refine Ok2.ok ?_ | with_reducible refine Ok1.ok ?_ | with_reducible refine Ok3.ok ?_ | skip)
  tacOn g stx

mutual
partial def go (d : Nat) (g : MVarId) : TacticM (List MVarId) := do
  let some (g, stmt, st) ← view g | return [g]
  g.withContext do
  if stmt.isAppOfArity ``Stmt.seq 3 then
    step d g (stmt.getArg! 1) st
  else
    match stmt.getAppFn.constName? with
    | some ``Stmt.ret => doRet d g stmt st
    | some ``Stmt.skip => cont1 d g ``r_skipEnd
    | some ``Stmt.brk => cont1 d g ``r_brkEnd
    | some ``Stmt.cont => cont1 d g ``r_contEnd
    | some ``Stmt.loop => return ← rule g ``r_single
    | _ => let gs ← rule g ``r_single; goAll d gs
partial def cont1 (d : Nat) (g : MVarId) (r : Name) : TacticM (List MVarId) := do
  let [g] ← rule g r | throwError "cont1"
  let t ← g.withContext do instantiateMVars (← g.getType)
  let g ← g.replaceTargetDefEq t.headBeta
  match ← view g with
  | some (g, _, _) => go d g
  | none => return [g]
partial def goAll (d : Nat) (gs : List MVarId) : TacticM (List MVarId) := do
  let mut r : List MVarId := []
  for g in gs do r := r ++ (← go d g)
  return r
/-- An expression in the statement has no known value: assume one. -/
partial def assume (d : Nat) (g : MVarId) (p e : Expr) (isList : Bool) (st : St) (r : Name) : TacticM (List MVarId) := g.withContext do
  let prove (p : Expr) : MetaM Expr := do
    let hty ← mkEq (mkApp3 (.const ``Exp.eval []) st.s st.env p) (← mkAppOptM ``Option.none #[vT])
    withLocalDeclD `hn hty fun h => do
      let b ← if isList then noneE.noneL st p h e else noneE st p h e
      mkLambdaFVars #[h] b
  let (p, pf) ← match ← observing? (prove p) with
    | some pf => pure (p, pf)
    | none =>
      let some xs ← elems e | throwError "assume {p}"
      let some x := xs.find? (fun x => (x.find? (· == p)).isSome) | throwError "assume {p}"
      pure (x, ← prove x)
  let [g] ← rule g r #[p, pf] | throwError "assume"
  let (fs, g) ← g.introN 2 [nm "w" d, nm "hw" d]
  -- a truth value
  if let some _ := boolThm p then
    let pf ← g.withContext (boolProof st p (mkFVar fs[1]!))
    let ty ← g.withContext (inferType pf)
    let (_, g) ← (← g.assert (nm "hx" d) ty pf).intro1P
    let i (s : String) : Ident := mkIdent (nm s d)
    let gs ← tacOn g (← `(tactic| obtain ⟨$(i "b"):ident, $(mkIdent `rfl):ident⟩ := $(i "hx"):ident))
    return ← goAll (d + 1) gs
  -- a field of a token that may be missing: it is not
  if p.isAppOf ``Exp.fld || p.isAppOf ``Exp.tokText then
    let r ← g.withContext do
      match ← (evalE st (p.getArg! 0)).run with
      | .ok (v, q) =>
        if v.isAppOfArity ``tokV 1 then
          return some (← mkAppM (if p.isAppOf ``Exp.fld then ``tok_of_fld else ``tok_of_text) #[mkFVar fs[1]!, q])
        else return none
      | .error _ => return none
    if let some pf := r then
      let ty ← g.withContext (inferType pf)
      let (_, g) ← (← g.assert (nm "hx" d) ty pf).intro1P
      let i (s : String) : Ident := mkIdent (nm s d)
      let gs ← tacOn g (← `(tactic| obtain ⟨$(i "t"):ident, $(i "ht"):ident⟩ := $(i "hx"):ident))
      let gs ← gs.mapM fun g => do g.tryClear fs[1]!
      let gs ← gs.mapM fun g => do g.tryClear fs[0]!
      return ← goAll (d + 1) gs
  go (d + 1) g
partial def doRet (d : Nat) (g : MVarId) (stmt : Expr) (st : St) : TacticM (List MVarId) := g.withContext do
  let es := stmt.getArg! 2
  if let some xs ← elems es then
    if xs.size == 2 then
      let y ← whnfR xs[1]!
      if y.isAppOf ``Exp.error then
        if let some [g'] ← observing? (rule g ``r_retErr) then
          let (_, g') ← g'.introN 1 [nm "w" d]
          return ← leaf g'
    if xs.size == 3 then
      let y ← whnfR xs[2]!
      if y.isAppOf ``Exp.error then
        if let some [g'] ← observing? (rule g ``r_retErr3) then
          let (_, g') ← g'.introN 2 [nm "w" d, nm "ww" d]
          return ← leaf g'
  match ← (evalL st es).run with
  | .ok (_, p) =>
    let [g] ← rule g ``r_ret #[p] | throwError "doRet"
    leaf g
  | .error p => assume d g p es true st ``r_retA
partial def step (d : Nat) (g : MVarId) (a : Expr) (st : St) : TacticM (List MVarId) := g.withContext do
  let x := a.getAppArgs
  match a.getAppFn.constName? with
  | some ``Stmt.seq => goAll d (← rule g ``Verif.Group.ret_assoc)
  | some ``Stmt.skip => goAll d (← rule g ``Verif.Group.ret_skip)
  | some ``Stmt.brk => cont1 d g ``r_brk
  | some ``Stmt.cont => cont1 d g ``r_cont
  | some ``Stmt.save => goAll d (← rule g ``r_save)
  | some ``Stmt.restore => goAll d (← rule g ``r_restore)
  | some ``Stmt.ret => goAll d (← rule g ``r_retS)
  | some ``Stmt.set =>
    match ← (evalE st x[3]!).run with
    | .ok (_, p) => goAll d (← rule g ``r_set #[p])
    | .error p =>
      match ← observing? (assume d g p x[3]! false st ``r_setA) with
      | some gs => return gs
      | none =>
        let [g] ← rule g ``r_setU | throwError "set"
        let (_, g) ← g.introN 1 [nm "w" d]
        go (d + 1) g
  | some ``Stmt.setF =>
    match ← (evalE st x[4]!).run with
    | .ok (v, p) =>
      let some j ← getNatValue? x[2]! | return [g]
      let some u := st.vals[j]? | return [g]
      let h ← mkExpectedTypeHint (← mkEqRefl (← mkAppM ``Option.some #[u])) (← mkEq (← mkAppM ``getElem? #[st.env, x[2]!]) (← mkAppM ``Option.some #[u]))
      let (u, h) ← if u.isAppOfArity ``tokV 1 then
          match ← findOpt (u.getArg! 0) with
          | some (hx, t) =>
            if (t.getArg! 2).isAppOf ``Option.some then
              let v' := mkApp (.const ``tokMk []) ((t.getArg! 2).getArg! 1)
              let e ← mkAppM ``tokV_some #[hx]
              pure (v', ← mkEqTrans h (← mkAppM ``congrArg #[← mkAppOptM ``Option.some #[vT], e]))
            else pure (u, h)
          | none => pure (u, h)
        else pure (u, h)
      let u ← unTok u
      let some path ← elems x[3]! | return [g]
      let some w ← setPathE u path.toList v | return [g]
      let hw ← mkExpectedTypeHint (← mkEqRefl (← mkAppM ``Option.some #[w])) (← mkEq (← mkAppM ``setPath #[u, x[3]!, v]) (← mkAppM ``Option.some #[w]))
      goAll d (← rule g ``r_setF #[p, h, hw])
    | .error p =>
      match ← observing? (assume d g p x[4]! false st ``r_setFA) with
      | some gs => return gs
      | none => assume d g (← whnfR x[4]!) x[4]! false st ``r_setFA
  | some ``Stmt.ite =>
    let y ← whnfD x[3]!
    let z ← whnfD x[4]!
    let isEnd ← if y.isAppOfArity ``Stmt.set 4 && z.isAppOf ``Stmt.skip then pure ((← whnfD (y.getArg! 3)).isAppOf ``Exp.endOf) else pure false
    if isEnd then
      let some j ← getNatValue? (y.getArg! 2) | return [g]
      let some u := st.vals[j]? | return [g]
      let h ← mkExpectedTypeHint (← mkEqRefl (← mkAppM ``Option.some #[u])) (← mkEq (← mkAppM ``getElem? #[st.env, y.getArg! 2]) (← mkAppM ``Option.some #[u]))
      let [g] ← rule g ``r_iteSet #[h] | throwError "iteSet"
      let (_, g) ← g.introN 1 [nm "w" d]
      return ← go (d + 1) g
    doIte d g x[2]! st
  | some ``Stmt.call =>
    match ← (evalL st x[3]!).run with
    | .ok (as, p) => doCall d g x[2]! as p st
    | .error p => assume d g p x[3]! true st ``r_callA
  | some ``Stmt.prim =>
    let q := x[2]!
    match q.getAppFn.constName? with
    | some ``Prim.consume => goAll d (← rule g ``r_consume #[← cleanProof st.l])
    | some ``Prim.peek => goAll d (← rule g ``r_peek #[← cleanProof st.l])
    | some ``Prim.tryKind =>
      let .ok (v, p) ← (evalE st (q.getArg! 0)).run | return [g]
      let hk ← kindOk v
      let [g1, g2] ← rule g ``r_tryKind #[p, hk] | throwError "tryKind"
      let (_, g1) ← g1.introN 3 [nm "t" d, nm "c" d, nm "ht" d]
      let (_, g2) ← g2.introN 1 [nm "c" d]
      return (← go (d + 1) g1) ++ (← go (d + 1) g2)
    | some ``Prim.expectKind =>
      let .ok (v, p) ← (evalE st (q.getArg! 0)).run | return [g]
      let hk ← kindOk v
      let [g1, g2] ← rule g ``r_expectKind #[p, hk] | throwError "expectKind"
      let (_, g1) ← g1.introN 3 [nm "t" d, nm "c" d, nm "ht" d]
      return (← go (d + 1) g1) ++ (← go (d + 1) g2)
    | some ``Prim.expectKw =>
      let .ok (_, p) ← (evalE st (q.getArg! 0)).run | return [g]
      let [g1, g2] ← rule g ``r_expectKw #[p] | throwError "expectKw"
      let (_, g1) ← g1.introN 1 [nm "c" d]
      return (← go (d + 1) g1) ++ (← go (d + 1) g2)
    | some ``Prim.tryKws =>
      let some ks ← elems (q.getArg! 0) | return [g]
      let r := if ks.size == 1 then ``r_tryKws1 else if ks.size == 2 then ``r_tryKws2 else ``r_tryKws3
      let [g1, g2] ← rule g r | throwError "tryKws"
      let (_, g1) ← g1.introN ks.size ((List.range ks.size).map fun j => .mkSimple s!"c{d}{if j == 0 then "" else if j == 1 then "b" else "c"}")
      let g2 ← if ks.size == 1 then do let (_, g2) ← g2.introN 1 [nm "c" d]; pure g2 else pure g2
      return (← go (d + 1) g1) ++ (← go (d + 1) g2)
    | _ => return [g]
  | _ => return [g]
partial def kindOk (v : Expr) : MetaM Expr := do
  let ty ← mkEq (← mkAppM ``List.contains #[← mkListLit strT [v.getArg! 0], ← mkAppM ``Kind.toStr #[.const ``Kind.eof []]]) (.const ``Bool.false [])
  mkExpectedTypeHint (← mkEqRefl (.const ``Bool.false [])) ty
partial def setPathE (u : Expr) (path : List Expr) (v : Expr) : MetaM (Option Expr) := do
  match path with
  | [] => return some v
  | j :: p =>
    unless u.isAppOfArity ``V.mk 2 do return none
    let some fs ← elems (u.getArg! 1) | return none
    let some j ← getNatValue? j | return none
    let some w := fs[j]? | return none
    let some w' ← setPathE w p v | return none
    return some (mkApp2 u.getAppFn (u.getArg! 0) (← listV (fs.set! j w')))
partial def doIte (d : Nat) (g : MVarId) (c : Expr) (st : St) : TacticM (List MVarId) := g.withContext do
  match ← (evalE st c).run with
  | .error _ =>
    let c ← whnfR c
    if c.isAppOf ``Exp.and then return ← goAll d (← rule g ``r_iteAnd)
    if c.isAppOf ``Exp.or then return ← goAll d (← rule g ``r_iteOr)
    let [g1, g2] ← rule g ``r_iteH | throwError "iteH"
    let (_, g1) ← g1.introN 1 [nm "hw" d]
    let (_, g2) ← g2.introN 1 [nm "hw" d]
    return (← go (d + 1) g1) ++ (← go (d + 1) g2)
  | .ok (v, p) =>
    unless v.isAppOf ``V.bool do return ← goAll d (← rule g ``r_iteU)
    let x := v.getArg! 0
    if x.isConstOf ``Bool.true then return ← goAll d (← rule g ``r_iteT #[p])
    if x.isConstOf ``Bool.false then return ← goAll d (← rule g ``r_iteF #[p])
    let two (r : Name) (n1 n2 : Nat) (ns1 ns2 : List Name) : TacticM (List MVarId) := do
      let [g1, g2] ← rule g r #[p] | throwError "ite"
      let (f1, g1) ← g1.introN n1 ns1
      let (f2, g2) ← g2.introN n2 ns2
      let g1 ← norm (← substOr g1 f1.back!) (ns1.getLast!)
      let g2 ← norm (← substOr g2 f2.back!) (ns2.getLast!)
      return (← go (d + 1) g1) ++ (← go (d + 1) g2)
    if x.isAppOfArity ``V.nonNil 1 then
      if (x.getArg! 0).isAppOfArity ``tokV 1 then return ← two ``r_iteNT 2 1 [nm "t" d, nm "ht" d] [nm "ht" d]
      return ← two ``r_iteN 1 1 [nm "ne" d] [nm "ne" d]
    if x.isAppOfArity ``Bool.not 1 && (x.getArg! 0).isAppOfArity ``V.nonNil 1 then
      if ((x.getArg! 0).getArg! 0).isAppOfArity ``tokV 1 then return ← two ``r_iteZT 1 2 [nm "ht" d] [nm "t" d, nm "ht" d]
      return ← two ``r_iteZ 1 1 [nm "ne" d] [nm "ne" d]
    two ``r_ite 1 1 [nm "c" d] [nm "c" d]
partial def doCall (d : Nat) (g : MVarId) (f : Expr) (as : Array Expr) (p : Expr) (st : St) : TacticM (List MVarId) := g.withContext do
  let [g] ← rule g ``r_call #[p] | throwError "call"
  let (fs, g) ← g.introN 5 [nm "rs" d, nm "l" d, nm "m" d, nm "i" d, nm "hr" d]
  g.withContext do
  let hc ← cleanProof st.l
  let some ih := (← getLCtx).findFromUserName? `ih | throwError "no hypothesis ih"
  let args ← listV as
  let hr := mkFVar fs[4]!
  let h ← mkAppM' ih.toExpr #[f, args, st.l, st.m, st.s.getArg! 2, mkFVar fs[0]!, mkFVar fs[1]!, mkFVar fs[2]!, mkFVar fs[3]!, hc, hr]
  let n := ((← instantiateMVars (← inferType hr)).getArg! 1).getArg! 2
  let hcl ← mkAppM ``clean_runFn #[n, f, args, st.s, mkFVar fs[0]!, ← mkAppM ``PS.mk #[mkFVar fs[1]!, mkFVar fs[2]!, mkFVar fs[3]!], hc, hr]
  let mut h := h
  let mut t ← inferType h
  -- unfold the postcondition
  let some t' ← unfoldDefinition? t | throwError "post {t}"
  t ← whnfCore t'
  let k := if t.isAppOf ``A0 then 0 else if t.isAppOf ``A1 then 1 else if t.isAppOf ``A2 then 2 else if t.isAppOf ``A3 then 3 else 99
  if k == 99 then throwError "no postcondition for {f}"
  let some t'' ← unfoldDefinition? t | throwError "post {t}"
  t ← whnfCore t''
  h := mkAppN (← mkExpectedTypeHint h t) as
  t ← instantiateForall t as
  h := mkApp h (← mkEqRefl args)
  t ← whnfCore t.bindingBody!
  -- premises
  while t.isArrow do
    let m ← mkFreshExprMVar t.bindingDomain!
    let gs ← tacOn m.mvarId! (← `(tactic| first | assumption | trivial | decide | (simp; done)))
    unless gs.isEmpty do throwError "premise {t.bindingDomain!}"
    h := mkApp h (← instantiateMVars m)
    t ← whnfCore t.bindingBody!
  let (_, g) ← (← g.assert (nm "hc" d) (← mkAppM ``Clean #[mkFVar fs[1]!]) hcl).intro1P
  let (fh, g) ← (← g.assert (nm "hp" d) t h).intro1P
  let g ← g.tryClear fs[4]!
  g.withContext do
  let i (s : String) : Ident := mkIdent (nm s d)
  let gs ← match t.getAppFn.constName? with
    | some ``Ok2 => tacOn g (← `(tactic| obtain ⟨$(i "v"):ident, $(i "e"):ident, $(mkIdent `rfl):ident, $(i "hv"):ident⟩ := $(i "hp"):ident))
    | some ``Ok3 => tacOn g (← `(tactic| obtain ⟨$(i "v"):ident, $(i "u"):ident, $(i "e"):ident, $(mkIdent `rfl):ident, $(i "hv"):ident⟩ := $(i "hp"):ident))
    | some ``Ok1 => tacOn g (← `(tactic| obtain ⟨$(i "e"):ident, $(mkIdent `rfl):ident, $(i "hv"):ident⟩ := $(i "hp"):ident))
    | some ``Look => tacOn g (← `(tactic| obtain ⟨$(i "b"):ident, $(mkIdent `rfl):ident, $(mkIdent `rfl):ident⟩ := $(i "hp"):ident))
    | some ``LookC => tacOn g (← `(tactic| obtain ⟨$(i "b"):ident, $(mkIdent `rfl):ident, $(mkIdent `rfl):ident, $(i "hv"):ident⟩ := $(i "hp"):ident))
    | some ``Ret1 => tacOn g (← `(tactic| obtain ⟨$(i "v"):ident, $(mkIdent `rfl):ident, $(i "hv"):ident⟩ := $(i "hp"):ident))
    | some ``LookN => tacOn g (← `(tactic| obtain ⟨$(i "b"):ident, $(mkIdent `rfl):ident, $(mkIdent `rfl):ident⟩ := $(i "hp"):ident))
    | _ => throwError "postcondition {t}"
  let _ := fh
  let mut r : List MVarId := []
  for g in gs do
    let mut g := g
    -- beta-reduce what is known
    for dcl in (← g.getDecl).lctx do
      if dcl.userName == nm "hv" d then
        g ← g.replaceLocalDeclDefEq dcl.fvarId (← Core.betaReduce (← g.withContext (instantiateMVars dcl.type)))
    r := r ++ (← go (d + 1) g)
  return r
end

/-- Symbolic execution up to loops and returned results. -/
elab "sym" : tactic => do
  let g ← getMainGoal
  let gs ← go 1 g
  replaceMainGoal gs

/-- Symbolic execution with another number for the first name. -/
elab "sym" k:num : tactic => do
  let g ← getMainGoal
  let gs ← go k.getNat g
  replaceMainGoal gs

/-- The values of the variables with new variables at some places. -/
def loopEnv (vals : Array Expr) (ps : List (Nat × Expr)) : Array Expr := ps.foldl (fun vs (j, x) => if j < vs.size then vs.set! j x else vs) vals

/-- A loop: the places of the variables it changes, and what is known of the place in the source and of these variables. -/
elab "loopInv " k:num ps:num* " => " P:term : tactic => do
  let g ← getMainGoal
  let some (g, stmt, st) ← view g | throwError "loopInv: no statement"
  unless stmt.isAppOfArity ``Stmt.seq 3 && (stmt.getArg! 1).isAppOf ``Stmt.loop do throwError "loopInv: no loop"
  let js := ps.toList.map (·.getNat)
  let (g, J) ← g.withContext do
    let t ← instantiateMVars (← g.getType)
    let o := t.getArg! 0
    let fr := o.getArg! 4
    let sv := fr.getArg! 1
    let lxT := mkConst ``Lx
    let Pty ← mkArrow lxT (← js.foldrM (fun _ b => mkArrow vT b) (mkSort .zero))
    let P ← Tactic.elabTermEnsuringType P (some Pty)
    let P ← instantiateMVars P
    let J ← withLocalDeclD `fr (mkConst ``Frame) fun frV => withLocalDeclD `s (mkConst ``PS) fun sV => do
      let rec build (rest : List Nat) (acc : List (Nat × Expr)) (l1 : Expr) : MetaM Expr := do
        match rest with
        | [] =>
          let env ← listV (loopEnv st.vals acc)
          let e1 ← mkEq frV (mkApp2 (.const ``Frame.mk []) env sv)
          let e2 ← mkEq (mkApp (.const ``PS.lx []) sV) l1
          let e3 ← mkAppM ``Clean #[l1]
          let e4 := (mkAppN P (#[l1] ++ (acc.reverse.map (·.2)).toArray)).headBeta
          return mkAnd e1 (mkAnd e2 (mkAnd e3 e4))
        | j :: rest =>
          withLocalDeclD (.mkSimple s!"x{j}") vT fun x => do
            let b ← build rest ((j, x) :: acc) l1
            mkAppM ``Exists #[← mkLambdaFVars #[x] b]
      let b ← withLocalDeclD `l1 lxT fun l1 => do
        let b ← build js [] l1
        mkAppM ``Exists #[← mkLambdaFVars #[l1] b]
      mkLambdaFVars #[frV, sV] b
    return (g, J)
  let d := k.getNat
  let [gb, gi] ← g.withContext do
      let c ← mkConstWithFreshMVarLevels ``r_loop
      let (xs, bis, concl) ← forallMetaTelescope (← inferType c)
      unless ← isDefEq concl (← g.getType) do throwError "loopInv"
      let mut r : List MVarId := []
      let mut k := 0
      for x in xs, bi in bis do
        if bi.isExplicit then
          if k == 0 then
            unless ← isDefEq x J do throwError "loopInv J"
          else r := r ++ [x.mvarId!]
          k := k + 1
      g.assign (← instantiateMVars (mkAppN c xs))
      return r
    | throwError "loopInv"
  let finish (g : MVarId) : TacticM (List MVarId) := do
    let t ← g.withContext do instantiateMVars (← g.getType)
    let g ← g.replaceTargetDefEq (← Core.betaReduce t)
    g.withContext do
      let holes : Array (TSyntax `term) := (Array.replicate (js.length + 1) (← `(_)))
      let stx ← `(tactic| refine ⟨$[$holes],*, rfl, rfl, by (first | assumption | exact Clean.adv (by assumption) | exact Clean.adv (Clean.adv (by assumption)) | exact Clean.adv (Clean.adv (Clean.adv (by assumption)))), ?_⟩)
      let gs ← tacOn g stx
      gs.mapM fun g => do
        let t ← g.withContext do instantiateMVars (← g.getType)
        let t := (← Core.betaReduce t).replace fun e =>
          if e.isAppOfArity ``PS.lx 1 && (e.getArg! 0).isAppOfArity ``PS.mk 3 then some ((e.getArg! 0).getArg! 0) else none
        g.replaceTargetDefEq t
  let gis ← finish gi
  -- the body
  let (fs, gb) ← gb.introN 3 [`fr, `s, `hJ]
  let _ := fs
  let names := [nm "l" d] ++ js.map (fun j => nm s!"x{j}_" d)
  let ids : Array (TSyntax `rcasesPat) ← names.toArray.mapM fun n => `(rcasesPat| $(mkIdent n):ident)
  let rf : TSyntax `rcasesPat ← `(rcasesPat| $(mkIdent `rfl):ident)
  let hs : TSyntax `rcasesPat ← `(rcasesPat| $(mkIdent (nm "hs" d)):ident)
  let hc : TSyntax `rcasesPat ← `(rcasesPat| $(mkIdent (nm "hc" d)):ident)
  let hj : TSyntax `rcasesPat ← `(rcasesPat| $(mkIdent (nm "hj" d)):ident)
  let all := ids ++ #[rf, hs, hc, hj]
  let s' : TSyntax `rcasesPat ← `(rcasesPat| ⟨$(mkIdent (nm "l_" d)):ident, $(mkIdent (nm "m" d)):ident, $(mkIdent (nm "i" d)):ident⟩)
  let gs ← tacOn gb (← `(tactic| (obtain ⟨$all,*⟩ := $(mkIdent `hJ):ident; obtain $s' := $(mkIdent `s):ident; simp only [] at $(mkIdent (nm "hs" d)):ident; subst $(mkIdent (nm "hs" d)):ident)))
  let mut r : List MVarId := []
  for g in gs do
    let g ← destr g (nm "hj" d)
    for g in ← go (d + 1) g do
      let t ← g.withContext do instantiateMVars (← g.getType)
      if t.isAppOf ``Exists then
        r := r ++ (← finish g)
      else r := r ++ [g]
  replaceMainGoal (gis ++ r)

/-- Start with the body of a method: the goal is `R vs ...` for the outcome `h` of a call. -/
elab "enter" h:ident : tactic => do
  let g ← getMainGoal
  g.withContext do
  let some d := (← getLCtx).findFromUserName? h.getId | throwError "enter"
  let t ← instantiateMVars d.type
  -- runFn retryTable (n + 1) f args ⟨l, m, i⟩ = .ret vs s'
  let call := t.getArg! 1
  let f := call.getArg! 3
  let args := call.getArg! 4
  let fn ← whnf (mkApp (.const ``retryTable []) f)
  let fn ← if fn.isAppOfArity ``Func.mk 3 then pure fn else throwError "enter {fn}"
  let loc ← whnf (fn.getArg! 1)
  let some k ← getNatValue? loc | throwError "locals {loc}"
  let some as ← elems args | throwError "args"
  let env ← listV (as ++ Array.replicate (k - as.size) vNil)
  let fn := mkApp3 fn.getAppFn (fn.getArg! 0) (mkNatLit k) (fn.getArg! 2)
  let hb ← mkExpectedTypeHint (← mkEqRefl fn) (← mkEq (mkApp (.const ``retryTable []) f) fn)
  let goalTy ← instantiateMVars (← g.getType)
  -- abstract the results in the goal
  let vs := (t.getArg! 2).getArg! 0
  let s' := (t.getArg! 2).getArg! 1
  let R ← withLocalDeclD `rs (← inferType vs) fun rs => withLocalDeclD `s (mkConst ``PS) fun s => do
    let lx := if s'.isAppOfArity ``PS.mk 3 then s'.getArg! 0 else s'
    let lxs := mkApp (.const ``PS.lx []) s
    let body := goalTy.replace fun e => if e == vs then some rs else if e == s' then some s else if e == lx then some lxs else none
    mkLambdaFVars #[rs, s] body
  let n := (call.getArg! 2).getAppArgs
  let _ := n
  let c ← mkConstWithFreshMVarLevels ``r_fn
  let (xs, bis, concl) ← forallMetaTelescope (← inferType c)
  let mut k := 0
  let mut rest := []
  let goalTy' := mkApp2 R vs s'
  unless ← isDefEq (concl.getAppFn) R do throwError "enter R"
  unless ← isDefEq concl goalTy' do throwError "enter: {concl}"
  for x in xs, bi in bis do
    if bi.isExplicit then
      if k == 0 then
        unless ← isDefEq (← inferType x) (← inferType hb) do throwError "enter hb"
        x.mvarId!.assign hb
      else if k == 1 then
        let ty ← instantiateMVars (← inferType x)
        unless ← isDefEq (ty.getArg! 2) env do throwError "enter env"
        x.mvarId!.assign (← mkEqRefl env)
      else if k == 3 then
        unless ← isDefEq (← inferType x) t do throwError "enter h"
        x.mvarId!.assign d.toExpr
      else rest := [x.mvarId!]
      k := k + 1
  let pf ← instantiateMVars (mkAppN c xs)
  g.assign (← mkExpectedTypeHint pf goalTy)
  let [g] := rest | throwError "enter rest"
  let ty ← instantiateMVars (← g.getType)
  let some ty ← unfoldDefinition? ty | throwError "enter Ret"
  let g ← g.replaceTargetDefEq ty.headBeta
  let g ← g.tryClear d.fvarId
  replaceMainGoal [g]

end Verif.Echo.Sym

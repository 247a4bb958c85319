/-
The tactic `fw`: running a parser method on known tokens by the rules of `Complete.Rules`.
It finds proofs that the kernel checks; no definition here is part of the model.
-/
import Verif.Complete.Rules

namespace Verif.Complete.Tac
open Lean Meta Elab Tactic Verif.Echo.Sym Verif.Spec Verif

/-- The Boolean that a closed term computes. -/
def closedBool (x : Expr) : MetaM (Option Bool) := do
  if x.hasFVar || x.hasMVar then return none
  let y ← whnfD x
  if y.isConstOf ``Bool.true then return some true
  if y.isConstOf ``Bool.false then return some false
  return none

/-- `lhs = rhs` from the context, for the given left side. -/
def findEq (x : Expr) : MetaM (Option (Expr × Expr)) := do
  let some (h, t) ← findHyp fun t => return t.isAppOfArity ``Eq 3 && t.getArg! 1 == x | return none
  return some (h, t.getArg! 2)

/-- A use of a theorem whose last premise computes to `true` for one value of the Boolean. -/
def byCompute (f : Bool → MetaM Expr) (prem : Bool → MetaM Expr) : MetaM (Option (Bool × Expr)) := do
  for b in [false, true] do
    if let some true ← closedBool (← prem b) then
      return some (b, ← f b)
  return none

def trueRefl : MetaM Expr := mkEqRefl (.const ``Bool.true [])

/-- Apply a theorem about a token to the hypotheses; the last premise is a computation. -/
def computed (thm : Name) (goal : Bool → MetaM Expr) (prems : Array Expr) : MetaM (Option (Bool × Expr)) := do
  for b in [false, true] do
    let ty ← goal b
    let r ← observing? do
      let c ← mkConstWithFreshMVarLevels thm
      let (xs, bis, concl) ← forallMetaTelescope (← inferType c)
      unless ← isDefEq concl ty do throwError "no"
      let mut k := 0
      for x in xs, bi in bis do
        if bi.isExplicit then
          match prems[k]? with
          | some p =>
            unless ← isDefEq (← inferType x) (← inferType p) do throwError "no"
            x.mvarId!.assign p
          | none =>
            let t ← instantiateMVars (← inferType x)
            unless (← closedBool (t.getArg! 1)) == some true do throwError "no"
            x.mvarId!.assign (← mkExpectedTypeHint (← trueRefl) t)
          k := k + 1
      instantiateMVars (mkAppN c xs)
    if let some p := r then return some (b, p)
  return none

/-- The value of a condition and its proof. -/
partial def resolve (x : Expr) : MetaM (Option (Bool × Expr)) := do
  match ← knownBool x with
  | some (b, none) => return some (b, ← mkExpectedTypeHint (← mkEqRefl (boolLit b)) (← mkEq x (boolLit b)))
  | some (b, some h) => return some (b, h)
  | none => pure ()
  let goal (b : Bool) : MetaM Expr := mkEq x (boolLit b)
  if x.isAppOfArity ``Bool.or 2 then
    let a ← resolve (x.getArg! 0)
    if let some (true, h) := a then return some (true, ← mkAppOptM ``or_t1 #[none, x.getArg! 1, h])
    let b ← resolve (x.getArg! 1)
    if let some (true, h) := b then return some (true, ← mkAppOptM ``or_t2 #[x.getArg! 0, none, h])
    if let (some (_, h), some (_, h')) := (a, b) then return some (false, ← mkAppM ``or_f #[h, h'])
    return none
  if x.isAppOfArity ``Bool.and 2 then
    if let some (hs, _) ← findHyp fun t => return t.isAppOfArity ``Starts 3 && (x.find? (· == t.getArg! 2)).isSome then
      if let some r ← computed ``st_alias goal #[hs] then return some r
    let a ← resolve (x.getArg! 0)
    if let some (false, h) := a then return some (false, ← mkAppOptM ``and_f1 #[none, x.getArg! 1, h])
    let b ← resolve (x.getArg! 1)
    if let some (false, h) := b then return some (false, ← mkAppOptM ``and_f2 #[x.getArg! 0, none, h])
    if let (some (_, h), some (_, h')) := (a, b) then return some (true, ← mkAppM ``and_t #[h, h'])
    return none
  if x.isAppOfArity ``Bool.not 1 then
    let some (b, h) ← resolve (x.getArg! 0) | return none
    return some (!b, ← mkExpectedTypeHint (← mkAppM ``not_b #[h]) (← goal (!b)))
  if x.isAppOfArity ``V.nonNil 1 then
    let w := x.getArg! 0
    if let some (h, _) ← findHyp fun t => return t.isAppOfArity ``Is 2 && t.getArg! 1 == w then
      return some (true, ← mkAppM ``is_nonNil #[h])
    return none
  if x.isAppOfArity ``Lx.isEOF 1 then
    let some (h, t) ← findOpt (← mkAppM ``Lx.cur #[← mkAppM ``Lx.advance #[x.getArg! 0]]) | return none
    unless (t.getArg! 2).isAppOf ``Option.some do return none
    return some (false, ← mkAppM ``not_eof #[h])
  if x.isAppOfArity ``Lx.matchKinds 2 then
    if let some (hs, _) ← findHyp fun t => return t.isAppOfArity ``Starts 3 && t.getArg! 2 == x.getArg! 0 then
      if let some r ← computed ``st_kinds goal #[hs] then return some r
    let some (ht, t) ← findOpt (← mkAppM ``Lx.cur #[x.getArg! 0]) | return none
    if (t.getArg! 2).isAppOf ``Option.none then return ← computed ``mk_none goal #[ht]
    let tok := (t.getArg! 2).getArg! 1
    let some (hk, κ) ← findEq (← mkAppM ``Token.kind #[tok]) | return none
    if κ.isConstOf ``Kind.keyword then
      if let some r ← computed ``mk_kw0 goal #[ht, hk] then return some r
      let some (hs, _) ← findEq (← mkAppM ``Verif.upper #[← mkAppM ``Token.str #[tok]]) | return none
      return ← computed ``mk_kw goal #[ht, hk, hs]
    return ← computed ``mk_some goal #[ht, hk]
  if x.isAppOfArity ``Lx.matchKw 2 then
    if let some (hs, _) ← findHyp fun t => return t.isAppOfArity ``Starts 3 && t.getArg! 2 == x.getArg! 0 then
      if let some r ← computed ``st_kw goal #[hs] then return some r
    let some (ht, t) ← findOpt (← mkAppM ``Lx.cur #[x.getArg! 0]) | return none
    if (t.getArg! 2).isAppOf ``Option.none then return some (false, ← mkAppOptM ``mw_none #[none, x.getArg! 1, ht])
    let tok := (t.getArg! 2).getArg! 1
    let some (hk, κ) ← findEq (← mkAppM ``Token.kind #[tok]) | return none
    if κ.isConstOf ``Kind.keyword then
      let some (hs, _) ← findEq (← mkAppM ``Verif.upper #[← mkAppM ``Token.str #[tok]]) | return none
      return ← computed ``mw_kw goal #[ht, hk, hs]
    return ← computed ``mw_some goal #[ht, hk]
  if x.isAppOfArity ``Lx.matchOneOf 2 then
    let some ks ← elems (x.getArg! 1) | return none
    let mut rs := #[]
    for k in ks do
      let some r ← resolve (← mkAppM ``Lx.matchKw #[x.getArg! 0, k]) | return none
      rs := rs.push r
      if r.1 then break
    let last := rs.back!
    let mut b := last.1
    let mut p ← if b then do
        let tl ← mkListLit strT (ks.toList.drop rs.size)
        mkAppOptM ``one_t #[none, none, tl, last.2]
      else mkAppOptM ``one_nil #[x.getArg! 0]
    let n := if b then rs.size - 1 else rs.size
    for j in [0:n] do
      p ← mkAppM ``one_f #[rs[n - 1 - j]!.2, p]
    return some (b, ← mkExpectedTypeHint p (← goal b))
  if x.isAppOfArity ``BEq.beq 4 then
    let a := x.getArg! 2
    if a.isAppOfArity ``Kind.toStr 1 then
      let some (hk, _) ← findEq (a.getArg! 0) | return none
      return ← computed ``kd_eq goal #[hk]
    if a.isAppOfArity ``Verif.upper 1 then
      let some (hs, _) ← findEq a | return none
      return ← computed ``upper_eq goal #[hs]
    return none
  if x.isAppOfArity ``Verif.equalFold 2 then
    let some (hs, _) ← findEq (← mkAppM ``Verif.upper #[x.getArg! 0]) | return none
    return ← computed ``fold_eq goal #[hs]
  return none

partial def noErrProof (l : Expr) : MetaM Expr := do
  if let some (h, _) ← findHyp fun t => return t.isAppOfArity ``NoErr 1 && t.getArg! 0 == l then return h
  if l.isAppOfArity ``Lx.advance 1 then return ← mkAppM ``NoErr.adv #[← noErrProof (l.getArg! 0)]
  throwError "no proof of NoErr {l}"

/-- The statement and the state of the goal, in normal form. -/
def view (g : MVarId) : MetaM (Option (MVarId × Expr × St)) := g.withContext do
  let t := (← instantiateMVars (← g.getType)).consumeMData.headBeta
  unless t.isAppOfArity ``Verif.Complete.RetL 4 do return none
  let o ← whnfR (t.getArg! 0)
  unless o.isAppOfArity ``Stmt.run 6 do return none
  let a := o.getAppArgs
  let mut stmt ← whnf a[3]!
  if stmt.isAppOfArity ``Stmt.seq 3 then
    let x ← whnf (stmt.getArg! 1)
    stmt := mkApp3 stmt.getAppFn (stmt.getArg! 0) x (stmt.getArg! 2)
  let fr ← whnfR a[4]!
  let s ← whnfR a[5]!
  unless fr.isAppOfArity ``Frame.mk 2 && s.isAppOfArity ``PS.mk 3 do return none
  let vals ← envVals (fr.getArg! 0)
  let env ← listV vals
  let fr' := mkApp2 fr.getAppFn env (fr.getArg! 1)
  let o' := mkAppN o.getAppFn #[a[0]!, a[1]!, a[2]!, stmt, fr', s]
  let t' := mkAppN t.getAppFn #[o', t.getArg! 1, t.getArg! 2, t.getArg! 3]
  let g ← g.replaceTargetDefEq t'
  return some (g, stmt, { s, l := s.getArg! 0, m := s.getArg! 1, env, vals })

/-- Apply a rule; the line must be a good one where that is asked for. -/
def rule (g : MVarId) (thm : Name) (prems : Array Expr := #[]) : MetaM (List MVarId) := do
  let mut r := []
  for g in ← Echo.Sym.rule g thm prems do
    let t ← g.withContext do instantiateMVars (← g.getType)
    if t.isAppOf ``autoParam then
      unless (← closedBool ((← g.withContext (whnfR (t.getArg! 0))).getArg! 1)) == some false do throwError "rule {thm}: {t}"
      g.assign (← g.withContext (mkExpectedTypeHint (← mkEqRefl (.const ``Bool.false [])) (t.getArg! 0)))
    else r := r ++ [g]
  return r

/-- `resolve`, then the tactic for what remains. -/
partial def decideCond (x : Expr) : TacticM (Option (Bool × Expr)) := do
  if let some r ← resolve x then return some r
  if x.isAppOfArity ``Bool.not 1 then
    let some (b, h) ← decideCond (x.getArg! 0) | return none
    return some (!b, ← mkExpectedTypeHint (← mkAppM ``not_b #[h]) (← mkEq x (boolLit (!b))))
  if x.isAppOf ``Decidable.decide then
    for b in [false, true] do
      let m ← mkFreshExprMVar (← mkEq x (boolLit b))
      let r ← observing? do
        let gs ← tacOn m.mvarId! (← `(tactic| first | (simp only [decide_eq_true_eq, decide_eq_false_iff_not]; first | assumption | omega) | (simp; done) | (simp [V.ty?]; done)))
        unless gs.isEmpty do throwError "no"
      if r.isSome then return some (b, ← instantiateMVars m)
  return none

/-- Side conditions of a lemma about a call. -/
def side (g : MVarId) : TacticM Unit := do
  let t ← g.withContext do instantiateMVars (← g.getType)
  if t.isAppOfArity ``NoErr 1 then
    g.assign (← g.withContext (noErrProof (t.getArg! 0)))
  else
    let done ← g.withContext do
      if t.isAppOfArity ``Eq 3 && ((t.getArg! 2).isConstOf ``Bool.true || (t.getArg! 2).isConstOf ``Bool.false) then
        match ← decideCond (t.getArg! 1) with
        | some (b, h) =>
          if (t.getArg! 2).isConstOf (if b then ``Bool.true else ``Bool.false) then
            g.assign h
            return true
          else throwError "side {t}"
        | none => return false
      else return false
    unless done do
      let gs ← tacOn g (← `(tactic| first | with_reducible assumption | with_reducible rfl | decide))
      unless gs.isEmpty do throwError "side"

mutual
partial def go (ls : Array Expr) (d : Nat) (g : MVarId) : TacticM (List MVarId) := do
  let some (g, stmt, st) ← view g | return [g]
  g.withContext do
  if stmt.isAppOfArity ``Stmt.seq 3 then
    step ls d g (stmt.getArg! 1) st
  else
    match stmt.getAppFn.constName? with
    | some ``Stmt.ret => doRet d g stmt st
    | some ``Stmt.skip => cont1 ls d g ``r_skipEnd
    | some ``Stmt.brk => cont1 ls d g ``r_brkEnd
    | some ``Stmt.cont => cont1 ls d g ``r_contEnd
    | some ``Stmt.loop => return ← rule g ``r_single
    | _ => let gs ← rule g ``r_single; goAll ls d gs
partial def cont1 (ls : Array Expr) (d : Nat) (g : MVarId) (r : Name) : TacticM (List MVarId) := do
  let [g] ← rule g r | throwError "cont1"
  let t ← g.withContext do instantiateMVars (← g.getType)
  let g ← g.replaceTargetDefEq t.headBeta
  match ← view g with
  | some (g, _, _) => go ls d g
  | none => return [g]
partial def goAll (ls : Array Expr) (d : Nat) (gs : List MVarId) : TacticM (List MVarId) := do
  let mut r : List MVarId := []
  for g in gs do r := r ++ (← go ls d g)
  return r
partial def doRet (_d : Nat) (g : MVarId) (stmt : Expr) (st : St) : TacticM (List MVarId) := g.withContext do
  let es := stmt.getArg! 2
  match ← (evalL st es).run with
  | .ok (_, p) =>
    let [g] ← rule g ``r_ret #[p] | throwError "doRet"
    let t ← g.withContext do instantiateMVars (← g.getType)
    let t := (← Core.betaReduce t).replace fun e =>
      if e.isAppOfArity ``PS.lx 1 && (e.getArg! 0).isAppOfArity ``PS.mk 3 then some ((e.getArg! 0).getArg! 0) else none
    let g ← g.replaceTargetDefEq t
    return [g]
  | .error _ => return [g]
partial def step (ls : Array Expr) (d : Nat) (g : MVarId) (a : Expr) (st : St) : TacticM (List MVarId) := g.withContext do
  let x := a.getAppArgs
  match a.getAppFn.constName? with
  | some ``Stmt.seq => goAll ls d (← rule g ``r_assoc)
  | some ``Stmt.skip => goAll ls d (← rule g ``r_skip)
  | some ``Stmt.brk => cont1 ls d g ``r_brk
  | some ``Stmt.cont => cont1 ls d g ``r_cont
  | some ``Stmt.save => goAll ls d (← rule g ``r_save)
  | some ``Stmt.restore => goAll ls d (← rule g ``r_restore)
  | some ``Stmt.ret => goAll ls d (← rule g ``r_retS)
  | some ``Stmt.set =>
    match ← (evalE st x[3]!).run with
    | .ok (v, p) =>
      if v.isAppOf ``V.bool && !(v.getArg! 0).isConst then
        if let some (b, h) ← decideCond (v.getArg! 0) then
          let _ := b
          return ← goAll ls d (← rule g ``r_set #[← mkAppM ``Echo.ev_rw #[p, h]])
      goAll ls d (← rule g ``r_set #[p])
    | .error q =>
      let e ← whnfR x[3]!
      if e.isAppOf ``Exp.mk || (e.isAppOfArity ``Exp.append 2 && (← whnfR (e.getArg! 1)).isAppOf ``Exp.mk) then
        -- a position within a tree
        let hty ← mkEq (mkApp3 (.const ``Exp.eval []) st.s st.env q) (← mkAppOptM ``Option.none #[vT])
        let pf ← withLocalDeclD `hn hty fun h => do mkLambdaFVars #[h] (← noneE st q h e)
        let [g] ← rule g ``r_setA #[q, pf] | throwError "setA"
        let (_, g) ← g.introN 2 [nm "w" d, nm "hw" d]
        return ← go ls (d + 1) g
      if e.isAppOf ``Exp.endOf && ((← getLCtx).findFromUserName? `keepNumbers).isSome then
        let [g] ← rule g ``r_setN | throwError "setN"
        let (_, g) ← g.introN 1 [nm "w" d]
        return ← go ls (d + 1) g
      let [g] ← rule g ``r_setU | throwError "set"
      let (_, g) ← g.introN 1 [nm "w" d]
      go ls (d + 1) g
  | some ``Stmt.setF =>
    match ← (evalE st x[4]!).run with
    | .ok (v, p) =>
      let some j ← getNatValue? x[2]! | return [g]
      let some u := st.vals[j]? | return [g]
      let h ← mkExpectedTypeHint (← mkEqRefl (← mkAppM ``Option.some #[u])) (← mkEq (← mkAppM ``getElem? #[st.env, x[2]!]) (← mkAppM ``Option.some #[u]))
      let (u, h) ← if u.isAppOfArity ``tokV 1 then
          match ← findOpt (u.getArg! 0) with
          | some (hx, t) =>
            if (t.getArg! 2).isAppOf ``Option.some then
              let v' := mkApp (.const ``Echo.tokMk []) ((t.getArg! 2).getArg! 1)
              let e ← mkAppM ``Echo.tokV_some #[hx]
              pure (v', ← mkEqTrans h (← mkAppM ``congrArg #[← mkAppOptM ``Option.some #[vT], e]))
            else pure (u, h)
          | none => pure (u, h)
        else pure (u, h)
      let u ← unTok u
      let some path ← elems x[3]! | return [g]
      let some w ← Echo.Sym.setPathE u path.toList v | return [g]
      let hw ← mkExpectedTypeHint (← mkEqRefl (← mkAppM ``Option.some #[w])) (← mkEq (← mkAppM ``setPath #[u, x[3]!, v]) (← mkAppM ``Option.some #[w]))
      goAll ls d (← rule g ``r_setF #[p, h, hw])
    | .error _ =>
      -- a position
      let e ← whnfR x[4]!
      let gs ← try rule g ``r_setFA #[e, ← withLocalDeclD `h (← mkEq (mkApp3 (.const ``Exp.eval []) st.s st.env e) (← mkAppOptM ``Option.none #[vT])) fun h => mkLambdaFVars #[h] h] catch _ => return [g]
      let [g] := gs | throwError "setF"
      let (_, g) ← g.introN 2 [nm "w" d, nm "hw" d]
      go ls (d + 1) g
  | some ``Stmt.ite =>
    let y ← whnfD x[3]!
    let z ← whnfD x[4]!
    let isEnd ← if y.isAppOfArity ``Stmt.set 4 && z.isAppOf ``Stmt.skip then pure ((← whnfD (y.getArg! 3)).isAppOf ``Exp.endOf) else pure false
    let isEnd ← if isEnd then
        match ← (evalE st x[2]!).run with
        | .ok (v, _) =>
          if !v.isAppOf ``V.bool then pure true
          else if (v.getArg! 0).isConstOf ``Bool.false then pure false
          else match ← decideCond (v.getArg! 0) with
            | some (false, _) => pure false
            | _ => pure true
        | .error _ => pure true
      else pure false
    if isEnd then
      let some j ← getNatValue? (y.getArg! 2) | return [g]
      let some u := st.vals[j]? | return [g]
      let h ← mkExpectedTypeHint (← mkEqRefl (← mkAppM ``Option.some #[u])) (← mkEq (← mkAppM ``getElem? #[st.env, y.getArg! 2]) (← mkAppM ``Option.some #[u]))
      if u.isAppOf ``V.nat && ((← getLCtx).findFromUserName? `keepNumbers).isSome then
        let [g] ← rule g ``r_iteSetN #[h] | throwError "iteSetN"
        let (_, g) ← g.introN 1 [nm "w" d]
        return ← go ls (d + 1) g
      let [g] ← rule g ``r_iteSet #[h] | throwError "iteSet"
      let (_, g) ← g.introN 1 [nm "w" d]
      return ← go ls (d + 1) g
    doIte ls d g x[2]! st
  | some ``Stmt.call =>
    match ← (evalL st x[3]!).run with
    | .ok (as, p) => doCall ls d g x[2]! as p st
    | .error _ => return [g]
  | some ``Stmt.prim =>
    let q := x[2]!
    match q.getAppFn.constName? with
    | some ``Prim.consume => goAll ls d (← rule g ``f_consume #[← noErrProof st.l])
    | some ``Prim.peek => goAll ls d (← rule g ``f_peek #[← noErrProof st.l])
    | some ``Prim.tryKind =>
      let .ok (v, p) ← (evalE st (q.getArg! 0)).run | return [g]
      let c ← mkAppM ``Lx.matchKinds #[st.l, ← mkListLit strT [v.getArg! 0]]
      match ← resolve c with
      | some (true, h) => goAll ls d (← rule g ``f_tryKindT #[p, h])
      | some (false, h) => goAll ls d (← rule g ``f_tryKindF #[p, h])
      | none => return [g]
    | some ``Prim.expectKind =>
      let .ok (v, p) ← (evalE st (q.getArg! 0)).run | return [g]
      let c ← mkAppM ``Lx.matchKinds #[st.l, ← mkListLit strT [v.getArg! 0]]
      match ← resolve c with
      | some (true, h) => goAll ls d (← rule g ``f_expectKind #[p, h, ← Echo.Sym.kindOk v])
      | _ => return [g]
    | some ``Prim.expectKw =>
      let .ok (v, p) ← (evalE st (q.getArg! 0)).run | return [g]
      let c ← mkAppM ``Lx.matchKw #[st.l, v.getArg! 0]
      match ← resolve c with
      | some (true, h) => goAll ls d (← rule g ``f_expectKw #[p, h])
      | _ => return [g]
    | some ``Prim.tryKws =>
      let some ks ← elems (q.getArg! 0) | return [g]
      let c ← mkAppM ``Lx.matchKw #[st.l, ks[0]!]
      match ← resolve c with
      | some (false, h) => goAll ls d (← rule g ``f_tryKwsF #[h])
      | some (true, h) =>
        if ks.size == 1 then goAll ls d (← rule g ``f_tryKws1T #[h])
        else if ks.size == 2 then
          match ← resolve (← mkAppM ``Lx.matchKw #[← mkAppM ``Lx.advance #[st.l], ks[1]!]) with
          | some (true, h') => goAll ls d (← rule g ``f_tryKws2T #[h, h'])
          | some (false, h') => goAll ls d (← rule g ``f_tryKws2F #[h, h'])
          | none => return [g]
        else return [g]
      | none => return [g]
    | _ => return [g]
  | _ => return [g]
partial def doIte (ls : Array Expr) (d : Nat) (g : MVarId) (c : Expr) (st : St) : TacticM (List MVarId) := g.withContext do
  match ← (evalE st c).run with
  | .error _ =>
    let c ← whnfR c
    if c.isAppOf ``Exp.and then return ← goAll ls d (← rule g ``r_iteAnd)
    if c.isAppOf ``Exp.or then return ← goAll ls d (← rule g ``r_iteOr)
    return [g]
  | .ok (v, p) =>
    unless v.isAppOf ``V.bool do return [g]
    let x := v.getArg! 0
    if x.isConstOf ``Bool.true then return ← goAll ls d (← rule g ``r_iteT #[p])
    if x.isConstOf ``Bool.false then return ← goAll ls d (← rule g ``r_iteF #[p])
    match ← decideCond x with
    | some (true, h) => goAll ls d (← rule g ``r_iteT #[← mkAppM ``Echo.ev_rw #[p, h]])
    | some (false, h) => goAll ls d (← rule g ``r_iteF #[← mkAppM ``Echo.ev_rw #[p, h]])
    | none =>
      let [g1, g2] ← rule g ``r_ite #[p] | throwError "ite"
      let (_, g1) ← g1.introN 1 [nm "c" d]
      let (_, g2) ← g2.introN 1 [nm "c" d]
      let g1 ← norm g1 (nm "c" d)
      let g2 ← norm g2 (nm "c" d)
      return (← go ls (d + 1) g1) ++ (← go ls (d + 1) g2)
partial def doCall (ls : Array Expr) (d : Nat) (g : MVarId) (f : Expr) (as : Array Expr) (p : Expr) (st : St) : TacticM (List MVarId) := g.withContext do
  let args ← listV as
  let Pty ← mkArrow (← mkAppM ``List #[vT]) (← mkArrow (mkConst ``Lx) (mkSort .zero))
  let find (c : Expr) : TacticM (Option Expr) := do
    let r ← observing? do
      let (xs, bis, concl) ← forallMetaTelescope (← instantiateMVars (← inferType c))
      unless concl.isAppOfArity ``Fw 4 do throwError "no"
      let P ← mkFreshExprMVar Pty
      let ty := mkApp4 (.const ``Fw []) f args st.l P
      unless ← withReducible (isDefEq concl ty) do throwError "no"
      let mut rest := #[]
      for x in xs, bi in bis do
        if bi.isExplicit then
          unless ← x.mvarId!.isAssigned do rest := rest.push x.mvarId!
      for m in rest do
        unless ← m.isAssigned do side m
      let e ← instantiateMVars (mkAppN c xs)
      if e.hasExprMVar then throwError "no"
      return e
    return r
  let mut fw : Option Expr := none
  -- hypotheses, last first
  for dcl in (← getLCtx).decls.toList.reverse do
    if let some dcl := dcl then
      unless fw.isSome || dcl.isImplementationDetail do
        let t ← instantiateMVars dcl.type
        if (t.find? (·.isConstOf ``Fw)).isSome then
          if let some e ← find dcl.toExpr then fw := some e
  for c in ls do
    unless fw.isSome do
      let c' ← if c.isConst then mkConstWithFreshMVarLevels c.constName! else pure c
      if let some e ← find c' then fw := some e
  let some pf := fw | return [g]
  let [g] ← rule g ``r_call #[p, pf] | throwError "call"
  let (fs, g) ← g.introN 5 [nm "rs" d, nm "l" d, nm "m" d, nm "i" d, nm "hp" d]
  let t ← g.withContext do whnfCore (← instantiateMVars (← inferType (mkFVar fs[4]!)))
  let g ← g.replaceLocalDeclDefEq fs[4]! t
  g.withContext do
  let i (s : String) : Ident := mkIdent (nm s d)
  let gs ← match t.getAppFn.constName? with
    | some ``Res => tacOn g (← `(tactic| obtain ⟨$(mkIdent `rfl):ident, $(mkIdent `rfl):ident⟩ := $(i "hp"):ident))
    | some ``Got => tacOn g (← `(tactic| obtain ⟨$(i "v"):ident, $(mkIdent `rfl):ident, $(mkIdent `rfl):ident, $(i "hv"):ident⟩ := $(i "hp"):ident))
    | some ``ResB => tacOn g (← `(tactic| obtain ⟨$(i "b"):ident, $(mkIdent `rfl):ident, $(mkIdent `rfl):ident⟩ := $(i "hp"):ident))
    | some ``GotL => tacOn g (← `(tactic| obtain ⟨$(i "v"):ident, $(mkIdent `rfl):ident, $(mkIdent `rfl):ident, $(i "hv"):ident⟩ := $(i "hp"):ident))
    | some ``GotO => tacOn g (← `(tactic| obtain ⟨$(i "v"):ident, $(mkIdent `rfl):ident, $(mkIdent `rfl):ident, $(i "hv"):ident⟩ := $(i "hp"):ident))
    | some ``GotT => tacOn g (← `(tactic| obtain ⟨$(i "v"):ident, $(mkIdent `rfl):ident, $(mkIdent `rfl):ident, $(i "hv"):ident⟩ := $(i "hp"):ident))
    | _ => return [g]
  goAll ls (d + 1) gs
end

/-- Run the method on the tokens known from the context, with the given lemmas about the methods it calls. -/
elab "fw" "[" ts:term,* "]" : tactic => do
  let g ← getMainGoal
  let ls ← g.withContext do
    ts.getElems.mapM fun t => do
      match t with
      | `($i:ident) => do
        if ((← getLCtx).findFromUserName? i.getId).isSome then Term.elabTerm t none
        else return .const (← realizeGlobalConstNoOverloadWithInfo i) []
      | _ => Term.elabTerm t none
  let gs ← go ls 1 g
  replaceMainGoal gs

/-- Start with the body of a method. -/
elab "start" : tactic => do
  let g ← getMainGoal
  g.withContext do
  let t ← whnfR (← instantiateMVars (← g.getType))
  unless t.isAppOfArity ``Fw 4 do throwError "start"
  let f := t.getArg! 0
  let fn ← whnf (mkApp (.const ``retryTable []) f)
  let fn ← if fn.isAppOfArity ``Func.mk 3 then pure fn else throwError "start {fn}"
  let some k ← getNatValue? (← whnf (fn.getArg! 1)) | throwError "locals"
  let some as ← elems (t.getArg! 1) | throwError "args"
  let env ← listV (as ++ Array.replicate (k - as.size) vNil)
  let fn := mkApp3 fn.getAppFn (fn.getArg! 0) (mkNatLit k) (fn.getArg! 2)
  let hb ← mkExpectedTypeHint (← mkEqRefl fn) (← mkEq (mkApp (.const ``retryTable []) f) fn)
  let c ← mkConstWithFreshMVarLevels ``r_fn
  let (xs, bis, concl) ← forallMetaTelescope (← inferType c)
  unless ← isDefEq concl t do throwError "start: {concl}"
  let ys := (xs.zip bis).filter (·.2.isExplicit) |>.map (·.1)
  unless ← isDefEq (← inferType ys[0]!) (← inferType hb) do throwError "start hb"
  ys[0]!.mvarId!.assign hb
  unless ← isDefEq ((← instantiateMVars (← inferType ys[1]!)).getArg! 2) env do throwError "start env"
  ys[1]!.mvarId!.assign (← mkEqRefl env)
  g.assign (← instantiateMVars (mkAppN c xs))
  let (_, g) ← ys[2]!.mvarId!.introN 3 [`n, `m, `i]
  let g ← g.replaceTargetDefEq (← Core.betaReduce (← g.withContext do instantiateMVars (← g.getType)))
  replaceMainGoal [g]

/-- Add the equations of the known trees. -/
elab "trees" : tactic => do
  let g ← getMainGoal
  let mut g := g
  for d in (← g.withContext getLCtx) do
    if d.isImplementationDetail then continue
    let t ← instantiateMVars d.type
    if t.isAppOfArity ``Is 2 then
      let p := mkProj ``And 1 d.toExpr
      let ty ← g.withContext do mkEq (← mkAppM ``V.norm #[← mkAppOptM ``id #[mkConst ``Verif.Str], t.getArg! 1]) (t.getArg! 0)
      let (_, g') ← (← g.assert `ht ty p).intro1P
      g := g'
  replaceMainGoal [g]

/-- A tree is the expected one. -/
macro "is_tree" : tactic => `(tactic| (refine ⟨by simp, ?_⟩; trees; simp only [V.norm, V.normF, V.normL, schema, id, *]; rfl))

/-- The expected tree at the expected place. -/
macro "got" : tactic => `(tactic| (refine ⟨_, rfl, rfl, ?_⟩; is_tree))

end Verif.Complete.Tac

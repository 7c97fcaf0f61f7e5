import Verif.Model.ReleaseBuild
import Verif.Lemmas.Core
import Verif.Props.ReleaseSpec

/-!
# Proofs about the release build, function by function

`Keeps r r'` is the claim about one call: the unchecked call `r'` ends as the checked call `r` ends,
unless an index check fails or the behaviour is undefined. `release_keeps f` states the claim about `ACE.f` and `ACE.Release.f` for all arguments and
proves it from the claims about the functions called, in the theorem `ACE.Release.f.keeps`.
Functions among the arguments are related likewise.
`release_never f` does the same for the claim that `ACE.Release.f` never fails an index check.
-/

namespace ACE.Release

namespace Keeps
variable {α β : Type}

theorem same (r : Res α) : Keeps r r := .inr (.inr rfl)

theorem range {r : Res α} : Keeps (.error .range) r := .inl rfl

theorem ub {r : Res α} : Keeps (.error .ub) r := .inr (.inl rfl)

theorem bind {r r' : Res α} {k k' : α → Res β} (h : Keeps r r') (hk : ∀ v, Keeps (k v) (k' v)) :
    Keeps (r >>= k) (r' >>= k') := by
  rcases h with h | h | h
  · rw [h]; exact range
  · rw [h]; exact ub
  · rw [h]
    cases r with
    | error e => exact same _
    | ok v => exact hk v

theorem ite {c : Prop} [Decidable c] {a b a' b' : Res β} (h1 : Keeps a a') (h2 : Keeps b b') :
    Keeps (if c then a else b) (if c then a' else b') := by
  split <;> assumption

theorem mapM {γ : Type} {f f' : γ → Res β} (l : List γ) (h : ∀ i, Keeps (f i) (f' i)) :
    Keeps (l.mapM f) (l.mapM f') := by
  induction l with
  | nil => exact same _
  | cons a l ih =>
      rw [List.mapM_cons, List.mapM_cons]
      exact bind (h a) fun _ => bind ih fun _ => same _

theorem map {f : α → β} {r r' : Res α} (h : Keeps r r') : Keeps (f <$> r) (f <$> r') := by
  rcases h with h | h | h
  · rw [h]; exact range
  · rw [h]; exact ub
  · rw [h]; exact same _

end Keeps

namespace Never
variable {α β : Type}

theorem ok (v : α) : Never (.ok v) := fun h => nomatch h
theorem pure' (v : α) : Never (pure v) := fun h => nomatch h
theorem thrown : Never (.error .thrown : Res α) := fun h => nomatch h
theorem ub : Never (.error .ub : Res α) := fun h => nomatch h
theorem endless : Never (.error .endless : Res α) := fun h => nomatch h

theorem bind {r : Res α} {k : α → Res β} (h : Never r) (hk : ∀ v, Never (k v)) : Never (r >>= k) := by
  intro hw
  cases hr : r with
  | error e =>
      rw [hr] at hw
      cases hw
      exact h hr
  | ok v => rw [hr] at hw; exact hk v hw

theorem ite {c : Prop} [Decidable c] {a b : Res β} (h1 : Never a) (h2 : Never b) :
    Never (if c then a else b) := by
  split <;> assumption

theorem mapM {γ : Type} {f : γ → Res β} (l : List γ) (h : ∀ i, Never (f i)) : Never (l.mapM f) := by
  induction l with
  | nil => exact pure' _
  | cons a l ih =>
      rw [List.mapM_cons]
      exact bind (h a) fun _ => bind ih fun _ => pure' _

theorem map {f : α → β} {r : Res α} (h : Never r) : Never (f <$> r) := by
  intro hw
  cases hr : r with
  | error e => rw [hr] at hw; cases hw; exact h hr
  | ok v => rw [hr] at hw; exact nomatch hw

end Never

open Lean Elab Command Meta

/-- Apply a theorem, if it applies. -/
def use (g : MVarId) (n : Name) : MetaM (Option (List MVarId)) := do
  if (← getEnv).contains n then
    let s ← saveState
    try
      let gs ← g.apply (← mkConstWithFreshMVarLevels n)
      return some gs
    catch _ => s.restore; return none
  else return none

/-- Close the goal with a hypothesis. -/
def hypothesis (g : MVarId) : MetaM (Option (List MVarId)) := g.withContext do
  for d in ← getLCtx do
    unless d.isImplementationDetail do
      if (← isProp d.type) then
        let s ← saveState
        try
          return some (← g.apply d.toExpr)
        catch _ => s.restore
  return none

/-- One step of a proof of `Keeps a b` or `Never b`. -/
partial def prove (keeps : Bool) (g : MVarId) : MetaM Unit := do
  let (_, g) ← g.intros
  g.withContext do
  let t := (← instantiateMVars (← g.getType)).consumeMData
  let base := if keeps then ``Keeps else ``Never
  let some a := (if t.isAppOfArity ``Keeps 3 then some (t.getArg! 1)
    else if t.isAppOfArity ``Never 2 then some (t.getArg! 1) else none)
    | throwError "not a claim: {t}"
  let again (gs : List MVarId) : MetaM Unit := gs.forM (prove keeps)
  let a' := a.consumeMData
  -- the same on both sides
  if keeps then
    if a == t.getArg! 2 then
      discard <| g.apply (← mkConstWithFreshMVarLevels ``Keeps.same)
      return
  if let some gs ← hypothesis g then again gs; return
  -- bound names
  if a'.isLet || a'.isHeadBetaTarget || a'.isMData then
    let f (e : Expr) : Expr := e.consumeMData
    let rec reduce (e : Expr) : Expr :=
      match f e with
      | .letE _ _ v b _ => reduce (b.instantiate1 v)
      | e => if e.isHeadBetaTarget then reduce e.headBeta else e
    let args := t.getAppArgs
    let t' := if keeps then mkAppN t.getAppFn #[args[0]!, reduce args[1]!, reduce args[2]!]
      else mkAppN t.getAppFn #[args[0]!, reduce args[1]!]
    prove keeps (← g.change t')
    return
  let fn := a'.getAppFn
  match fn with
  | .const n _ =>
      let known := if keeps then nameOf n ++ `keeps
        else if (`ACE.Release).isPrefixOf n then n ++ `never else nameOf n ++ `never
      if let some gs ← use g known then again gs; return
      if n == ``ite then
        if let some gs ← use g (base ++ `ite) then again gs; return
      if n == ``Bind.bind then
        if let some gs ← use g (base ++ `bind) then again gs; return
      if n == ``List.mapM then
        if let some gs ← use g (base ++ `mapM) then again gs; return
      if n == ``Functor.map then
        if let some gs ← use g (base ++ `map) then again gs; return
      if n == ``Except.error then
        for l in [`range, `ub, `thrown, `endless] do
          if let some gs ← use g (base ++ l) then again gs; return
      if n == ``Except.ok || n == ``Pure.pure then
        for l in [`ok, `pure'] do
          if let some gs ← use g (base ++ l) then again gs; return
      if ← isMatcher n then
        if let some gs ← splitTarget? g then
          for h in gs do h.withContext do
            let t ← instantiateMVars (← h.getType)
            let t ← Core.betaReduce (← dsimpMatch t)
            prove keeps (← h.change t)
          return
      throwError "stuck at {n}:{indentExpr t}"
  | _ => throwError "stuck:{indentExpr t}"
where
  dsimpMatch (t : Expr) : MetaM Expr :=
    Meta.transform t (pre := fun e => do
      match ← reduceMatcher? e with
      | .reduced e => return .visit e
      | _ => return .continue)

/-- The steps for the goal of a proof written by hand. -/
elab "release" : tactic => do
  let g ← Tactic.getMainGoal
  let t := (← instantiateMVars (← g.getType)).consumeMData
  g.withContext do prove (t.isAppOf ``Keeps) (← g.change (← Core.betaReduce t))
  Tactic.replaceMainGoal []

/-- Is this a type of results, or of functions that return a result? -/
def isFunction (t : Expr) : MetaM Bool :=
  forallTelescopeReducing t fun _ r => return (r.isAppOf ``ACE.Res || r.isAppOf ``Except)

/-- Introduce arguments `xs` of a function, those that are functions twice and related. -/
partial def doubled (keeps : Bool) (xs : List Expr) (done done' extra : Array Expr)
    (k : Array Expr → Array Expr → Array Expr → MetaM Expr) : MetaM Expr := do
  match xs with
  | [] => k done done' extra
  | x :: xs =>
      if ← isFunction (← inferType x) then
        if keeps then
          withLocalDeclD ((← x.fvarId!.getUserName).appendAfter "'") (← inferType x) fun x' => do
            let h ← forallTelescope (← inferType x) fun ys _ => do
              mkForallFVars ys (← mkAppM ``Keeps #[mkAppN x ys, mkAppN x' ys])
            withLocalDeclD ((← x.fvarId!.getUserName).appendAfter "_keeps") h fun hx =>
              doubled keeps xs (done.push x) (done'.push x') (extra ++ #[x', hx]) k
        else
          let h ← forallTelescope (← inferType x) fun ys _ => do
            mkForallFVars ys (← mkAppM ``Never #[mkAppN x ys])
          withLocalDeclD ((← x.fvarId!.getUserName).appendAfter "_never") h fun hx =>
            doubled keeps xs (done.push x) (done'.push x) (extra.push hx) k
      else doubled keeps xs (done.push x) (done'.push x) extra k

/-- The claim about a function: `n` of the debug build and `n'` of the release build. -/
def claim (keeps : Bool) (n n' : Name) : MetaM (Option Expr) := do
  let c ← getConstInfo n'
  let us := c.levelParams.map mkLevelParam
  forallTelescopeReducing c.type fun xs r => do
    unless r.isAppOf ``ACE.Res || r.isAppOf ``Except do return none
    let e ← doubled keeps xs.toList #[] #[] #[] fun ys ys' extra => do
      let body ← if keeps then mkAppM ``Keeps #[mkAppN (.const n us) ys, mkAppN (.const n' us) ys']
        else mkAppM ``Never #[mkAppN (.const n' us) ys]
      mkForallFVars (xs ++ extra) body
    return some e

/-- State and prove the claim about a function whose callees have been dealt with. -/
def state (keeps : Bool) (n n' : Name) : MetaM Unit := do
  let thm := nameOf n ++ (if keeps then `keeps else `never)
  if (← getEnv).contains thm then return
  let some t ← claim keeps n n' | return
  let g ← mkFreshExprMVar t
  let (_, m) ← g.mvarId!.intros
  let m ← m.deltaTarget fun k => k == n || k == n'
  try
    m.withContext do prove keeps (← m.change (← Core.betaReduce (← m.getType)))
  catch ex => throwError "{n}: {ex.toMessageData}"
  let v ← instantiateMVars g
  addDecl <| .thmDecl { name := thm, levelParams := (← getConstInfo n').levelParams, type := t, value := v }

/-- Does the type of a declaration end in a result? -/
def returns (n : Name) : MetaM Bool := do
  let some c := (← getEnv).find? n | return false
  forallTelescopeReducing c.type fun _ r => return r.isAppOf ``ACE.Res || r.isAppOf ``Except

/-- State and prove the claim about a function and about every function it calls. -/
partial def stateAll (keeps : Bool) (n : Name) : MetaM Unit := do
  let env ← getEnv
  if env.contains (nameOf n ++ (if keeps then `keeps else `never)) then return
  let n' := if env.contains (nameOf n) then nameOf n else n
  unless isModel env n do return
  let some (.defnInfo d) := env.find? n' | return
  if keeps && n' == n then
    -- the same function in both builds: only a claim if functions are among its arguments
    let higher ← forallTelescopeReducing d.type fun xs _ =>
      xs.anyM fun x => do isFunction (← inferType x)
    if !higher then return
  if n.isInternal || (← isMatcher n) then return
  -- the functions called, by their names in the debug build
  for m in d.value.getUsedConstants do
    let m := if (`ACE.Release).isPrefixOf m then `ACE ++ m.replacePrefix `ACE.Release .anonymous else m
    if m != n then stateAll keeps m
  if ← returns n' then state keeps n n'

/-- The claims about what the functions return. -/
elab "release_keeps" ids:ident* : command => do
  for id in ids do
    let n ← liftCoreM <| realizeGlobalConstNoOverload id
    liftTermElabM <| stateAll true n

/-- The claims that no index check fails. -/
elab "release_never" ids:ident* : command => do
  for id in ids do
    let n ← liftCoreM <| realizeGlobalConstNoOverload id
    liftTermElabM <| stateAll false n

/-- The claims about all functions of the release build. -/
def stateRest (keeps : Bool) : CommandElabM Unit := do
  let env ← getEnv
  for (n, c) in env.constants.map₁.toList do
    if let .defnInfo _ := c then
      if isModel env n && !(`ACE.Release).isPrefixOf n && env.contains (nameOf n) then
        try liftTermElabM <| stateAll keeps n catch e => logException e

@[inherit_doc stateRest] elab "release_keeps_all" : command => stateRest true
@[inherit_doc stateRest] elab "release_never_all" : command => stateRest false

end ACE.Release

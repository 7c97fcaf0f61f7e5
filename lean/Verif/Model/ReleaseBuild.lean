import Lean
import Verif.Model.Core

/-!
# Compiling the model with NDEBUG

`ACEtk` checks its indices inside `#ifndef NDEBUG … #endif`. The same source compiled with `NDEBUG`
is the same program with other definitions of the functions that contain such a section. The command

    release_build f g …

does what the compiler does: it takes a function of the model, and all functions it calls, and
defines `ACE.Release.f` as the same term with every call of a function `h` replaced by a call of
`ACE.Release.h` where that exists. The functions with a section of their own have to be there
already: they are written by hand in `Verif.Model.Release`. The command refuses a function that
contains an index check itself (mentions `Err.range`), so none can slip through. It also refuses
recursive functions (loops), which are written out as well.
-/

namespace ACE.Release
open Lean Elab Command Meta

/-- The name of a function in the release build. -/
def nameOf (n : Name) : Name := `ACE.Release ++ n.replacePrefix `ACE .anonymous

/-- Is this a declaration of the model? -/
def isModel (env : Environment) (n : Name) : Bool :=
  match env.getModuleIdxFor? n with
  | some i => (`Verif.Model).isPrefixOf (env.header.moduleNames[i.toNat]!)
  | none => false

/-- Does this function of the model, or one it calls, contain an index check? -/
partial def checks (env : Environment) (n : Name) : StateM (NameMap Bool) Bool := do
  if n == ``ACE.Err.range then return true
  if !isModel env n then return false
  match (← get).find? n with
  | some b => return b
  | none =>
    modify (·.insert n false)
    let some v := env.find? n >>= ConstantInfo.value? | return false
    let mut b := false
    for m in v.getUsedConstants do
      if ← checks env m then b := true
    modify (·.insert n b)
    return b

/-- The term with all functions replaced by those of the release build. -/
def rename (env : Environment) (e : Expr) : Expr :=
  e.replace fun
    | .const n us => if env.contains (nameOf n) then some (.const (nameOf n) us) else none
    | _ => none

/-- Define `n` and everything it calls in the release build. -/
partial def build (n : Name) : CoreM Unit := do
  let env ← getEnv
  if env.contains (nameOf n) then return
  if !((checks env n).run {}).1 then return
  let some (.defnInfo d) := env.find? n | return
  if d.value.getUsedConstants.contains ``ACE.Err.range then
    throwError "{n} contains an index check: write it by hand"
  if d.value.getUsedConstants.any fun m => m.isStr && m.getString! == "brecOn" then
    throwError "{n} is recursive: write it by hand"
  for m in d.value.getUsedConstants do build m
  let env ← getEnv
  addAndCompile <| .defnDecl
    { d with name := nameOf n, value := rename env d.value, all := [nameOf n] }

/-- Define these functions, and everything they call, in the release build. -/
elab "release_build" ids:ident* : command => do
  for id in ids do
    let n ← liftCoreM <| realizeGlobalConstNoOverload id
    liftCoreM <| build n

/-- The checks themselves: empty in the release build. -/
def isCheck (n : Name) : Bool :=
  n ∈ [`ACE.Base.verifyIndex, `ACE.ArrayData.verifyArray, `ACE.ArrayData.verifyIndex,
    `ACE.AngularData.verifyIndexOf, `ACE.LocBlock.verifyDataIndex, `ACE.TableData.verifyIndex,
    `ACE.Dist.verifyValueIndex, `ACE.ITXE.verifyIndices]

/-- Define every function of the imported model that contains an index check, or calls one that
does: nothing is left out. -/
elab "release_build_all" : command => do
  let env ← getEnv
  for (n, c) in env.constants.map₁.toList do
    if let .defnInfo _ := c then
      if isModel env n && !n.isInternal && !(`ACE.Release).isPrefixOf n && !(``ACE.Err).isPrefixOf n
          && !isCheck n && !(← liftTermElabM <| isMatcher n) && !(← liftTermElabM <| isInstance n)
          && !(`ACE.instReprErr).isPrefixOf n then
        liftCoreM <| build n

end ACE.Release

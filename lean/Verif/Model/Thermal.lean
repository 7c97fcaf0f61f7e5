import Verif.Model.ArrayBlocks

/-!
# Thermal inelastic angular distributions (ITXE)
-/

namespace ACE

/-- `thermal::DiscreteCosines`, /repo/src/ACEtk/thermal/DiscreteCosines.hpp:22-65. -/
structure DCos where
  xss : Words
  nc : Nat
deriving DecidableEq, Repr
namespace DCos
/-- `verifySize` and the reading constructor, DiscreteCosines/src/verifySize.hpp:1-17 and
ctor.hpp:29-34. -/
def ofRange (nc : Nat) (xs : Words) : Res DCos := do
  guardThrow (!(xs.length < 1 + nc))
  return ⟨xs, nc⟩
/-- DiscreteCosines/src/ctor.hpp:15-20 and generateXSS.hpp:1-7. (`cosines.size()` is evaluated
after `std::move( cosines )` was bound to a reference that is only copied from, so it is the real
size.) -/
def mk' (energy : Dbl) (cosines : Words) : Res DCos := ofRange cosines.length (energy :: cosines)
/-- `energy`, DiscreteCosines.hpp:39. -/
def energy (d : DCos) : Res Dbl := Base.XSS d.xss 1
/-- `NC`, DiscreteCosines.hpp:44. -/
def NC (d : DCos) : Nat := d.nc
/-- `cosines`, DiscreteCosines.hpp:54-57. -/
def cosines (d : DCos) : Res Words := Base.XSSr d.xss 2 d.nc
end DCos

/-- `thermal::DiscreteCosinesWithProbability`,
/repo/src/ACEtk/thermal/DiscreteCosinesWithProbability.hpp:24-77. -/
structure PCos where
  xss : Words
  nc : Nat
deriving DecidableEq, Repr
namespace PCos
/-- DiscreteCosinesWithProbability/src/verifySize.hpp:1-18 and ctor.hpp:34-41. -/
def ofRange (nc : Nat) (xs : Words) : Res PCos := do
  guardThrow (!(xs.length < 3 + nc))
  return ⟨xs, nc⟩
/-- DiscreteCosinesWithProbability/src/ctor.hpp:17-25 and generateXSS.hpp:1-8. -/
def mk' (energy pdf cdf : Dbl) (cosines : Words) : Res PCos :=
  ofRange cosines.length (energy :: pdf :: cdf :: cosines)
/-- `energy`, DiscreteCosinesWithProbability.hpp:41. -/
def energy (d : PCos) : Res Dbl := Base.XSS d.xss 1
/-- `pdf`, DiscreteCosinesWithProbability.hpp:46. -/
def pdf (d : PCos) : Res Dbl := Base.XSS d.xss 2
/-- `cdf`, DiscreteCosinesWithProbability.hpp:51. -/
def cdf (d : PCos) : Res Dbl := Base.XSS d.xss 3
/-- `NC`, DiscreteCosinesWithProbability.hpp:56. -/
def NC (d : PCos) : Nat := d.nc
/-- `cosines`, DiscreteCosinesWithProbability.hpp:66-69. -/
def cosines (d : PCos) : Res Words := Base.XSSr d.xss 4 d.nc
end PCos

/-- `AngularDistributionData`,
/repo/src/ACEtk/thermal/InelasticAngularDistributionBlock.hpp:29-30. -/
inductive CosData where
  | plain (d : DCos)
  | prob (d : PCos)
deriving DecidableEq, Repr

/-- `thermal::InelasticAngularDistributionBlock`,
/repo/src/ACEtk/thermal/InelasticAngularDistributionBlock.hpp:24-217. -/
structure ITXE where
  xss : Words
  ifeng : Nat
  nc : Nat
  nieb : Option Nat
  ne : Nat
  locb : Nat
  data : List (List CosData)
deriving DecidableEq, Repr
namespace ITXE
/-- `relativeDistributionLocator`, InelasticAngularDistributionBlock.hpp:58-93: `IXSS + 1` is `int`
arithmetic, the difference with `locb - 1` is modulo 2^64. -/
def relLocator (xs : Words) (locb index : Nat) : Res Nat := do
  let locc ← toInt32 (some ((← Base.IXSS xs index) + 1))
  return sizeOfInt (locc - ((locb : Int) - 1))
/-- `NIEB`, InelasticAngularDistributionBlock.hpp:157-170 with verifyIndex,
src/verifyIndices.hpp:1-12. -/
def NIEBof (xs : Words) (nieb : Option Nat) (ne index : Nat) : Res Nat :=
  match nieb with
  | some n => .ok n
  | none => do
    if index < 1 ∨ index > ne then .error .range
    return sizeOfInt (← Base.IXSS xs (ne + index))
/-- The inner loop of `generateBlocks` for discrete cosines,
InelasticAngularDistributionBlock/src/generateBlocks.hpp:15-20. -/
def plainLoop (xs : Words) (nc : Nat) : (todo cur : Nat) → Res (List CosData × Nat)
  | 0, cur => return ([], cur)
  | todo + 1, cur => do
    let d ← DCos.ofRange nc (← sub xs cur (cur + nc + 1))
    let (ds, cur') ← plainLoop xs nc todo (cur + nc + 1)
    return (.plain d :: ds, cur')
/-- The outer loop, generateBlocks.hpp:9-22. -/
def plainBlocks (xs : Words) (nc nieb : Nat) : (todo cur : Nat) → Res (List (List CosData))
  | 0, _ => return []
  | todo + 1, cur => do
    let (ds, cur') ← plainLoop xs nc nieb cur
    return ds :: (← plainBlocks xs nc nieb todo cur')
/-- The inner loop for cosines with probabilities, generateBlocks.hpp:36-41: the last entry ends
at `next`. -/
def probLoop (xs : Words) (nc next : Nat) : (todo cur : Nat) → Res (List CosData × Nat)
  | 0, cur => return ([], cur)
  | todo + 1, cur => do
    let e := if todo = 0 then next else cur + nc + 3
    let d ← PCos.ofRange nc (← sub xs cur e)
    let (ds, cur') ← probLoop xs nc next todo e
    return (.prob d :: ds, cur')
/-- The end of the data of an incident energy, generateBlocks.hpp:33. -/
def nextOf (xs : Words) (ne incident locator : Nat) : Res Nat :=
  if incident = ne then .ok xs.length else Base.iterator xs locator
/-- The outer loop, generateBlocks.hpp:29-43, from incident energy `incident` on. -/
def probBlocks (xs : Words) (nc ne locb : Nat) :
    (todo incident cur : Nat) → Res (List (List CosData))
  | 0, _, _ => return []
  | todo + 1, incident, cur => do
    let locator ← relLocator xs locb (incident + 1)
    let nieb ← NIEBof xs none ne incident
    let next ← nextOf xs ne incident locator
    let (ds, cur') ← probLoop xs nc next nieb cur
    return ds :: (← probBlocks xs nc ne locb todo (incident + 1) cur')
/-- `generateBlocks`, InelasticAngularDistributionBlock/src/generateBlocks.hpp:1-45. For
`IFENG < 2` the number of outgoing energies is always set by the constructors. -/
def generateBlocks (xs : Words) (ifeng nc : Nat) (nieb : Option Nat) (ne locb : Nat) :
    Res (List (List CosData)) :=
  if ifeng < 2 then do
    let n ← if ne = 0 then .ok 0 else NIEBof xs nieb ne 1
    plainBlocks xs nc n ne 0
  else do
    let cur ← Base.iterator xs (← relLocator xs locb 1)
    probBlocks xs nc ne locb ne 1 cur
/-- `generateXSS` for discrete cosines,
InelasticAngularDistributionBlock/src/generateXSS.hpp:1-28. -/
def plainXSS (cosines : List (List DCos)) : Res Words :=
  match cosines with
  | [] => .error .ub
  | c :: cs =>
    if (c :: cs).all (fun x => x.length == c.length) then
      .ok (((c :: cs).map (fun l => (l.map (·.xss)).flatten)).flatten)
    else .error .thrown
/-- The loop of `generateXSS` for cosines with probabilities, generateXSS.hpp:38-58: `locs`, `nums`
and `body` are the three parts of the array written so far. -/
def probLoopXSS (size locb : Nat) : List (List PCos) → (locs nums body : Words) → Words
  | [], locs, nums, body => locs ++ nums ++ body
  | c :: cs, locs, nums, body =>
    probLoopXSS size locb cs
      (locs ++ [Dbl.ofNat ((2 * size + body.length + 1) + locb - 1 - 1)])
      (nums ++ [Dbl.ofNat c.length]) (body ++ (c.map (·.xss)).flatten)
/-- `generateXSS` for cosines with probabilities, generateXSS.hpp:30-61. -/
def probXSS (cosines : List (List PCos)) (locb : Nat) : Words :=
  probLoopXSS cosines.length locb cosines [] [] []
/-- The constructor from discrete cosines, InelasticAngularDistributionBlock/src/ctor.hpp:96-105
and 6-19; `cosines.front().front()` is undefined behaviour when there is none. -/
def mkPlain (cosines : List (List DCos)) (skewed : Bool) (locb : Nat) : Res ITXE :=
  match cosines with
  | (c :: cs) :: css => do
    let xs ← plainXSS ((c :: cs) :: css)
    let ifeng := if skewed then 1 else 0
    let data ← generateBlocks xs ifeng c.nc (some (c :: cs).length) ((c :: cs) :: css).length locb
    return ⟨xs, ifeng, c.nc, some (c :: cs).length, ((c :: cs) :: css).length, locb, data⟩
  | _ => .error .ub
/-- The constructor from cosines with probabilities, ctor.hpp:114-119 and 6-19. -/
def mkProb (cosines : List (List PCos)) (locb : Nat) : Res ITXE :=
  match cosines with
  | (c :: cs) :: css => do
    let xs := probXSS ((c :: cs) :: css) locb
    let data ← generateBlocks xs 2 c.nc none ((c :: cs) :: css).length locb
    return ⟨xs, 2, c.nc, none, ((c :: cs) :: css).length, locb, data⟩
  | _ => .error .ub
/-- The size check of the reading constructor, ctor.hpp:138-142 and verifySize.hpp:1-16,
which computes in `unsigned int`, so wraps around at 2^32. -/
def verifySize (xs : Words) (ifeng nieb nc ne : Nat) : Res Unit :=
  if ifeng < 2 then guardThrow (!(xs.length < ne * nieb * (1 + nc) % 4294967296)) else .ok ()
/-- The reading constructor, ctor.hpp:130-144. -/
def ofRange (ifeng nieb nc ne locb : Nat) (xs : Words) : Res ITXE := do
  let nb := if ifeng < 2 then some nieb else none
  verifySize xs ifeng nieb nc ne
  let data ← generateBlocks xs ifeng nc nb ne locb
  return ⟨xs, ifeng, nc, nb, ne, locb, data⟩
/-- `IFENG`, InelasticAngularDistributionBlock.hpp:103. -/
def IFENG (d : ITXE) : Nat := d.ifeng
/-- `NC`, InelasticAngularDistributionBlock.hpp:114. -/
def NC (d : ITXE) : Nat := d.nc
/-- `NIL`, InelasticAngularDistributionBlock.hpp:128-129 (modulo 2^64). -/
def NIL (d : ITXE) : Nat :=
  if d.ifeng < 2 then sizeOfInt ((d.nc : Int) - 1) else sizeOfInt ((d.nc : Int) + 1)
/-- `NE`, InelasticAngularDistributionBlock.hpp:142. -/
def NE (d : ITXE) : Nat := d.ne
/-- `NIEB`, InelasticAngularDistributionBlock.hpp:157-170. -/
def NIEB (d : ITXE) (index : Nat) : Res Nat := NIEBof d.xss d.nieb d.ne index
/-- `verifyIndices`, InelasticAngularDistributionBlock/src/verifyIndices.hpp:14-27. -/
def verifyIndices (d : ITXE) (incident outgoing : Nat) : Res Unit := do
  if incident < 1 ∨ incident > d.ne then .error .range
  let max ← d.NIEB incident
  if outgoing < 1 ∨ outgoing > max then .error .range
/-- `discreteCosineData`, InelasticAngularDistributionBlock.hpp:203-209. -/
def get (d : ITXE) (incident outgoing : Nat) : Res CosData := do
  d.verifyIndices incident outgoing
  match d.data[incident - 1]? with
  | none => .error .ub
  | some l => match l[outgoing - 1]? with
    | none => .error .ub
    | some c => return c
end ITXE
end ACE

import Verif.Model.Sort
import Verif.Model.Distribution

/-!
# Angular distributions: AND, ANDP, ANDH
-/

namespace ACE

/-- `EquiprobableAngularBins`, /repo/src/ACEtk/continuous/EquiprobableAngularBins.hpp:22-25. -/
structure EquiAngular where
  energy : Dbl
  xss : Words
deriving DecidableEq, Repr
namespace EquiAngular
/-- Both constructors: the size is checked,
continuous/EquiprobableAngularBins/src/ctor.hpp:15-20,29-34 and verifySize.hpp:1-16. -/
def mk' (energy : Dbl) (cosines : Words) : Res EquiAngular := do
  guardThrow (!decide (cosines.length < 33))
  return ⟨energy, cosines⟩
/-- `cosines`, continuous/EquiprobableAngularBins.hpp:48-51. -/
def cosines (d : EquiAngular) : Res Words := Base.XSSr d.xss 1 33
end EquiAngular

/-- `AngularDistributionData::Distribution`,
/repo/src/ACEtk/continuous/AngularDistributionData.hpp:33-35; `IsotropicAngularDistribution` holds
the energy only (continuous/IsotropicAngularDistribution.hpp:19-22). -/
inductive AngDist where
  | iso (energy : Dbl)
  | equi (d : EquiAngular)
  | tab (d : TabDist)
deriving DecidableEq, Repr
namespace AngDist
/-- `energy()` of the alternatives. -/
def energy : AngDist → Dbl
  | iso e => e
  | equi d => d.energy
  | tab d => d.value
/-- The words inserted, continuous/AngularDistributionData/src/generateXSS.hpp:38-48. -/
def words : AngDist → Words
  | iso _ => []
  | equi d => d.xss
  | tab d => d.xss
/-- The locator written when the current number of words plus `locb` is `n`,
continuous/AngularDistributionData/src/generateXSS.hpp:22-35. -/
def locator (n : Nat) : AngDist → Dbl
  | iso _ => Dbl.ofNat 0
  | equi _ => Dbl.ofNat n
  | tab _ => Dbl.ofInt (-(n : Int))
end AngDist

/-- `AngularDistributionType`, /repo/src/ACEtk/AngularDistributionType.hpp. -/
inductive AngType where
  | isotropic
  | equiprobable
  | tabulated
deriving DecidableEq, Repr

/-- Fields of `AngularDistributionData`,
/repo/src/ACEtk/continuous/AngularDistributionData.hpp:40-42. -/
structure AngularData where
  xss : Words
  locb : Nat
  values : ColumnData
  distributions : List AngDist
deriving DecidableEq, Repr

/-- The end of the range of a distribution: the next locator found or the end of the array,
continuous/AngularDistributionData/src/generateBlocks.hpp:24-31,
base/AngularDistributionBlock/src/generateBlocks.hpp:20-30. -/
def rangeEnd (xs : Words) : Option Int → Res Nat
  | none => .ok xs.length
  | some next => Base.iterator xs next.toNat

namespace AngularData

/-- The loop of `generateXSS`, continuous/AngularDistributionData/src/generateXSS.hpp:15-52. -/
def loop (ne locb : Nat) : List AngDist → Words → Nat → Words
  | [], xss, _ => xss
  | d :: ds, xss, index =>
      let xss := xss.set index d.energy
      let xss := xss.set (index + ne) (d.locator (xss.length + locb))
      loop ne locb ds (xss ++ d.words) (index + 1)

/-- `generateXSS` after sorting, continuous/AngularDistributionData/src/generateXSS.hpp:1-55. -/
def generateXSS (order : List AngDist) (locb : Nat) : Words :=
  loop order.length locb order
    (Dbl.ofNat order.length :: List.replicate (2 * order.length) (Dbl.ofNat 0)) 1

/-- `verifyIncidentEnergyIndex`,
continuous/AngularDistributionData/src/verifyIncidentEnergyIndex.hpp:1-12. -/
def verifyIndexOf (values : ColumnData) (index : Nat) : Res Unit := do
  let n ← values.N
  if index < 1 ∨ index > n then .error .range else .ok ()
/-- `incidentEnergy`, AngularDistributionData.hpp:81-87. -/
def incidentEnergyOf (values : ColumnData) (index : Nat) : Res Dbl := do
  verifyIndexOf values index
  values.value 1 index
/-- `LOCC`: the `double` is truncated, AngularDistributionData.hpp:105-111. -/
def LOCCof (values : ColumnData) (index : Nat) : Res Int := do
  verifyIndexOf values index
  toInt32 (← values.value 2 index).trunc?
/-- `relativeDistributionLocator`, AngularDistributionData.hpp:146-150; `std::abs` of the least
`int` is undefined. -/
def relativeOf (values : ColumnData) (locb index : Nat) : Res Nat := do
  let locator ← LOCCof values index
  if locator = 0 then return 0
  else if locator = -2147483648 then .error .ub
  else return sizeOfInt ((locator.natAbs : Int) - locb + 1)
/-- The same as an integer. -/
def relIntOf (values : ColumnData) (locb index : Nat) : Res Int := do
  return ((← relativeOf values locb index : Nat) : Int)
/-- `distributionType`, AngularDistributionData.hpp:160-167. -/
def typeOf (values : ColumnData) (index : Nat) : Res AngType := do
  let locator ← LOCCof values index
  return if locator = 0 then .isotropic else if locator < 0 then .tabulated else .equiprobable

/-- The body of the loop of `generateBlocks`, zero based `i`,
continuous/AngularDistributionData/src/generateBlocks.hpp:12-40. -/
def generateBlock (xs : Words) (values : ColumnData) (locb n i : Nat) : Res AngDist := do
  let index := i + 1
  let type ← typeOf values index
  let incident ← incidentEnergyOf values index
  if type = .isotropic then return .iso incident
  else
    let locator ← relativeOf values locb index
    let left ← Base.iterator xs locator
    let right ← rangeEnd xs
      (← Dist.findNext (relIntOf values locb) (locator : Int) (List.range' (index + 1) (n - index)))
    if type = .tabulated then return .tab (← TabDist.ofRange incident (← sub xs left right))
    else return .equi (← EquiAngular.mk' incident (← sub xs left right))

/-- `generateBlocks`, continuous/AngularDistributionData/src/generateBlocks.hpp:1-42. -/
def generateBlocks (xs : Words) (locb : Nat) : Res AngularData := do
  let ne := sizeOfInt (← Base.IXSS xs 1)
  let fin ← Base.iterator xs (2 * ne + 2)
  let values ← ColumnData.ofRange (← sub xs 0 fin) 2
  let n ← values.N
  let distributions ← (List.range n).mapM (generateBlock xs values locb n)
  return { xss := xs, locb := locb, values := values, distributions := distributions }

/-- Constructor from distributions, continuous/AngularDistributionData/src/ctor.hpp:63-70. -/
def mk' (sort : StdSort AngDist.energy) (ds : List AngDist) (locb : Nat) : Res AngularData :=
  generateBlocks (generateXSS (sort.run ds) locb) locb
/-- Reading constructor, continuous/AngularDistributionData/src/ctor.hpp:79-84 and
verifySize.hpp:1-13. The check computes in `unsigned int`, so what it compares with wraps around at 2^32. -/
def ofRange (locb : Nat) (xs : Words) : Res AngularData := do
  let d ← generateBlocks xs locb
  guardThrow (!decide (xs.length < (1 + 2 * (← d.values.N)) % 4294967296))
  return d

/-- `NE`, AngularDistributionData.hpp:58. -/
def NE (d : AngularData) : Res Nat := d.values.N
/-- `incidentEnergies`, AngularDistributionData.hpp:68-71. -/
def incidentEnergies (d : AngularData) : Res Words := d.values.column 1
/-- `incidentEnergy( index )`. -/
def incidentEnergy (d : AngularData) (index : Nat) : Res Dbl := incidentEnergyOf d.values index
/-- `LOCC( index )`. -/
def LOCC (d : AngularData) (index : Nat) : Res Int := LOCCof d.values index
/-- `relativeDistributionLocator( index )`. -/
def relativeDistributionLocator (d : AngularData) (index : Nat) : Res Nat :=
  relativeOf d.values d.locb index
/-- `distributionType( index )`. -/
def distributionType (d : AngularData) (index : Nat) : Res AngType := typeOf d.values index
/-- `distribution( index )`, AngularDistributionData.hpp:185-191. -/
def distribution (d : AngularData) (index : Nat) : Res AngDist := do
  verifyIndexOf d.values index
  match d.distributions[index - 1]? with
  | some x => return x
  | none => .error .ub

end AngularData

/-! ## AngularDistributionBlock -/

/-- `AngularDistributionBlock::DistributionData`,
/repo/src/ACEtk/base/AngularDistributionBlock.hpp:28-30. -/
inductive AngEntry where
  | fullyIsotropic
  | givenElsewhere
  | data (d : AngularData)
deriving DecidableEq, Repr

/-- Fields of `AngularDistributionBlock`, /repo/src/ACEtk/base/AngularDistributionBlock.hpp:35-38;
`iter` is the offset of `iterator_` from `begin()`. -/
structure AngularBlock where
  xss : Words
  nr : Nat
  zero : Bool
  iter : Nat
  entries : List AngEntry
deriving DecidableEq, Repr

namespace AngularBlock

/-- The loop of `generateXSS`, base/AngularDistributionBlock/src/generateXSS.hpp:4-37: data are
made again for their locator (stored as a `double` and converted back, exact below 2^53). -/
def loop (sort : StdSort AngDist.energy) (nr : Nat) : List AngEntry → Words → Nat → Res Words
  | [], xss, _ => .ok xss
  | .fullyIsotropic :: ds, xss, index => loop sort nr ds (xss.set index (Dbl.ofNat 0)) (index + 1)
  | .givenElsewhere :: ds, xss, index => loop sort nr ds (xss.set index (Dbl.ofInt (-1))) (index + 1)
  | .data d :: ds, xss, index => do
      let temp ← AngularData.mk' sort d.distributions (xss.length - nr + 1)
      loop sort nr ds (xss.set index (Dbl.ofNat (xss.length - nr + 1)) ++ temp.xss) (index + 1)

/-- `generateXSS`, base/AngularDistributionBlock/src/generateXSS.hpp:1-38. -/
def generateXSS (sort : StdSort AngDist.energy) (entries : List AngEntry) : Res Words :=
  loop sort entries.length entries (List.replicate entries.length (Dbl.ofNat 0)) 0

/-- `LAND`, base/AngularDistributionBlock.hpp:73-80, with `verifyReactionIndex`,
base/Base/src/verifyReactionIndex.hpp:1-14. -/
def LANDof (xs : Words) (nr : Nat) (zero : Bool) (index : Nat) : Res Int := do
  if index < (if zero then 0 else 1) ∨ index > nr then .error .range
  else Base.IXSS xs (index + (if zero then 1 else 0))

/-- `nextlocator`, base/AngularDistributionBlock/src/generateBlocks.hpp:25: `std::size_t` and `int`
are added modulo 2^64. -/
def next (xs : Words) (nr : Nat) (zero : Bool) (iter j : Nat) : Res Int := do
  return (sizeOfInt ((iter + 1 : Nat) + (← LANDof xs nr zero j) - 1) : Int)

/-- The body of the loop of `generateBlocks`, base/AngularDistributionBlock/src/generateBlocks.hpp:8-38. -/
def generateBlock (xs : Words) (nr : Nat) (zero : Bool) (iter index : Nat) : Res AngEntry := do
  let land ← LANDof xs nr zero index
  if land ≥ 0 then
    if land = 0 then return .fullyIsotropic
    else
      let xand := iter + 1
      let locator := xand + sizeOfInt land - 1
      let left ← Base.iterator xs locator
      let right ← rangeEnd xs
        (← Dist.findNext (next xs nr zero iter) (locator : Int) (List.range' (index + 1) (nr - index)))
      return .data (← AngularData.ofRange (sizeOfInt land) (← sub xs left right))
  else return .givenElsewhere

/-- `generateBlocks`, base/AngularDistributionBlock/src/generateBlocks.hpp:1-40. -/
def generateBlocks (xs : Words) (nr : Nat) (zero : Bool) (iter : Nat) : Res AngularBlock := do
  let first := if zero then 0 else 1
  let entries ← (List.range' first (nr + 1 - first)).mapM (generateBlock xs nr zero iter)
  return { xss := xs, nr := nr, zero := zero, iter := iter, entries := entries }

/-- ANDP, ANDH: base/AngularDistributionBlock/src/ctor.hpp:6-14,60-62,
continuous/SecondaryParticleAngularDistributionBlock/src/ctor.hpp:14-15. -/
def mk' (sort : StdSort AngDist.energy) (entries : List AngEntry) : Res AngularBlock := do
  generateBlocks (← generateXSS sort entries) entries.length false entries.length
/-- AND: elastic is entry zero, base/AngularDistributionBlock/src/ctor.hpp:6-26,71-74, insertZero.hpp:1-6,
continuous/AngularDistributionBlock/src/ctor.hpp:15-17. -/
def mkZero (sort : StdSort AngDist.energy) (elastic : AngEntry) (entries : List AngEntry) :
    Res AngularBlock := do
  generateBlocks (← generateXSS sort (elastic :: entries)) entries.length true (entries.length + 1)
/-- Reading constructor over `[ loc, end )` with the data at offset `iter`,
base/AngularDistributionBlock/src/ctor.hpp:85-93 and verifySize.hpp:1-23. -/
def ofRange (xs : Words) (iter nr : Nat) (zero : Bool) : Res AngularBlock := do
  guardThrow (!decide (iter < nr + (if zero then 1 else 0)))
  generateBlocks xs nr zero iter

/-- `LAND( index )`. -/
def LAND (b : AngularBlock) (index : Nat) : Res Int := LANDof b.xss b.nr b.zero index
/-- `isFullyIsotropic`, base/AngularDistributionBlock.hpp:105-108. -/
def isFullyIsotropic (b : AngularBlock) (index : Nat) : Res Bool := do
  return decide ((← b.LAND index) = 0)
/-- `isGiven`, base/AngularDistributionBlock.hpp:119-122. -/
def isGiven (b : AngularBlock) (index : Nat) : Res Bool := do
  return decide ((← b.LAND index) ≥ 0)
/-- `angularDistributionData`, base/AngularDistributionBlock.hpp:140-147 and
src/verifyDataIndex.hpp:1-11. -/
def get (b : AngularBlock) (index : Nat) : Res AngEntry := do
  if index < (if b.zero then 0 else 1) ∨ index > b.nr then .error .range
  else match b.entries[index - (if b.zero then 0 else 1)]? with
    | some d => return d
    | none => .error .ub

end AngularBlock
end ACE

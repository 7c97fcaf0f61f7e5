import Verif.Model.Lookup
import Verif.Model.TabDist

/-!
# Distribution data: tables of distributions with absolute locators

`base::DistributionData` (laws 4, 44, 61, 67), `base::DistributionDataWithInterpolationType`
(the inner tables of laws 61 and 67) and their derived classes.

`gen value locb words` is the reading constructor of the distributions of a table.
-/

namespace ACE

/-- Conversion of a `std::size_t` (given modulo 2^64 or not) to `int`. -/
def wrap32 (i : Int) : Int :=
  if i % 4294967296 < 2147483648 then i % 4294967296 else i % 4294967296 - 4294967296

/-- The loop shared by the `generateXSS` functions of tables with two columns: value and locator
of distribution `index` are set, then its words (which for laws 61 and 67 depend on the locator)
are appended. /repo/src/ACEtk/base/DistributionData/src/generateXSS.hpp:15-28,
base/DistributionDataWithInterpolationType/src/generateXSS.hpp:13-26,
continuous/EnergyAngleDistributionData/src/generateXSS.hpp:15-33,
continuous/AngleEnergyDistributionData/src/generateXSS.hpp:15-33. -/
def dist2Loop (ne offset : Nat) : List (Dbl × (Nat → Res Words)) → Words → Nat → Res Words
  | [], xss, _ => .ok xss
  | (v, w) :: ds, xss, index => do
      let xss := xss.set index v
      let xss := xss.set (index + ne) (Dbl.ofNat (xss.length + offset))
      let ws ← w (xss.length + offset)
      dist2Loop ne offset ds (xss ++ ws) (index + 1)

/-- The part of `generateXSS` after the interpolation data, same files, lines 8-13. -/
def dist2XSS (offset : Nat) (ds : List (Dbl × (Nat → Res Words))) : Res Words :=
  dist2Loop ds.length offset ds
    (Dbl.ofNat ds.length :: List.replicate (2 * ds.length) (Dbl.ofNat 0)) 1

/-- The same loop with four columns (law 61, inner table),
/repo/src/ACEtk/continuous/TabulatedEnergyAngleDistribution/src/generateXSS.hpp:13-28. -/
def dist4Loop (ne offset : Nat) : List (Dbl × Dbl × Dbl × Words) → Words → Nat → Words
  | [], xss, _ => xss
  | (e, p, c, w) :: ds, xss, index =>
      let xss := xss.set index e
      let xss := xss.set (index + ne) p
      let xss := xss.set (index + 2 * ne) c
      let xss := xss.set (index + 3 * ne) (Dbl.ofNat (xss.length + offset))
      dist4Loop ne offset ds (xss ++ w) (index + 1)

/-- TabulatedEnergyAngleDistribution/src/generateXSS.hpp:8-12. -/
def dist4XSS (offset : Nat) (ds : List (Dbl × Dbl × Dbl × Words)) : Words :=
  dist4Loop ds.length offset ds
    (Dbl.ofNat ds.length :: List.replicate (4 * ds.length) (Dbl.ofNat 0)) 1

/-! ## Accessors of the column data, common to both bases -/

namespace Dist

/-- `verifyValueIndex`, /repo/src/ACEtk/base/DistributionData/src/verifyValueIndex.hpp:1-12,
base/DistributionDataWithInterpolationType/src/verifyValueIndex.hpp:1-12. -/
def verifyValueIndex (values : ColumnData) (index : Nat) : Res Unit := do
  let n ← values.N
  if index < 1 ∨ index > n then .error .range else .ok ()
/-- `value( column, index )`, base/DistributionData.hpp:120-126,
base/DistributionDataWithInterpolationType.hpp:86-92. -/
def value (values : ColumnData) (column index : Nat) : Res Dbl := do
  verifyValueIndex values index
  values.value column index
/-- `LOCC`, base/DistributionData.hpp:138-142, DistributionDataWithInterpolationType.hpp:104-108. -/
def LOCC (values : ColumnData) (index : Nat) : Res Int := do
  toInt32 (← value values values.nc index).round?
/-- `relativeDistributionLocator` as an `int`, base/DistributionData.hpp:170-174. -/
def relInt (values : ColumnData) (locb index : Nat) : Res Int := do
  return wrap32 ((← LOCC values index) - locb + 1)
/-- `relativeDistributionLocator` as a `std::size_t`,
base/DistributionDataWithInterpolationType.hpp:136-140. -/
def relSize (values : ColumnData) (locb index : Nat) : Res Nat := do
  return sizeOfInt ((← LOCC values index) - locb + 1)

/-- The inner loop of `generateBlocks`: the first of the following locators that is greater,
base/DistributionData/src/generateBlocks.hpp:20-28,
base/DistributionDataWithInterpolationType/src/generateBlocks.hpp:17-25. -/
def findNext (rel : Nat → Res Int) (locator : Int) : List Nat → Res (Option Int)
  | [] => .ok none
  | j :: js => do
      let next ← rel j
      if next > locator then return some next else findNext rel locator js

/-- The body of the loop of `generateBlocks`, zero based `i`,
base/DistributionData/src/generateBlocks.hpp:14-30,
base/DistributionDataWithInterpolationType/src/generateBlocks.hpp:11-27. -/
def generateBlock {D : Type} (gen : Dbl → Nat → Words → Res D) (rel : Nat → Res Int) (xs : Words)
    (values : ColumnData) (n i : Nat) : Res D := do
  let index := i + 1
  let v ← value values 1 index
  let locb ← LOCC values index
  let locator ← rel index
  let left ← Base.iterator xs (sizeOfInt locator)
  let right ← match ← findNext rel locator (List.range' (index + 1) (n - index)) with
    | none => pure xs.length
    | some next => Base.iterator xs (sizeOfInt next)
  gen v (sizeOfInt locb) (← sub xs left right)

end Dist

/-! ## DistributionData -/

/-- Fields of `base::DistributionData`, /repo/src/ACEtk/base/DistributionData.hpp:22-31. -/
structure DistData (D : Type) where
  xss : Words
  locb : Nat
  interpolation : InterpolationData
  values : ColumnData
  distributions : List D
deriving DecidableEq, Repr

namespace DistData
variable {D : Type}

/-- `generateXSS`, /repo/src/ACEtk/base/DistributionData/src/generateXSS.hpp:1-37 and the versions
of laws 61 and 67 (continuous/EnergyAngleDistributionData/src/generateXSS.hpp:1-42,
AngleEnergyDistributionData/src/generateXSS.hpp:1-42), which differ in the words appended. -/
def generateXSS (boundaries interpolants : List Int) (ds : List (Dbl × (Nat → Res Words)))
    (locb : Nat) : Res Words := do
  let xss ← dist2XSS (1 + 2 * boundaries.length + locb) ds
  let interpolation ← InterpolationData.mk' boundaries interpolants
  return interpolation.xss ++ xss

/-- `generateBlocks`, /repo/src/ACEtk/base/DistributionData/src/generateBlocks.hpp:1-31.
Simplification: index arithmetic is not reduced modulo 2^64. -/
def generateBlocks (gen : Dbl → Nat → Words → Res D) (xs : Words) (locb : Nat) :
    Res (DistData D) := do
  let nr := sizeOfInt (← Base.IXSS xs 1)
  let ne := sizeOfInt (← Base.IXSS xs (2 + 2 * nr))
  let data ← Base.iterator xs (2 + 2 * nr)
  let fin ← Base.iterator xs (2 + 2 * nr + 2 * ne + 1)
  let interpolation ← InterpolationData.ofRange (← sub xs 0 data)
  let values ← ColumnData.ofRange (← sub xs data fin) 2
  let n ← values.N
  let distributions ← (List.range n).mapM
    (Dist.generateBlock gen (Dist.relInt values locb) xs values n)
  return { xss := xs, locb := locb, interpolation := interpolation, values := values,
           distributions := distributions }

/-- Constructor from distributions, /repo/src/ACEtk/base/DistributionData/src/ctor.hpp:36-48. -/
def mk' (gen : Dbl → Nat → Words → Res D) (boundaries interpolants : List Int)
    (ds : List (Dbl × (Nat → Res Words))) (locb : Nat) : Res (DistData D) := do
  generateBlocks gen (← generateXSS boundaries interpolants ds locb) locb

/-- Reading constructor and `verifySize`, /repo/src/ACEtk/base/DistributionData/src/ctor.hpp:58-66
and verifySize.hpp:1-15. The check computes in `unsigned int`, so what it compares with wraps around at 2^32. -/
def ofRange (gen : Dbl → Nat → Words → Res D) (locb : Nat) (xs : Words) : Res (DistData D) := do
  let nr ← toSize (← Base.XSS xs 1).round?
  let ne ← toSize (← Base.XSS xs (1 + 2 * nr + 1)).round?
  guardThrow (!decide (xs.length < (2 + 2 * nr + 2 * ne) % 4294967296))
  generateBlocks gen xs locb

/-- `NB`, base/DistributionData.hpp:61. -/
def NB (d : DistData D) : Res Nat := ColumnData.N d.interpolation
/-- `NBT`, base/DistributionData.hpp:71. -/
def NBT (d : DistData D) : Res Words := InterpolationData.NBT d.interpolation
/-- `INT`, base/DistributionData.hpp:81. -/
def INT (d : DistData D) : Res Words := InterpolationData.INT d.interpolation
/-- `NE` of the derived classes: `N`, base/DistributionData.hpp:91. -/
def NE (d : DistData D) : Res Nat := d.values.N
/-- `incidentEnergies` of the derived classes: `values( 1 )`, base/DistributionData.hpp:106-109. -/
def incidentEnergies (d : DistData D) : Res Words := d.values.column 1
/-- `incidentEnergy( index )` of the derived classes, e.g.
continuous/OutgoingEnergyDistributionData.hpp:127-130. -/
def incidentEnergy (d : DistData D) (index : Nat) : Res Dbl := Dist.value d.values 1 index
/-- `minimumIncidentEnergy`, e.g. continuous/OutgoingEnergyDistributionData.hpp:135-138. -/
def minimumIncidentEnergy (d : DistData D) : Res Dbl := d.incidentEnergy 1
/-- `maximumIncidentEnergy`, e.g. continuous/OutgoingEnergyDistributionData.hpp:143-146. -/
def maximumIncidentEnergy (d : DistData D) : Res Dbl := do d.incidentEnergy (← d.NE)
/-- `LOCC`, base/DistributionData.hpp:138-142. -/
def LOCC (d : DistData D) (index : Nat) : Res Int := Dist.LOCC d.values index
/-- `relativeDistributionLocator` of the derived classes, which convert the `int` of
base/DistributionData.hpp:170-174 to `std::size_t`. -/
def relativeDistributionLocator (d : DistData D) (index : Nat) : Res Nat := do
  return sizeOfInt (← Dist.relInt d.values d.locb index)
/-- `distribution( index )`, base/DistributionData.hpp:192-198. -/
def distribution (d : DistData D) (index : Nat) : Res D := do
  Dist.verifyValueIndex d.values index
  match d.distributions[index - 1]? with
  | some x => return x
  | none => .error .ub

end DistData

/-! ## Laws 4 and 44 -/

/-- Law 4, /repo/src/ACEtk/continuous/OutgoingEnergyDistributionData.hpp:25-27. -/
abbrev Law4 := DistData TabDist
namespace Law4
/-- The reading constructor of the distributions ignores the locator,
continuous/TabulatedEnergyDistribution/src/ctor.hpp:50-53. -/
def gen (value : Dbl) (_ : Nat) (xs : Words) : Res TabDist := TabDist.ofRange value xs
/-- What the loop of `generateXSS` uses of a distribution. -/
def part (d : TabDist) : Dbl × (Nat → Res Words) := (d.value, fun _ => .ok d.xss)
/-- continuous/OutgoingEnergyDistributionData/src/ctor.hpp:17-24 (and 32-35 with empty lists);
law 44: KalbachMannDistributionData/src/ctor.hpp:17-24,32-35. -/
def mk' (boundaries interpolants : List Int) (ds : List TabDist) (locb : Nat) : Res Law4 :=
  DistData.mk' gen boundaries interpolants (ds.map part) locb
/-- continuous/OutgoingEnergyDistributionData/src/ctor.hpp:44-45; law 44:
KalbachMannDistributionData/src/ctor.hpp:44-45. -/
def ofRange (locb : Nat) (xs : Words) : Res Law4 := DistData.ofRange gen locb xs
end Law4

/-- Law 44, /repo/src/ACEtk/continuous/KalbachMannDistributionData.hpp:24-26: the same class
template with distributions that have two more columns. -/
abbrev Law44 := DistData TabDist

/-! ## DistributionDataWithInterpolationType -/

/-- Fields of `base::DistributionDataWithInterpolationType` and the incident energy of its derived
classes, /repo/src/ACEtk/base/DistributionDataWithInterpolationType.hpp:24-30,
continuous/TabulatedAngleEnergyDistribution.hpp:35, TabulatedEnergyAngleDistribution.hpp:35. -/
structure DistDataI (D : Type) where
  incident : Dbl
  xss : Words
  locb : Nat
  values : ColumnData
  distributions : List D
deriving DecidableEq, Repr

namespace DistDataI
variable {D : Type}
/-- `interpolation`, base/DistributionDataWithInterpolationType.hpp:52. -/
def interpolation (d : DistDataI D) : Res Int := Base.IXSS d.xss 1
/-- `N`, base/DistributionDataWithInterpolationType.hpp:57. -/
def N (d : DistDataI D) : Res Nat := d.values.N
/-- `values( column )`, base/DistributionDataWithInterpolationType.hpp:72-75. -/
def column (d : DistDataI D) (column : Nat) : Res Words := d.values.column column
/-- `value( column, index )`, base/DistributionDataWithInterpolationType.hpp:86-92. -/
def value (d : DistDataI D) (column index : Nat) : Res Dbl := Dist.value d.values column index
/-- `LOCC`, base/DistributionDataWithInterpolationType.hpp:104-108. -/
def LOCC (d : DistDataI D) (index : Nat) : Res Int := Dist.LOCC d.values index
/-- `relativeDistributionLocator`, base/DistributionDataWithInterpolationType.hpp:136-140. -/
def relativeDistributionLocator (d : DistDataI D) (index : Nat) : Res Nat :=
  Dist.relSize d.values d.locb index
/-- `distribution( index )`, base/DistributionDataWithInterpolationType.hpp:158-164. -/
def distribution (d : DistDataI D) (index : Nat) : Res D := do
  Dist.verifyValueIndex d.values index
  match d.distributions[index - 1]? with
  | some x => return x
  | none => .error .ub

/-- The check of the reading constructor,
base/DistributionDataWithInterpolationType/src/ctor.hpp:58-59 and verifySize.hpp:1-13.
The check computes in `unsigned int`, so what it compares with wraps around at 2^32. -/
def verifySize (xs : Words) : Res Unit := do
  let ne ← toSize (← Base.XSS xs 2).round?
  guardThrow (!decide (xs.length < (2 + 2 * ne) % 4294967296))
end DistDataI

/-! ## Law 67: cosine, then outgoing energy -/

/-- /repo/src/ACEtk/continuous/TabulatedAngleEnergyDistribution.hpp:25-28. -/
abbrev AngleEnergy := DistDataI TabDist
namespace AngleEnergy
/-- base/DistributionDataWithInterpolationType/src/generateXSS.hpp:1-32: the interpolation type
is an `unsigned int` there. -/
def generateXSS (interpolation : Int) (ds : List TabDist) (locb : Nat) : Res Words := do
  let xss ← dist2XSS (1 + locb) (ds.map Law4.part)
  return Dbl.ofNat (u32OfInt interpolation) :: xss
/-- base/DistributionDataWithInterpolationType/src/generateBlocks.hpp:1-28. -/
def generateBlocks (incident : Dbl) (xs : Words) (locb : Nat) : Res AngleEnergy := do
  let ne := sizeOfInt (← Base.IXSS xs 2)
  let data ← Base.iterator xs 2
  let fin ← Base.iterator xs (2 + 2 * ne + 1)
  let values ← ColumnData.ofRange (← sub xs data fin) 2
  let n ← values.N
  let distributions ← (List.range n).mapM
    (Dist.generateBlock Law4.gen (fun i => do return ((← Dist.relSize values locb i : Nat) : Int))
      xs values n)
  return { incident := incident, xss := xs, locb := locb, values := values,
           distributions := distributions }
/-- continuous/TabulatedAngleEnergyDistribution/src/ctor.hpp:17-25 and
base/DistributionDataWithInterpolationType/src/ctor.hpp:33-43. -/
def mk' (incident : Dbl) (interpolation : Int) (ds : List TabDist) (locb : Nat) :
    Res AngleEnergy := do
  generateBlocks incident (← generateXSS interpolation ds locb) locb
/-- continuous/TabulatedAngleEnergyDistribution/src/ctor.hpp:35-39 and
base/DistributionDataWithInterpolationType/src/ctor.hpp:53-61. -/
def ofRange (incident : Dbl) (locb : Nat) (xs : Words) : Res AngleEnergy := do
  DistDataI.verifySize xs
  generateBlocks incident xs locb
end AngleEnergy

/-- Law 67, /repo/src/ACEtk/continuous/AngleEnergyDistributionData.hpp:23-25. -/
abbrev Law67 := DistData AngleEnergy
namespace Law67
/-- The distribution is made again for its locator,
continuous/AngleEnergyDistributionData/src/generateXSS.hpp:23-29 (the locator is stored as a
`double` and converted back, exact below 2^53). -/
def part (d : AngleEnergy) : Dbl × (Nat → Res Words) :=
  (d.incident, fun locator => do
    return (← AngleEnergy.mk' d.incident (← d.interpolation) d.distributions locator).xss)
/-- continuous/AngleEnergyDistributionData/src/ctor.hpp:17-24. -/
def mk' (boundaries interpolants : List Int) (ds : List AngleEnergy) (locb : Nat) : Res Law67 :=
  DistData.mk' AngleEnergy.ofRange boundaries interpolants (ds.map part) locb
/-- continuous/AngleEnergyDistributionData/src/ctor.hpp:44-45. -/
def ofRange (locb : Nat) (xs : Words) : Res Law67 := DistData.ofRange AngleEnergy.ofRange locb xs
end Law67

/-! ## Law 61: outgoing energy, then cosine -/

/-- `TabulatedAngularDistributionWithProbability`,
/repo/src/ACEtk/continuous/TabulatedAngularDistributionWithProbability.hpp:23-27. -/
structure AngularProb where
  angular : TabDist
  probability : Dbl
  cumulative : Dbl
deriving DecidableEq, Repr
namespace AngularProb
/-- TabulatedAngularDistributionWithProbability/src/ctor.hpp:20-29. -/
def mk' (energy probability cumulative : Dbl) (interpolation : Int) (cosines pdf cdf : Words) :
    Res AngularProb := do
  return ⟨← TabDist.mkAngular energy interpolation cosines pdf cdf, probability, cumulative⟩
/-- TabulatedAngularDistributionWithProbability/src/ctor.hpp:40-46. -/
def ofRange (energy probability cumulative : Dbl) (xs : Words) : Res AngularProb := do
  return ⟨← TabDist.ofRange energy xs, probability, cumulative⟩
end AngularProb

/-- /repo/src/ACEtk/continuous/TabulatedEnergyAngleDistribution.hpp:25-28. -/
abbrev EnergyAngle := DistDataI AngularProb
namespace EnergyAngle
/-- continuous/TabulatedEnergyAngleDistribution/src/generateXSS.hpp:1-34. -/
def generateXSS (interpolation : Int) (ds : List AngularProb) (locb : Nat) : Words :=
  Dbl.ofNat (u32OfInt interpolation) ::
    dist4XSS (1 + locb)
      (ds.map (fun d => (d.angular.value, d.probability, d.cumulative, d.angular.xss)))
/-- The body of the loop of `generateBlocks`,
TabulatedEnergyAngleDistribution/src/generateBlocks.hpp:12-23: the iterators are not checked. -/
def generateBlock (xs : Words) (values : ColumnData) (locb n i : Nat) : Res AngularProb := do
  let index := i + 1
  let energy ← values.value 1 index
  let probability ← values.value 2 index
  let cumulative ← values.value 3 index
  let locator ← Dist.relSize values locb index
  let right ← if index = n then pure xs.length
              else do
                let next ← Dist.relSize values locb (index + 1)
                pure (next - 1)
  AngularProb.ofRange energy probability cumulative (← sub xs (locator - 1) right)
/-- TabulatedEnergyAngleDistribution/src/generateBlocks.hpp:1-25. -/
def generateBlocks (incident : Dbl) (xs : Words) (locb : Nat) : Res EnergyAngle := do
  let ne := sizeOfInt (← Base.IXSS xs 2)
  let values ← ColumnData.ofRange (← sub xs 1 (1 + 4 * ne + 1)) 4
  let n ← values.N
  let distributions ← (List.range n).mapM (generateBlock xs values locb n)
  return { incident := incident, xss := xs, locb := locb, values := values,
           distributions := distributions }
/-- continuous/TabulatedEnergyAngleDistribution/src/ctor.hpp:17-25. -/
def mk' (incident : Dbl) (interpolation : Int) (ds : List AngularProb) (locb : Nat) :
    Res EnergyAngle := generateBlocks incident (generateXSS interpolation ds locb) locb
/-- continuous/TabulatedEnergyAngleDistribution/src/ctor.hpp:35-39. -/
def ofRange (incident : Dbl) (locb : Nat) (xs : Words) : Res EnergyAngle := do
  DistDataI.verifySize xs
  generateBlocks incident xs locb
end EnergyAngle

/-- Law 61, /repo/src/ACEtk/continuous/EnergyAngleDistributionData.hpp:23-25. -/
abbrev Law61 := DistData EnergyAngle
namespace Law61
/-- continuous/EnergyAngleDistributionData/src/generateXSS.hpp:23-29. -/
def part (d : EnergyAngle) : Dbl × (Nat → Res Words) :=
  (d.incident, fun locator => do
    return (← EnergyAngle.mk' d.incident (← d.interpolation) d.distributions locator).xss)
/-- continuous/EnergyAngleDistributionData/src/ctor.hpp:17-24. -/
def mk' (boundaries interpolants : List Int) (ds : List EnergyAngle) (locb : Nat) : Res Law61 :=
  DistData.mk' EnergyAngle.ofRange boundaries interpolants (ds.map part) locb
/-- continuous/EnergyAngleDistributionData/src/ctor.hpp:44-45. -/
def ofRange (locb : Nat) (xs : Words) : Res Law61 := DistData.ofRange EnergyAngle.ofRange locb xs
end Law61

end ACE

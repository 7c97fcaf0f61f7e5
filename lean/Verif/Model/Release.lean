import Verif.Model.ReleaseBuild
import Verif.Model.Members
import Verif.Model.FormatBlocks
import Verif.Model.Dosimetry
import Verif.Model.Typed

/-!
# The release build

The functions that contain a section `#ifndef NDEBUG … #endif`, without that section, and the loops
that call such functions; all other functions are made from them by `release_build`. An index 0
becomes the position before the first element (`index - 1` wraps around), an index behind the last
one a position behind the end: `Err.ub` is the outcome when a word (or an element of a vector) is
used that does not belong to the block.
-/

namespace ACE.Release

/-- `v[ index - 1 ]` of a `std::vector` or `std::array`. -/
def element {α : Type} (l : List α) (index : Nat) : Res α :=
  if index = 0 then .error .ub
  else match l[index - 1]? with
    | some x => .ok x
    | none => .error .ub

namespace Base
/-- /repo/src/ACEtk/base/Base.hpp:90-97 without lines 92-95: a position that is not in the block (or
right behind it) is not an iterator of it. -/
def iterator (xs : Words) (index : Nat) : Res Nat :=
  if index = 0 ∨ index > xs.length + 1 then .error .ub else .ok (index - 1)
/-- /repo/src/ACEtk/base/Base.hpp:115-121 without lines 117-119. -/
def XSS (xs : Words) (index : Nat) : Res Dbl := element xs index
end Base

namespace ArrayData
/-- /repo/src/ACEtk/base/ArrayData.hpp:61-67 without lines 63-65. -/
def dvalue (d : ArrayData) (array index : Nat) : Res Dbl := Base.XSS d.xss (position array d.n index)
release_build Base.IXSS Base.IXSSr
/-- /repo/src/ACEtk/base/ArrayData.hpp:75-81 without lines 77-79. -/
def ivalue (d : ArrayData) (array index : Nat) : Res Int := Base.IXSS d.xss (position array d.n index)
/-- /repo/src/ACEtk/base/ArrayData.hpp:88-94 without lines 90-92. -/
def darray (d : ArrayData) (array : Nat) : Res Words := Base.XSSr d.xss (position array d.n 1) d.n
/-- /repo/src/ACEtk/base/ArrayData.hpp:101-107 without lines 103-105. -/
def iarray (d : ArrayData) (array : Nat) : Res (List Int) :=
  Base.IXSSr d.xss (position array d.n 1) d.n
end ArrayData

namespace TableData
/-- /repo/src/ACEtk/Table/Data/src/fetch.hpp:1-12 without lines 6-8. -/
def fetch {α : Type} (sequence : List α) (index : Nat) : Res α := element sequence index
/-- /repo/src/ACEtk/Table/Data/src/XSS.hpp:32-41 without lines 34-37. -/
def XSSr (d : TableData) (index length : Nat) : Res Words :=
  if index = 0 then .error .ub else sub d.xss (index - 1) (index - 1 + length)
/-- `NXS( index ) = value`, /repo/src/ACEtk/Table/Data.hpp:135 with Table/Data/src/fetch.hpp:1-12 without
lines 6-8. -/
def setNXS (d : TableData) (index : Nat) (value : Int) : Res TableData :=
  if index = 0 ∨ index > d.nxs.length then .error .ub
  else .ok { d with nxs := d.nxs.set (index - 1) value }
end TableData

namespace LocBlock
variable {D : Type}
/-- /repo/src/ACEtk/base/BlockWithLocators.hpp:68-74 without lines 70-72. -/
def LLOCof (xs : Words) (_n : Nat) (locator : Bool) (index : Nat) : Res Nat := do
  if locator then return sizeOfInt (← Base.IXSS xs index)
  else return sizeOfInt ((← Base.IXSS xs index) + 1)
/-- /repo/src/ACEtk/base/BlockWithLocators.hpp:105-111 without lines 107-109. -/
def get (b : LocBlock D) (index : Nat) : Res D := element b.data index
end LocBlock

namespace ElectronBlock
/-- /repo/src/ACEtk/base/ElectronBlockWithLocators.hpp:60-66 without lines 62-64. -/
def LLOCof (information : ArrayData) (_n index : Nat) : Res Nat := do
  return sizeOfInt ((← ArrayData.ivalue information 3 index) + 1)
/-- /repo/src/ACEtk/base/ElectronBlockWithLocators.hpp:117-123 without lines 119-121. -/
def energyOf (information : ArrayData) (_n index : Nat) : Res Dbl :=
  ArrayData.dvalue information 1 index
/-- /repo/src/ACEtk/base/ElectronBlockWithLocators.hpp:133-139 without lines 135-137. -/
def lengthOf (information : ArrayData) (_n index : Nat) : Res Nat := do
  return u32OfInt (← ArrayData.ivalue information 2 index)
/-- /repo/src/ACEtk/base/ElectronBlockWithLocators.hpp:149-155 without lines 151-153. -/
def get (b : ElectronBlock) (index : Nat) : Res ElectronDist := element b.data index
end ElectronBlock

release_build ColumnData.value ColumnData.column

namespace Dist
/-- /repo/src/ACEtk/base/DistributionData.hpp:120-126 without lines 122-124,
base/DistributionDataWithInterpolationType.hpp:86-92 without lines 88-90. -/
def value (values : ColumnData) (column index : Nat) : Res Dbl := ColumnData.value values column index
end Dist
namespace DistData
/-- /repo/src/ACEtk/base/DistributionData.hpp:192-198 without lines 194-196. -/
def distribution {D : Type} (d : DistData D) (index : Nat) : Res D := element d.distributions index
end DistData
namespace DistDataI
/-- /repo/src/ACEtk/base/DistributionDataWithInterpolationType.hpp:158-164 without lines 160-162. -/
def distribution {D : Type} (d : DistDataI D) (index : Nat) : Res D := element d.distributions index
end DistDataI

namespace AngularData
/-- /repo/src/ACEtk/continuous/AngularDistributionData.hpp:81-87 without lines 83-85. -/
def incidentEnergyOf (values : ColumnData) (index : Nat) : Res Dbl := ColumnData.value values 1 index
/-- /repo/src/ACEtk/continuous/AngularDistributionData.hpp:105-111 without lines 107-109. -/
def LOCCof (values : ColumnData) (index : Nat) : Res Int := do
  toInt32 (← ColumnData.value values 2 index).trunc?
/-- /repo/src/ACEtk/continuous/AngularDistributionData.hpp:185-191 without lines 187-189. -/
def distribution (d : AngularData) (index : Nat) : Res AngDist := element d.distributions index
end AngularData

namespace AngularBlock
/-- /repo/src/ACEtk/base/AngularDistributionBlock.hpp:73-80 without lines 75-77. -/
def LANDof (xs : Words) (_nr : Nat) (zero : Bool) (index : Nat) : Res Int :=
  Base.IXSS xs (index + (if zero then 1 else 0))
/-- /repo/src/ACEtk/base/AngularDistributionBlock.hpp:140-147 without lines 142-144. -/
def get (b : AngularBlock) (index : Nat) : Res AngEntry :=
  element b.entries (index + (if b.zero then 1 else 0))
end AngularBlock

namespace EquiBinData
/-- /repo/src/ACEtk/continuous/EquiprobableOutgoingEnergyBinData.hpp:118-124 without lines 120-122. -/
def incidentOf (energies : ColumnData) (index : Nat) : Res Dbl := ColumnData.value energies 1 index
/-- /repo/src/ACEtk/continuous/EquiprobableOutgoingEnergyBinData.hpp:173-179 without lines 175-177. -/
def distribution (d : EquiBinData) (index : Nat) : Res EquiEnergy := element d.bins index
end EquiBinData

release_build TabulatedData.ofRange TabulatedData.x LawData.readMulti

namespace MultiData
/-- The loop of `generateBlocks`, /repo/src/ACEtk/continuous/MultiDistributionData/src/generateBlocks.hpp:6-115
(nothing left out; it calls functions with checks). -/
def blocks (xs : Words) (locb : Nat) : (fuel : Nat) → (locator : Nat) →
    Res (List TabulatedData × List LawData)
  | 0, _ => .error .endless
  | fuel + 1, locator => do
      let lnw := sizeOfInt (← Base.IXSS xs locator)
      let law := wrap16 (← Base.IXSS xs (locator + 1))
      let idat := sizeOfInt (← Base.IXSS xs (locator + 2))
      let pbegin := locator + 2
      let dbegin ← if idat < locb then .error .ub else .ok (idat - locb)
      let fin ← MultiData.endOf xs locb lnw
      let p ← TabulatedData.ofRange (← sub xs pbegin dbegin)
      let emin ← deref (← TabulatedData.x p) 0
      let emax ← last (← TabulatedData.x p)
      let ds ← LawData.readMulti law idat (← sub xs dbegin fin) emin emax
      if lnw = 0 then return ([p], ds)
      else
        let r ← blocks xs locb fuel (lnw - locb + 1)
        return (p :: r.1, ds ++ r.2)
/-- /repo/src/ACEtk/continuous/MultiDistributionData.hpp:117-123 without lines 119-121. -/
def probability (d : MultiData) (index : Nat) : Res TabulatedData := element d.probabilities index
/-- /repo/src/ACEtk/continuous/MultiDistributionData.hpp:141-147 without lines 143-145. -/
def distribution (d : MultiData) (index : Nat) : Res LawData := element d.distributions index
end MultiData

namespace TYR
/-- /repo/src/ACEtk/continuous/FrameAndMultiplicityBlock.hpp:60-66 without lines 62-64. -/
def referenceFrame (t : TYR) (index : Nat) : Res Frame := element t.frames index
/-- /repo/src/ACEtk/continuous/FrameAndMultiplicityBlock.hpp:81-87 without lines 83-85. -/
def multiplicity (t : TYR) (index : Nat) : Res Nat := element t.multiplicities index
end TYR

namespace DLW
/-- /repo/src/ACEtk/continuous/EnergyDistributionBlock.hpp:119-125 without lines 121-123. -/
def LDLWof (xs : Words) (_nr index : Nat) : Res Int := Base.IXSS xs index
/-- /repo/src/ACEtk/continuous/EnergyDistributionBlock.hpp:157-163, 181-187, 205-211 without lines 159-161,
183-185, 207-209; continuous/SecondaryParticleEnergyDistributionBlock.hpp:166-172 without lines 168-170. -/
def pick {α : Type} (_nr : Nat) (l : List α) (index : Nat) : Res α := element l index
end DLW

release_build Precursor.ofRange

namespace BDD
/-- The loop of `generateBlocks`,
/repo/src/ACEtk/continuous/DelayedNeutronPrecursorBlock/src/generateBlocks.hpp:9-17. -/
def groups (xs : Words) : (todo index left : Nat) → Res (List Precursor)
  | 0, _, _ => return []
  | todo + 1, index, left => do
    let nr := sizeOfInt (← Base.IXSS xs (left + 2))
    let ne := sizeOfInt (← Base.IXSS xs (left + 2 + 2 * nr + 1))
    let right := left + (2 + 2 * nr + 2 * ne + 1)
    let d ← Precursor.ofRange (← sub xs left right) index
    return d :: (← groups xs todo (index + 1) right)
/-- /repo/src/ACEtk/continuous/DelayedNeutronPrecursorBlock.hpp:68-74 without lines 70-72. -/
def group (d : BDD) (index : Nat) : Res Precursor := element d.data index
end BDD

namespace UNR
/-- The loop of `generateBlocks`,
/repo/src/ACEtk/continuous/ProbabilityTableBlock/src/generateBlocks.hpp:8-13. -/
def tables (xs : Words) (m : Nat) : (todo index left : Nat) → Res (List ProbabilityTable)
  | 0, _, _ => return []
  | todo + 1, index, left => do
    let ws ← sub xs left (left + 6 * m)
    let d ← ProbabilityTable.ofRange ws (← Base.XSS xs (6 + index)) m
    return d :: (← tables xs m todo (index + 1) (left + 6 * m))
/-- /repo/src/ACEtk/continuous/ProbabilityTableBlock.hpp:156-162 without lines 158-160. -/
def table (d : UNR) (index : Nat) : Res ProbabilityTable := element d.data index
end UNR

namespace ESZE
/-- /repo/src/ACEtk/electron/PrincipalCrossSectionBlock.hpp:104-110 without lines 106-108. -/
def electroionisation (d : ESZE) (index : Nat) : Res Words := ArrayData.darray d (6 + index)
end ESZE

namespace YP
/-- /repo/src/ACEtk/continuous/MultiplicityReactionNumberBlock.hpp:56-62 without lines 58-60. -/
def MT (d : YP) (index : Nat) : Res Nat := do return u32OfInt (← Base.IXSS d.xss (index + 1))
end YP

namespace IXSU
release_build IXSU.IP
/-- The loop of `hasIP` and `index`,
/repo/src/ACEtk/photonuclear/SecondaryParticleLocatorBlock.hpp:219-230,247-260. -/
def search (d : IXSU) (type : Nat) : (start count : Nat) → Res (Option Nat)
  | _, 0 => .ok none
  | start, count + 1 => do
      let ip ← IXSU.IP d start
      if ip = type then return some start else search d type (start + 1) count
end IXSU

namespace PA
/-- /repo/src/ACEtk/PhotoatomicTable.hpp:475-481 without lines 477-479. -/
def EION (t : PA) (index : Nat) : Res ElectronBlock := element t.eion index
end PA

release_build ITXE.relLocator ITXE.nextOf

namespace ITXE
/-- /repo/src/ACEtk/thermal/InelasticAngularDistributionBlock.hpp:157-170 without lines 165-167. -/
def NIEBof (xs : Words) (nieb : Option Nat) (ne index : Nat) : Res Nat :=
  match nieb with
  | some n => .ok n
  | none => do return sizeOfInt (← Base.IXSS xs (ne + index))
/-- The outer loop for cosines with probabilities,
/repo/src/ACEtk/thermal/InelasticAngularDistributionBlock/src/generateBlocks.hpp:29-43. -/
def probBlocks (xs : Words) (nc ne locb : Nat) :
    (todo incident cur : Nat) → Res (List (List CosData))
  | 0, _, _ => return []
  | todo + 1, incident, cur => do
    let locator ← relLocator xs locb (incident + 1)
    let nieb ← NIEBof xs none ne incident
    let next ← nextOf xs ne incident locator
    let (ds, cur') ← ITXE.probLoop xs nc next nieb cur
    return ds :: (← probBlocks xs nc ne locb todo (incident + 1) cur')
/-- /repo/src/ACEtk/thermal/InelasticAngularDistributionBlock.hpp:203-209 without lines 205-207. -/
def get (d : ITXE) (incident outgoing : Nat) : Res CosData := do
  element (← element d.data incident) outgoing
end ITXE

/-! ## The loops of the writers -/

release_build AngularData.mk'
/-- The loop of `generateXSS`, /repo/src/ACEtk/base/AngularDistributionBlock/src/generateXSS.hpp:4-37. -/
def AngularBlock.loop (sort : StdSort AngDist.energy) (nr : Nat) :
    List AngEntry → Words → Nat → Res Words
  | [], xss, _ => .ok xss
  | .fullyIsotropic :: ds, xss, index =>
      AngularBlock.loop sort nr ds (xss.set index (Dbl.ofNat 0)) (index + 1)
  | .givenElsewhere :: ds, xss, index =>
      AngularBlock.loop sort nr ds (xss.set index (Dbl.ofInt (-1))) (index + 1)
  | .data d :: ds, xss, index => do
      let temp ← AngularData.mk' sort d.distributions (xss.length - nr + 1)
      AngularBlock.loop sort nr ds (xss.set index (Dbl.ofNat (xss.length - nr + 1)) ++ temp.xss)
        (index + 1)

release_build LawData.placedMulti
/-- The loop of `generateXSS`,
/repo/src/ACEtk/continuous/MultiDistributionData/src/generateXSS.hpp:18-68. -/
def MultiData.loop (locb : Nat) : List (TabulatedData × LawData) → Words → Res Words
  | [], xss => .ok xss
  | (p, d) :: rest, xss => do
      let idat := xss.length + 3 + p.xss.length + locb
      let ws ← LawData.placedMulti idat d
      let lnw := if rest.isEmpty then 0 else xss.length + 3 + p.xss.length + ws.length + locb
      MultiData.loop locb rest
        (xss ++ (Dbl.ofNat lnw :: Dbl.ofInt d.LAW :: Dbl.ofNat idat :: p.xss) ++ ws)

release_build EnergyData.placed
/-- The loop of `generateXSS`,
/repo/src/ACEtk/continuous/EnergyDistributionBlock/src/generateXSS.hpp:17-154. -/
def DLW.loop (size : Nat) :
    List (EnergyData × Mult) → (xss : Words) → (tyr : List Nat) → (index : Nat) → Res (Words × List Nat)
  | [], xss, tyr, _ => .ok (xss, tyr)
  | (d, m) :: rest, xss, tyr, index => do
      let n := xss.length - size
      let tyr' := tyr ++ [ACE.DLW.tyrOf n m]
      let xss' := xss ++ ACE.DLW.multWords m
      let locator := xss'.length - size + 1
      let ws ← EnergyData.placed locator d
      DLW.loop size rest (xss'.set index (Dbl.ofNat locator) ++ ws) tyr' (index + 1)

/-- The loop of `generateXSS`,
/repo/src/ACEtk/continuous/SecondaryParticleEnergyDistributionBlock/src/generateXSS.hpp:7-123. -/
def DLWH.loop (size : Nat) : List EnergyData → (xss : Words) → (index : Nat) → Res Words
  | [], xss, _ => .ok xss
  | d :: rest, xss, index => do
      let offset := xss.length - size + 1
      let ws ← EnergyData.placed offset d
      DLWH.loop size rest (xss.set index (Dbl.ofNat offset) ++ ws) (index + 1)

release_build_all

end ACE.Release

import Verif.Model.Lookup
import Verif.Model.ArrayBlocks
import Verif.Model.TabDist

/-!
# Blocks with locators

`base::BlockWithLocators` (SIG, SIGD, SIGP, SIGH, SWD, XPROB), `base::ElectronBlockWithLocators`
(ELAS, BREME, EION) and the data classes they contain.
-/

namespace ACE

/-- The loop shared by the `generateXSS` functions of blocks with locators: locator `index` is
set from the current size, then the words of the data block are appended
(/repo/src/ACEtk/base/BlockWithLocators/src/generateXSS.hpp:6-13,
base/ElectronBlockWithLocators/src/generateXSS.hpp:8-16). -/
def locatorLoop (loc : Nat → Dbl) (n : Nat) : List Words → (xss : Words) → (index : Nat) → Words
  | [], xss, _ => xss
  | d :: ds, xss, index =>
      locatorLoop loc n ds (xss.set index (loc (xss.length - n)) ++ d) (index + 1)

/-- Fields of `BlockWithLocators`, /repo/src/ACEtk/base/BlockWithLocators.hpp:21-25: `iter` is
the offset of `iterator_` from `begin()`. -/
structure LocBlock (D : Type) where
  xss : Words
  n : Nat
  locator : Bool
  iter : Nat
  data : List D
deriving DecidableEq, Repr

namespace LocBlock
variable {D : Type}

/-- `generateXSS`, /repo/src/ACEtk/base/BlockWithLocators/src/generateXSS.hpp:1-16. -/
def generateXSS (locator : Bool) (parts : List Words) : Words :=
  locatorLoop (fun k => Dbl.ofNat (if locator then k + 1 else k)) parts.length parts
    (List.replicate parts.length (Dbl.ofNat 0)) 0

/-- `verifyDataIndex`, /repo/src/ACEtk/base/BlockWithLocators/src/verifyDataIndex.hpp:1-11. -/
def verifyDataIndex (n index : Nat) : Res Unit :=
  if index < 1 ∨ index > n then .error .range else .ok ()

/-- `LLOC`, /repo/src/ACEtk/base/BlockWithLocators.hpp:68-74. -/
def LLOCof (xs : Words) (n : Nat) (locator : Bool) (index : Nat) : Res Nat := do
  verifyDataIndex n index
  if locator then return sizeOfInt (← Base.IXSS xs index)
  else return sizeOfInt ((← Base.IXSS xs index) + 1)

/-- `LLOC` of the block. -/
def LLOC (b : LocBlock D) (index : Nat) : Res Nat := LLOCof b.xss b.n b.locator index

/-- The body of the loop of `generateBlocks`, zero based `i`,
/repo/src/ACEtk/base/BlockWithLocators/src/generateBlocks.hpp:11-19. `gen` is the
`generateData` function of the derived class. -/
def generateBlock (gen : Nat → Words → Res D) (xs : Words) (n : Nat) (locator : Bool) (iter : Nat)
    (i : Nat) : Res D := do
  let index := i + 1
  let data := iter + 1
  let loc ← LLOCof xs n locator index
  let left ← Base.iterator xs (data + loc - 1)
  let right ← if index = n then pure xs.length
              else do Base.iterator xs (data + (← LLOCof xs n locator (index + 1)) - 1)
  gen loc (← sub xs left right)

/-- `generateBlocks`, /repo/src/ACEtk/base/BlockWithLocators/src/generateBlocks.hpp:5-21. -/
def generateBlocks (gen : Nat → Words → Res D) (xs : Words) (n : Nat) (locator : Bool)
    (iter : Nat) : Res (LocBlock D) := do
  let data ← (List.range n).mapM (generateBlock gen xs n locator iter)
  return { xss := xs, n := n, locator := locator, iter := iter, data := data }

/-- Constructor from data blocks, /repo/src/ACEtk/base/BlockWithLocators/src/ctor.hpp:6-13,49-50. -/
def ofData (wordsOf : D → Words) (gen : Nat → Words → Res D) (locator : Bool) (blocks : List D) :
    Res (LocBlock D) :=
  generateBlocks gen (generateXSS locator (blocks.map wordsOf)) blocks.length locator blocks.length

/-- Reading constructor over the words `[ loc, end )` with the data part starting at offset
`iter`, /repo/src/ACEtk/base/BlockWithLocators/src/ctor.hpp:63-71 and verifySize.hpp:1-14. -/
def ofRange (gen : Nat → Words → Res D) (xs : Words) (iter n : Nat) (locator : Bool) :
    Res (LocBlock D) := do
  guardThrow (!decide (iter < n))
  generateBlocks gen xs n locator iter

/-- `data( index )`, /repo/src/ACEtk/base/BlockWithLocators.hpp:105-111. -/
def get (b : LocBlock D) (index : Nat) : Res D := do
  verifyDataIndex b.n index
  match b.data[index - 1]? with
  | some d => return d
  | none => .error .ub

end LocBlock

/-! ## SIG -/

/-- `continuous::CrossSectionData`, /repo/src/ACEtk/continuous/CrossSectionData.hpp:21: only the
words. -/
structure CrossSectionData where
  xss : Words
deriving DecidableEq, Repr
namespace CrossSectionData
/-- /repo/src/ACEtk/continuous/CrossSectionData/src/ctor.hpp:15-16 and generateXSS.hpp:1-11. -/
def mk' (index : Nat) (values : Words) : CrossSectionData :=
  ⟨Dbl.ofNat index :: Dbl.ofNat values.length :: values⟩
/-- `energyIndex`, CrossSectionData.hpp:37. -/
def energyIndex (d : CrossSectionData) : Res Nat := do return sizeOfInt (← Base.IXSS d.xss 1)
/-- `numberValues`, CrossSectionData.hpp:42. -/
def numberValues (d : CrossSectionData) : Res Nat := do return sizeOfInt (← Base.IXSS d.xss 2)
/-- `crossSections`, CrossSectionData.hpp:47. -/
def crossSections (d : CrossSectionData) : Res Words := do Base.XSSr d.xss 3 (← d.numberValues)
/-- Reading constructor and `verifySize`, ctor.hpp:24-28 and verifySize.hpp:1-13.
The check computes in `unsigned int`, so what it compares with wraps around at 2^32. -/
def ofRange (xs : Words) : Res CrossSectionData := do
  let n ← numberValues ⟨xs⟩
  guardThrow (!decide (xs.length < (n + 2) % 4294967296))
  return ⟨xs⟩
end CrossSectionData

/-- SIG, /repo/src/ACEtk/continuous/CrossSectionBlock.hpp:23. -/
abbrev SIG := LocBlock CrossSectionData
namespace SIG
/-- `generateData` of the base class, /repo/src/ACEtk/base/BlockWithLocators/src/generateData.hpp:5-13. -/
def gen (_ : Nat) (xs : Words) : Res CrossSectionData := CrossSectionData.ofRange xs
/-- /repo/src/ACEtk/continuous/CrossSectionBlock/src/ctor.hpp:14-15. -/
def mk' (xs : List CrossSectionData) : Res SIG := LocBlock.ofData (·.xss) gen true xs
/-- /repo/src/ACEtk/continuous/CrossSectionBlock/src/ctor.hpp:25-26. -/
def ofRange (xs : Words) (sig ntr : Nat) : Res SIG := LocBlock.ofRange gen xs sig ntr true
/-- `crossSectionData( index )`, /repo/src/ACEtk/continuous/CrossSectionBlock.hpp:94-97. -/
def crossSectionData (d : SIG) (index : Nat) : Res CrossSectionData := LocBlock.get d index
/-- `energyIndex( index )`, /repo/src/ACEtk/continuous/CrossSectionBlock.hpp:107-110. -/
def energyIndex (d : SIG) (index : Nat) : Res Nat := do (← SIG.crossSectionData d index).energyIndex
/-- `numberValues( index )`, /repo/src/ACEtk/continuous/CrossSectionBlock.hpp:120-123. -/
def numberValues (d : SIG) (index : Nat) : Res Nat := do (← SIG.crossSectionData d index).numberValues
/-- `crossSections( index )`, /repo/src/ACEtk/continuous/CrossSectionBlock.hpp:133-136. -/
def crossSections (d : SIG) (index : Nat) : Res Words := do (← SIG.crossSectionData d index).crossSections
end SIG

/-! ## SIGD -/

/-- SIGD, /repo/src/ACEtk/dosimetry/CrossSectionBlock.hpp:24-25; `dosimetry::CrossSectionData`
is a `TabulatedData`, /repo/src/ACEtk/dosimetry/CrossSectionData.hpp:22-92. -/
abbrev SIGD := LocBlock TabulatedData
namespace SIGD
/-- base `generateData` and /repo/src/ACEtk/dosimetry/CrossSectionData/src/ctor.hpp:41-42. -/
def gen (_ : Nat) (xs : Words) : Res TabulatedData := TabulatedData.ofRange xs
/-- /repo/src/ACEtk/dosimetry/CrossSectionBlock/src/ctor.hpp:14-15. -/
def mk' (xs : List TabulatedData) : Res SIGD := LocBlock.ofData (·.xss) gen true xs
/-- /repo/src/ACEtk/dosimetry/CrossSectionBlock/src/ctor.hpp:25-26. -/
def ofRange (xs : Words) (sig ntr : Nat) : Res SIGD := LocBlock.ofRange gen xs sig ntr true
end SIGD

/-! ## SIGP and SIGH -/

/-- `continuous::PhotonProductionCrossSectionData`,
/repo/src/ACEtk/continuous/PhotonProductionCrossSectionData.hpp:18. -/
structure PhotonXS where
  xss : Words
deriving DecidableEq, Repr
namespace PhotonXS
/-- /repo/src/ACEtk/continuous/PhotonProductionCrossSectionData/src/ctor.hpp:15-18 and
generateXSS.hpp:1-12. -/
def mk' (index : Nat) (values : Words) : PhotonXS :=
  ⟨Dbl.ofNat 13 :: Dbl.ofNat index :: Dbl.ofNat values.length :: values⟩
/-- `MFTYPE`, PhotonProductionCrossSectionData.hpp:34-37. -/
def MFTYPE (d : PhotonXS) : Res Nat := do return u32OfInt (← Base.IXSS d.xss 1)
/-- `energyIndex`, PhotonProductionCrossSectionData.hpp:47. -/
def energyIndex (d : PhotonXS) : Res Nat := do return sizeOfInt (← Base.IXSS d.xss 2)
/-- `numberValues`, PhotonProductionCrossSectionData.hpp:52: truncated, not rounded. -/
def numberValues (d : PhotonXS) : Res Nat := do toSize (← Base.XSS d.xss 3).trunc?
/-- `crossSections`, PhotonProductionCrossSectionData.hpp:57. -/
def crossSections (d : PhotonXS) : Res Words := do Base.XSSr d.xss 4 (← d.numberValues)
/-- Reading constructor and `verifySize`, ctor.hpp:26-30 and verifySize.hpp:1-13.
The check computes in `unsigned int`, so what it compares with wraps around at 2^32. -/
def ofRange (xs : Words) : Res PhotonXS := do
  let n ← numberValues ⟨xs⟩
  guardThrow (!decide (xs.length < (n + 3) % 4294967296))
  return ⟨xs⟩
end PhotonXS

/-- `continuous::TabulatedSecondaryParticleMultiplicity`,
/repo/src/ACEtk/continuous/TabulatedSecondaryParticleMultiplicity.hpp:22-25. -/
structure TabMult where
  xss : Words
  data : TabulatedData
deriving DecidableEq, Repr
namespace TabMult
/-- `generateBlocks`, TabulatedSecondaryParticleMultiplicity/src/generateBlocks.hpp:1-4. -/
def generateBlocks (xs : Words) : Res TabMult := do
  return ⟨xs, ← TabulatedData.ofRange (← sub xs 2 xs.length)⟩
/-- TabulatedSecondaryParticleMultiplicity/src/ctor.hpp:59-70 and generateXSS.hpp:1-17. -/
def mk' (mftype mt : Nat) (boundaries interpolants : List Int) (x y : Words) : Res TabMult := do
  let data ← TabulatedData.mk' boundaries interpolants x y
  generateBlocks (Dbl.ofNat mftype :: Dbl.ofNat mt :: data.xss)
/-- TabulatedSecondaryParticleMultiplicity/src/ctor.hpp:93-97. -/
def ofRange (xs : Words) : Res TabMult := generateBlocks xs
/-- `MFTYPE`, TabulatedSecondaryParticleMultiplicity.hpp:39-42. -/
def MFTYPE (d : TabMult) : Res Nat := do return u32OfInt (← Base.IXSS d.xss 1)
/-- `MT`, TabulatedSecondaryParticleMultiplicity.hpp:52-55. -/
def MT (d : TabMult) : Res Nat := do return u32OfInt (← Base.IXSS d.xss 2)
/-- `NB`, TabulatedSecondaryParticleMultiplicity.hpp:70. -/
def NB (d : TabMult) : Res Nat := d.data.NB
/-- `NBT`, TabulatedSecondaryParticleMultiplicity.hpp:80. -/
def NBT (d : TabMult) : Res Words := d.data.NBT
/-- `INT`, TabulatedSecondaryParticleMultiplicity.hpp:90. -/
def INT (d : TabMult) : Res Words := d.data.INT
/-- `NE`, TabulatedSecondaryParticleMultiplicity.hpp:100. -/
def NE (d : TabMult) : Res Nat := d.data.N
/-- `E`, TabulatedSecondaryParticleMultiplicity.hpp:110. -/
def E (d : TabMult) : Res Words := d.data.x
/-- `NU`, TabulatedSecondaryParticleMultiplicity.hpp:120. -/
def NU (d : TabMult) : Res Words := d.data.y
end TabMult

/-- `PhotonProductionData`,
/repo/src/ACEtk/continuous/PhotonProductionCrossSectionBlock.hpp:17-19. -/
inductive PhotonData where
  | xs (d : PhotonXS)
  | mult (d : TabMult)
deriving DecidableEq, Repr
namespace PhotonData
/-- The words inserted by the visitor of `generateXSS`,
PhotonProductionCrossSectionBlock/src/generateXSS.hpp:9-11. -/
def xss : PhotonData → Words
  | .xs d => d.xss
  | .mult d => d.xss
end PhotonData

/-- SIGP, /repo/src/ACEtk/continuous/PhotonProductionCrossSectionBlock.hpp:31-33. -/
abbrev SIGP := LocBlock PhotonData
namespace SIGP
/-- `generateData`, PhotonProductionCrossSectionBlock/src/generateData.hpp:1-12. -/
def gen (_ : Nat) (xs : Words) : Res PhotonData := do
  let t ← toInt32 (← deref xs 0).round?
  if t = 13 then return .xs (← PhotonXS.ofRange xs) else return .mult (← TabMult.ofRange xs)
/-- PhotonProductionCrossSectionBlock/src/ctor.hpp:14-15 and generateXSS.hpp:1-16 (which always
writes locators). -/
def mk' (xs : List PhotonData) : Res SIGP := LocBlock.ofData (·.xss) gen true xs
/-- PhotonProductionCrossSectionBlock/src/ctor.hpp:25-27. -/
def ofRange (xs : Words) (sig ntr : Nat) : Res SIGP := LocBlock.ofRange gen xs sig ntr true
end SIGP

/-- SIGH, /repo/src/ACEtk/continuous/SecondaryParticleProductionCrossSectionBlock.hpp:25-27. -/
abbrev SIGH := LocBlock TabMult
namespace SIGH
/-- base `generateData`. -/
def gen (_ : Nat) (xs : Words) : Res TabMult := TabMult.ofRange xs
/-- SecondaryParticleProductionCrossSectionBlock/src/ctor.hpp:14-15. -/
def mk' (xs : List TabMult) : Res SIGH := LocBlock.ofData (·.xss) gen true xs
/-- SecondaryParticleProductionCrossSectionBlock/src/ctor.hpp:25-27. -/
def ofRange (xs : Words) (sig np : Nat) : Res SIGH := LocBlock.ofRange gen xs sig np true
end SIGH

/-! ## SWD and XPROB -/

/-- SWD, /repo/src/ACEtk/photoatomic/ComptonProfileBlock.hpp:21-23; a `ComptonProfile` is a
tabulated probability distribution, /repo/src/ACEtk/photoatomic/ComptonProfile.hpp:21-70 and
ComptonProfile/src/ctor.hpp:17-32. -/
abbrev SWD := LocBlock TabProb
namespace SWD
/-- base `generateData`. -/
def gen (_ : Nat) (xs : Words) : Res TabProb := TabProb.ofRange xs
/-- /repo/src/ACEtk/photoatomic/ComptonProfileBlock/src/ctor.hpp:14-15. -/
def mk' (xs : List TabProb) : Res SWD := LocBlock.ofData (·.xss) gen true xs
/-- /repo/src/ACEtk/photoatomic/ComptonProfileBlock/src/ctor.hpp:25-26. -/
def ofRange (xs : Words) (swd nsh : Nat) : Res SWD := LocBlock.ofRange gen xs swd nsh true
end SWD

/-- XPROB, /repo/src/ACEtk/electron/SubshellTransitionDataBlock.hpp:21-23. -/
abbrev XPROB := LocBlock TRAN
namespace XPROB
/-- base `generateData`. -/
def gen (_ : Nat) (xs : Words) : Res TRAN := TRAN.ofRange xs
/-- /repo/src/ACEtk/electron/SubshellTransitionDataBlock/src/ctor.hpp:14-16: offsets. -/
def mk' (xs : List TRAN) : Res XPROB := LocBlock.ofData (·.xss) gen false xs
/-- /repo/src/ACEtk/electron/SubshellTransitionDataBlock/src/ctor.hpp:26-28. -/
def ofRange (xs : Words) (xprob nssh : Nat) : Res XPROB := LocBlock.ofRange gen xs xprob nssh false
end XPROB

/-! ## Electron blocks -/

/-- `electron::TabulatedAngularDistribution` and `electron::TabulatedEnergyDistribution`,
/repo/src/ACEtk/electron/TabulatedAngularDistribution.hpp:22-25,
TabulatedEnergyDistribution.hpp:22-25 (the two classes differ in names only). -/
structure ElectronDist where
  energy : Dbl
  data : ArrayData
deriving DecidableEq, Repr
namespace ElectronDist
/-- electron/TabulatedAngularDistribution/src/ctor.hpp:16-21,
TabulatedEnergyDistribution/src/ctor.hpp:16-21. -/
def mk' (energy : Dbl) (values cdf : Words) : Res ElectronDist := do
  return ⟨energy, ← ArrayData.ofArrays [values, cdf]⟩
/-- electron/TabulatedAngularDistribution/src/ctor.hpp:31-35,
TabulatedEnergyDistribution/src/ctor.hpp:31-35. -/
def ofRange (energy : Dbl) (xs : Words) (la : Nat) : Res ElectronDist := do
  return ⟨energy, ← ArrayData.ofRange xs la 2⟩
/-- `L`, electron/TabulatedAngularDistribution.hpp:42. -/
def L (d : ElectronDist) : Nat := d.data.n
/-- `cosines` / `outgoingEnergies`, electron/TabulatedAngularDistribution.hpp:57,
TabulatedEnergyDistribution.hpp:57. -/
def values (d : ElectronDist) : Res Words := d.data.darray 1
/-- `cdf`, electron/TabulatedAngularDistribution.hpp:62. -/
def cdf (d : ElectronDist) : Res Words := d.data.darray 2
end ElectronDist

/-- Fields of `ElectronBlockWithLocators`,
/repo/src/ACEtk/base/ElectronBlockWithLocators.hpp:21-24. -/
structure ElectronBlock where
  xss : Words
  n : Nat
  information : ArrayData
  data : List ElectronDist
deriving DecidableEq, Repr

namespace ElectronBlock

/-- `generateXSS`, /repo/src/ACEtk/base/ElectronBlockWithLocators/src/generateXSS.hpp:1-22. -/
def generateXSS (blocks : List ElectronDist) : Words :=
  blocks.map (·.energy) ++ blocks.map (fun d => Dbl.ofNat d.L) ++
    locatorLoop Dbl.ofNat blocks.length (blocks.map (·.data.xss))
      (List.replicate blocks.length (Dbl.ofNat 0)) 0

/-- `LLOC`, ElectronBlockWithLocators.hpp:60-66. -/
def LLOCof (information : ArrayData) (n index : Nat) : Res Nat := do
  LocBlock.verifyDataIndex n index
  return sizeOfInt ((← information.ivalue 3 index) + 1)
/-- `energy( index )`, ElectronBlockWithLocators.hpp:117-123. -/
def energyOf (information : ArrayData) (n index : Nat) : Res Dbl := do
  LocBlock.verifyDataIndex n index
  information.dvalue 1 index
/-- `length( index )`, ElectronBlockWithLocators.hpp:133-139. -/
def lengthOf (information : ArrayData) (n index : Nat) : Res Nat := do
  LocBlock.verifyDataIndex n index
  return u32OfInt (← information.ivalue 2 index)

/-- The body of the loop of `generateBlocks`,
ElectronBlockWithLocators/src/generateBlocks.hpp:12-15. -/
def generateBlock (xs : Words) (n : Nat) (information : ArrayData) (i : Nat) : Res ElectronDist := do
  let index := i + 1
  let data := 3 * n + 1
  let loc ← LLOCof information n index
  let left ← Base.iterator xs (data + loc - 1)
  let right := left + 2 * (← lengthOf information n index)
  ElectronDist.ofRange (← energyOf information n index) (← sub xs left right)
    (← lengthOf information n index)

/-- `generateBlocks`, ElectronBlockWithLocators/src/generateBlocks.hpp:1-17. -/
def generateBlocks (xs : Words) (n : Nat) : Res ElectronBlock := do
  let information ← ArrayData.ofRange (← sub xs 0 (3 * n)) n 3
  let data ← (List.range n).mapM (generateBlock xs n information)
  return { xss := xs, n := n, information := information, data := data }

/-- Constructor from distributions, ElectronBlockWithLocators/src/ctor.hpp:6-11,43-44;
electron/ElasticAngularDistributionBlock/src/ctor.hpp:14-15 (ELAS) and
electron/EnergyDistributionBlock/src/ctor.hpp:14-15 (BREME, EION) forward to it. -/
def mk' (blocks : List ElectronDist) : Res ElectronBlock :=
  generateBlocks (generateXSS blocks) blocks.length
/-- Reading constructor, ElectronBlockWithLocators/src/ctor.hpp:54-59;
electron/ElasticAngularDistributionBlock/src/ctor.hpp:24-25,
electron/EnergyDistributionBlock/src/ctor.hpp:24-25 forward to it. -/
def ofRange (xs : Words) (n : Nat) : Res ElectronBlock := generateBlocks xs n

/-- `LLOC` of the block. -/
def LLOC (b : ElectronBlock) (index : Nat) : Res Nat := LLOCof b.information b.n index
/-- `energy( index )` of the block. -/
def energy (b : ElectronBlock) (index : Nat) : Res Dbl := energyOf b.information b.n index
/-- `length( index )` of the block. -/
def length (b : ElectronBlock) (index : Nat) : Res Nat := lengthOf b.information b.n index
/-- `E` / `energies`, ElectronBlockWithLocators.hpp:84-89. -/
def E (b : ElectronBlock) : Res Words := b.information.darray 1
/-- `L` / `lengths`, ElectronBlockWithLocators.hpp:94-99: the array used is the first one. These
two functions are not re-exported by the derived classes. -/
def L (b : ElectronBlock) : Res (List Int) := b.information.iarray 1
/-- `data( index )`, ElectronBlockWithLocators.hpp:149-155. -/
def get (b : ElectronBlock) (index : Nat) : Res ElectronDist := do
  LocBlock.verifyDataIndex b.n index
  match b.data[index - 1]? with
  | some d => return d
  | none => .error .ub

end ElectronBlock
end ACE

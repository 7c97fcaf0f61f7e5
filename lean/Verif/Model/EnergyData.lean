import Verif.Model.Sort
import Verif.Model.Lookup
import Verif.Model.Distribution

/-!
# Energy distribution data: the thirteen laws and several laws in one

`LawData` is the variant of energy laws (`MultiDistributionData::DistributionData`,
/repo/src/ACEtk/continuous/MultiDistributionData.hpp:46-58), `EnergyData` the variant
`EnergyDistributionData` (EnergyDistributionBlock.hpp:32-46,
SecondaryParticleEnergyDistributionBlock.hpp:32-46).
-/

namespace ACE

/-- `LP`, /repo/src/ACEtk/continuous/DiscretePhotonDistribution.hpp:68: the first parameter converted to
`unsigned int` (it is not rounded). -/
def TwoParam.LP (d : TwoParam) : Res Nat := do toU32 (← d.C1).trunc?
/-- `isPrimaryPhoton`, /repo/src/ACEtk/continuous/DiscretePhotonDistribution.hpp:78. -/
def TwoParam.isPrimaryPhoton (d : TwoParam) : Res Bool := do return (← d.LP) == 2
/-- `EG`, /repo/src/ACEtk/continuous/DiscretePhotonDistribution.hpp:83. -/
def TwoParam.EG (d : TwoParam) : Res Dbl := d.C2

/-- `static_cast` of an integer valued double to an enumeration with underlying type `short`,
/repo/src/ACEtk/EnergyDistributionType.hpp:11. -/
def toShort : Option Int → Res Int
  | some i => if -32768 ≤ i ∧ i ≤ 32767 then .ok i else .error .ub
  | none => .error .ub
/-- Conversion of an `int` to `short` (modulo 2^16). -/
def wrap16 (i : Int) : Int :=
  if i % 65536 < 32768 then i % 65536 else i % 65536 - 65536
/-- Conversion of the elements of a range of doubles to `long`. -/
def toLongs (xs : Words) : Res (List Int) :=
  xs.mapM (fun d => match d.trunc? with
    | some i => if -9223372036854775808 ≤ i ∧ i ≤ 9223372036854775807 then .ok i else .error .ub
    | none => .error .ub)
/-- `back()` of a range. -/
def last (xs : Words) : Res Dbl :=
  match xs.getLast? with
  | some v => .ok v
  | none => .error .ub

/-! ## Law 1: equiprobable outgoing energy bins -/

/-- `EquiprobableOutgoingEnergyBins`,
/repo/src/ACEtk/continuous/EquiprobableOutgoingEnergyBins.hpp:22-25; constructors
EquiprobableOutgoingEnergyBins/src/ctor.hpp:15-18,27-29. -/
structure EquiEnergy where
  incident : Dbl
  xss : Words
deriving DecidableEq, Repr
namespace EquiEnergy
/-- `numberBins`, EquiprobableOutgoingEnergyBins.hpp:42: `length() - 1` as an `int`. -/
def numberBins (d : EquiEnergy) : Int := (d.xss.length : Int) - 1
/-- `energies`, EquiprobableOutgoingEnergyBins.hpp:47-50. -/
def energies (d : EquiEnergy) : Res Words := Base.XSSr d.xss 1 (sizeOfInt (d.numberBins + 1))
end EquiEnergy

/-- Fields of `EquiprobableOutgoingEnergyBinData`,
/repo/src/ACEtk/continuous/EquiprobableOutgoingEnergyBinData.hpp:29-31. -/
structure EquiBinData where
  xss : Words
  interpolation : InterpolationData
  energies : ColumnData
  bins : List EquiEnergy
deriving DecidableEq, Repr

namespace EquiBinData

/-- The loop of `generateXSS`, EquiprobableOutgoingEnergyBinData/src/generateXSS.hpp:27-32. -/
def loop : List EquiEnergy → Words → Nat → Words
  | [], xss, _ => xss
  | d :: ds, xss, index => loop ds (xss.set index d.incident ++ d.xss) (index + 1)

/-- `generateXSS` after sorting, EquiprobableOutgoingEnergyBinData/src/generateXSS.hpp:8-35:
`front()` of an empty list is undefined. -/
def generateXSS (boundaries interpolants : List Int) (order : List EquiEnergy) : Res Words := do
  let interpolation ← InterpolationData.mk' boundaries interpolants
  match order with
  | [] => .error .ub
  | front :: _ =>
      let nr := boundaries.length
      let ne := order.length
      let xss := interpolation.xss ++ List.replicate (2 + ne) (Dbl.ofNat 0)
      let xss := xss.set (1 + 2 * nr) (Dbl.ofNat ne)
      let xss := xss.set (2 + 2 * nr + ne) (Dbl.ofInt (front.numberBins + 1))
      return loop order xss (2 + 2 * nr)

/-- `incidentEnergy`, EquiprobableOutgoingEnergyBinData.hpp:118-124 and
src/verifyIncidentEnergyIndex.hpp:1-12. -/
def incidentOf (energies : ColumnData) (index : Nat) : Res Dbl := do
  let n ← energies.N
  if index < 1 ∨ index > n then .error .range else energies.value 1 index
/-- `NET`, EquiprobableOutgoingEnergyBinData.hpp:145-150. -/
def NETof (xs : Words) (interpolation : InterpolationData) (energies : ColumnData) : Res Nat := do
  let nr ← ColumnData.N interpolation
  let ne ← energies.N
  return sizeOfInt (← Base.IXSS xs (1 + 2 * nr + 1 + ne + 1))

/-- The body of the loop of `generateBlocks`, zero based `i`,
EquiprobableOutgoingEnergyBinData/src/generateBlocks.hpp:16-21; `bins` is an offset. -/
def generateBlock (xs : Words) (interpolation : InterpolationData) (energies : ColumnData)
    (bins i : Nat) : Res EquiEnergy := do
  let incident ← incidentOf energies (i + 1)
  let net ← NETof xs interpolation energies
  return ⟨incident, ← sub xs (bins + 1 + net * i) (bins + 1 + net * (i + 1))⟩

/-- `generateBlocks`, EquiprobableOutgoingEnergyBinData/src/generateBlocks.hpp:1-22. -/
def generateBlocks (xs : Words) : Res EquiBinData := do
  let nr := sizeOfInt (← Base.IXSS xs 1)
  let ne := sizeOfInt (← Base.IXSS xs (1 + 2 * nr + 1))
  let incident := 2 * nr + 1
  let bins := incident + ne + 1
  let interpolation ← InterpolationData.ofRange (← sub xs 0 incident)
  let energies ← ColumnData.ofRange (← sub xs incident bins) 1
  let list ← (List.range ne).mapM (generateBlock xs interpolation energies bins)
  return { xss := xs, interpolation := interpolation, energies := energies, bins := list }

/-- Constructor from bins, EquiprobableOutgoingEnergyBinData/src/ctor.hpp:64-73,80-82. -/
def mk' (sort : StdSort EquiEnergy.incident) (boundaries interpolants : List Int)
    (ds : List EquiEnergy) : Res EquiBinData := do
  generateBlocks (← generateXSS boundaries interpolants (sort.run ds))
/-- Reading constructor, EquiprobableOutgoingEnergyBinData/src/ctor.hpp:91-99 and
verifySize.hpp:1-15. The check computes in `unsigned int`, so what it compares with wraps around at 2^32. -/
def ofRange (xs : Words) : Res EquiBinData := do
  let nr := sizeOfInt (← Base.IXSS xs 1)
  let ne := sizeOfInt (← Base.IXSS xs (1 + 2 * nr + 1))
  let net := sizeOfInt (← Base.IXSS xs (1 + 2 * nr + 1 + ne + 1))
  guardThrow (!decide (xs.length < (1 + 2 * nr + 1 + ne + 1 + ne * net) % 4294967296))
  generateBlocks xs

/-- `NB`, EquiprobableOutgoingEnergyBinData.hpp:68. -/
def NB (d : EquiBinData) : Res Nat := ColumnData.N d.interpolation
/-- `NBT`, EquiprobableOutgoingEnergyBinData.hpp:78. -/
def NBT (d : EquiBinData) : Res Words := InterpolationData.NBT d.interpolation
/-- `INT`, EquiprobableOutgoingEnergyBinData.hpp:88. -/
def INT (d : EquiBinData) : Res Words := InterpolationData.INT d.interpolation
/-- `NE`, EquiprobableOutgoingEnergyBinData.hpp:98. -/
def NE (d : EquiBinData) : Res Nat := d.energies.N
/-- `incidentEnergies`, EquiprobableOutgoingEnergyBinData.hpp:108. -/
def incidentEnergies (d : EquiBinData) : Res Words := d.energies.column 1
/-- `incidentEnergy( index )`. -/
def incidentEnergy (d : EquiBinData) (index : Nat) : Res Dbl := incidentOf d.energies index
/-- `NET`. -/
def NET (d : EquiBinData) : Res Nat := NETof d.xss d.interpolation d.energies
/-- `minimumIncidentEnergy`, EquiprobableOutgoingEnergyBinData.hpp:129-132. -/
def emin (d : EquiBinData) : Res Dbl := d.incidentEnergy 1
/-- `maximumIncidentEnergy`, EquiprobableOutgoingEnergyBinData.hpp:137-140. -/
def emax (d : EquiBinData) : Res Dbl := do d.incidentEnergy (← d.NE)
/-- `distribution( index )`, EquiprobableOutgoingEnergyBinData.hpp:173-179. -/
def distribution (d : EquiBinData) (index : Nat) : Res EquiEnergy := do
  let n ← d.NE
  if index < 1 ∨ index > n then .error .range
  else match d.bins[index - 1]? with
    | some x => return x
    | none => .error .ub

end EquiBinData

/-! ## Law 5: general evaporation spectrum -/

/-- Fields of `GeneralEvaporationSpectrum`,
/repo/src/ACEtk/continuous/GeneralEvaporationSpectrum.hpp:22-25. -/
structure GenEvap where
  xss : Words
  tabulated : TabulatedData
  bins : ColumnData
deriving DecidableEq, Repr
namespace GenEvap
/-- `generateBlocks`, GeneralEvaporationSpectrum/src/generateBlocks.hpp:1-11. -/
def generateBlocks (xs : Words) : Res GenEvap := do
  let nr := sizeOfInt (← Base.IXSS xs 1)
  let ne := sizeOfInt (← Base.IXSS xs (1 + 2 * nr + 1))
  let bins := 2 * nr + 2 * ne + 2
  let tabulated ← TabulatedData.ofRange (← sub xs 0 bins)
  let list ← ColumnData.ofRange (← sub xs bins xs.length) 1
  return { xss := xs, tabulated := tabulated, bins := list }
/-- Constructor from values, GeneralEvaporationSpectrum/src/ctor.hpp:62-74 and generateXSS.hpp:1-23. -/
def mk' (boundaries interpolants : List Int) (energies temperatures bins : Words) :
    Res GenEvap := do
  let table ← TabulatedData.mk' boundaries interpolants energies temperatures
  generateBlocks (table.xss ++ Dbl.ofNat bins.length :: bins)
/-- Reading constructor, GeneralEvaporationSpectrum/src/ctor.hpp:98-106 and verifySize.hpp:1-15.
The check computes in `unsigned int`, so what it compares with wraps around at 2^32. -/
def ofRange (xs : Words) : Res GenEvap := do
  let nr := sizeOfInt (← Base.IXSS xs 1)
  let ne := sizeOfInt (← Base.IXSS xs (1 + 2 * nr + 1))
  let nb := sizeOfInt (← Base.IXSS xs (1 + 2 * nr + 1 + 2 * ne + 1))
  guardThrow (!decide (xs.length < (1 + 2 * nr + 1 + 2 * ne + 1 + nb) % 4294967296))
  generateBlocks xs
/-- `NET`, GeneralEvaporationSpectrum.hpp:136. -/
def NET (d : GenEvap) : Res Nat := d.bins.N
/-- `bins`, GeneralEvaporationSpectrum.hpp:146. -/
def binValues (d : GenEvap) : Res Words := d.bins.column 1
/-- `minimumIncidentEnergy`, GeneralEvaporationSpectrum.hpp:120-123. -/
def emin (d : GenEvap) : Res Dbl := do deref (← d.tabulated.x) 0
/-- `maximumIncidentEnergy`, GeneralEvaporationSpectrum.hpp:128-131. -/
def emax (d : GenEvap) : Res Dbl := do last (← d.tabulated.x)
end GenEvap

/-! ## Law 11: Watt spectrum -/

/-- Fields of `EnergyDependentWattSpectrum`,
/repo/src/ACEtk/continuous/EnergyDependentWattSpectrum.hpp:22-26; `ParameterData` is a
`TabulatedData`. -/
structure Watt where
  xss : Words
  a : TabulatedData
  b : TabulatedData
deriving DecidableEq, Repr
namespace Watt
/-- `generateBlocks`, EnergyDependentWattSpectrum/src/generateBlocks.hpp:1-14. -/
def generateBlocks (xs : Words) : Res Watt := do
  let nr := sizeOfInt (← Base.IXSS xs 1)
  let ne := sizeOfInt (← Base.IXSS xs (1 + 2 * nr + 1))
  let beginb := 2 * nr + 2 * ne + 2
  let nr' := sizeOfInt (← Base.IXSS xs (beginb + 1))
  let ne' := sizeOfInt (← Base.IXSS xs (beginb + 1 + 2 * nr' + 1))
  let fin := beginb + 2 * nr' + 2 * ne' + 2
  let a ← TabulatedData.ofRange (← sub xs 0 beginb)
  let b ← TabulatedData.ofRange (← sub xs beginb fin)
  return { xss := xs, a := a, b := b }
/-- Constructor, EnergyDependentWattSpectrum/src/ctor.hpp:60-68 and generateXSS.hpp:1-10. -/
def mk' (a b : TabulatedData) (energy : Dbl) : Res Watt :=
  generateBlocks (a.xss ++ b.xss ++ [energy])
/-- Reading constructor, EnergyDependentWattSpectrum/src/ctor.hpp:78-88 and verifySize.hpp:1-19.
The check computes in `unsigned int`, so what it compares with wraps around at 2^32. -/
def ofRange (xs : Words) : Res Watt := do
  let nra := sizeOfInt (← Base.IXSS xs 1)
  let nea := sizeOfInt (← Base.IXSS xs (1 + 2 * nra + 1))
  let size := 2 + 2 * nra + 2 * nea
  let nrb := sizeOfInt (← Base.IXSS xs (size + 1))
  let neb := sizeOfInt (← Base.IXSS xs (size + 1 + 2 * nrb + 1))
  guardThrow (!decide (xs.length < (1 + 2 * nra + 1 + 2 * nea + 1 + 2 * nrb + 1 + 2 * neb + 1) % 4294967296))
  generateBlocks xs
/-- `minimumIncidentEnergy`, EnergyDependentWattSpectrum.hpp:67-70. -/
def emin (d : Watt) : Res Dbl := do deref (← d.a.x) 0
/-- `maximumIncidentEnergy`, EnergyDependentWattSpectrum.hpp:75-78. -/
def emax (d : Watt) : Res Dbl := do last (← d.a.x)
/-- `U`, EnergyDependentWattSpectrum.hpp:83: the word after the range of `b`. -/
def U (d : Watt) : Res Dbl := deref d.xss (d.a.xss.length + d.b.xss.length)
end Watt

/-! ## Law 66: N-body phase space -/

/-- Fields of `NBodyPhaseSpaceDistribution`,
/repo/src/ACEtk/continuous/NBodyPhaseSpaceDistribution.hpp:25-27. -/
structure NBody where
  xss : Words
  emin : Dbl
  emax : Dbl
deriving DecidableEq, Repr
namespace NBody
/-- Constructor, NBodyPhaseSpaceDistribution/src/ctor.hpp:21-30 and generateXSS.hpp:1-17
(`npsx` and `interpolation` are `unsigned int`). -/
def mk' (emin emax : Dbl) (npsx : Nat) (ap : Dbl) (interpolation : Nat) (values pdf cdf : Words) :
    Res NBody := do
  let columns ← ColumnData.ofColumns [values, pdf, cdf]
  return ⟨Dbl.ofNat npsx :: ap :: Dbl.ofNat interpolation :: columns.xss, emin, emax⟩
/-- Reading constructor, NBodyPhaseSpaceDistribution/src/ctor.hpp:40-46 and verifySize.hpp:1-12. -/
def ofRange (xs : Words) (emin emax : Dbl) : Res NBody := do
  guardThrow (!decide (xs.length < 2))
  return ⟨xs, emin, emax⟩
/-- `NPSX`, NBodyPhaseSpaceDistribution.hpp:67. -/
def NPSX (d : NBody) : Res Nat := do return u32OfInt (← Base.IXSS d.xss 1)
/-- `AP`, NBodyPhaseSpaceDistribution.hpp:77. -/
def AP (d : NBody) : Res Dbl := Base.XSS d.xss 2
/-- `interpolation`, NBodyPhaseSpaceDistribution.hpp:87. -/
def interpolation (d : NBody) : Res Int := Base.IXSS d.xss 3
/-- `numberValues`, NBodyPhaseSpaceDistribution.hpp:92. -/
def numberValues (d : NBody) : Res Nat := do return sizeOfInt (← Base.IXSS d.xss 4)
/-- `values`, NBodyPhaseSpaceDistribution.hpp:97-100. -/
def values (d : NBody) : Res Words := do Base.XSSr d.xss 5 (← d.numberValues)
/-- `pdf`, NBodyPhaseSpaceDistribution.hpp:105-108. -/
def pdf (d : NBody) : Res Words := do
  let n ← d.numberValues
  Base.XSSr d.xss (5 + n) n
/-- `cdf`, NBodyPhaseSpaceDistribution.hpp:113-116. -/
def cdf (d : NBody) : Res Words := do
  let n ← d.numberValues
  Base.XSSr d.xss (5 + 2 * n) n
end NBody

/-! ## The variant of laws -/

/-- `MultiDistributionData::DistributionData`,
/repo/src/ACEtk/continuous/MultiDistributionData.hpp:46-58. -/
inductive LawData where
  | equiprobable (d : EquiBinData)
  | photon (d : TwoParam)
  | level (d : TwoParam)
  | tabulated (d : Law4)
  | general (d : GenEvap)
  | maxwell (d : Evaporation)
  | evaporation (d : Evaporation)
  | watt (d : Watt)
  | kalbach (d : Law44)
  | nbody (d : NBody)
  | transfer (d : TwoParam)
  | energyAngle (d : Law61)
  | angleEnergy (d : Law67)
deriving DecidableEq, Repr

namespace LawData

/-- `LAW()` of the alternatives: EquiprobableOutgoingEnergyBinData.hpp:49,
DiscretePhotonDistribution.hpp:38, LevelScatteringDistribution.hpp:43,
OutgoingEnergyDistributionData.hpp:46, GeneralEvaporationSpectrum.hpp:45,
SimpleMaxwellianFissionSpectrum.hpp:38 and src/ctor.hpp:26,54, EvaporationSpectrum.hpp:38 and
src/ctor.hpp:26,54, EnergyDependentWattSpectrum.hpp:43, KalbachMannDistributionData.hpp:45,
NBodyPhaseSpaceDistribution.hpp:43, TwoBodyTransferDistribution.hpp:36,
EnergyAngleDistributionData.hpp:47, AngleEnergyDistributionData.hpp:47, with the numbers of
/repo/src/ACEtk/EnergyDistributionType.hpp:11-27. -/
def LAW : LawData → Int
  | equiprobable _ => 1
  | photon _ => 2
  | level _ => 3
  | tabulated _ => 4
  | general _ => 5
  | maxwell _ => 7
  | evaporation _ => 9
  | watt _ => 11
  | kalbach _ => 44
  | nbody _ => 66
  | transfer _ => 33
  | energyAngle _ => 61
  | angleEnergy _ => 61

/-- `minimumIncidentEnergy()` of the alternatives. -/
def emin : LawData → Res Dbl
  | equiprobable d => d.emin
  | photon d => .ok d.emin
  | level d => .ok d.emin
  | tabulated d => d.minimumIncidentEnergy
  | general d => d.emin
  | maxwell d => d.emin
  | evaporation d => d.emin
  | watt d => d.emin
  | kalbach d => d.minimumIncidentEnergy
  | nbody d => .ok d.emin
  | transfer d => .ok d.emin
  | energyAngle d => d.minimumIncidentEnergy
  | angleEnergy d => d.minimumIncidentEnergy

/-- `maximumIncidentEnergy()` of the alternatives. -/
def emax : LawData → Res Dbl
  | equiprobable d => d.emax
  | photon d => .ok d.emax
  | level d => .ok d.emax
  | tabulated d => d.maximumIncidentEnergy
  | general d => d.emax
  | maxwell d => d.emax
  | evaporation d => d.emax
  | watt d => d.emax
  | kalbach d => d.maximumIncidentEnergy
  | nbody d => .ok d.emax
  | transfer d => .ok d.emax
  | energyAngle d => d.maximumIncidentEnergy
  | angleEnergy d => d.maximumIncidentEnergy

/-- The words of the alternatives (`begin()`, `end()`). -/
def words : LawData → Words
  | equiprobable d => d.xss
  | photon d => d.xss
  | level d => d.xss
  | tabulated d => d.xss
  | general d => d.xss
  | maxwell d => d.xss
  | evaporation d => d.xss
  | watt d => d.xss
  | kalbach d => d.xss
  | nbody d => d.xss
  | transfer d => d.xss
  | energyAngle d => d.xss
  | angleEnergy d => d.xss

/-- A table with locators is made again for the locator `idat`. -/
def remake {D : Type} (mk : List Int → List Int → List D → Nat → Res (DistData D))
    (d : DistData D) (idat : Nat) : Res Words := do
  return (← mk (← toLongs (← d.NBT)) (← toLongs (← d.INT)) d.distributions idat).xss

/-- The words inserted in DLW and DLWH blocks for data at `idat`,
EnergyDistributionBlock/src/generateXSS.hpp:91-150,
SecondaryParticleEnergyDistributionBlock/src/generateXSS.hpp:60-119. -/
def placed (idat : Nat) : LawData → Res Words
  | tabulated d => remake Law4.mk' d idat
  | kalbach d => remake Law4.mk' d idat
  | energyAngle d => remake Law61.mk' d idat
  | angleEnergy d => remake Law67.mk' d idat
  | d => .ok d.words

/-- The words inserted when several laws are given: only laws 4 and 44 are made again,
MultiDistributionData/src/generateXSS.hpp:29-63. -/
def placedMulti (idat : Nat) : LawData → Res Words
  | tabulated d => remake Law4.mk' d idat
  | kalbach d => remake Law4.mk' d idat
  | d => .ok d.words

/-- The switch on the law, EnergyDistributionBlock/src/generateBlocks.hpp:19-78,
SecondaryParticleEnergyDistributionBlock/src/generateData.hpp:26-85; `xs` is `[ start, right )`. -/
def read (law : Int) (idat : Nat) (xs : Words) (emin emax : Dbl) : Res LawData :=
  if law = 2 then do return photon (← TwoParam.ofRange xs emin emax)
  else if law = 3 then do return level (← TwoParam.ofRange xs emin emax)
  else if law = 33 then do return transfer (← TwoParam.ofRange xs emin emax)
  else if law = 66 then do return nbody (← NBody.ofRange xs emin emax)
  else if law = 4 then do return tabulated (← Law4.ofRange idat xs)
  else if law = 44 then do return kalbach (← Law4.ofRange idat xs)
  else if law = 61 then do return energyAngle (← Law61.ofRange idat xs)
  else if law = 67 then do return angleEnergy (← Law67.ofRange idat xs)
  else if law = 1 then do return equiprobable (← EquiBinData.ofRange xs)
  else if law = 5 then do return general (← GenEvap.ofRange xs)
  else if law = 7 then do return maxwell (← Evaporation.ofRange xs)
  else if law = 9 then do return evaporation (← Evaporation.ofRange xs)
  else if law = 11 then do return watt (← Watt.ofRange xs)
  else .error .thrown

/-- The switch of several laws, MultiDistributionData/src/generateBlocks.hpp:27-111: the case of
law 67 (lines 71-75) has no `break` and goes on to the case of law 1. -/
def readMulti (law : Int) (idat : Nat) (xs : Words) (emin emax : Dbl) : Res (List LawData) :=
  if law = 67 then do
    let d ← Law67.ofRange idat xs
    let e ← EquiBinData.ofRange xs
    return [angleEnergy d, equiprobable e]
  else do return [← read law idat xs emin emax]

end LawData

/-! ## Several laws -/

/-- Fields of `MultiDistributionData`, /repo/src/ACEtk/continuous/MultiDistributionData.hpp:63-65;
a `DistributionProbability` is a `TabulatedData`
(/repo/src/ACEtk/continuous/DistributionProbability.hpp:20-95). -/
structure MultiData where
  xss : Words
  locb : Nat
  probabilities : List TabulatedData
  distributions : List LawData
deriving DecidableEq, Repr

namespace MultiData

/-- The loop of `generateXSS`, MultiDistributionData/src/generateXSS.hpp:18-68. -/
def loop (locb : Nat) : List (TabulatedData × LawData) → Words → Res Words
  | [], xss => .ok xss
  | (p, d) :: rest, xss => do
      let idat := xss.length + 3 + p.xss.length + locb
      let ws ← d.placedMulti idat
      let lnw := if rest.isEmpty then 0 else xss.length + 3 + p.xss.length + ws.length + locb
      loop locb rest
        (xss ++ (Dbl.ofNat lnw :: Dbl.ofInt d.LAW :: Dbl.ofNat idat :: p.xss) ++ ws)

/-- `generateXSS`, MultiDistributionData/src/generateXSS.hpp:1-71. -/
def generateXSS (ps : List TabulatedData) (ds : List LawData) (locb : Nat) : Res Words := do
  guardThrow (ds.length == ps.length)
  loop locb (ps.zip ds) []

/-- The end of the data of a law, MultiDistributionData/src/generateBlocks.hpp:19: an offset. -/
def endOf (xs : Words) (locb lnw : Nat) : Res Nat :=
  if lnw = 0 then .ok xs.length
  else if lnw < locb then .error .ub
  else .ok (lnw - locb)

/-- The loop of `generateBlocks`, MultiDistributionData/src/generateBlocks.hpp:6-115. The loop has
no bound: every step is determined by `locator`, which lies in the range, so more steps than
words mean that it never ends (`fuel`). Simplification: index arithmetic is not reduced modulo
2^64. -/
def blocks (xs : Words) (locb : Nat) : (fuel : Nat) → (locator : Nat) →
    Res (List TabulatedData × List LawData)
  | 0, _ => .error .endless
  | fuel + 1, locator => do
      let lnw := sizeOfInt (← Base.IXSS xs locator)
      let law := wrap16 (← Base.IXSS xs (locator + 1))
      let idat := sizeOfInt (← Base.IXSS xs (locator + 2))
      let pbegin := locator + 2
      let dbegin ← if idat < locb then .error .ub else .ok (idat - locb)
      let fin ← endOf xs locb lnw
      let p ← TabulatedData.ofRange (← sub xs pbegin dbegin)
      let emin ← deref (← p.x) 0
      let emax ← last (← p.x)
      let ds ← LawData.readMulti law idat (← sub xs dbegin fin) emin emax
      if lnw = 0 then return ([p], ds)
      else
        let r ← blocks xs locb fuel (lnw - locb + 1)
        return (p :: r.1, ds ++ r.2)

/-- `generateBlocks`. -/
def generateBlocks (xs : Words) (locb : Nat) : Res MultiData := do
  let r ← blocks xs locb (xs.length + 1) 1
  return { xss := xs, locb := locb, probabilities := r.1, distributions := r.2 }

/-- Constructor from values, MultiDistributionData/src/ctor.hpp:64-74. -/
def mk' (ps : List TabulatedData) (ds : List LawData) (locb : Nat) : Res MultiData := do
  generateBlocks (← generateXSS ps ds locb) locb
/-- Reading constructor, MultiDistributionData/src/ctor.hpp:83-88. -/
def ofRange (locb : Nat) (xs : Words) : Res MultiData := generateBlocks xs locb

/-- `numberDistributions`, MultiDistributionData.hpp:96-99. -/
def numberDistributions (d : MultiData) : Nat := d.distributions.length
/-- `probability( index )`, MultiDistributionData.hpp:117-123: the index is checked against the
number of distributions (src/verifyDistributionIndex.hpp:1-12). -/
def probability (d : MultiData) (index : Nat) : Res TabulatedData :=
  if index < 1 ∨ index > d.numberDistributions then .error .range
  else match d.probabilities[index - 1]? with
    | some x => .ok x
    | none => .error .ub
/-- `distribution( index )`, MultiDistributionData.hpp:141-147. -/
def distribution (d : MultiData) (index : Nat) : Res LawData :=
  if index < 1 ∨ index > d.numberDistributions then .error .range
  else match d.distributions[index - 1]? with
    | some x => .ok x
    | none => .error .ub

end MultiData

/-! ## Energy distribution data -/

/-- `EnergyDistributionData`, SecondaryParticleEnergyDistributionBlock.hpp:32-46. -/
inductive EnergyData where
  | law (d : LawData)
  | multi (d : MultiData)
  | undefined
deriving DecidableEq, Repr

namespace EnergyData

/-- The words of one distribution when `n` words of the data part come before, so that its locator
is `n + 1`: EnergyDistributionBlock/src/generateXSS.hpp:44-151,
SecondaryParticleEnergyDistributionBlock/src/generateXSS.hpp:13-120. -/
def placed (locator : Nat) : EnergyData → Res Words
  | multi d => do return (← MultiData.mk' d.probabilities d.distributions locator).xss
  | undefined => .ok []
  | law d => do
      let idat := locator + 3 + 1 + 5
      let emin ← d.emin
      let emax ← d.emax
      let ws ← d.placed idat
      return [Dbl.ofNat 0, Dbl.ofInt d.LAW, Dbl.ofNat idat, Dbl.ofNat 0, Dbl.ofNat 2, emin, emax,
        Dbl.ofNat 1, Dbl.ofNat 1] ++ ws

/-- The data of one law, EnergyDistributionBlock/src/generateBlocks.hpp:8-78,
SecondaryParticleEnergyDistributionBlock/src/generateData.hpp:15-85. -/
def readLaw (locator : Nat) (xs : Words) : Res EnergyData := do
  let type ← toShort (← deref xs 1).round?
  let idat ← toSize (← deref xs 2).round?
  let nr ← toSize (← deref xs 3).round?
  let ne ← toSize (← deref xs (3 + 2 * nr + 1)).round?
  let emin ← deref xs (3 + 2 * nr + 1 + 1)
  let emax ← deref xs (3 + 2 * nr + 1 + ne)
  let start ← if idat < locator then .error .ub else .ok (idat - locator)
  return .law (← LawData.read type idat (← sub xs start xs.length) emin emax)

/-- `generateData`, EnergyDistributionBlock/src/generateBlocks.hpp:1-84; `xs` is `[ left, right )`.
Simplification: a read past `right` is undefined here even when it stays in the block. -/
def read (locator : Nat) (xs : Words) : Res EnergyData := do
  let lnw ← toU32 (← deref xs 0).round?
  if lnw = 0 then readLaw locator xs
  else return .multi (← MultiData.ofRange locator xs)

/-- `generateData`, SecondaryParticleEnergyDistributionBlock/src/generateData.hpp:1-92. -/
def readSecondary (locator : Nat) (xs : Words) : Res EnergyData :=
  if locator = 0 then .ok .undefined else read locator xs

end EnergyData
end ACE

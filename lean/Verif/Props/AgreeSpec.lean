import Verif.Model.Fission
import Verif.Model.Thermal
import Verif.Model.Secondary
import Verif.Model.Angular

/-!
# Specification: an object that gives everything another object gives

`b ≼ b'` says of two objects of a class that every member function which returns a value for `b`
returns the same value for `b'`; where the value is again an object (the data of a reaction, a
distribution), the object returned for `b'` gives in turn everything the object returned for `b`
gives. Numbers, words and lists of words have to be equal.
-/

namespace ACE

/-- What "the same or more" means for the values of a type. -/
class Gives (α : Type) where
  /-- The second gives everything the first gives. -/
  rel : α → α → Prop

scoped infix:50 " ≼ " => Gives.rel

/-- When the first computation returns a value, so does the second, and the values are related. -/
def Up {α : Type} (R : α → α → Prop) (r r' : Res α) : Prop :=
  ∀ v, r = .ok v → ∃ v', r' = .ok v' ∧ R v v'

instance : Gives Nat := ⟨Eq⟩
instance : Gives Int := ⟨Eq⟩
instance : Gives Bool := ⟨Eq⟩
instance : Gives Dbl := ⟨Eq⟩
instance : Gives Words := ⟨Eq⟩
instance : Gives (List Int) := ⟨Eq⟩
instance : Gives Frame := ⟨Eq⟩
instance : Gives (Option Frame) := ⟨Eq⟩
instance : Gives AngType := ⟨Eq⟩
/-- A member that may not return. -/
instance {α : Type} [Gives α] : Gives (Res α) := ⟨Up Gives.rel⟩
/-- A member with an argument: for all values of the argument. -/
instance {α β : Type} [Gives β] : Gives (α → β) := ⟨fun f g => ∀ i, f i ≼ g i⟩

/-! ## Arrays and columns -/

instance : Gives ArrayData := ⟨fun b b' => b.n = b'.n ∧ b.m = b'.m ∧ b.dvalue ≼ b'.dvalue ∧
  b.ivalue ≼ b'.ivalue ∧ b.darray ≼ b'.darray ∧ b.iarray ≼ b'.iarray ∧ b.emptyArray ≼ b'.emptyArray⟩
instance : Gives ColumnData := ⟨fun b b' => b.nc = b'.nc ∧ b.N ≼ b'.N ∧ b.column ≼ b'.column ∧
  b.value ≼ b'.value⟩
instance : Gives TabulatedData := ⟨fun b b' => b.NB ≼ b'.NB ∧ b.NBT ≼ b'.NBT ∧ b.INT ≼ b'.INT ∧
  b.N ≼ b'.N ∧ b.x ≼ b'.x ∧ b.y ≼ b'.y⟩
instance : Gives TabProb := ⟨fun b b' => b.interpolation ≼ b'.interpolation ∧
  b.numberValues ≼ b'.numberValues ∧ b.values ≼ b'.values ∧ b.pdf ≼ b'.pdf ∧ b.cdf ≼ b'.cdf ∧
  b.column ≼ b'.column⟩
instance : Gives TwoParam := ⟨fun b b' => b.emin = b'.emin ∧ b.emax = b'.emax ∧ b.C1 ≼ b'.C1 ∧
  b.C2 ≼ b'.C2 ∧ b.LP ≼ b'.LP ∧ b.isPrimaryPhoton ≼ b'.isPrimaryPhoton ∧ b.EG ≼ b'.EG⟩
instance : Gives Evaporation := ⟨fun b b' => b.tabulated ≼ b'.tabulated ∧ b.energies ≼ b'.energies ∧
  b.temperatures ≼ b'.temperatures ∧ b.emin ≼ b'.emin ∧ b.emax ≼ b'.emax ∧ b.U ≼ b'.U⟩
instance : Gives ProbabilityTable := ⟨fun b b' => b.incident = b'.incident ∧ b.data ≼ b'.data⟩
instance : Gives TabDist := ⟨fun b b' => b.value = b'.value ∧ b.dist ≼ b'.dist ∧
  b.interpolation ≼ b'.interpolation ∧
  b.numberDiscretePhotonLines ≼ b'.numberDiscretePhotonLines ∧ b.r ≼ b'.r ∧ b.a ≼ b'.a⟩

/-! ## Lists of numbers -/

/-- YP: the search functions are not part of the claim (see `C22_YP_searches_beyond`). -/
instance : Gives YP := ⟨fun b b' => b.NYP ≼ b'.NYP ∧ b.MT ≼ b'.MT ∧ b.MTs ≼ b'.MTs⟩
instance : Gives IXS := ⟨fun b b' => b.ntype = b'.ntype ∧ b.LLOC ≼ b'.LLOC⟩
instance : Gives IXSU := ⟨fun b b' => b.ntype = b'.ntype ∧ b.LLOC ≼ b'.LLOC ∧ b.IP ≼ b'.IP ∧
  b.NP ≼ b'.NP ∧ b.hasIP ≼ b'.hasIP ∧ b.index ≼ b'.index⟩
instance : Gives HPD := ⟨fun b b' => b.energyIndex ≼ b'.energyIndex ∧
  b.numberValues ≼ b'.numberValues ∧ b.totalProduction ≼ b'.totalProduction ∧
  b.heating ≼ b'.heating⟩
instance : Gives NTRO := ⟨fun b b' => b.NTYPE = b'.NTYPE ∧ b.NP ≼ b'.NP ∧ b.NPs ≼ b'.NPs⟩

/-! ## Blocks with locators -/

instance {D : Type} [Gives D] : Gives (LocBlock D) := ⟨fun b b' => b.n = b'.n ∧ b.LLOC ≼ b'.LLOC ∧
  b.get ≼ b'.get⟩
instance : Gives CrossSectionData := ⟨fun b b' => b.energyIndex ≼ b'.energyIndex ∧
  b.numberValues ≼ b'.numberValues ∧ b.crossSections ≼ b'.crossSections⟩
instance : Gives PhotonXS := ⟨fun b b' => b.MFTYPE ≼ b'.MFTYPE ∧ b.energyIndex ≼ b'.energyIndex ∧
  b.numberValues ≼ b'.numberValues ∧ b.crossSections ≼ b'.crossSections⟩
instance : Gives TabMult := ⟨fun b b' => b.MFTYPE ≼ b'.MFTYPE ∧ b.MT ≼ b'.MT ∧ b.NB ≼ b'.NB ∧
  b.NBT ≼ b'.NBT ∧ b.INT ≼ b'.INT ∧ b.NE ≼ b'.NE ∧ b.E ≼ b'.E ∧ b.NU ≼ b'.NU⟩
/-- The same kind of data. -/
def PhotonData.gives : PhotonData → PhotonData → Prop
  | .xs d, .xs d' => d ≼ d'
  | .mult d, .mult d' => d ≼ d'
  | _, _ => False
instance : Gives PhotonData := ⟨PhotonData.gives⟩
instance : Gives ElectronDist := ⟨fun b b' => b.energy = b'.energy ∧ b.L = b'.L ∧
  b.values ≼ b'.values ∧ b.cdf ≼ b'.cdf⟩
instance : Gives ElectronBlock := ⟨fun b b' => b.n = b'.n ∧ b.LLOC ≼ b'.LLOC ∧
  b.energy ≼ b'.energy ∧ b.length ≼ b'.length ∧ b.E ≼ b'.E ∧ b.L ≼ b'.L ∧ b.get ≼ b'.get⟩

/-! ## Distributions -/

instance {D : Type} [Gives D] : Gives (DistData D) := ⟨fun b b' => b.NB ≼ b'.NB ∧ b.NBT ≼ b'.NBT ∧
  b.INT ≼ b'.INT ∧ b.NE ≼ b'.NE ∧ b.incidentEnergies ≼ b'.incidentEnergies ∧
  b.incidentEnergy ≼ b'.incidentEnergy ∧ b.minimumIncidentEnergy ≼ b'.minimumIncidentEnergy ∧
  b.maximumIncidentEnergy ≼ b'.maximumIncidentEnergy ∧ b.LOCC ≼ b'.LOCC ∧
  b.relativeDistributionLocator ≼ b'.relativeDistributionLocator ∧
  b.distribution ≼ b'.distribution⟩
instance {D : Type} [Gives D] : Gives (DistDataI D) := ⟨fun b b' => b.incident = b'.incident ∧
  b.interpolation ≼ b'.interpolation ∧ b.N ≼ b'.N ∧ b.column ≼ b'.column ∧ b.value ≼ b'.value ∧
  b.LOCC ≼ b'.LOCC ∧ b.relativeDistributionLocator ≼ b'.relativeDistributionLocator ∧
  b.distribution ≼ b'.distribution⟩
instance : Gives AngularProb := ⟨fun b b' => b.angular ≼ b'.angular ∧
  b.probability = b'.probability ∧ b.cumulative = b'.cumulative⟩
instance : Gives EquiAngular := ⟨fun b b' => b.energy = b'.energy ∧ b.cosines ≼ b'.cosines⟩
/-- The same kind of distribution. -/
def AngDist.gives : AngDist → AngDist → Prop
  | .iso e, .iso e' => e = e'
  | .equi d, .equi d' => d ≼ d'
  | .tab d, .tab d' => d ≼ d'
  | _, _ => False
instance : Gives AngDist := ⟨AngDist.gives⟩
instance : Gives AngularData := ⟨fun b b' => b.NE ≼ b'.NE ∧
  b.incidentEnergies ≼ b'.incidentEnergies ∧ b.incidentEnergy ≼ b'.incidentEnergy ∧
  b.LOCC ≼ b'.LOCC ∧ b.relativeDistributionLocator ≼ b'.relativeDistributionLocator ∧
  b.distributionType ≼ b'.distributionType ∧ b.distribution ≼ b'.distribution⟩
/-- The same kind of entry. -/
def AngEntry.gives : AngEntry → AngEntry → Prop
  | .fullyIsotropic, .fullyIsotropic => True
  | .givenElsewhere, .givenElsewhere => True
  | .data d, .data d' => d ≼ d'
  | _, _ => False
instance : Gives AngEntry := ⟨AngEntry.gives⟩
instance : Gives AngularBlock := ⟨fun b b' => b.nr = b'.nr ∧ b.zero = b'.zero ∧ b.LAND ≼ b'.LAND ∧
  b.isFullyIsotropic ≼ b'.isFullyIsotropic ∧ b.isGiven ≼ b'.isGiven ∧ b.get ≼ b'.get⟩

/-! ## Energy distributions -/

instance : Gives EquiEnergy := ⟨fun b b' => b.incident = b'.incident ∧
  b.numberBins = b'.numberBins ∧ b.energies ≼ b'.energies⟩
instance : Gives EquiBinData := ⟨fun b b' => b.NB ≼ b'.NB ∧ b.NBT ≼ b'.NBT ∧ b.INT ≼ b'.INT ∧
  b.NE ≼ b'.NE ∧ b.incidentEnergies ≼ b'.incidentEnergies ∧ b.incidentEnergy ≼ b'.incidentEnergy ∧
  b.NET ≼ b'.NET ∧ b.emin ≼ b'.emin ∧ b.emax ≼ b'.emax ∧ b.distribution ≼ b'.distribution⟩
instance : Gives GenEvap := ⟨fun b b' => b.tabulated ≼ b'.tabulated ∧ b.NET ≼ b'.NET ∧
  b.binValues ≼ b'.binValues ∧ b.emin ≼ b'.emin ∧ b.emax ≼ b'.emax⟩
instance : Gives Watt := ⟨fun b b' => b.a ≼ b'.a ∧ b.b ≼ b'.b ∧ b.emin ≼ b'.emin ∧
  b.emax ≼ b'.emax ∧ b.U ≼ b'.U⟩
instance : Gives NBody := ⟨fun b b' => b.emin = b'.emin ∧ b.emax = b'.emax ∧ b.NPSX ≼ b'.NPSX ∧
  b.AP ≼ b'.AP ∧ b.interpolation ≼ b'.interpolation ∧ b.numberValues ≼ b'.numberValues ∧
  b.values ≼ b'.values ∧ b.pdf ≼ b'.pdf ∧ b.cdf ≼ b'.cdf⟩
/-- The same law. -/
def LawData.gives : LawData → LawData → Prop
  | equiprobable d, equiprobable d' => d ≼ d'
  | photon d, photon d' => d ≼ d'
  | level d, level d' => d ≼ d'
  | tabulated d, tabulated d' => d ≼ d'
  | general d, general d' => d ≼ d'
  | maxwell d, maxwell d' => d ≼ d'
  | evaporation d, evaporation d' => d ≼ d'
  | watt d, watt d' => d ≼ d'
  | kalbach d, kalbach d' => d ≼ d'
  | nbody d, nbody d' => d ≼ d'
  | transfer d, transfer d' => d ≼ d'
  | energyAngle d, energyAngle d' => d ≼ d'
  | angleEnergy d, angleEnergy d' => d ≼ d'
  | _, _ => False
instance : Gives LawData := ⟨LawData.gives⟩
instance : Gives MultiData := ⟨fun b b' => b.numberDistributions = b'.numberDistributions ∧
  b.probability ≼ b'.probability ∧ b.distribution ≼ b'.distribution⟩
/-- The same kind of data. -/
def EnergyData.gives : EnergyData → EnergyData → Prop
  | .law d, .law d' => d ≼ d'
  | .multi d, .multi d' => d ≼ d'
  | .undefined, .undefined => True
  | _, _ => False
instance : Gives EnergyData := ⟨EnergyData.gives⟩
instance : Gives TYR := ⟨fun b b' => b.ntr = b'.ntr ∧ b.referenceFrame ≼ b'.referenceFrame ∧
  b.multiplicity ≼ b'.multiplicity⟩
/-- The same kind of multiplicity. -/
def Mult.gives : Mult → Mult → Prop
  | .int n, .int n' => n = n'
  | .tab d, .tab d' => d ≼ d'
  | _, _ => False
instance : Gives Mult := ⟨Mult.gives⟩
instance : Gives DLW := ⟨fun b b' => b.nr = b'.nr ∧ b.LDLW ≼ b'.LDLW ∧
  b.distribution ≼ b'.distribution ∧ b.multiplicity ≼ b'.multiplicity ∧
  b.referenceFrame ≼ b'.referenceFrame⟩
instance : Gives DLWH := ⟨fun b b' => b.block.n = b'.block.n ∧ b.LDLW ≼ b'.LDLW ∧
  b.distribution ≼ b'.distribution ∧ b.referenceFrame ≼ b'.referenceFrame⟩

/-! ## Fission, probability tables, thermal scattering -/

instance : Gives PolyNu := ⟨fun b b' => b.LNU ≼ b'.LNU ∧ b.NC ≼ b'.NC ∧ b.C ≼ b'.C⟩
instance : Gives TabNu := ⟨fun b b' => b.LNU ≼ b'.LNU ∧ b.NB ≼ b'.NB ∧ b.NBT ≼ b'.NBT ∧
  b.INT ≼ b'.INT ∧ b.NE ≼ b'.NE ∧ b.E ≼ b'.E ∧ b.NU ≼ b'.NU⟩
/-- The same kind of multiplicity. -/
def NuData.gives : NuData → NuData → Prop
  | .poly d, .poly d' => d ≼ d'
  | .tab d, .tab d' => d ≼ d'
  | _, _ => False
instance : Gives NuData := ⟨NuData.gives⟩
/-- Both present or both absent. -/
instance : Gives (Option NuData) := ⟨fun b b' => match b, b' with
  | some d, some d' => d ≼ d'
  | none, none => True
  | _, _ => False⟩
instance : Gives NU := ⟨fun b b' => b.hasBoth = b'.hasBoth ∧ b.multiplicity ≼ b'.multiplicity ∧
  b.totalMultiplicity ≼ b'.totalMultiplicity⟩
instance : Gives Precursor := ⟨fun b b' => b.number = b'.number ∧ b.DEC ≼ b'.DEC ∧ b.NB ≼ b'.NB ∧
  b.NBT ≼ b'.NBT ∧ b.INT ≼ b'.INT ∧ b.NE ≼ b'.NE ∧ b.E ≼ b'.E ∧ b.P ≼ b'.P⟩
instance : Gives BDD := ⟨fun b b' => b.NPCR = b'.NPCR ∧ b.group ≼ b'.group⟩
instance : Gives UNR := ⟨fun b b' => UNR.N b.xss ≼ UNR.N b'.xss ∧ UNR.M b.xss ≼ UNR.M b'.xss ∧
  UNR.INT b.xss ≼ UNR.INT b'.xss ∧ UNR.ILF b.xss ≼ UNR.ILF b'.xss ∧
  UNR.IOA b.xss ≼ UNR.IOA b'.xss ∧ UNR.IFF b.xss ≼ UNR.IFF b'.xss ∧
  UNR.energies b.xss ≼ UNR.energies b'.xss ∧ b.table ≼ b'.table⟩
instance : Gives DCos := ⟨fun b b' => b.energy ≼ b'.energy ∧ b.NC = b'.NC ∧ b.cosines ≼ b'.cosines⟩
instance : Gives PCos := ⟨fun b b' => b.energy ≼ b'.energy ∧ b.pdf ≼ b'.pdf ∧ b.cdf ≼ b'.cdf ∧
  b.NC = b'.NC ∧ b.cosines ≼ b'.cosines⟩
/-- The same kind of cosines. -/
def CosData.gives : CosData → CosData → Prop
  | .plain d, .plain d' => d ≼ d'
  | .prob d, .prob d' => d ≼ d'
  | _, _ => False
instance : Gives CosData := ⟨CosData.gives⟩
instance : Gives ITXE := ⟨fun b b' => b.IFENG = b'.IFENG ∧ b.NC = b'.NC ∧ b.NIL = b'.NIL ∧
  b.NE = b'.NE ∧ b.NIEB ≼ b'.NIEB ∧ b.get ≼ b'.get⟩

end ACE

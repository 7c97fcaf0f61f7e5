import Verif.Model.Arrays

/-!
# Blocks that are a `base::ArrayData` (or a `base::ColumnData`) with named arrays

Each class only fixes the order of the arrays and the number of the array an
accessor returns. `unsigned int` inputs are natural numbers.
-/

namespace ACE

/-- ESZ, /repo/src/ACEtk/continuous/PrincipalCrossSectionBlock.hpp:27. -/
abbrev ESZ := ArrayData
namespace ESZ
/-- /repo/src/ACEtk/continuous/PrincipalCrossSectionBlock/src/ctor.hpp:18-26. -/
def mk' (energies total disappearance elastic heating : Words) : Res ESZ :=
  ArrayData.ofArrays [energies, total, disappearance, elastic, heating]
/-- /repo/src/ACEtk/continuous/PrincipalCrossSectionBlock/src/ctor.hpp:35-36. -/
def ofRange (xs : Words) (nes : Nat) : Res ESZ := ArrayData.ofRange xs nes 5
/-- /repo/src/ACEtk/continuous/PrincipalCrossSectionBlock.hpp:52. -/
def energies (d : ESZ) : Res Words := ArrayData.darray d 1
/-- /repo/src/ACEtk/continuous/PrincipalCrossSectionBlock.hpp:57. -/
def total (d : ESZ) : Res Words := ArrayData.darray d 2
/-- /repo/src/ACEtk/continuous/PrincipalCrossSectionBlock.hpp:62. -/
def disappearance (d : ESZ) : Res Words := ArrayData.darray d 3
/-- /repo/src/ACEtk/continuous/PrincipalCrossSectionBlock.hpp:67. -/
def elastic (d : ESZ) : Res Words := ArrayData.darray d 4
/-- /repo/src/ACEtk/continuous/PrincipalCrossSectionBlock.hpp:72. -/
def heating (d : ESZ) : Res Words := ArrayData.darray d 5
end ESZ

/-- LQR, /repo/src/ACEtk/continuous/ReactionQValueBlock.hpp. -/
abbrev LQR := ArrayData
namespace LQR
/-- /repo/src/ACEtk/continuous/ReactionQValueBlock/src/ctor.hpp:14-16. -/
def mk' (qvalues : Words) : Res LQR := ArrayData.ofArrays [qvalues]
/-- /repo/src/ACEtk/continuous/ReactionQValueBlock/src/ctor.hpp:25-26. -/
def ofRange (xs : Words) (ntr : Nat) : Res LQR := ArrayData.ofRange xs ntr 1
/-- /repo/src/ACEtk/continuous/ReactionQValueBlock.hpp:52. -/
def qvalue (d : LQR) (index : Nat) : Res Dbl := ArrayData.dvalue d 1 index
/-- /repo/src/ACEtk/continuous/ReactionQValueBlock.hpp:57. -/
def qvalues (d : LQR) : Res Words := ArrayData.darray d 1
end LQR

/-- GPD, /repo/src/ACEtk/continuous/PhotonProductionBlock.hpp, and HPD (see
`Verif.Model.Secondary`). -/
abbrev GPD := ArrayData
namespace GPD
/-- /repo/src/ACEtk/continuous/PhotonProductionBlock/src/ctor.hpp:14-17. -/
def mk' (total : Words) : Res GPD := ArrayData.ofArrays [total]
/-- /repo/src/ACEtk/continuous/PhotonProductionBlock/src/ctor.hpp:25-26. -/
def ofRange (xs : Words) (nes : Nat) : Res GPD := ArrayData.ofRange xs nes 1
/-- /repo/src/ACEtk/continuous/PhotonProductionBlock.hpp:49. -/
def totalProduction (d : GPD) : Res Words := ArrayData.darray d 1
end GPD

/-- ProbabilityTable: array data with an incident energy,
/repo/src/ACEtk/continuous/ProbabilityTable.hpp:23-26. -/
structure ProbabilityTable where
  data : ArrayData
  incident : Dbl
deriving DecidableEq, Repr
namespace ProbabilityTable
/-- /repo/src/ACEtk/continuous/ProbabilityTable/src/ctor.hpp:20-31. -/
def mk' (incident : Dbl) (probabilities total elastic fission capture heating : Words) :
    Res ProbabilityTable := do
  return { data := ← ArrayData.ofArrays [probabilities, total, elastic, fission, capture, heating]
           incident := incident }
/-- The constructor without fission, /repo/src/ACEtk/continuous/ProbabilityTable/src/ctor.hpp:43-53:
the second argument of the constructor is `total`, the third `probabilities`.
`total.size()` is evaluated in the same argument list in which `total` is moved
into a by-value parameter; the order is unspecified, so the size used is either
the size of `total` (`fresh = true`) or that of the moved-from vector, 0. -/
def mkNoFission (fresh : Bool) (incident : Dbl)
    (total probabilities elastic capture heating : Words) : Res ProbabilityTable :=
  mk' incident probabilities total elastic
    (List.replicate (if fresh then total.length else 0) (Dbl.ofInt 0)) capture heating
/-- /repo/src/ACEtk/continuous/ProbabilityTable/src/ctor.hpp:61-64. -/
def ofRange (xs : Words) (incident : Dbl) (bins : Nat) : Res ProbabilityTable := do
  return { data := ← ArrayData.ofRange xs bins 6, incident := incident }
/-- /repo/src/ACEtk/continuous/ProbabilityTable.hpp:47. -/
def probabilities (d : ProbabilityTable) : Res Words := d.data.darray 1
/-- /repo/src/ACEtk/continuous/ProbabilityTable.hpp:52. -/
def total (d : ProbabilityTable) : Res Words := d.data.darray 2
/-- /repo/src/ACEtk/continuous/ProbabilityTable.hpp:57. -/
def elastic (d : ProbabilityTable) : Res Words := d.data.darray 3
/-- /repo/src/ACEtk/continuous/ProbabilityTable.hpp:62. -/
def fission (d : ProbabilityTable) : Res Words := d.data.darray 4
/-- /repo/src/ACEtk/continuous/ProbabilityTable.hpp:67. -/
def capture (d : ProbabilityTable) : Res Words := d.data.darray 5
/-- /repo/src/ACEtk/continuous/ProbabilityTable.hpp:72. -/
def heating (d : ProbabilityTable) : Res Words := d.data.darray 6
end ProbabilityTable

/-- ESZU, /repo/src/ACEtk/photonuclear/PrincipalCrossSectionBlock.hpp. -/
abbrev ESZU := ArrayData
namespace ESZU
/-- /repo/src/ACEtk/photonuclear/PrincipalCrossSectionBlock/src/ctor.hpp:17-23. -/
def mk4 (energies total elastic heating : Words) : Res ESZU :=
  ArrayData.ofArrays [energies, total, elastic, heating]
/-- /repo/src/ACEtk/photonuclear/PrincipalCrossSectionBlock/src/ctor.hpp:32-37. -/
def mk3 (energies total heating : Words) : Res ESZU :=
  ArrayData.ofArrays [energies, total, heating]
/-- /repo/src/ACEtk/photonuclear/PrincipalCrossSectionBlock/src/ctor.hpp:46-48. -/
def ofRange (xs : Words) (nes size : Nat) : Res ESZU := ArrayData.ofRange xs nes size
/-- /repo/src/ACEtk/photonuclear/PrincipalCrossSectionBlock.hpp:52. -/
def energies (d : ESZU) : Res Words := ArrayData.darray d 1
/-- /repo/src/ACEtk/photonuclear/PrincipalCrossSectionBlock.hpp:57. -/
def total (d : ESZU) : Res Words := ArrayData.darray d 2
/-- /repo/src/ACEtk/photonuclear/PrincipalCrossSectionBlock.hpp:62-63. -/
def elastic (d : ESZU) : Res Words :=
  if d.m = 3 then ArrayData.emptyArray d else ArrayData.darray d 3
/-- /repo/src/ACEtk/photonuclear/PrincipalCrossSectionBlock.hpp:68. -/
def heating (d : ESZU) : Res Words := ArrayData.darray d d.m
end ESZU

/-- ESZG, /repo/src/ACEtk/photoatomic/PrincipalCrossSectionBlock.hpp. -/
abbrev ESZG := ArrayData
namespace ESZG
/-- /repo/src/ACEtk/photoatomic/PrincipalCrossSectionBlock/src/ctor.hpp:18-26. -/
def mk' (energies incoherent coherent photoelectric pairproduction : Words) : Res ESZG :=
  ArrayData.ofArrays [energies, incoherent, coherent, photoelectric, pairproduction]
/-- /repo/src/ACEtk/photoatomic/PrincipalCrossSectionBlock/src/ctor.hpp:35-36. -/
def ofRange (xs : Words) (nes : Nat) : Res ESZG := ArrayData.ofRange xs nes 5
/-- /repo/src/ACEtk/photoatomic/PrincipalCrossSectionBlock.hpp:54. -/
def energies (d : ESZG) : Res Words := ArrayData.darray d 1
/-- /repo/src/ACEtk/photoatomic/PrincipalCrossSectionBlock.hpp:59. -/
def incoherent (d : ESZG) : Res Words := ArrayData.darray d 2
/-- /repo/src/ACEtk/photoatomic/PrincipalCrossSectionBlock.hpp:64. -/
def coherent (d : ESZG) : Res Words := ArrayData.darray d 3
/-- /repo/src/ACEtk/photoatomic/PrincipalCrossSectionBlock.hpp:69. -/
def photoelectric (d : ESZG) : Res Words := ArrayData.darray d 4
/-- /repo/src/ACEtk/photoatomic/PrincipalCrossSectionBlock.hpp:74. -/
def pairproduction (d : ESZG) : Res Words := ArrayData.darray d 5
end ESZG

/-- LHNM, /repo/src/ACEtk/photoatomic/HeatingNumbersBlock.hpp. -/
abbrev LHNM := ArrayData
namespace LHNM
/-- /repo/src/ACEtk/photoatomic/HeatingNumbersBlock/src/ctor.hpp:14-17. -/
def mk' (heating : Words) : Res LHNM := ArrayData.ofArrays [heating]
/-- /repo/src/ACEtk/photoatomic/HeatingNumbersBlock/src/ctor.hpp:25-26. -/
def ofRange (xs : Words) (nes : Nat) : Res LHNM := ArrayData.ofRange xs nes 1
/-- /repo/src/ACEtk/photoatomic/HeatingNumbersBlock.hpp:47. -/
def heating (d : LHNM) : Res Words := ArrayData.darray d 1
end LHNM

/-- JFLO, /repo/src/ACEtk/photoatomic/FluorescenceDataBlock.hpp. -/
abbrev JFLO := ArrayData
namespace JFLO
/-- /repo/src/ACEtk/photoatomic/FluorescenceDataBlock/src/ctor.hpp:17-24. -/
def mk' (edges probabilities yields energies : Words) : Res JFLO :=
  ArrayData.ofArrays [edges, probabilities, yields, energies]
/-- /repo/src/ACEtk/photoatomic/FluorescenceDataBlock/src/ctor.hpp:33-34. -/
def ofRange (xs : Words) (nflo : Nat) : Res JFLO := ArrayData.ofRange xs nflo 4
/-- /repo/src/ACEtk/photoatomic/FluorescenceDataBlock.hpp:50. -/
def E (d : JFLO) : Res Words := ArrayData.darray d 1
/-- /repo/src/ACEtk/photoatomic/FluorescenceDataBlock.hpp:60. -/
def PHI (d : JFLO) : Res Words := ArrayData.darray d 2
/-- /repo/src/ACEtk/photoatomic/FluorescenceDataBlock.hpp:70. -/
def Y (d : JFLO) : Res Words := ArrayData.darray d 3
/-- /repo/src/ACEtk/photoatomic/FluorescenceDataBlock.hpp:80. -/
def F (d : JFLO) : Res Words := ArrayData.darray d 4
end JFLO

/-- SPHEL, /repo/src/ACEtk/photoatomic/PhotoelectricCrossSectionBlock.hpp. -/
abbrev SPHEL := ArrayData
namespace SPHEL
/-- /repo/src/ACEtk/photoatomic/PhotoelectricCrossSectionBlock/src/ctor.hpp:16-17. -/
def mk' (subshells : List Words) : Res SPHEL := ArrayData.ofArrays subshells
/-- /repo/src/ACEtk/photoatomic/PhotoelectricCrossSectionBlock/src/ctor.hpp:27-29. -/
def ofRange (xs : Words) (nssh nes : Nat) : Res SPHEL := ArrayData.ofRange xs nes nssh
/-- /repo/src/ACEtk/photoatomic/PhotoelectricCrossSectionBlock.hpp:68-71. -/
def photoelectric (d : SPHEL) (index : Nat) : Res Words := ArrayData.darray d index
end SPHEL

/-- EPS, /repo/src/ACEtk/electron/ElectronShellBlock.hpp. -/
abbrev EPS := ArrayData
namespace EPS
/-- /repo/src/ACEtk/electron/ElectronShellBlock/src/ctor.hpp:16-26. -/
def mk' (electrons : List Nat) (energies probabilities : Words) : Res EPS :=
  ArrayData.ofArrays [electrons.map Dbl.ofNat, energies, probabilities]
/-- /repo/src/ACEtk/electron/ElectronShellBlock/src/ctor.hpp:35-36. -/
def ofRange (xs : Words) (nsh : Nat) : Res EPS := ArrayData.ofRange xs nsh 3
/-- /repo/src/ACEtk/electron/ElectronShellBlock.hpp:48. -/
def LNEPS (d : EPS) : Res Words := ArrayData.darray d 1
/-- /repo/src/ACEtk/electron/ElectronShellBlock.hpp:58. -/
def LBEPS (d : EPS) : Res Words := ArrayData.darray d 2
/-- /repo/src/ACEtk/electron/ElectronShellBlock.hpp:68. -/
def LPIPS (d : EPS) : Res Words := ArrayData.darray d 3
/-- /repo/src/ACEtk/electron/ElectronShellBlock.hpp:80-83. -/
def numberElectrons (d : EPS) (index : Nat) : Res Int := ArrayData.ivalue d 1 index
/-- `bindingEnergy( index )`, /repo/src/ACEtk/electron/ElectronShellBlock.hpp:90-93. -/
def bindingEnergy (d : EPS) (index : Nat) : Res Dbl := ArrayData.dvalue d 2 index
/-- `interactionProbability( index )`, /repo/src/ACEtk/electron/ElectronShellBlock.hpp:100-103. -/
def interactionProbability (d : EPS) (index : Nat) : Res Dbl := ArrayData.dvalue d 3 index
end EPS

/-- SUBSH, /repo/src/ACEtk/electron/ElectronSubshellBlock.hpp. -/
abbrev SUBSH := ArrayData
namespace SUBSH
/-- /repo/src/ACEtk/electron/ElectronSubshellBlock/src/ctor.hpp:18-33. -/
def mk' (designators : List Nat) (electrons energies probabilities : Words)
    (transitions : List Nat) : Res SUBSH :=
  ArrayData.ofArrays [designators.map Dbl.ofNat, electrons, energies, probabilities,
                      transitions.map Dbl.ofNat]
/-- /repo/src/ACEtk/electron/ElectronSubshellBlock/src/ctor.hpp:42-43. -/
def ofRange (xs : Words) (nssh : Nat) : Res SUBSH := ArrayData.ofRange xs nssh 5
/-- /repo/src/ACEtk/electron/ElectronSubshellBlock.hpp:52. -/
def ID (d : SUBSH) : Res (List Int) := ArrayData.iarray d 1
/-- /repo/src/ACEtk/electron/ElectronSubshellBlock.hpp:62. -/
def EP (d : SUBSH) : Res Words := ArrayData.darray d 2
/-- /repo/src/ACEtk/electron/ElectronSubshellBlock.hpp:72. -/
def BE (d : SUBSH) : Res Words := ArrayData.darray d 3
/-- /repo/src/ACEtk/electron/ElectronSubshellBlock.hpp:82. -/
def CV (d : SUBSH) : Res Words := ArrayData.darray d 4
/-- /repo/src/ACEtk/electron/ElectronSubshellBlock.hpp:92. -/
def NT (d : SUBSH) : Res (List Int) := ArrayData.iarray d 5
/-- /repo/src/ACEtk/electron/ElectronSubshellBlock.hpp:144-147. -/
def numberTransitions (d : SUBSH) (index : Nat) : Res Int := ArrayData.ivalue d 5 index
/-- `designator( index )`, /repo/src/ACEtk/electron/ElectronSubshellBlock.hpp:104-107. -/
def designator (d : SUBSH) (index : Nat) : Res Int := ArrayData.ivalue d 1 index
/-- `population( index )`, /repo/src/ACEtk/electron/ElectronSubshellBlock.hpp:114-117. -/
def population (d : SUBSH) (index : Nat) : Res Dbl := ArrayData.dvalue d 2 index
/-- `bindingEnergy( index )`, /repo/src/ACEtk/electron/ElectronSubshellBlock.hpp:124-127. -/
def bindingEnergy (d : SUBSH) (index : Nat) : Res Dbl := ArrayData.dvalue d 3 index
/-- `vacancyProbability( index )`, /repo/src/ACEtk/electron/ElectronSubshellBlock.hpp:134-137. -/
def vacancyProbability (d : SUBSH) (index : Nat) : Res Dbl := ArrayData.dvalue d 4 index
end SUBSH

/-- EXCIT, /repo/src/ACEtk/electron/ExcitationBlock.hpp. -/
abbrev EXCIT := ArrayData
namespace EXCIT
/-- /repo/src/ACEtk/electron/ExcitationBlock/src/ctor.hpp:15-23. -/
def mk' (energies loss : Words) : Res EXCIT := ArrayData.ofArrays [energies, loss]
/-- /repo/src/ACEtk/electron/ExcitationBlock/src/ctor.hpp:32-34. -/
def ofRange (xs : Words) (nxl : Nat) : Res EXCIT := ArrayData.ofRange xs nxl 2
/-- /repo/src/ACEtk/electron/ExcitationBlock.hpp:52. -/
def energies (d : EXCIT) : Res Words := ArrayData.darray d 1
/-- /repo/src/ACEtk/electron/ExcitationBlock.hpp:57. -/
def loss (d : EXCIT) : Res Words := ArrayData.darray d 2
end EXCIT

/-- BREML, /repo/src/ACEtk/electron/BremsstrahlungBlock.hpp. -/
abbrev BREML := ArrayData
namespace BREML
/-- /repo/src/ACEtk/electron/BremsstrahlungBlock/src/ctor.hpp:15-23. -/
def mk' (energies remaining : Words) : Res BREML := ArrayData.ofArrays [energies, remaining]
/-- /repo/src/ACEtk/electron/BremsstrahlungBlock/src/ctor.hpp:32-33. -/
def ofRange (xs : Words) (nbl : Nat) : Res BREML := ArrayData.ofRange xs nbl 2
/-- /repo/src/ACEtk/electron/BremsstrahlungBlock.hpp:52. -/
def energies (d : BREML) : Res Words := ArrayData.darray d 1
/-- /repo/src/ACEtk/electron/BremsstrahlungBlock.hpp:57. -/
def remaining (d : BREML) : Res Words := ArrayData.darray d 2
end BREML

/-- SELAS, /repo/src/ACEtk/electron/ElasticCrossSectionBlock.hpp. -/
abbrev SELAS := ArrayData
namespace SELAS
/-- /repo/src/ACEtk/electron/ElasticCrossSectionBlock/src/ctor.hpp:15-18. -/
def mk' (transport total : Words) : Res SELAS := ArrayData.ofArrays [transport, total]
/-- /repo/src/ACEtk/electron/ElasticCrossSectionBlock/src/ctor.hpp:28-30. -/
def ofRange (xs : Words) (ne : Nat) : Res SELAS := ArrayData.ofRange xs ne 2
/-- /repo/src/ACEtk/electron/ElasticCrossSectionBlock.hpp:53. -/
def transport (d : SELAS) : Res Words := ArrayData.darray d 1
/-- /repo/src/ACEtk/electron/ElasticCrossSectionBlock.hpp:58. -/
def total (d : SELAS) : Res Words := ArrayData.darray d 2
end SELAS

/-- ITCA and ITCAI, /repo/src/ACEtk/thermal/ElasticAngularDistributionBlock.hpp. -/
abbrev ITCA := ArrayData
namespace ITCA
/-- /repo/src/ACEtk/thermal/ElasticAngularDistributionBlock/src/ctor.hpp:14-16. -/
def mk' (cosines : List Words) : Res ITCA := ArrayData.ofArrays cosines
/-- /repo/src/ACEtk/thermal/ElasticAngularDistributionBlock/src/ctor.hpp:26-30. -/
def ofRange (xs : Words) (ne nc : Nat) : Res ITCA := ArrayData.ofRange xs nc ne
/-- /repo/src/ACEtk/thermal/ElasticAngularDistributionBlock.hpp:36. -/
def NE (d : ITCA) : Nat := d.m
/-- /repo/src/ACEtk/thermal/ElasticAngularDistributionBlock.hpp:47. -/
def NC (d : ITCA) : Nat := d.n
/-- /repo/src/ACEtk/thermal/ElasticAngularDistributionBlock.hpp:60. -/
def NCL (d : ITCA) : Int := (d.n : Int) - 1
/-- /repo/src/ACEtk/thermal/ElasticAngularDistributionBlock.hpp:77. -/
def cosines (d : ITCA) (index : Nat) : Res Words := ArrayData.darray d index
end ITCA

/-- ITIE, ITCE, ITCEI: a column data block,
/repo/src/ACEtk/thermal/CrossSectionBlock.hpp:17. -/
abbrev ITIE := ColumnData
namespace ITIE
/-- /repo/src/ACEtk/thermal/CrossSectionBlock/src/ctor.hpp:15-17. -/
def mk' (energies xs : Words) : Res ITIE := ColumnData.ofColumns [energies, xs]
/-- /repo/src/ACEtk/thermal/CrossSectionBlock/src/ctor.hpp:25-26. -/
def ofRange (xs : Words) : Res ITIE := ColumnData.ofRange xs 2
/-- /repo/src/ACEtk/thermal/CrossSectionBlock.hpp:31. -/
def NE (d : ITIE) : Res Nat := ColumnData.N d
/-- /repo/src/ACEtk/thermal/CrossSectionBlock.hpp:41. -/
def energies (d : ITIE) : Res Words := ColumnData.column d 1
/-- /repo/src/ACEtk/thermal/CrossSectionBlock.hpp:46. -/
def crossSections (d : ITIE) : Res Words := ColumnData.column d 2
end ITIE

/-- TRAN, /repo/src/ACEtk/electron/SubshellTransitionData.hpp:33. -/
abbrev TRAN := ArrayData
namespace TRAN
/-- The loop of `generateArrays`,
/repo/src/ACEtk/electron/SubshellTransitionData/src/generateArrays.hpp:20-32. -/
def zip4 : List Nat → List Nat → Words → Words → List Words
  | p :: ps, s :: ss, e :: es, c :: cs => [Dbl.ofNat p, Dbl.ofNat s, e, c] :: zip4 ps ss es cs
  | _, _, _, _ => []
/-- `generateArrays`,
/repo/src/ACEtk/electron/SubshellTransitionData/src/generateArrays.hpp:1-33. -/
def generateArrays (primary secondary : List Nat) (energies probabilities : Words) :
    Res (List Words) := do
  guardThrow (secondary.length == primary.length && energies.length == primary.length
    && probabilities.length == primary.length)
  return zip4 primary secondary energies probabilities
/-- /repo/src/ACEtk/electron/SubshellTransitionData/src/ctor.hpp:17-24. -/
def mk' (primary secondary : List Nat) (energies probabilities : Words) : Res TRAN := do
  ArrayData.ofArrays (← generateArrays primary secondary energies probabilities)
/-- /repo/src/ACEtk/electron/SubshellTransitionData/src/ctor.hpp:33-34 and
calculateNumberTransitions.hpp:1-13. -/
def ofRange (xs : Words) : Res TRAN := do
  guardThrow (xs.length % 4 == 0)
  ArrayData.ofRange xs 4 (xs.length / 4)
/-- /repo/src/ACEtk/electron/SubshellTransitionData.hpp:51. -/
def NT (d : TRAN) : Nat := d.m
/-- /repo/src/ACEtk/electron/SubshellTransitionData.hpp:63-66. -/
def transition (d : TRAN) (index : Nat) : Res Words := ArrayData.darray d index
/-- /repo/src/ACEtk/electron/SubshellTransitionData.hpp:73-76. -/
def primaryDesignator (d : TRAN) (index : Nat) : Res Int := ArrayData.ivalue d index 1
/-- /repo/src/ACEtk/electron/SubshellTransitionData.hpp:83-86. -/
def secondaryDesignator (d : TRAN) (index : Nat) : Res Int := ArrayData.ivalue d index 2
/-- /repo/src/ACEtk/electron/SubshellTransitionData.hpp:94-97. -/
def energy (d : TRAN) (index : Nat) : Res Dbl := ArrayData.dvalue d index 3
/-- /repo/src/ACEtk/electron/SubshellTransitionData.hpp:104-107. -/
def probability (d : TRAN) (index : Nat) : Res Dbl := ArrayData.dvalue d index 4
/-- /repo/src/ACEtk/electron/SubshellTransitionData.hpp:115-118. -/
def isRadiativeTransition (d : TRAN) (index : Nat) : Res Bool := do
  return 0 == (← d.secondaryDesignator index)
end TRAN

end ACE

import Verif.Model.Lookup
import Verif.Model.ArrayBlocks
import Verif.Model.EnergyBlock

/-!
# Fission multiplicities (NU, DNU), delayed neutron precursors (BDD), probability tables (UNR)
-/

namespace ACE

/-! ## NU -/

/-- `continuous::PolynomialFissionMultiplicity`,
/repo/src/ACEtk/continuous/PolynomialFissionMultiplicity.hpp:21-77. -/
structure PolyNu where
  xss : Words
deriving DecidableEq, Repr
namespace PolyNu
/-- PolynomialFissionMultiplicity/src/ctor.hpp:14-16 and generateXSS.hpp:1-9. -/
def mk' (coefficients : Words) : PolyNu :=
  ⟨Dbl.ofNat 1 :: Dbl.ofNat coefficients.length :: coefficients⟩
/-- `LNU`, PolynomialFissionMultiplicity.hpp:38-41. -/
def LNU (d : PolyNu) : Res Nat := do return u32OfInt (← Base.IXSS d.xss 1)
/-- `NC`, PolynomialFissionMultiplicity.hpp:51. -/
def NC (d : PolyNu) : Res Nat := do return sizeOfInt (← Base.IXSS d.xss 2)
/-- `C`, PolynomialFissionMultiplicity.hpp:61-64. -/
def C (d : PolyNu) : Res Words := do Base.XSSr d.xss 3 (← d.NC)
/-- PolynomialFissionMultiplicity/src/ctor.hpp:24-29, verifySize.hpp:1-13 (which
computes in `unsigned int`, so wraps around at 2^32) and verifyLNU.hpp:1-10. -/
def ofRange (xs : Words) : Res PolyNu := do
  guardThrow (!(xs.length < ((← NC ⟨xs⟩) + 2) % 4294967296))
  guardThrow ((← LNU ⟨xs⟩) == 1)
  return ⟨xs⟩
end PolyNu

/-- `continuous::TabulatedFissionMultiplicity`,
/repo/src/ACEtk/continuous/TabulatedFissionMultiplicity.hpp:22-120. -/
structure TabNu where
  xss : Words
  data : TabulatedData
deriving DecidableEq, Repr
namespace TabNu
/-- `generateBlocks`, TabulatedFissionMultiplicity/src/generateBlocks.hpp:1-4. -/
def generateBlocks (xs : Words) : Res TabNu := do
  return ⟨xs, ← TabulatedData.ofRange (← sub xs 1 xs.length)⟩
/-- TabulatedFissionMultiplicity/src/ctor.hpp:57-66 and generateXSS.hpp:1-15. -/
def mk' (boundaries interpolants : List Int) (x y : Words) : Res TabNu := do
  let data ← TabulatedData.mk' boundaries interpolants x y
  generateBlocks (Dbl.ofNat 2 :: data.xss)
/-- TabulatedFissionMultiplicity/src/ctor.hpp:85-89. -/
def ofRange (xs : Words) : Res TabNu := generateBlocks xs
/-- `LNU`, TabulatedFissionMultiplicity.hpp:39-42. -/
def LNU (d : TabNu) : Res Nat := do return u32OfInt (← Base.IXSS d.xss 1)
/-- `NB`, TabulatedFissionMultiplicity.hpp:57. -/
def NB (d : TabNu) : Res Nat := d.data.NB
/-- `NBT`, TabulatedFissionMultiplicity.hpp:67. -/
def NBT (d : TabNu) : Res Words := d.data.NBT
/-- `INT`, TabulatedFissionMultiplicity.hpp:77. -/
def INT (d : TabNu) : Res Words := d.data.INT
/-- `NE`, TabulatedFissionMultiplicity.hpp:87. -/
def NE (d : TabNu) : Res Nat := d.data.N
/-- `E`, TabulatedFissionMultiplicity.hpp:97. -/
def E (d : TabNu) : Res Words := d.data.x
/-- `NU`, TabulatedFissionMultiplicity.hpp:107. -/
def NU (d : TabNu) : Res Words := d.data.y
end TabNu

/-- `FissionMultiplicityData`, /repo/src/ACEtk/continuous/FissionMultiplicityBlock.hpp:25-26. -/
inductive NuData where
  | poly (d : PolyNu)
  | tab (d : TabNu)
deriving DecidableEq, Repr
namespace NuData
/-- The words inserted by the visitor of `generateXSS`,
FissionMultiplicityBlock/src/generateXSS.hpp:5-7. -/
def xss : NuData → Words
  | .poly d => d.xss
  | .tab d => d.xss
/-- `generateData`, FissionMultiplicityBlock/src/generateBlocks.hpp:1-16. -/
def generateData (xs : Words) : Res NuData := do
  let lnu ← toU32 (← deref xs 0).round?
  if lnu = 1 then return .poly (← PolyNu.ofRange xs)
  else if lnu = 2 then return .tab (← TabNu.ofRange xs)
  else .error .thrown
end NuData

/-- `continuous::FissionMultiplicityBlock`,
/repo/src/ACEtk/continuous/FissionMultiplicityBlock.hpp:20-84. -/
structure NU where
  xss : Words
  prompt : NuData
  total : Option NuData
deriving DecidableEq, Repr
namespace NU
/-- `generateBlocks` for two sets, FissionMultiplicityBlock/src/generateBlocks.hpp:26-35:
`KNU + 1` is 32-bit arithmetic. -/
def generateBoth (xs : Words) : Res NU := do
  let knu := ((← toU32 ((← deref xs 0).round?.map fun i => (i.natAbs : Int))) + 1) % 4294967296
  let prompt ← NuData.generateData (← sub xs 1 knu)
  let total ← NuData.generateData (← sub xs knu xs.length)
  return ⟨xs, prompt, some total⟩
/-- `generateBlocks`, FissionMultiplicityBlock/src/generateBlocks.hpp:18-37. Simplification: for
an empty range the code keeps default constructed (empty) multiplicities; the model has no
default constructed data and reports `.thrown`. -/
def generateBlocks (xs : Words) : Res NU := do
  guardThrow (xs.length > 0)
  if (← Base.XSS xs 1).isNeg then generateBoth xs
  else return ⟨xs, ← NuData.generateData xs, none⟩
/-- FissionMultiplicityBlock/src/ctor.hpp:58-62 and generateXSS.hpp:1-9. -/
def mk1 (prompt : NuData) : Res NU := generateBlocks prompt.xss
/-- FissionMultiplicityBlock/src/ctor.hpp:70-75 and generateXSS.hpp:11-24. -/
def mk2 (prompt total : NuData) : Res NU :=
  generateBlocks ((Dbl.ofNat prompt.xss.length).neg :: prompt.xss ++ total.xss)
/-- FissionMultiplicityBlock/src/ctor.hpp:83-87. -/
def ofRange (xs : Words) : Res NU := generateBlocks xs
/-- `hasPromptAndTotalFissionMultiplicity`, FissionMultiplicityBlock.hpp:49-52. -/
def hasBoth (d : NU) : Bool := d.total.isSome
/-- `multiplicity`, FissionMultiplicityBlock.hpp:61-64. -/
def multiplicity (d : NU) : NuData := d.prompt
/-- `totalFissionMultiplicity`, FissionMultiplicityBlock.hpp:73-76. -/
def totalMultiplicity (d : NU) : Option NuData := d.total
end NU

/-! ## BDD -/

/-- `continuous::DelayedNeutronPrecursorData`,
/repo/src/ACEtk/continuous/DelayedNeutronPrecursorData.hpp:21-122. -/
structure Precursor where
  xss : Words
  number : Nat
  data : TabulatedData
deriving DecidableEq, Repr
namespace Precursor
/-- `generateBlocks`, DelayedNeutronPrecursorData/src/generateBlocks.hpp:1-4 and
ctor.hpp:98-103. -/
def ofRange (xs : Words) (number : Nat) : Res Precursor := do
  return ⟨xs, number, ← TabulatedData.ofRange (← sub xs 1 xs.length)⟩
/-- DelayedNeutronPrecursorData/src/ctor.hpp:63-75 and generateXSS.hpp:1-16. -/
def mk' (number : Nat) (constant : Dbl) (boundaries interpolants : List Int)
    (energies probabilities : Words) : Res Precursor := do
  let data ← TabulatedData.mk' boundaries interpolants energies probabilities
  ofRange (constant :: data.xss) number
/-- `DEC`, DelayedNeutronPrecursorData.hpp:44. -/
def DEC (d : Precursor) : Res Dbl := Base.XSS d.xss 1
/-- `NB`, DelayedNeutronPrecursorData.hpp:59. -/
def NB (d : Precursor) : Res Nat := d.data.NB
/-- `NBT`, DelayedNeutronPrecursorData.hpp:69. -/
def NBT (d : Precursor) : Res Words := d.data.NBT
/-- `INT`, DelayedNeutronPrecursorData.hpp:79. -/
def INT (d : Precursor) : Res Words := d.data.INT
/-- `NE`, DelayedNeutronPrecursorData.hpp:89. -/
def NE (d : Precursor) : Res Nat := d.data.N
/-- `E`, DelayedNeutronPrecursorData.hpp:99. -/
def E (d : Precursor) : Res Words := d.data.x
/-- `P`, DelayedNeutronPrecursorData.hpp:109. -/
def P (d : Precursor) : Res Words := d.data.y
end Precursor

/-- `continuous::DelayedNeutronPrecursorBlock`,
/repo/src/ACEtk/continuous/DelayedNeutronPrecursorBlock.hpp:21-82. -/
structure BDD where
  xss : Words
  npcr : Nat
  data : List Precursor
deriving DecidableEq, Repr
namespace BDD
/-- The loop of `generateBlocks`, DelayedNeutronPrecursorBlock/src/generateBlocks.hpp:9-17: `todo`
groups are left, `index` is the next group number, `left` the offset of its first word
(`locator - 1`). -/
def groups (xs : Words) : (todo index left : Nat) → Res (List Precursor)
  | 0, _, _ => return []
  | todo + 1, index, left => do
    let nr := sizeOfInt (← Base.IXSS xs (left + 2))
    let ne := sizeOfInt (← Base.IXSS xs (left + 2 + 2 * nr + 1))
    let right := left + (2 + 2 * nr + 2 * ne + 1)
    let d ← Precursor.ofRange (← sub xs left right) index
    return d :: (← groups xs todo (index + 1) right)
/-- DelayedNeutronPrecursorBlock/src/ctor.hpp:83-87, generateBlocks.hpp:1-18. -/
def ofRange (xs : Words) (npcr : Nat) : Res BDD := do
  return ⟨xs, npcr, ← groups xs npcr 1 0⟩
/-- DelayedNeutronPrecursorBlock/src/ctor.hpp:6-12, 73-74 and generateXSS.hpp:1-14. -/
def mk' (gs : List Precursor) : Res BDD := ofRange (gs.map (·.xss)).flatten gs.length
/-- `NPCR`, DelayedNeutronPrecursorBlock.hpp:42. -/
def NPCR (d : BDD) : Nat := d.npcr
/-- `precursorGroupData`, DelayedNeutronPrecursorBlock.hpp:68-74, verifyGroupIndex.hpp:1-11. -/
def group (d : BDD) (index : Nat) : Res Precursor := do
  if index < 1 ∨ index > d.npcr then .error .range
  match d.data[index - 1]? with
  | some g => return g
  | none => .error .ub
end BDD

/-! ## UNR -/

/-- `continuous::ProbabilityTableBlock`,
/repo/src/ACEtk/continuous/ProbabilityTableBlock.hpp:19-170. -/
structure UNR where
  xss : Words
  data : List ProbabilityTable
deriving DecidableEq, Repr
namespace UNR
/-- A header flag, `this->empty() ? 0 : IXSS( index )`, ProbabilityTableBlock.hpp:39-122. -/
def flag (xs : Words) (index : Nat) : Res Int := if xs = [] then .ok 0 else Base.IXSS xs index
/-- `N`, ProbabilityTableBlock.hpp:39-42. -/
def N (xs : Words) : Res Nat := do return u32OfInt (← flag xs 1)
/-- `M`, ProbabilityTableBlock.hpp:55-58. -/
def M (xs : Words) : Res Nat := do return u32OfInt (← flag xs 2)
/-- `INT`, ProbabilityTableBlock.hpp:71-74. -/
def INT (xs : Words) : Res Nat := do return u32OfInt (← flag xs 3)
/-- `ILF`, ProbabilityTableBlock.hpp:87-90. -/
def ILF (xs : Words) : Res Int := flag xs 4
/-- `IOA`, ProbabilityTableBlock.hpp:103-106. -/
def IOA (xs : Words) : Res Int := flag xs 5
/-- `IFF`, ProbabilityTableBlock.hpp:119-122. -/
def IFF (xs : Words) : Res Nat := do return u32OfInt (← flag xs 6)
/-- `energies`, ProbabilityTableBlock.hpp:135-138. -/
def energies (xs : Words) : Res Words := do Base.XSSr xs 7 (← N xs)
/-- The loop of `generateBlocks`, ProbabilityTableBlock/src/generateBlocks.hpp:8-13: `todo` tables
are left, `index` is the next table, `left` the offset of its first word. -/
def tables (xs : Words) (m : Nat) : (todo index left : Nat) → Res (List ProbabilityTable)
  | 0, _, _ => return []
  | todo + 1, index, left => do
    let ws ← sub xs left (left + 6 * m)
    let d ← ProbabilityTable.ofRange ws (← Base.XSS xs (6 + index)) m
    return d :: (← tables xs m todo (index + 1) (left + 6 * m))
/-- ProbabilityTableBlock/src/ctor.hpp:74-78, generateBlocks.hpp:1-14. Simplification: `begin + 6 +
N` beyond the end of the range, which is undefined behaviour by itself, is only reported when a
table is read from there. -/
def ofRange (xs : Words) : Res UNR := do
  let m ← M xs
  let n ← N xs
  return ⟨xs, ← tables xs m n 1 (6 + n)⟩
/-- ProbabilityTableBlock/src/ctor.hpp:58-65 and generateXSS.hpp:1-22; `tables.front()` of an
empty vector is undefined behaviour. The number of bins is only taken from the first table. -/
def mk' (interpolation : Nat) (inelastic absorption : Int) (type : Nat) :
    List ProbabilityTable → Res UNR
  | [] => .error .ub
  | t :: ts => ofRange (Dbl.ofNat (t :: ts).length :: Dbl.ofNat t.data.n :: Dbl.ofNat interpolation ::
      Dbl.ofInt inelastic :: Dbl.ofInt absorption :: Dbl.ofNat type ::
      (t :: ts).map (·.incident) ++ ((t :: ts).map (·.data.xss)).flatten)
/-- `probabilityTable`, ProbabilityTableBlock.hpp:156-162, verifyIndex.hpp:1-11. -/
def table (d : UNR) (index : Nat) : Res ProbabilityTable := do
  let n ← N d.xss
  if index < 1 ∨ index > n then .error .range
  match d.data[index - 1]? with
  | some t => return t
  | none => .error .ub
end UNR
end ACE

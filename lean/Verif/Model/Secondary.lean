import Verif.Model.Lookup

/-!
# Secondary particle blocks HPD and NTRO
-/

namespace ACE

/-- HPD: `SecondaryParticleProductionBlock`,
/repo/src/ACEtk/continuous/SecondaryParticleProductionBlock.hpp:23-68; only the words. -/
structure HPD where
  xss : Words
deriving DecidableEq, Repr
namespace HPD
/-- `energyIndex`, SecondaryParticleProductionBlock.hpp:39: a conversion of the word itself. -/
def energyIndex (d : HPD) : Res Nat := do toSize (← Base.XSS d.xss 1).trunc?
/-- `numberValues`, SecondaryParticleProductionBlock.hpp:44. -/
def numberValues (d : HPD) : Res Nat := do toSize (← Base.XSS d.xss 2).trunc?
/-- `totalProduction`, SecondaryParticleProductionBlock.hpp:49-52. -/
def totalProduction (d : HPD) : Res Words := do Base.XSSr d.xss 3 (← d.numberValues)
/-- `heating`, SecondaryParticleProductionBlock.hpp:57-60. -/
def heating (d : HPD) : Res Words := do
  Base.XSSr d.xss (3 + (← d.numberValues)) (← d.numberValues)
/-- Constructor, SecondaryParticleProductionBlock/src/ctor.hpp:16-20 and generateXSS.hpp:1-24. -/
def mk' (index : Nat) (production heating : Words) : Res HPD := do
  guardThrow (heating.length == production.length)
  return ⟨Dbl.ofNat index :: Dbl.ofNat production.length :: production ++ heating⟩
/-- Reading constructor, SecondaryParticleProductionBlock/src/ctor.hpp:28-32 and
verifySize.hpp:1-13: the number of values is converted to `unsigned int` and the product is
32-bit arithmetic. -/
def ofRange (xs : Words) : Res HPD := do
  let n ← numberValues ⟨xs⟩
  guardThrow (!decide (xs.length < (2 * n + 2) % 4294967296))
  return ⟨xs⟩
end HPD

/-- NTRO: `SecondaryParticleInformationBlock`,
/repo/src/ACEtk/continuous/SecondaryParticleInformationBlock.hpp:23-87. -/
structure NTRO where
  xss : Words
  ntype : Nat
deriving DecidableEq, Repr
namespace NTRO
/-- Constructor, SecondaryParticleInformationBlock/src/ctor.hpp:6-9,26-27 and generateXSS.hpp:1-8. -/
def mk' (numbers : List Nat) : NTRO := ⟨numbers.map Dbl.ofNat, numbers.length⟩
/-- Reading constructor, SecondaryParticleInformationBlock/src/ctor.hpp:36-40 and
verifySize.hpp:1-11. -/
def ofRange (xs : Words) (ntype : Nat) : Res NTRO := do
  guardThrow (!decide (xs.length < ntype))
  return ⟨xs, ntype⟩
/-- `NTYPE`, SecondaryParticleInformationBlock.hpp:43. -/
def NTYPE (d : NTRO) : Nat := d.ntype
/-- `NP`, SecondaryParticleInformationBlock.hpp:59. -/
def NP (d : NTRO) (index : Nat) : Res Nat := do return u32OfInt (← Base.IXSS d.xss index)
/-- `NPs`, SecondaryParticleInformationBlock.hpp:74. -/
def NPs (d : NTRO) : Res Words := Base.XSSr d.xss 1 d.ntype
end NTRO
end ACE

import Verif.Model.Arrays

/-!
# Blocks with a lookup: MTR, PTYPE, YP, IXS and IXSU
-/

namespace ACE

/-- `static_cast< unsigned int >` of an integer valued double: undefined when the value is
not finite, negative or does not fit 32 bits. -/
def toU32 : Option Int → Res Nat
  | some i => if 0 ≤ i ∧ i < 4294967296 then .ok i.toNat else .error .ub
  | none => .error .ub

/-- Implicit conversion of an `int` or a `std::size_t` to `unsigned int` (modulo 2^32). -/
def u32OfInt (i : Int) : Nat := (i % 4294967296).toNat

/-- `std::find_if` with a comparison of the rounded word: the offset of the first match, or
the number of words searched. -/
def findRounded (key : Nat) : Words → Res Nat
  | [] => .ok 0
  | d :: ds => do
      let v ← toU32 d.round?
      if v = key then return 0 else return (← findRounded key ds) + 1

/-- MTR, MTRP, MTRH: `ReactionNumberBlock`, /repo/src/ACEtk/continuous/ReactionNumberBlock.hpp. -/
abbrev MTR := ArrayData
namespace MTR
/-- /repo/src/ACEtk/continuous/ReactionNumberBlock/src/ctor.hpp:14-16. -/
def mk' (reactions : List Nat) : Res MTR := ArrayData.ofArrays [reactions.map Dbl.ofNat]
/-- /repo/src/ACEtk/continuous/ReactionNumberBlock/src/ctor.hpp:25-26. -/
def ofRange (xs : Words) (ntr : Nat) : Res MTR := ArrayData.ofRange xs ntr 1
/-- `NTR`, /repo/src/ACEtk/continuous/ReactionNumberBlock.hpp:39. -/
def NTR (d : MTR) : Nat := d.n
/-- `MT`, /repo/src/ACEtk/continuous/ReactionNumberBlock.hpp:51-54. -/
def MT (d : MTR) (index : Nat) : Res Nat := do return u32OfInt (← ArrayData.ivalue d 1 index)
/-- `MTs`, /repo/src/ACEtk/continuous/ReactionNumberBlock.hpp:69. -/
def MTs (d : MTR) : Res (List Int) := ArrayData.iarray d 1
/-- The search in `[ begin, begin + NTR )`, ReactionNumberBlock.hpp:84-91,111-117: the
offset of the iterator found. -/
def find (d : MTR) (reaction : Nat) : Res Nat := do findRounded reaction (← sub d.xss 0 d.n)
/-- `hasMT`, /repo/src/ACEtk/continuous/ReactionNumberBlock.hpp:81-92: the iterator is compared
with `end()`. -/
def hasMT (d : MTR) (reaction : Nat) : Res Bool := do return (← find d reaction) != d.xss.length
/-- `index`, /repo/src/ACEtk/continuous/ReactionNumberBlock.hpp:109-127. -/
def index (d : MTR) (reaction : Nat) : Res Nat := do
  let iter ← find d reaction
  if iter ≠ d.xss.length then return iter + 1 else .error .thrown
end MTR

/-- PTYPE: `SecondaryParticleTypeBlock`, /repo/src/ACEtk/continuous/SecondaryParticleTypeBlock.hpp. -/
abbrev PTYPE := ArrayData
namespace PTYPE
/-- /repo/src/ACEtk/continuous/SecondaryParticleTypeBlock/src/ctor.hpp:14-16. -/
def mk' (types : List Nat) : Res PTYPE := ArrayData.ofArrays [types.map Dbl.ofNat]
/-- /repo/src/ACEtk/continuous/SecondaryParticleTypeBlock/src/ctor.hpp:25-26. -/
def ofRange (xs : Words) (ntype : Nat) : Res PTYPE := ArrayData.ofRange xs ntype 1
/-- `NTYPE`, SecondaryParticleTypeBlock.hpp:40. -/
def NTYPE (d : PTYPE) : Nat := d.n
/-- `IP`, SecondaryParticleTypeBlock.hpp:56. -/
def IP (d : PTYPE) (index : Nat) : Res Nat := do return u32OfInt (← ArrayData.ivalue d 1 index)
/-- The search in `[ begin, begin + NTYPE )`, SecondaryParticleTypeBlock.hpp:85-92,112-118. -/
def find (d : PTYPE) (type : Nat) : Res Nat := do findRounded type (← sub d.xss 0 d.n)
/-- `hasIP`, SecondaryParticleTypeBlock.hpp:83-93. -/
def hasIP (d : PTYPE) (type : Nat) : Res Bool := do return (← find d type) != d.xss.length
/-- `index`, SecondaryParticleTypeBlock.hpp:110-128. -/
def index (d : PTYPE) (type : Nat) : Res Nat := do
  let iter ← find d type
  if iter ≠ d.xss.length then return iter + 1 else .error .thrown
end PTYPE

/-- YP, YH: `MultiplicityReactionNumberBlock`,
/repo/src/ACEtk/continuous/MultiplicityReactionNumberBlock.hpp; only the words. -/
structure YP where
  xss : Words
deriving DecidableEq, Repr
namespace YP
/-- /repo/src/ACEtk/continuous/MultiplicityReactionNumberBlock/src/generateXSS.hpp:1-8 and
ctor.hpp:14-15. -/
def mk' (reactions : List Nat) : YP := ⟨Dbl.ofNat reactions.length :: reactions.map Dbl.ofNat⟩
/-- `NYP`, MultiplicityReactionNumberBlock.hpp:41-44. -/
def NYP (d : YP) : Res Nat :=
  if d.xss.isEmpty then .ok 0 else do return u32OfInt (← Base.IXSS d.xss 1)
/-- Reading constructor and `verifySize`, ctor.hpp:23-27 and verifySize.hpp:1-14.
The check computes in `unsigned int`, so what it compares with wraps around at 2^32. -/
def ofRange (xs : Words) : Res YP := do
  let nyp ← NYP ⟨xs⟩
  guardThrow (nyp == 0 || !(xs.length < (nyp + 1) % 4294967296))
  return ⟨xs⟩
/-- `MT`, MultiplicityReactionNumberBlock.hpp:56-62. -/
def MT (d : YP) (index : Nat) : Res Nat := do
  let nyp ← d.NYP
  if index < 1 ∨ index > nyp then .error .range
  else return u32OfInt (← Base.IXSS d.xss (index + 1))
/-- `MTs`, MultiplicityReactionNumberBlock.hpp:77. -/
def MTs (d : YP) : Res Words := do Base.XSSr d.xss 2 (← d.NYP)
/-- The search in `[ begin + 1, end )`, MultiplicityReactionNumberBlock.hpp:91-97,117-123: the
offset from `begin() + 1`. -/
def find (d : YP) (reaction : Nat) : Res Nat := do
  findRounded reaction (← sub d.xss 1 d.xss.length)
/-- `hasMT`, MultiplicityReactionNumberBlock.hpp:89-98. -/
def hasMT (d : YP) (reaction : Nat) : Res Bool := do
  return (← find d reaction) + 1 != d.xss.length
/-- `index`, MultiplicityReactionNumberBlock.hpp:115-133. -/
def index (d : YP) (reaction : Nat) : Res Nat := do
  let iter ← find d reaction
  if iter + 1 ≠ d.xss.length then return iter + 1 else .error .thrown
end YP

/-- IXS: `SecondaryParticleLocatorBlock`,
/repo/src/ACEtk/continuous/SecondaryParticleLocatorBlock.hpp. -/
structure IXS where
  xss : Words
  ntype : Nat
deriving DecidableEq, Repr
namespace IXS
/-- /repo/src/ACEtk/continuous/SecondaryParticleLocatorBlock/src/generateXSS.hpp:1-12 and
ctor.hpp:6-10,27-29. Each `std::array< unsigned int, 10 >` is a list. -/
def mk' (locators : List (List Nat)) : IXS :=
  ⟨(locators.map (fun a => a.map Dbl.ofNat)).flatten, locators.length⟩
/-- Reading constructor and `verifySize`, ctor.hpp:38-42 and verifySize.hpp:1-11.
The check computes in `unsigned int`, so what it compares with wraps around at 2^32. -/
def ofRange (xs : Words) (ntype : Nat) : Res IXS := do
  guardThrow (!(xs.length < 10 * ntype % 4294967296))
  return ⟨xs, ntype⟩
/-- `LLOC`, SecondaryParticleLocatorBlock.hpp:59-62. -/
def LLOC (d : IXS) (particle index : Nat) : Res Nat := do
  return sizeOfInt (← Base.IXSS d.xss (position particle 10 index))
/-- SecondaryParticleLocatorBlock.hpp:80. -/
def HPD (d : IXS) (p : Nat) : Res Nat := d.LLOC p 1
/-- SecondaryParticleLocatorBlock.hpp:90. -/
def MTRH (d : IXS) (p : Nat) : Res Nat := d.LLOC p 2
/-- SecondaryParticleLocatorBlock.hpp:100. -/
def TYRH (d : IXS) (p : Nat) : Res Nat := d.LLOC p 3
/-- SecondaryParticleLocatorBlock.hpp:110. -/
def LSIGH (d : IXS) (p : Nat) : Res Nat := d.LLOC p 4
/-- SecondaryParticleLocatorBlock.hpp:120. -/
def SIGH (d : IXS) (p : Nat) : Res Nat := d.LLOC p 5
/-- SecondaryParticleLocatorBlock.hpp:130. -/
def LANDH (d : IXS) (p : Nat) : Res Nat := d.LLOC p 6
/-- SecondaryParticleLocatorBlock.hpp:140. -/
def ANDH (d : IXS) (p : Nat) : Res Nat := d.LLOC p 7
/-- SecondaryParticleLocatorBlock.hpp:150. -/
def LDLWH (d : IXS) (p : Nat) : Res Nat := d.LLOC p 8
/-- SecondaryParticleLocatorBlock.hpp:160. -/
def DLWH (d : IXS) (p : Nat) : Res Nat := d.LLOC p 9
/-- SecondaryParticleLocatorBlock.hpp:170. -/
def YP (d : IXS) (p : Nat) : Res Nat := d.LLOC p 10
end IXS

/-- IXSU: the photonuclear `SecondaryParticleLocatorBlock`,
/repo/src/ACEtk/photonuclear/SecondaryParticleLocatorBlock.hpp. -/
structure IXSU where
  xss : Words
  ntype : Nat
deriving DecidableEq, Repr
namespace IXSU
/-- The loop of `generateXSS`,
/repo/src/ACEtk/photonuclear/SecondaryParticleLocatorBlock/src/generateXSS.hpp:21-26. -/
def rows : List Nat → List Nat → List (List Nat) → Words
  | t :: ts, n :: ns, l :: ls => Dbl.ofNat t :: Dbl.ofNat n :: l.map Dbl.ofNat ++ rows ts ns ls
  | _, _, _ => []
/-- `generateXSS` and the constructor, generateXSS.hpp:1-28 and ctor.hpp:6-13,32-38. -/
def mk' (types numbers : List Nat) (locators : List (List Nat)) : Res IXSU := do
  guardThrow (!(types.length != locators.length || numbers.length != locators.length))
  return ⟨rows types numbers locators, locators.length⟩
/-- Reading constructor and `verifySize`, ctor.hpp:47-51 and verifySize.hpp:1-11.
The check computes in `unsigned int`, so what it compares with wraps around at 2^32. -/
def ofRange (xs : Words) (ntype : Nat) : Res IXSU := do
  guardThrow (!(xs.length < 12 * ntype % 4294967296))
  return ⟨xs, ntype⟩
/-- `LLOC`, photonuclear/SecondaryParticleLocatorBlock.hpp:58-61. -/
def LLOC (d : IXSU) (particle index : Nat) : Res Nat := do
  return sizeOfInt (← Base.IXSS d.xss (position particle 12 index))
/-- `IP`, photonuclear/SecondaryParticleLocatorBlock.hpp:79-82. -/
def IP (d : IXSU) (p : Nat) : Res Nat := do return u32OfInt (← d.LLOC p 1)
/-- `NP`, photonuclear/SecondaryParticleLocatorBlock.hpp:99-102. -/
def NP (d : IXSU) (p : Nat) : Res Nat := do return u32OfInt (← d.LLOC p 2)
/-- photonuclear/SecondaryParticleLocatorBlock.hpp:119. -/
def PXS (d : IXSU) (p : Nat) : Res Nat := d.LLOC p 3
/-- photonuclear/SecondaryParticleLocatorBlock.hpp:129. -/
def PHN (d : IXSU) (p : Nat) : Res Nat := d.LLOC p 4
/-- photonuclear/SecondaryParticleLocatorBlock.hpp:139. -/
def MTRH (d : IXSU) (p : Nat) : Res Nat := d.LLOC p 5
/-- photonuclear/SecondaryParticleLocatorBlock.hpp:149. -/
def TYRH (d : IXSU) (p : Nat) : Res Nat := d.LLOC p 6
/-- photonuclear/SecondaryParticleLocatorBlock.hpp:159. -/
def LSIGH (d : IXSU) (p : Nat) : Res Nat := d.LLOC p 7
/-- photonuclear/SecondaryParticleLocatorBlock.hpp:169. -/
def SIGH (d : IXSU) (p : Nat) : Res Nat := d.LLOC p 8
/-- photonuclear/SecondaryParticleLocatorBlock.hpp:179. -/
def LANDH (d : IXSU) (p : Nat) : Res Nat := d.LLOC p 9
/-- photonuclear/SecondaryParticleLocatorBlock.hpp:189. -/
def ANDH (d : IXSU) (p : Nat) : Res Nat := d.LLOC p 10
/-- photonuclear/SecondaryParticleLocatorBlock.hpp:199. -/
def LDLWH (d : IXSU) (p : Nat) : Res Nat := d.LLOC p 11
/-- photonuclear/SecondaryParticleLocatorBlock.hpp:209. -/
def DLWH (d : IXSU) (p : Nat) : Res Nat := d.LLOC p 12
/-- The loop of `hasIP` and `index`, photonuclear/SecondaryParticleLocatorBlock.hpp:219-230,247-260:
the first index of the `count` indices from `from` on with this particle type. -/
def search (d : IXSU) (type : Nat) : (start count : Nat) → Res (Option Nat)
  | _, 0 => .ok none
  | start, count + 1 => do
      let ip ← d.IP start
      if ip = type then return some start else search d type (start + 1) count
/-- `hasIP`, photonuclear/SecondaryParticleLocatorBlock.hpp:219-230. -/
def hasIP (d : IXSU) (type : Nat) : Res Bool := do return (← d.search type 1 d.ntype).isSome
/-- `index`, photonuclear/SecondaryParticleLocatorBlock.hpp:247-260. -/
def index (d : IXSU) (type : Nat) : Res Nat := do
  match ← d.search type 1 d.ntype with
  | some i => return i
  | none => .error .thrown
end IXSU

end ACE

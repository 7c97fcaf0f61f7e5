import Verif.Model.EnergyData
import Verif.Model.Located

/-!
# Energy distribution blocks and the reference frames

`continuous::FrameAndMultiplicityBlock` (TYR, TYRH), `continuous::EnergyDistributionBlock` (DLW) and
`continuous::SecondaryParticleEnergyDistributionBlock` (DLWH, DLWP, DNED).
-/

namespace ACE

/-- `ReferenceFrame`, /repo/src/ACEtk/ReferenceFrame.hpp:11-15. -/
inductive Frame where
  | laboratory
  | centreOfMass
deriving DecidableEq, Repr

/-- `x *= -1`. -/
def Dbl.neg : Dbl → Dbl
  | .fin s m e => .fin (!s) m e
  | .inf s => .inf (!s)
  | .nan => .nan

/-! ## TYR -/

/-- Fields of `FrameAndMultiplicityBlock`,
/repo/src/ACEtk/continuous/FrameAndMultiplicityBlock.hpp:29-31. -/
structure TYR where
  xss : Words
  ntr : Nat
  frames : List Frame
  multiplicities : List Nat
deriving DecidableEq, Repr

namespace TYR

/-- A multiplicity with the sign of its frame, FrameAndMultiplicityBlock/src/generateXSS.hpp:18-25. -/
def word (frame : Frame) (multiplicity : Nat) : Dbl :=
  if frame = .centreOfMass then (Dbl.ofNat multiplicity).neg else Dbl.ofNat multiplicity

/-- `generateXSS( frames, multiplicities )`, FrameAndMultiplicityBlock/src/generateXSS.hpp:1-28. -/
def generateXSS (frames : List Frame) (multiplicities : List Nat) : Res Words := do
  guardThrow (frames.length == multiplicities.length)
  return List.zipWith word frames multiplicities

/-- `generateXSS( frames )`, FrameAndMultiplicityBlock/src/generateXSS.hpp:30-42. -/
def generateXSSFrames (frames : List Frame) : Words :=
  frames.map fun f => if f = .centreOfMass then Dbl.ofInt (-1) else Dbl.ofNat 1

/-- The body of the loop of `generateBlocks`, zero based,
FrameAndMultiplicityBlock/src/generateBlocks.hpp:8-12; `std::abs` of the smallest `int` is
undefined. -/
def generateBlock (xs : Words) (i : Nat) : Res (Frame × Nat) := do
  let x ← Base.XSS xs (i + 1)
  let n ← Base.IXSS xs (i + 1)
  if n = -2147483648 then .error .ub
  else return (if x.isNeg then .centreOfMass else .laboratory, n.natAbs)

/-- `generateBlocks`, FrameAndMultiplicityBlock/src/generateBlocks.hpp:1-14. -/
def generateBlocks (xs : Words) (ntr : Nat) : Res TYR := do
  let l ← (List.range ntr).mapM (generateBlock xs)
  return { xss := xs, ntr := ntr, frames := l.map (·.1), multiplicities := l.map (·.2) }

/-- Constructor, FrameAndMultiplicityBlock/src/ctor.hpp:6-13,89-92. -/
def mk' (frames : List Frame) (multiplicities : List Nat) : Res TYR := do
  generateBlocks (← generateXSS frames multiplicities) frames.length
/-- Constructor without multiplicities, FrameAndMultiplicityBlock/src/ctor.hpp:18-23,99-100. -/
def ofFrames (frames : List Frame) : Res TYR := generateBlocks (generateXSSFrames frames) frames.length
/-- Reading constructor, FrameAndMultiplicityBlock/src/ctor.hpp:109-114 and verifySize.hpp:1-11. -/
def ofRange (xs : Words) (ntr : Nat) : Res TYR := do
  guardThrow (!decide (xs.length < ntr))
  generateBlocks xs ntr

/-- `referenceFrame( index )`, FrameAndMultiplicityBlock.hpp:60-66. -/
def referenceFrame (t : TYR) (index : Nat) : Res Frame :=
  if index < 1 ∨ index > t.ntr then .error .range
  else match t.frames[index - 1]? with
    | some x => .ok x
    | none => .error .ub
/-- `multiplicity( index )`, FrameAndMultiplicityBlock.hpp:81-87. -/
def multiplicity (t : TYR) (index : Nat) : Res Nat :=
  if index < 1 ∨ index > t.ntr then .error .range
  else match t.multiplicities[index - 1]? with
    | some x => .ok x
    | none => .error .ub
end TYR

/-! ## DLW -/

/-- `MultiplicityData`, /repo/src/ACEtk/continuous/EnergyDistributionBlock.hpp:50; a
`TabulatedMultiplicity` is a `TabulatedData` (continuous/TabulatedMultiplicity.hpp:19-90). -/
inductive Mult where
  | int (n : Nat)
  | tab (d : TabulatedData)
deriving DecidableEq, Repr

/-- Fields of `EnergyDistributionBlock`, continuous/EnergyDistributionBlock.hpp:64-69; `iterator_`
is always `begin() + NR` (src/generateBlocks.hpp:88). -/
structure DLW where
  xss : Words
  nr : Nat
  tyr : TYR
  data : List EnergyData
  multiplicities : List Mult
  frames : List Frame
deriving DecidableEq, Repr

namespace DLW

/-- The words of a multiplicity, EnergyDistributionBlock/src/generateXSS.hpp:27-36. -/
def multWords : Mult → Words
  | .int _ => []
  | .tab d => d.xss

/-- The multiplicity in the TYR block, EnergyDistributionBlock/src/generateXSS.hpp:27-36: `n` words
of the data part come before. A conversion to `unsigned int`. -/
def tyrOf (n : Nat) : Mult → Nat
  | .int m => m
  | .tab _ => (100 + (n + 1)) % 4294967296

/-- The loop of `generateXSS`, EnergyDistributionBlock/src/generateXSS.hpp:17-154: `size` locators,
the words so far, the multiplicities so far. -/
def loop (size : Nat) : List (EnergyData × Mult) → (xss : Words) → (tyr : List Nat) → (index : Nat) →
    Res (Words × List Nat)
  | [], xss, tyr, _ => .ok (xss, tyr)
  | (d, m) :: rest, xss, tyr, index => do
      let n := xss.length - size
      let tyr' := tyr ++ [tyrOf n m]
      let xss' := xss ++ multWords m
      let locator := xss'.length - size + 1
      let ws ← d.placed locator
      loop size rest (xss'.set index (Dbl.ofNat locator) ++ ws) tyr' (index + 1)

/-- `generateXSS`, EnergyDistributionBlock/src/generateXSS.hpp:1-157. -/
def generateXSS (distributions : List EnergyData) (multiplicities : List Mult) :
    Res (Words × List Nat) := do
  guardThrow (distributions.length == multiplicities.length)
  loop distributions.length (distributions.zip multiplicities)
    (List.replicate distributions.length (Dbl.ofNat 0)) [] 0

/-- `LDLW( index )`, EnergyDistributionBlock.hpp:119-125 and src/verifyDataIndex.hpp:1-11. -/
def LDLWof (xs : Words) (nr index : Nat) : Res Int :=
  if index < 1 ∨ index > nr then .error .range else Base.IXSS xs index

/-- The iterator to the end of the data of a reaction,
EnergyDistributionBlock/src/generateBlocks.hpp:107-115: an offset. -/
def rightOf (xs : Words) (nr : Nat) (tyr : TYR) (index : Nat) : Res Nat :=
  if index = nr then .ok xs.length
  else do
    let multiplicity ← tyr.multiplicity (index + 1)
    if multiplicity < 100 then
      Base.iterator xs (sizeOfInt ((nr : Int) + 1 + (← LDLWof xs nr (index + 1)) - 1))
    else Base.iterator xs (nr + 1 + multiplicity - 100 - 1)

/-- The multiplicity of a reaction, EnergyDistributionBlock/src/generateBlocks.hpp:117-126. -/
def multOf (xs : Words) (nr : Nat) (tyr : TYR) (index left : Nat) : Res Mult := do
  let multiplicity ← tyr.multiplicity index
  if multiplicity > 100 then do
    let mleft ← Base.iterator xs (nr + 1 + multiplicity - 100 - 1)
    return .tab (← TabulatedData.ofRange (← sub xs mleft left))
  else return .int multiplicity

/-- The body of the loop of `generateBlocks`, zero based `i`,
EnergyDistributionBlock/src/generateBlocks.hpp:93-127: `data` is `NR + 1`. -/
def generateBlock (xs : Words) (nr : Nat) (tyr : TYR) (i : Nat) : Res (EnergyData × Mult) := do
  let index := i + 1
  let locator ← LDLWof xs nr index
  guardThrow (locator != 0)
  let left ← Base.iterator xs (sizeOfInt ((nr : Int) + 1 + locator - 1))
  let right ← rightOf xs nr tyr index
  let data ← EnergyData.read (sizeOfInt locator) (← sub xs left right)
  let multiplicity ← multOf xs nr tyr index left
  return (data, multiplicity)

/-- The frames, EnergyDistributionBlock/src/generateBlocks.hpp:128-130: undefined when the TYR block
has fewer. -/
def firstFrames (tyr : TYR) (nr : Nat) : Res (List Frame) :=
  if nr ≤ tyr.frames.length then .ok (tyr.frames.take nr) else .error .ub

/-- `generateBlocks`, EnergyDistributionBlock/src/generateBlocks.hpp:86-131. -/
def generateBlocks (xs : Words) (nr : Nat) (tyr : TYR) : Res DLW := do
  let l ← (List.range nr).mapM (generateBlock xs nr tyr)
  let frames ← firstFrames tyr nr
  return { xss := xs, nr := nr, tyr := tyr, data := l.map (·.1), multiplicities := l.map (·.2),
           frames := frames }

/-- Constructor, EnergyDistributionBlock/src/ctor.hpp:6-27,104-110. -/
def mk' (distributions : List EnergyData) (multiplicities : List Mult) (frames : List Frame) :
    Res DLW := do
  let xss ← generateXSS distributions multiplicities
  let tyr ← TYR.mk' frames xss.2
  generateBlocks xss.1 distributions.length tyr

/-- Reading constructor over `[ loc, end )` with the data part at offset `data`,
EnergyDistributionBlock/src/ctor.hpp:120-127 and verifySize.hpp:1-13. -/
def ofRange (xs : Words) (data : Nat) (tyr : TYR) (nr : Nat) : Res DLW := do
  guardThrow (!decide (data < nr))
  generateBlocks xs nr tyr

/-- An element of one of the lists, with `verifyDataIndex`. -/
def pick {α : Type} (nr : Nat) (l : List α) (index : Nat) : Res α :=
  if index < 1 ∨ index > nr then .error .range
  else match l[index - 1]? with
    | some x => .ok x
    | none => .error .ub
/-- `LDLW( index )`, EnergyDistributionBlock.hpp:119-125. -/
def LDLW (d : DLW) (index : Nat) : Res Int := LDLWof d.xss d.nr index
/-- `energyDistributionData( index )`, EnergyDistributionBlock.hpp:157-163. -/
def distribution (d : DLW) (index : Nat) : Res EnergyData := pick d.nr d.data index
/-- `multiplicityData( index )`, EnergyDistributionBlock.hpp:181-187. -/
def multiplicity (d : DLW) (index : Nat) : Res Mult := pick d.nr d.multiplicities index
/-- `referenceFrame( index )`, EnergyDistributionBlock.hpp:205-211. -/
def referenceFrame (d : DLW) (index : Nat) : Res Frame := pick d.nr d.frames index

end DLW

/-! ## DLWH, DLWP, DNED -/

/-- Fields of `SecondaryParticleEnergyDistributionBlock`,
continuous/SecondaryParticleEnergyDistributionBlock.hpp:61-69. -/
structure DLWH where
  block : LocBlock EnergyData
  tyrh : Option TYR
  frames : List (Option Frame)
deriving DecidableEq, Repr

namespace DLWH

/-- The loop of `generateXSS`,
SecondaryParticleEnergyDistributionBlock/src/generateXSS.hpp:7-123. -/
def loop (size : Nat) : List EnergyData → (xss : Words) → (index : Nat) → Res Words
  | [], xss, _ => .ok xss
  | d :: rest, xss, index => do
      let offset := xss.length - size + 1
      let ws ← d.placed offset
      loop size rest (xss.set index (Dbl.ofNat offset) ++ ws) (index + 1)

/-- `generateXSS`, SecondaryParticleEnergyDistributionBlock/src/generateXSS.hpp:1-126. -/
def generateXSS (distributions : List EnergyData) : Res Words :=
  loop distributions.length distributions
    (List.replicate distributions.length (Dbl.ofNat 0)) 0

/-- `generateFrames`, SecondaryParticleEnergyDistributionBlock/src/generateFrames.hpp:1-15:
undefined when there are fewer frames than reactions. -/
def generateFrames (tyrh : Option TYR) (nr : Nat) : Res (List (Option Frame)) :=
  match tyrh with
  | some t => if nr ≤ t.frames.length then .ok ((t.frames.take nr).map some) else .error .ub
  | none => .ok (List.replicate nr none)

/-- The constructors from values with and without frames,
SecondaryParticleEnergyDistributionBlock/src/ctor.hpp:62-67,75-81 and
base/BlockWithLocators/src/ctor.hpp:6-13,49-50. -/
def mk' (distributions : List EnergyData) (frames : Option (List Frame)) : Res DLWH := do
  let xss ← generateXSS distributions
  let block ← LocBlock.generateBlocks EnergyData.readSecondary xss distributions.length true
    distributions.length
  match frames with
  | some f => do
      let t ← TYR.ofFrames f
      let fs ← generateFrames (some t) block.n
      return { block := block, tyrh := some t, frames := fs }
  | none => do
      let fs ← generateFrames none block.n
      return { block := block, tyrh := none, frames := fs }

/-- The reading constructors, SecondaryParticleEnergyDistributionBlock/src/ctor.hpp:91-96,107-113:
the data part is at offset `iter`. -/
def ofRange (xs : Words) (iter : Nat) (tyrh : Option TYR) (nr : Nat) : Res DLWH := do
  let block ← LocBlock.ofRange EnergyData.readSecondary xs iter nr true
  let fs ← generateFrames tyrh nr
  return { block := block, tyrh := tyrh, frames := fs }

/-- `energyDistributionData( index )`, SecondaryParticleEnergyDistributionBlock.hpp:145-148. -/
def distribution (d : DLWH) (index : Nat) : Res EnergyData := d.block.get index
/-- `LDLW( index )`, SecondaryParticleEnergyDistributionBlock.hpp:110-113. -/
def LDLW (d : DLWH) (index : Nat) : Res Nat := d.block.LLOC index
/-- `referenceFrame( index )`, SecondaryParticleEnergyDistributionBlock.hpp:166-172. -/
def referenceFrame (d : DLWH) (index : Nat) : Res (Option Frame) := DLW.pick d.block.n d.frames index

end DLWH
end ACE

import Verif.Model.Photoatomic
import Verif.Model.Continuous

/-!
# `PhotonuclearTable`

/repo/src/ACEtk/PhotonuclearTable.hpp and PhotonuclearTable/src.
-/

namespace ACE

/-- One secondary particle: the blocks PXS to DLWH. -/
structure PN.Particle where
  pxs : CrossSectionData
  phn : CrossSectionData
  mtrh : MTR
  tyrh : TYR
  sigh : SIGH
  andh : AngularBlock
  dlwh : DLWH
deriving DecidableEq

/-- `PhotonuclearTable`, /repo/src/ACEtk/PhotonuclearTable.hpp:28-43. The header is reduced to its
ZAID; the seven vectors of secondary particle blocks (filled together) are one list. -/
structure PN where
  zaid : List Char
  data : TableData
  eszu : ESZU
  mtr : MTR
  lqr : LQR
  sig : SIG
  ixsu : Option IXSU
  particles : List PN.Particle
deriving DecidableEq

namespace PN

/-- `length`, PhotonuclearTable.hpp:117. -/
def length (t : PN) : Res Nat := t.data.count 1
/-- `ZA`, PhotonuclearTable.hpp:122. -/
def ZA (t : PN) : Res Nat := t.data.count 2
/-- `NES`, PhotonuclearTable.hpp:127. -/
def NES (t : PN) : Res Nat := t.data.count 3
/-- `NTR`, PhotonuclearTable.hpp:137. -/
def NTR (t : PN) : Res Nat := t.data.count 4
/-- `NTYPE`, PhotonuclearTable.hpp:147. -/
def NTYPE (t : PN) : Res Nat := t.data.count 5
/-- `S`, PhotonuclearTable.hpp:157. -/
def S (t : PN) : Res Nat := t.data.count 9
/-- `Z`, PhotonuclearTable.hpp:167. -/
def Z (t : PN) : Res Nat := t.data.count 10
/-- `A`, PhotonuclearTable.hpp:177. -/
def A (t : PN) : Res Nat := t.data.count 11

/-- `vector[ index - 1 ]` of the seven vectors: undefined outside. -/
def particle (t : PN) (index : Nat) : Res Particle :=
  if index = 0 then .error .ub
  else match t.particles[index - 1]? with
    | some p => .ok p
    | none => .error .ub
/-- `PXS( index )`, PhotonuclearTable.hpp:250-253. -/
def PXS (t : PN) (index : Nat) : Res CrossSectionData := do return (← t.particle index).pxs
/-- `PHN( index )`, PhotonuclearTable.hpp:279-282. -/
def PHN (t : PN) (index : Nat) : Res CrossSectionData := do return (← t.particle index).phn
/-- `MTRH( index )`, PhotonuclearTable.hpp:307-310. -/
def MTRH (t : PN) (index : Nat) : Res MTR := do return (← t.particle index).mtrh
/-- `TYRH( index )`, PhotonuclearTable.hpp:334-337. -/
def TYRH (t : PN) (index : Nat) : Res TYR := do return (← t.particle index).tyrh
/-- `SIGH( index )`, PhotonuclearTable.hpp:362-365. -/
def SIGH (t : PN) (index : Nat) : Res SIGH := do return (← t.particle index).sigh
/-- `ANDH( index )`, PhotonuclearTable.hpp:390-393. -/
def ANDH (t : PN) (index : Nat) : Res AngularBlock := do return (← t.particle index).andh
/-- `DLWH( index )`, PhotonuclearTable.hpp:418-421. -/
def DLWH (t : PN) (index : Nat) : Res DLWH := do return (← t.particle index).dlwh

/-! ## Reading -/

/-- `block( index )`, PhotonuclearTable/src/generateBlocks.hpp:1-26, the same as that of
`PhotoatomicTable`. -/
def block (d : TableData) (index : Nat) : Res (Nat × Nat) := PA.block d index

/-- The end locator of a block of a secondary particle, PhotonuclearTable/src/generateBlocks.hpp:36-43;
the word found is converted to `std::size_t`. -/
def particleEnd (ixs : IXSU) (particle index start : Nat) : Res Nat := do
  let ws ← sub ixs.xss ((particle - 1) * 12 + index) ixs.xss.length
  match ws.find? (fun value => value.geNat start) with
  | none => return 0
  | some value => toSize value.trunc?

/-- `block( particle, index )`, PhotonuclearTable/src/generateBlocks.hpp:28-48. -/
def particleBlock (d : TableData) (ixs : IXSU) (particle index : Nat) : Res (Nat × Nat) := do
  let start ← ixs.LLOC particle index
  d.range start (← particleEnd ixs particle index start)

/-- The blocks of one secondary particle, PhotonuclearTable/src/generateBlocks.hpp:100-137. -/
def readParticle (d : TableData) (ixs : IXSU) (index : Nat) : Res Particle := do
  let pxs ← CrossSectionData.ofRange (← d.words (← particleBlock d ixs index 3))
  let phn ← CrossSectionData.ofRange (← d.words (← particleBlock d ixs index 4))
  let np ← ixs.NP index
  let mtrh ← MTR.ofRange (← d.words (← particleBlock d ixs index 5)) np
  let tyrh ← TYR.ofRange (← d.words (← particleBlock d ixs index 6)) np
  let ls ← CE.located d (← particleBlock d ixs index 7) (← particleBlock d ixs index 8)
  let sigh ← SIGH.ofRange ls.1 ls.2 np
  let la ← CE.located d (← particleBlock d ixs index 9) (← particleBlock d ixs index 10)
  let andh ← AngularBlock.ofRange la.1 la.2 np false
  let le ← CE.located d (← particleBlock d ixs index 11) (← particleBlock d ixs index 12)
  let dlwh ← DLWH.ofRange le.1 le.2 (some tyrh) np
  return ⟨pxs, phn, mtrh, tyrh, sigh, andh, dlwh⟩

/-- The secondary particles, PhotonuclearTable/src/generateBlocks.hpp:91-138. -/
def readSecondaries (d : TableData) (ntype : Nat) : Res (IXSU × List Particle) := do
  let ixs ← IXSU.ofRange (← d.words (← block d 10)) ntype
  let particles ← (List.range' 1 ntype).mapM (readParticle d ixs)
  return (ixs, particles)

/-- The number of arrays of the ESZU block, PhotonuclearTable/src/generateBlocks.hpp:67-72. -/
def arraysOf (jxs4 : Int) : Nat := if jxs4 ≠ 0 then 4 else 3

/-- `generateBlocks`, PhotonuclearTable/src/generateBlocks.hpp:50-139. -/
def generateBlocks (zaid : List Char) (d : TableData) : Res PN := do
  let size := arraysOf (← d.JXS 4)
  let b1 ← block d 1
  let b6 ← block d 6
  let eszu ← ESZU.ofRange (← sub d.xss b1.1 b6.1) (← d.count 3) size
  let ntr ← d.count 4
  let mtr ← MTR.ofRange (← d.words b6) ntr
  let lqr ← LQR.ofRange (← d.words (← block d 7)) ntr
  let ls ← CE.located d (← block d 8) (← block d 9)
  let sig ← SIG.ofRange ls.1 ls.2 ntr
  let ntype ← d.count 5
  let s ← CE.onlyIf (decide (ntype > 0)) (readSecondaries d ntype)
  return { zaid := zaid, data := d, eszu := eszu, mtr := mtr, lqr := lqr, sig := sig
           ixsu := s.map (·.1)
           particles := match s with | some s => s.2 | none => [] }

/-- Construction from a generic table, PhotonuclearTable/src/ctor.hpp:6-23 (the copy and move
constructors, lines 30-49, do the same; assignments, lines 56-81, start from a table that has its
identification already). -/
def ofTable (zaid : List Char) (d : TableData) : Res PN := do
  TableType.photonuclear.verifyType zaid
  generateBlocks zaid (← d.setSZA zaid)

/-! ## Writing -/

/-- The blocks given to the constructor, PhotonuclearTable/src/ctor.hpp:102-112. -/
structure Input where
  eszu : ESZU
  mtr : MTR
  lqr : LQR
  sig : SIG
  ptype : Option (List Nat)
  pxs : Option (List CrossSectionData)
  phn : Option (List CrossSectionData)
  mtrh : Option (List MTR)
  sigh : Option (List ACE.SIGH)
  andh : Option (List AngularBlock)
  dlwh : Option (List ACE.DLWH)

/-- `optional.value()[ index ]`: an exception when there is no vector, undefined when it is too
short. -/
def item {α : Type} (o : Option (List α)) (index : Nat) : Res α := do
  let l ← CE.valueOf o
  match l[index]? with
  | some x => return x
  | none => .error .ub

/-- The blocks that are written for one particle, PhotonuclearTable/src/generateData.hpp:92-110. -/
def particleOf (b : Input) (tyrh : Option (List TYR)) (index : Nat) : Res Particle := do
  let mtrh ← item b.mtrh index
  let pxs ← item b.pxs index
  let phn ← item b.phn index
  let tyrh ← item tyrh index
  let sigh ← item b.sigh index
  let andh ← item b.andh index
  let dlwh ← item b.dlwh index
  return ⟨pxs, phn, mtrh, tyrh, sigh, andh, dlwh⟩

/-- The locators of the blocks of a secondary particle that starts after `n` words,
PhotonuclearTable/src/generateData.hpp:94-110. Simplification: not truncated to `unsigned int`. -/
def particleLocators (n : Nat) (p : Particle) : List Nat :=
  let n1 := n + p.pxs.xss.length
  let n2 := n1 + p.phn.xss.length
  let n3 := n2 + p.mtrh.xss.length
  let n4 := n3 + p.tyrh.xss.length
  let n5 := n4 + p.sigh.xss.length
  let n6 := n5 + p.andh.xss.length
  [n + 1, n1 + 1, n2 + 1, n3 + 1, n4 + 1, n4 + p.mtrh.n + 1, n5 + 1, n5 + p.mtrh.n + 1, n6 + 1,
    n6 + p.mtrh.n + 1]

/-- The words of the blocks of a secondary particle, PhotonuclearTable/src/generateData.hpp:94-110. -/
def particleWords (p : Particle) : Words :=
  p.pxs.xss ++ p.phn.xss ++ p.mtrh.xss ++ p.tyrh.xss ++ p.sigh.xss ++ p.andh.xss ++ p.dlwh.block.xss

/-- The loop over the secondary particles, PhotonuclearTable/src/generateData.hpp:90-111: `size` words
of locators are still to be inserted. -/
def particleLoop (size : Nat) : List Particle → Words → List (List Nat) → Words × List (List Nat)
  | [], xss, ixs => (xss, ixs)
  | p :: ps, xss, ixs =>
      particleLoop size ps (xss ++ particleWords p) (ixs ++ [particleLocators (xss.length + size) p])

/-- The secondary particle part, PhotonuclearTable/src/generateData.hpp:75-116: the words, JXS(10) and
JXS(11). -/
def addSecondaries (b : Input) (tyrh : Option (List TYR)) (xss : Words) : Option (List Nat) →
    Res (Words × List Int)
  | none => .ok (xss, [0, 0])
  | some ptype => do
      let numbers := (← CE.valueOf b.mtrh).map (·.n)
      let ps ← (List.range ptype.length).mapM (particleOf b tyrh)
      let r := particleLoop (ptype.length * 12) ps xss []
      let locators ← IXSU.mk' ptype numbers r.2
      return (r.1.take xss.length ++ locators.xss ++ r.1.drop xss.length,
        [((xss.length + 1 : Nat) : Int), ((xss.length + ptype.length * 12 + 1 : Nat) : Int)])

/-- JXS(1) to JXS(5), PhotonuclearTable/src/generateData.hpp:62-66. -/
def principalLocators (nes : Nat) (elastic : Bool) : List Int :=
  if elastic then [1, ((nes + 1 : Nat) : Int), 0, ((2 * nes + 1 : Nat) : Int), ((3 * nes + 1 : Nat) : Int)]
  else [1, ((nes + 1 : Nat) : Int), ((nes + 1 : Nat) : Int), 0, ((2 * nes + 1 : Nat) : Int)]

/-- `generateData`, PhotonuclearTable/src/generateData.hpp:22-144. `z * 1000 + a` is computed in
`unsigned int`; the other numbers are not truncated. -/
def generateData (z a s : Nat) (b : Input) : Res TableData := do
  let ntr := b.mtr.n
  let ntype := CE.sizeOf b.ptype
  let tyrh ← CE.generateTYRH b.dlwh
  guardThrow (!(ntr != b.lqr.n || ntr != b.sig.n))
  let elastic ← b.eszu.elastic
  let x1 := b.eszu.xss
  let x2 := x1 ++ b.mtr.xss
  let x3 := x2 ++ b.lqr.xss
  let x4 := x3 ++ b.sig.xss
  let w ← addSecondaries b tyrh x4 b.ptype
  return { iz := List.replicate 16 0, aw := List.replicate 16 (Dbl.ofNat 0)
           nxs := [(w.1.length : Nat), ((z * 1000 + a) % 4294967296 : Nat), (b.eszu.n : Nat), (ntr : Nat), (ntype : Nat),
             2, 12, 0, (s : Nat), (z : Nat), (a : Nat), 0, 0, 0, 0, 1]
           jxs := principalLocators b.eszu.n (!elastic.isEmpty) ++
             [PA.after x1, PA.after x2, PA.after x3, PA.afterPlus x3 ntr] ++ w.2 ++ List.replicate 21 0
           xss := w.1 }

/-- Construction from blocks, PhotonuclearTable/src/ctor.hpp:102-122. -/
def mk' (zaid : List Char) (z a s : Nat) (b : Input) : Res PN := do
  ofTable zaid (← generateData z a s b)

end PN
end ACE

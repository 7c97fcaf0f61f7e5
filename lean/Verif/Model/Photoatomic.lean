import Verif.Model.Dosimetry
import Verif.Model.FormatBlocks

/-!
# `PhotoatomicTable`

/repo/src/ACEtk/PhotoatomicTable.hpp and PhotoatomicTable/src.
-/

namespace ACE

/-- The electron, photon and relaxation data: the blocks that a table has when it has a SUBSH
block. -/
structure PA.Electrons where
  subsh : SUBSH
  sphel : SPHEL
  xprob : XPROB
  esze : ESZE
  excit : EXCIT
  elas : ElectronBlock
  eion : List ElectronBlock
  breme : ElectronBlock
  breml : BREML
  selas : Option SELAS
deriving DecidableEq, Repr

/-- `PhotoatomicTable`, /repo/src/ACEtk/PhotoatomicTable.hpp:34-53. The header is reduced to its
ZAID. -/
structure PA where
  zaid : List Char
  data : TableData
  eszg : ESZG
  jinc : JINC
  jcoh : JCOH
  jflo : Option JFLO
  lhnm : LHNM
  eps : Option EPS
  swd : Option SWD
  subsh : Option SUBSH
  sphel : Option SPHEL
  xprob : Option XPROB
  esze : Option ESZE
  excit : Option EXCIT
  elas : Option ElectronBlock
  eion : List ElectronBlock
  breme : Option ElectronBlock
  breml : Option BREML
  selas : Option SELAS
deriving DecidableEq, Repr

namespace PA

/-- `Z`, PhotoatomicTable.hpp:129. -/
def Z (t : PA) : Res Nat := t.data.count 2
/-- `NES`, PhotoatomicTable.hpp:159. -/
def NES (t : PA) : Res Nat := t.data.count 3
/-- `NFLO`, PhotoatomicTable.hpp:169. -/
def NFLO (t : PA) : Res Nat := t.data.count 4
/-- `NSH`, PhotoatomicTable.hpp:179. -/
def NSH (t : PA) : Res Nat := t.data.count 5
/-- `NEPR`, PhotoatomicTable.hpp:190. -/
def NEPR (t : PA) : Res Nat := t.data.count 6
/-- `NSSH`, PhotoatomicTable.hpp:202. -/
def NSSH (t : PA) : Res Nat := t.data.count 7
/-- `NE`, PhotoatomicTable.hpp:213. -/
def NE (t : PA) : Res Nat := t.data.count 8
/-- `NXL`, PhotoatomicTable.hpp:223. -/
def NXL (t : PA) : Res Nat := t.data.count 9
/-- `NA`, PhotoatomicTable.hpp:237. -/
def NA (t : PA) : Res Nat := t.data.count 10
/-- `NB`, PhotoatomicTable.hpp:249. -/
def NB (t : PA) : Res Nat := t.data.count 11
/-- `NBL`, PhotoatomicTable.hpp:263. -/
def NBL (t : PA) : Res Nat := t.data.count 12
/-- `NINC`, PhotoatomicTable.hpp:276. -/
def NINC (t : PA) : Res Nat := t.data.count 13
/-- `NCOH`, PhotoatomicTable.hpp:286. -/
def NCOH (t : PA) : Res Nat := t.data.count 14
/-- `EION( index )`, PhotoatomicTable.hpp:475-481 with
PhotoatomicTable/src/verifySubshellIndex.hpp. -/
def EION (t : PA) (index : Nat) : Res ElectronBlock := do
  let nssh ← t.NSSH
  if index < 1 ∨ index > nssh then .error .range
  else match t.eion[index - 1]? with
    | some b => return b
    | none => .error .ub

/-- `block( index )`, PhotoatomicTable/src/generateBlocks.hpp:1-26. A block without locator: the
iterator before the first word is undefined. -/
def block (d : TableData) (index : Nat) : Res (Nat × Nat) := do
  let start ← d.locator index
  if start = 0 then .error .ub
  else
    match (d.jxs.drop index).find? (fun value => decide (start ≤ sizeOfInt value)) with
    | none => d.range start 0
    | some value => d.range start (sizeOfInt value)

/-- A word converted to an integer, minus one (PhotoatomicTable/src/generateBlocks.hpp:35-37: the
word is a `double`, one is subtracted and the result is converted). Simplification: words less than
one are undefined. -/
def wordOffset (d : TableData) (i : Nat) : Res Nat := do
  let n ← toSize (← deref d.xss i).trunc?
  if n = 0 then .error .ub else return n - 1

/-- `electroionisation_block( index )`, PhotoatomicTable/src/generateBlocks.hpp:28-41, and the
construction of the block, lines 126-127. -/
def readEION (d : TableData) (nssh index : Nat) : Res ElectronBlock := do
  let jxs23 ← d.offset 23
  let n ← toSize (← deref d.xss (jxs23 + index - 1)).trunc?
  let start ← wordOffset d (jxs23 + nssh + index - 1)
  let stop ← if index ≠ nssh then wordOffset d (jxs23 + nssh + index) else d.offset 24
  ElectronBlock.ofRange (← sub d.xss start stop) n

/-- The shell data, PhotoatomicTable/src/generateBlocks.hpp:89-102. -/
def readShells (d : TableData) (nsh : Nat) : Res (EPS × SWD) := do
  let l6 ← block d 6
  let l8 ← block d 8
  let eps ← EPS.ofRange (← sub d.xss l6.1 l8.2) nsh
  let ls ← CE.located d (← block d 9) (← block d 10)
  let swd ← SWD.ofRange ls.1 ls.2 nsh
  return (eps, swd)

/-- The electron, photon and relaxation data, PhotoatomicTable/src/generateBlocks.hpp:104-142. -/
def readElectrons (d : TableData) (nepr : Nat) : Res Electrons := do
  let nssh ← d.count 7
  let ne ← d.count 8
  let s11 ← block d 11
  let s16 ← block d 16
  let subsh ← SUBSH.ofRange (← sub d.xss s11.1 s16.1) nssh
  let sphel ← SPHEL.ofRange (← d.words s16) nssh (← d.count 3)
  let lx ← CE.located d (← block d 17) (← block d 18)
  let xprob ← XPROB.ofRange lx.1 lx.2 nssh
  let esze ← ESZE.ofRange (← d.words (← block d 19)) nssh ne
  let excit ← EXCIT.ofRange (← d.words (← block d 20)) (← d.count 9)
  let s21 ← block d 21
  let s22 ← block d 22
  let elas ← ElectronBlock.ofRange (← sub d.xss s21.1 s22.2) (← d.count 10)
  let eion ← (List.range' 1 nssh).mapM (readEION d nssh)
  let s24 ← block d 24
  let s25 ← block d 25
  let breme ← ElectronBlock.ofRange (← sub d.xss s24.1 s25.2) (← d.count 11)
  let breml ← BREML.ofRange (← d.words (← block d 26)) (← d.count 12)
  let selas ← CE.onlyIf (decide (nepr = 3)) (do SELAS.ofRange (← d.words (← block d 27)) ne)
  return ⟨subsh, sphel, xprob, esze, excit, elas, eion, breme, breml, selas⟩

/-- `generateBlocks`, PhotoatomicTable/src/generateBlocks.hpp:43-143. -/
def generateBlocks (zaid : List Char) (d : TableData) : Res PA := do
  let nes ← d.count 3
  let eszg ← ESZG.ofRange (← d.words (← block d 1)) nes
  let jinc ← JINC.ofRange (← d.words (← block d 2))
  let jcoh ← JCOH.ofRange (← d.words (← block d 3))
  let nflo ← d.count 4
  let jflo ← CE.onlyIf (decide (nflo > 0)) (do JFLO.ofRange (← d.words (← block d 4)) nflo)
  let lhnm ← LHNM.ofRange (← d.words (← block d 5)) nes
  let nsh ← d.count 5
  let shells ← CE.onlyIf (decide (nsh > 0)) (readShells d nsh)
  let nepr ← d.count 6
  let e ← CE.onlyIf (decide (nepr > 0)) (readElectrons d nepr)
  return { zaid := zaid, data := d, eszg := eszg, jinc := jinc, jcoh := jcoh, jflo := jflo, lhnm := lhnm
           eps := shells.map (·.1), swd := shells.map (·.2)
           subsh := e.map (·.subsh), sphel := e.map (·.sphel), xprob := e.map (·.xprob)
           esze := e.map (·.esze), excit := e.map (·.excit), elas := e.map (·.elas)
           eion := match e with | some e => e.eion | none => []
           breme := e.map (·.breme), breml := e.map (·.breml), selas := e.bind (·.selas) }

/-- Construction from a generic table, PhotoatomicTable/src/ctor.hpp:6-21 (the copy and move
operations, lines 28-77, do the same). -/
def ofTable (zaid : List Char) (d : TableData) : Res PA := do
  TableType.photoatomic.verifyType zaid
  generateBlocks zaid d

/-- The arguments of the constructor, PhotoatomicTable/src/ctor.hpp:104-120. -/
structure Input where
  z : Nat
  za : List Nat
  awr : List Dbl
  eszg : ESZG
  jinc : JINC
  jcoh : JCOH
  lhnm : LHNM
  jflo : Option JFLO
  eps : Option EPS
  swd : Option SWD
  subsh : Option SUBSH
  sphel : Option SPHEL
  xprob : Option XPROB
  esze : Option ESZE
  excit : Option EXCIT
  elas : Option ElectronBlock
  eion : List ElectronBlock
  breme : Option ElectronBlock
  breml : Option BREML
  selas : Option SELAS

/-- The optional blocks that are dereferenced when there is a SUBSH block: an empty optional is
undefined behaviour. PhotoatomicTable/src/generateData.hpp:43-48,73,131-157. -/
def electrons (b : Input) : Res (Option Electrons) :=
  match b.subsh with
  | none => .ok none
  | some subsh =>
      match b.sphel, b.xprob, b.esze, b.excit, b.elas, b.breme, b.breml with
      | some sphel, some xprob, some esze, some excit, some elas, some breme, some breml =>
          .ok (some ⟨subsh, sphel, xprob, esze, excit, elas, b.eion, breme, breml, b.selas⟩)
      | _, _, _, _, _, _, _ => .error .ub

/-- The checks of the electron data, PhotoatomicTable/src/generateData.hpp:71-93. -/
def verifyElectrons : Option Electrons → Res Unit
  | none => .ok ()
  | some e => do
      guardThrow (!(e.subsh.n != e.xprob.n || e.subsh.n != e.esze.NSSH || e.subsh.n != e.eion.length))
      match e.selas with
      | some s => guardThrow (!(e.esze.n != s.n))
      | none => pure ()

/-- The loop over the EION blocks, PhotoatomicTable/src/generateData.hpp:145-152: `head` are the three
arrays that are filled in. -/
def eionLoop (nssh l : Nat) : List ElectronBlock → Words → Nat → Words
  | [], xss, _ => xss
  | b :: bs, xss, i =>
      let x1 := xss.set (l + i) (Dbl.ofNat b.n)
      let x2 := x1.set (l + i + nssh) (Dbl.ofNat (x1.length + 1))
      let x3 := x2.set (l + i + 2 * nssh) (Dbl.ofNat (x2.length + 3 * b.n + 1))
      eionLoop nssh l bs (x3 ++ b.xss) (i + 1)

/-- The words of the EION blocks, PhotoatomicTable/src/generateData.hpp:143-152. -/
def addEION (nssh : Nat) (bs : List ElectronBlock) (xss : Words) : Words :=
  eionLoop nssh xss.length bs (xss ++ List.replicate (3 * nssh) (Dbl.ofNat 0)) 0

/-- A locator. -/
def after (w : Words) : Int := ((w.length + 1 : Nat) : Int)
/-- A locator `k` words further. -/
def afterPlus (w : Words) (k : Nat) : Int := ((w.length + 1 + k : Nat) : Int)

/-- The words of the shell data and JXS(6) to JXS(10),
PhotoatomicTable/src/generateData.hpp:109-121. -/
def addShells (x5 : Words) (nsh : Nat) (eps : Option EPS) (swd : Option SWD) : Words × List Int :=
  let w6 := match eps with
    | some b => (x5 ++ b.xss, [after x5, afterPlus x5 nsh, afterPlus x5 (2 * nsh)])
    | none => (x5, [0, 0, 0])
  match swd with
  | some b => (w6.1 ++ b.xss, w6.2 ++ [after w6.1, afterPlus w6.1 nsh])
  | none => (w6.1, w6.2 ++ [0, 0])

/-- The words of the electron data and JXS(11) to JXS(27),
PhotoatomicTable/src/generateData.hpp:122-163. -/
def addElectrons (x9 : Words) : Option Electrons → Words × List Int
  | none => (x9, List.replicate 17 0)
  | some e =>
      let nssh := e.subsh.n
      let x11 := x9 ++ e.subsh.xss
      let x16 := x11 ++ e.sphel.xss
      let x17 := x16 ++ e.xprob.xss
      let x19 := x17 ++ e.esze.xss
      let x20 := x19 ++ e.excit.xss
      let x21 := x20 ++ e.elas.xss
      let x23 := addEION nssh e.eion x21
      let x24 := x23 ++ e.breme.xss
      let x26 := x24 ++ e.breml.xss
      let js := [after x9, afterPlus x9 nssh, afterPlus x9 (2 * nssh), afterPlus x9 (3 * nssh),
        afterPlus x9 (4 * nssh), after x11, after x16, afterPlus x16 nssh, after x17, after x19,
        after x20, afterPlus x20 (3 * e.elas.n), after x21, after x23, afterPlus x23 (3 * e.breme.n),
        after x24]
      match e.selas with
      | some s => (x26 ++ s.xss, js ++ [after x26])
      | none => (x26, js ++ [0])

/-- The targets, PhotoatomicTable/src/generateData.hpp:29-34: undefined for more than 16 targets or
less atomic masses than targets. -/
def targets (za : List Nat) (awr : List Dbl) : Res (List Int × List Dbl) :=
  if za.length ≤ 16 ∧ za.length ≤ awr.length then
    .ok (za.map (fun v : Nat => (v : Int)) ++ List.replicate (16 - za.length) 0,
      awr.take za.length ++ List.replicate (16 - za.length) (Dbl.ofNat 0))
  else .error .ub

/-- NEPR, PhotoatomicTable/src/generateData.hpp:37. -/
def neprOf : Option Electrons → Nat
  | none => 0
  | some e => if e.selas.isSome then 3 else 1

/-- A number that is zero without electron data, PhotoatomicTable/src/generateData.hpp:43-48. -/
def ifElectrons (e : Option Electrons) (f : Electrons → Nat) : Nat :=
  match e with
  | some e => f e
  | none => 0

/-- NSH, PhotoatomicTable/src/generateData.hpp:41. -/
def nshCount : Option SWD → Nat
  | some s => s.n
  | none => 0
/-- NFLO, PhotoatomicTable/src/generateData.hpp:42. -/
def nfloCount : Option JFLO → Nat
  | some s => ArrayData.n s
  | none => 0
/-- The words of the optional fluorescence data, PhotoatomicTable/src/generateData.hpp:103-106. -/
def jfloWords : Option JFLO → Words
  | some s => ArrayData.xss s
  | none => []
/-- `sphelsize`, PhotoatomicTable/src/generateData.hpp:63. -/
def sphelDiffers (nes : Nat) : Option SPHEL → Bool
  | some s => nes != ArrayData.n s
  | none => false

/-- `generateData`, PhotoatomicTable/src/generateData.hpp:1-197. Simplification: no truncation to 32
bits. -/
def generateData (b : Input) : Res TableData := do
  let ta ← targets b.za b.awr
  let e ← electrons b
  let nsh := nshCount b.swd
  let nflo := nfloCount b.jflo
  guardThrow (!(b.za.length != b.awr.length))
  guardThrow (!(b.eszg.n != b.lhnm.n || sphelDiffers b.eszg.n b.sphel))
  verifyElectrons e
  let x1 := b.eszg.xss
  let x2 := x1 ++ b.jinc.data.xss
  let x3 := x2 ++ b.jcoh.data.xss
  let x4 := x3 ++ jfloWords b.jflo
  let x5 := x4 ++ b.lhnm.xss
  let s := addShells x5 nsh b.eps b.swd
  let w := addElectrons s.1 e
  let nepr := neprOf e
  return { iz := ta.1, aw := ta.2
           nxs := [(w.1.length : Nat), (b.z : Nat), (b.eszg.n : Nat), (nflo : Nat), (nsh : Nat),
             (nepr : Nat), (ifElectrons e (·.subsh.n) : Nat), (ifElectrons e (·.esze.n) : Nat),
             (ifElectrons e (·.excit.n) : Nat), (ifElectrons e (·.elas.n) : Nat),
             (ifElectrons e (·.breme.n) : Nat), (ifElectrons e (·.breml.n) : Nat),
             (if nepr > 1 then b.jinc.NM else 0 : Nat), (if nepr > 1 then b.jcoh.NM else 0 : Nat), 0, 0]
           jxs := [1, after x1, after x2, after x3, after x4] ++ s.2 ++ w.2 ++ List.replicate 5 0
           xss := w.1 }

/-- Construction from blocks, PhotoatomicTable/src/ctor.hpp:104-132. -/
def mk' (zaid : List Char) (b : Input) : Res PA := do
  ofTable zaid (← generateData b)

end PA
end ACE

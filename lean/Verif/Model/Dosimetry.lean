import Verif.Model.Ident
import Verif.Model.ArrayBlocks
import Verif.Model.Located
import Verif.Model.Continuous

/-!
# `DosimetryTable`

/repo/src/ACEtk/DosimetryTable.hpp and DosimetryTable/src.
-/

namespace ACE

/-- The iterator `XSS().begin() + JXS( index ) - 1` as an offset; one outside of the XSS array is
undefined. -/
def TableData.offset (d : TableData) (index : Nat) : Res Nat := do
  let j ← d.JXS index
  if j < 1 ∨ j > d.xss.length + 1 then .error .ub else return j.toNat - 1

/-- `DosimetryTable`, /repo/src/ACEtk/DosimetryTable.hpp:20-24. The header is reduced to its ZAID. -/
structure Dosimetry where
  zaid : List Char
  data : TableData
  mtr : MTR
  sigd : SIGD
deriving DecidableEq, Repr

namespace Dosimetry

/-- `ZA`, DosimetryTable.hpp:113. -/
def ZA (t : Dosimetry) : Res Nat := t.data.count 2
/-- `NTR`, DosimetryTable.hpp:118. -/
def NTR (t : Dosimetry) : Res Nat := t.data.count 4

/-- `generateBlocks`, DosimetryTable.hpp:27-37. -/
def generateBlocks (zaid : List Char) (d : TableData) : Res Dosimetry := do
  let mtr ← d.offset 3
  let lsig ← d.offset 6
  let sig ← d.offset 7
  let ntr ← d.count 4
  let m ← MTR.ofRange (← sub d.xss mtr lsig) ntr
  let ls ← CE.located d (lsig, sig) (sig, d.xss.length)
  let s ← SIGD.ofRange ls.1 ls.2 ntr
  return ⟨zaid, d, m, s⟩

/-- Construction from a generic table, DosimetryTable/src/ctor.hpp:6-21 (the copy and move
operations, lines 28-77, do the same). -/
def ofTable (zaid : List Char) (d : TableData) : Res Dosimetry := do
  TableType.dosimetry.verifyType zaid
  generateBlocks zaid d

/-- `generateData`, DosimetryTable/src/generateData.hpp:1-43. `z * 1000 + a` is computed in
`unsigned int`. -/
def generateData (z a : Nat) (mtr : MTR) (sigd : SIGD) : Res TableData := do
  guardThrow (!(mtr.n != sigd.n))
  let x3 := mtr.xss
  let x6 := x3 ++ sigd.xss
  return { iz := List.replicate 16 0, aw := List.replicate 16 (Dbl.ofNat 0)
           nxs := [(x6.length : Int), ((z * 1000 + a) % 4294967296 : Nat), 0, (mtr.n : Nat), 0, 0, 0, 0, 0, 0, 0, 0,
             0, 0, 0, 0]
           jxs := [1, 0, 1, 0, 0, (x3.length + 1 : Nat), (x3.length + mtr.n + 1 : Nat), 0, 0, 0, 0,
             0, 0, 0, 0, 0, 0, 0, 0, 0, 0, (x6.length : Nat), 0, 0, 0, 0, 0, 0, 0, 0, 0, 0]
           xss := x6 }

/-- Construction from blocks, DosimetryTable/src/ctor.hpp:88-92. -/
def mk' (zaid : List Char) (z a : Nat) (mtr : MTR) (sigd : SIGD) : Res Dosimetry := do
  ofTable zaid (← generateData z a mtr sigd)

end Dosimetry
end ACE

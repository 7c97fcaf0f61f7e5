import Verif.Model.Ident
import Verif.Model.ArrayBlocks
import Verif.Model.Thermal
import Verif.Model.Continuous

/-!
# `ThermalScatteringTable`

/repo/src/ACEtk/ThermalScatteringTable.hpp and ThermalScatteringTable/src.
-/

namespace ACE

/-- An `int` accessor of NXS (conversion of `int64_t` modulo 2^32),
/repo/src/ACEtk/ThermalScatteringTable.hpp:153,167. -/
def TableData.signed (d : TableData) (index : Nat) : Res Int := do
  let u := u32OfInt (← d.NXS index)
  return if u < 2147483648 then (u : Int) else (u : Int) - 4294967296

/-- `ThermalScatteringTable`, /repo/src/ACEtk/ThermalScatteringTable.hpp:22-30. The header is reduced
to its ZAID. -/
structure TS where
  zaid : List Char
  data : TableData
  itie : ITIE
  itxe : ITXE
  itce : Option ITIE
  itca : Option ITCA
  itcei : Option ITIE
  itcai : Option ITCA
deriving DecidableEq, Repr

namespace TS

/-- `IDPNI`, ThermalScatteringTable.hpp:105. -/
def IDPNI (t : TS) : Res Nat := t.data.count 2
/-- `NIL`, ThermalScatteringTable.hpp:118. -/
def NIL (t : TS) : Res Nat := t.data.count 3
/-- `NIEB`, ThermalScatteringTable.hpp:131. -/
def NIEB (t : TS) : Res Nat := t.data.count 4
/-- `IDPNC`, ThermalScatteringTable.hpp:141. -/
def IDPNC (t : TS) : Res Nat := t.data.count 5
/-- `NCL`, ThermalScatteringTable.hpp:153. -/
def NCL (t : TS) : Res Int := t.data.signed 6
/-- `IFENG`, ThermalScatteringTable.hpp:179. -/
def IFENG (t : TS) : Res Nat := t.data.count 7
/-- `NCLI`, ThermalScatteringTable.hpp:167. -/
def NCLI (t : TS) : Res Int := t.data.signed 8

/-- Where the search for the end of a block starts in the JXS array,
ThermalScatteringTable/src/generateBlocks.hpp:12-14. -/
def scanFrom (index : Nat) : Nat :=
  if index = 1 ∨ index = 4 ∨ index = 7 then index + 1 else index

/-- `block( index )`, ThermalScatteringTable/src/generateBlocks.hpp:1-28. -/
def block (d : TableData) (index : Nat) : Res (Nat × Nat) := do
  let start ← d.locator index
  if start = 0 then .error .ub
  else
    match (d.jxs.drop (scanFrom index)).find? (fun value => decide (start ≤ sizeOfInt value)) with
    | none => d.range start 0
    | some value => d.range start (sizeOfInt value)

/-- ITIE, ThermalScatteringTable/src/generateBlocks.hpp:42-45. Simplification: the iterators of an
absent block, which are not used, are not computed. -/
def readITIE (d : TableData) (present : Bool) : Res ITIE := do
  if present then ITIE.ofRange (← d.words (← block d 1)) else ITIE.ofRange []

/-- ITXE, ThermalScatteringTable/src/generateBlocks.hpp:47-56 (`NIL() + 1` and `NIL() - 1` are
`unsigned int` arithmetic). -/
def readITXE (d : TableData) (present : Bool) (itie : ITIE) : Res ITXE := do
  if present then do
    let r ← block d 3
    let ifeng ← d.count 7
    let nil ← d.count 3
    let nieb ← d.count 4
    let ne ← itie.NE
    let locb ← d.locator 3
    ITXE.ofRange ifeng (if ifeng < 2 then nieb else 0)
      (if ifeng < 2 then (nil + 1) % 4294967296 else (nil + 4294967295) % 4294967296) ne locb
      (← d.words r)
  else ITXE.ofRange 0 0 0 0 1 []

/-- The coherent elastic blocks, ThermalScatteringTable/src/generateBlocks.hpp:59-72. -/
def readCoherent (d : TableData) : Res (ITIE × Option ITCA) := do
  let itce ← ITIE.ofRange (← d.words (← block d 4))
  let ncl ← d.signed 6
  if ncl + 1 ≠ 0 then do
    let itca ← ITCA.ofRange (← d.words (← block d 6)) (← itce.NE) (sizeOfInt (ncl + 1))
    return (itce, some itca)
  else return (itce, none)

/-- The incoherent elastic blocks, ThermalScatteringTable/src/generateBlocks.hpp:75-86. -/
def readIncoherent (d : TableData) (idpnc : Nat) : Res (ITIE × ITCA) := do
  let itcei ← ITIE.ofRange (← d.words (← block d (if idpnc = 3 then 4 else 7)))
  let ncl ← d.signed (if idpnc = 3 then 6 else 8)
  let itcai ← ITCA.ofRange (← d.words (← block d (if idpnc = 3 then 6 else 9))) (← itcei.NE)
    (sizeOfInt (ncl + 1))
  return (itcei, itcai)

/-- `generateBlocks`, ThermalScatteringTable/src/generateBlocks.hpp:30-87. -/
def generateBlocks (zaid : List Char) (d : TableData) : Res TS := do
  let present := decide ((← d.JXS 1) > 0)
  let itie ← readITIE d present
  let itxe ← readITXE d present itie
  let idpnc ← d.count 5
  let c ← CE.onlyIf (decide (idpnc > 3)) (readCoherent d)
  let i ← CE.onlyIf (decide (idpnc = 3 ∨ idpnc = 5)) (readIncoherent d idpnc)
  return { zaid := zaid, data := d, itie := itie, itxe := itxe, itce := c.map (·.1)
           itca := c.bind (·.2), itcei := i.map (·.1), itcai := i.map (·.2) }

/-- Construction from a generic table, ThermalScatteringTable/src/ctor.hpp:6-21 (the copy and move
operations, lines 28-77, do the same). -/
def ofTable (zaid : List Char) (d : TableData) : Res TS := do
  TableType.thermal.verifyType zaid
  generateBlocks zaid d

/-- The blocks given to the constructor, ThermalScatteringTable/src/ctor.hpp:91-96. -/
structure Input where
  za : List Nat
  itie : ITIE
  itxe : ITXE
  itce : Option ITIE
  itca : Option ITCA
  itcei : Option ITIE
  itcai : Option ITCA

/-- `optional->`: undefined when it is empty. -/
def deref {α : Type} : Option α → Res α
  | some a => .ok a
  | none => .error .ub

/-- `itca.has_value() ? itca->NCL() : -1`, ThermalScatteringTable/src/generateData.hpp:36,44. -/
def nclOf : Option ITCA → Int
  | some itca => ITCA.NCL itca
  | none => -1

/-- IDPNC, NCL and NCLI, ThermalScatteringTable/src/generateData.hpp:26-52. -/
def options (b : Input) : Res (Nat × Int × Int) := do
  match b.itce, b.itcei with
  | some _, some _ => return (5, nclOf b.itca, ITCA.NCL (← deref b.itcai))
  | some _, none => return (4, nclOf b.itca, 0)
  | none, some _ => return (3, ITCA.NCL (← deref b.itcai), 0)
  | none, none => return (0, 0, 0)

/-- The `za` values, ThermalScatteringTable/src/generateData.hpp:18-22: undefined for more than
16. -/
def izOf (za : List Nat) : Res (List Int) :=
  if za.length ≤ 16 then .ok (za.map (fun v : Nat => (v : Int)) ++ List.replicate (16 - za.length) 0)
  else .error .ub

/-- A cross section block and the locators of it and of its cross sections. -/
def addXS (xss : Words) (b : ITIE) : Res (Words × Int × Int) := do
  let ne ← b.NE
  return (xss ++ b.xss, ((xss.length + 1 : Nat) : Int), ((xss.length + 1 + ne + 1 : Nat) : Int))

/-- An optional block of cosines, ThermalScatteringTable/src/generateData.hpp:83-87. -/
def addCosines (xss : Words) : Option ITCA → Words × Int
  | some b => (xss ++ b.xss, if b.xss = [] then 0 else ((xss.length + 1 : Nat) : Int))
  | none => (xss, 0)

/-- The elastic blocks, ThermalScatteringTable/src/generateData.hpp:70-96: the words and JXS(4) to
JXS(9). -/
def addElastic (xss : Words) (b : Input) : Res (Words × List Int) := do
  match b.itce, b.itcei with
  | some itce, some itcei => do
      let x4 ← addXS xss itce
      let x6 := addCosines x4.1 b.itca
      let x7 ← addXS x6.1 itcei
      let itcai ← deref b.itcai
      return (x7.1 ++ itcai.xss, [x4.2.1, x4.2.2, x6.2, x7.2.1, x7.2.2, ((x7.1.length + 1 : Nat) : Int)])
  | some itce, none => do
      let x4 ← addXS xss itce
      let x6 := addCosines x4.1 b.itca
      return (x6.1, [x4.2.1, x4.2.2, x6.2, 0, 0, 0])
  | none, some itcei => do
      let x4 ← addXS xss itcei
      let itcai ← deref b.itcai
      return (x4.1 ++ itcai.xss, [x4.2.1, x4.2.2, ((x4.1.length + 1 : Nat) : Int), 0, 0, 0])
  | none, none => return (xss, [0, 0, 0, 0, 0, 0])

/-- NXS(4), ThermalScatteringTable/src/generateData.hpp:110. -/
def niebOf (itxe : ITXE) : Res Nat := if itxe.IFENG < 2 then itxe.NIEB 1 else .ok 0

/-- `generateData`, ThermalScatteringTable/src/generateData.hpp:1-118. Simplification: za values are
not truncated to 32 bits. -/
def generateData (b : Input) : Res TableData := do
  let iz ← izOf b.za
  let ne ← b.itie.NE
  let o ← options b
  guardThrow (!(ne != b.itxe.NE))
  let x2 := b.itie.xss ++ b.itxe.xss
  let x ← addElastic x2 b
  let nieb ← niebOf b.itxe
  return { iz := iz, aw := List.replicate 16 (Dbl.ofNat 0)
           nxs := [(x.1.length : Int), 3, (if b.itxe.IFENG < 2 then (b.itxe.nc : Int) - 1 else b.itxe.nc + 1),
             (nieb : Int), (o.1 : Int), o.2.1, (b.itxe.IFENG : Int), o.2.2, 0, 0, 0, 0, 0, 0, 0, 0]
           jxs := [1, ((1 + ne + 1 : Nat) : Int), ((b.itie.xss.length + 1 : Nat) : Int)] ++ x.2 ++
             List.replicate 23 0
           xss := x.1 }

/-- Construction from blocks, ThermalScatteringTable/src/ctor.hpp:91-102. -/
def mk' (zaid : List Char) (b : Input) : Res TS := do
  ofTable zaid (← generateData b)

end TS
end ACE

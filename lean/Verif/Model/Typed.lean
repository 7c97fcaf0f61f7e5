import Verif.Model.Continuous
import Verif.Model.Dosimetry
import Verif.Model.ThermalTable
import Verif.Model.Photoatomic
import Verif.Model.Photonuclear
import Verif.Model.TableText

/-!
# Tables with a type: header, data and blocks

The five table classes derive from `Table`: they have its header and its data, and blocks that are read
from the data. /repo/src/ACEtk/ContinuousEnergyTable.hpp, DosimetryTable.hpp, PhotoatomicTable.hpp,
PhotonuclearTable.hpp, ThermalScatteringTable.hpp. Simplification: the mutable `header()` and `data()`
(the header or the data can be replaced without the blocks) are not modelled.
-/

namespace ACE
open Text

/-- `header.ZAID()`, /repo/src/ACEtk/Table/Header.hpp:46 and Header201.hpp:61. -/
def AnyHeader.zaid : AnyHeader → Str
  | .v1 h => h.zaid
  | .v2 h => h.szaid
/-- `header.AWR()`, /repo/src/ACEtk/Table/Header.hpp:51 and Header201.hpp:76. -/
def AnyHeader.awr : AnyHeader → Dbl
  | .v1 h => h.awr
  | .v2 h => h.awr
/-- `header.TEMP()`, /repo/src/ACEtk/Table/Header.hpp:61 and Header201.hpp:86. -/
def AnyHeader.temp : AnyHeader → Dbl
  | .v1 h => h.temp
  | .v2 h => h.temp
/-- `header.date()`, /repo/src/ACEtk/Table/Header.hpp:71 and Header201.hpp:96. -/
def AnyHeader.date : AnyHeader → Str
  | .v1 h => h.date
  | .v2 h => h.date

/-- The blocks of a table of one of the five classes, with the ZAID and data they belong to. -/
inductive Content where
  | ce (t : CE)
  | dosimetry (t : Dosimetry)
  | photoatomic (t : PA)
  | photonuclear (t : PN)
  | thermal (t : TS)
deriving DecidableEq

namespace Content
/-- The data of the base class. -/
def data : Content → TableData
  | .ce t => t.data
  | .dosimetry t => t.data
  | .photoatomic t => t.data
  | .photonuclear t => t.data
  | .thermal t => t.data

/-- Construction from a ZAID and data: ContinuousEnergyTable/src/ctor.hpp:6-23, DosimetryTable/src/ctor.hpp:6-21,
PhotoatomicTable/src/ctor.hpp:6-21, PhotonuclearTable/src/ctor.hpp:6-23, ThermalScatteringTable/src/ctor.hpp:6-21. -/
def ofTable : TableType → Str → TableData → Res Content
  | .continuousEnergy, zaid, d => do return .ce (← CE.ofTable zaid d)
  | .dosimetry, zaid, d => do return .dosimetry (← Dosimetry.ofTable zaid d)
  | .photoatomic, zaid, d => do return .photoatomic (← PA.ofTable zaid d)
  | .photonuclear, zaid, d => do return .photonuclear (← PN.ofTable zaid d)
  | .thermal, zaid, d => do return .thermal (← TS.ofTable zaid d)
end Content

/-- A table of one of the five classes. -/
structure Typed where
  header : AnyHeader
  content : Content
deriving DecidableEq

namespace Typed

/-- The base class. -/
def table (t : Typed) : Table := ⟨t.header, t.content.data⟩

/-- `ZAID()`, ContinuousEnergyTable.hpp:95-100, DosimetryTable.hpp:56-61, PhotoatomicTable.hpp:72-77,
PhotonuclearTable.hpp:65-70, ThermalScatteringTable.hpp:48-53. -/
def ZAID (t : Typed) : Str := t.header.zaid

/-- `print`, ContinuousEnergyTable.hpp:88 (that of `Table`). -/
def print (F : Formats) (t : Typed) : Res Str := t.table.print F

/-- Construction from a generic table (the lines of `Content.ofTable`): the table is copied or moved, its
type is verified and the blocks are read. -/
def ofTable (k : TableType) (s : Table) : Res Typed := do
  return ⟨s.header, ← Content.ofTable k s.header.zaid s.data⟩

/-- The class of a table. -/
def kind (t : Typed) : TableType :=
  match t.content with
  | .ce _ => .continuousEnergy
  | .dosimetry _ => .dosimetry
  | .photoatomic _ => .photoatomic
  | .photonuclear _ => .photonuclear
  | .thermal _ => .thermal

/-- The copy and move constructors, ContinuousEnergyTable/src/ctor.hpp:30-49, DosimetryTable/src/ctor.hpp:28-45,
PhotoatomicTable/src/ctor.hpp:28-45, PhotonuclearTable/src/ctor.hpp:30-49, ThermalScatteringTable/src/ctor.hpp:28-45:
the base class is copied, everything else is read again. -/
def copy (t : Typed) : Res Typed := ofTable t.kind t.table

/-- The assignments of another table, ContinuousEnergyTable/src/ctor.hpp:56-83, PhotonuclearTable/src/ctor.hpp:56-81,
DosimetryTable/src/ctor.hpp:52-77, PhotoatomicTable/src/ctor.hpp:52-77, ThermalScatteringTable/src/ctor.hpp:52-77: the
same without `setSZA` for photonuclear tables. -/
def assign (t : Typed) : Res Typed :=
  match t.content with
  | .photonuclear _ => do
      TableType.photonuclear.verifyType t.header.zaid
      return ⟨t.header, .photonuclear (← PN.generateBlocks t.header.zaid t.content.data)⟩
  | _ => ofTable t.kind t.table

/-- The arguments of the constructors from blocks: ContinuousEnergyTable/src/ctor.hpp:117-139,
DosimetryTable/src/ctor.hpp:88-92, PhotoatomicTable/src/ctor.hpp:104-120, PhotonuclearTable/src/ctor.hpp:102-112,
ThermalScatteringTable/src/ctor.hpp:91-96. -/
inductive Arguments where
  | ce (z a s : Nat) (b : CE.Input)
  | dosimetry (z a : Nat) (mtr : MTR) (sigd : SIGD)
  | photoatomic (b : PA.Input)
  | photonuclear (z a s : Nat) (b : PN.Input)
  | thermal (b : TS.Input)

/-- `generateData` of the class of the arguments (see the five functions). -/
def Arguments.data : Arguments → Res TableData
  | .ce z a s b => CE.generateData z a s b
  | .dosimetry z a mtr sigd => Dosimetry.generateData z a mtr sigd
  | .photoatomic b => PA.generateData b
  | .photonuclear z a s b => PN.generateData z a s b
  | .thermal b => TS.generateData b

/-- The class of the arguments. -/
def Arguments.kind : Arguments → TableType
  | .ce _ _ _ _ => .continuousEnergy
  | .dosimetry _ _ _ _ => .dosimetry
  | .photoatomic _ => .photoatomic
  | .photonuclear _ _ _ _ => .photonuclear
  | .thermal _ => .thermal

/-- Construction from blocks, ContinuousEnergyTable/src/ctor.hpp:117-154, DosimetryTable/src/ctor.hpp:88-92,
PhotoatomicTable/src/ctor.hpp:104-132, PhotonuclearTable/src/ctor.hpp:102-122, ThermalScatteringTable/src/ctor.hpp:91-101. -/
def make (h : AnyHeader) (a : Arguments) : Res Typed := do
  ofTable a.kind ⟨h, ← a.data⟩

end Typed
end ACE

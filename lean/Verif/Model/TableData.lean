import Verif.Model.Core

/-!
# `Table::Data`: the IZ, AW, NXS, JXS and XSS arrays of a table

/repo/src/ACEtk/Table/Data.hpp
-/

namespace ACE

/-- `Table::Data`, /repo/src/ACEtk/Table/Data.hpp:14-21. The four `std::array`s are lists
whose lengths are fixed by `TableData.Sized`. -/
structure TableData where
  iz : List Int
  aw : List Dbl
  nxs : List Int
  jxs : List Int
  xss : Words
deriving DecidableEq, Repr

namespace TableData

/-- The lengths of the `std::array`s, /repo/src/ACEtk/Table/Data.hpp:17-20. -/
structure Sized (d : TableData) : Prop where
  iz : d.iz.length = 16
  aw : d.aw.length = 16
  nxs : d.nxs.length = 16
  jxs : d.jxs.length = 32

/-- `std::size_t` arithmetic `index + length - 1`, modulo 2^64. -/
def lastIndex (index length : Nat) : Nat :=
  (index + length + 18446744073709551615) % 18446744073709551616

/-- `Data::verifyIndex`, /repo/src/ACEtk/Table/Data/src/verifyIndex.hpp:1-13. -/
def verifyIndex (size index : Nat) : Res Unit :=
  if index < 1 ∨ index > size then .error .range else .ok ()

/-- `Data::fetch`, /repo/src/ACEtk/Table/Data/src/fetch.hpp:1-12. -/
def fetch {α : Type} (sequence : List α) (index : Nat) : Res α := do
  verifyIndex sequence.length index
  match sequence[index - 1]? with
  | some v => .ok v
  | none => .error .ub

/-- `IZ( index )`, /repo/src/ACEtk/Table/Data.hpp:98-108. -/
def IZ (d : TableData) (index : Nat) : Res Int := fetch d.iz index
/-- `AW( index )`, /repo/src/ACEtk/Table/Data.hpp:118-125. -/
def AW (d : TableData) (index : Nat) : Res Dbl := fetch d.aw index
/-- `NXS( index )`, /repo/src/ACEtk/Table/Data.hpp:135-145. -/
def NXS (d : TableData) (index : Nat) : Res Int := fetch d.nxs index
/-- `JXS( index )`, /repo/src/ACEtk/Table/Data.hpp:155-165. -/
def JXS (d : TableData) (index : Nat) : Res Int := fetch d.jxs index
/-- `XSS( index )`, /repo/src/ACEtk/Table/Data.hpp:175-185. -/
def XSS (d : TableData) (index : Nat) : Res Dbl := fetch d.xss index
/-- `IXSS( index )`, /repo/src/ACEtk/Table/Data.hpp:195-198. -/
def IXSS (d : TableData) (index : Nat) : Res Int := do toInt32 (← fetch d.xss index).round?

/-- `XSS( index, length )`, /repo/src/ACEtk/Table/Data/src/XSS.hpp:11-41. -/
def XSSr (d : TableData) (index length : Nat) : Res Words := do
  verifyIndex d.xss.length index
  verifyIndex d.xss.length (lastIndex index length)
  sub d.xss (index - 1) (index - 1 + length)

/-- The assignment `NXS( index ) = value` through the reference returned by the mutable
accessor, /repo/src/ACEtk/Table/Data.hpp:135. -/
def setNXS (d : TableData) (index : Nat) (value : Int) : Res TableData := do
  verifyIndex d.nxs.length index
  return { d with nxs := d.nxs.set (index - 1) value }

end TableData
end ACE

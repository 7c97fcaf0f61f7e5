import Verif.Model.Core

/-!
# `base::ArrayData`, `base::ColumnData`, `continuous::InterpolationData`,
# `base::TabulatedData`, `base::TabulatedProbabilityDistribution`
-/

namespace ACE

/-! ## ArrayData -/

/-- Fields of `base::ArrayData`, /repo/src/ACEtk/base/ArrayData.hpp:17-21
(`nelements_`, `narrays_`); the words of the `Base` range are `xss`. -/
structure ArrayData where
  xss : Words
  n : Nat
  m : Nat
deriving DecidableEq, Repr

namespace ArrayData

/-- The loop of `generateXSS`, /repo/src/ACEtk/base/ArrayData/src/generateXSS.hpp:12-24. -/
def appendArrays (n : Nat) : List Words → Words → Res Words
  | [], xss => .ok xss
  | a :: as, xss => do
      guardThrow (a.length == n)
      appendArrays n as (xss ++ a)

/-- `generateXSS`, /repo/src/ACEtk/base/ArrayData/src/generateXSS.hpp:1-28. -/
def generateXSS (arrays : List Words) : Res Words :=
  match arrays with
  | [] => .ok []
  | a :: as => appendArrays a.length (a :: as) []

/-- Constructor from arrays, /repo/src/ACEtk/base/ArrayData/src/ctor.hpp:4-7,25-29
(the 2..6 array overloads, lines 38-139, forward to it). -/
def ofArrays (arrays : List Words) : Res ArrayData := do
  let xss ← generateXSS arrays
  return { xss := xss
           n := match arrays with
                | [] => 0
                | a :: _ => a.length
           m := arrays.length }

/-- `verifySize`, /repo/src/ACEtk/base/ArrayData/src/verifySize.hpp:1-13.
The check computes in `unsigned int`, so what it compares with wraps around at 2^32. -/
def verifySize (size n m : Nat) : Res Unit := guardThrow (!(size < n * m % 4294967296))

/-- Reading constructor, /repo/src/ACEtk/base/ArrayData/src/ctor.hpp:149-154. -/
def ofRange (xs : Words) (n m : Nat) : Res ArrayData := do
  verifySize xs.length n m
  return { xss := xs, n := n, m := m }

/-- `verifyIndex( array )`, /repo/src/ACEtk/base/ArrayData/src/verifyIndex.hpp:1-11. -/
def verifyArray (d : ArrayData) (array : Nat) : Res Unit :=
  if array < 1 ∨ array > d.m then .error .range else .ok ()

/-- `verifyIndex( array, index )`, /repo/src/ACEtk/base/ArrayData/src/verifyIndex.hpp:13-24. -/
def verifyIndex (d : ArrayData) (array index : Nat) : Res Unit := do
  d.verifyArray array
  if index < 1 ∨ index > d.n then .error .range else .ok ()

/-- `dvalue`, /repo/src/ACEtk/base/ArrayData.hpp:61-67. -/
def dvalue (d : ArrayData) (array index : Nat) : Res Dbl := do
  d.verifyIndex array index
  Base.XSS d.xss ((array - 1) * d.n + index)

/-- `ivalue`, /repo/src/ACEtk/base/ArrayData.hpp:75-81 (the `int` result is
returned as a `double` that holds it exactly). -/
def ivalue (d : ArrayData) (array index : Nat) : Res Int := do
  d.verifyIndex array index
  Base.IXSS d.xss ((array - 1) * d.n + index)

/-- `darray`, /repo/src/ACEtk/base/ArrayData.hpp:88-94. -/
def darray (d : ArrayData) (array : Nat) : Res Words := do
  d.verifyArray array
  Base.XSSr d.xss (1 + (array - 1) * d.n) d.n

/-- `iarray`, /repo/src/ACEtk/base/ArrayData.hpp:101-107. -/
def iarray (d : ArrayData) (array : Nat) : Res (List Int) := do
  d.verifyArray array
  Base.IXSSr d.xss (1 + (array - 1) * d.n) d.n

/-- `emptyArray`, /repo/src/ACEtk/base/ArrayData.hpp:112-115. -/
def emptyArray (d : ArrayData) : Res Words := Base.XSSr d.xss 1 0

end ArrayData

/-! ## ColumnData -/

/-- Fields of `base::ColumnData`, /repo/src/ACEtk/base/ColumnData.hpp:17-20. -/
structure ColumnData where
  xss : Words
  nc : Nat
deriving DecidableEq, Repr

namespace ColumnData

/-- The loop of `generateXSS`, /repo/src/ACEtk/base/ColumnData/src/generateXSS.hpp:10-21. -/
def appendColumns (ne : Nat) : List Words → Words → Res Words
  | [], xss => .ok xss
  | c :: cs, xss => do
      guardThrow (c.length == ne)
      appendColumns ne cs (xss ++ c)

/-- `generateXSS`, /repo/src/ACEtk/base/ColumnData/src/generateXSS.hpp:1-24.
`columns[0]` of an empty vector is undefined. -/
def generateXSS (columns : List Words) : Res Words :=
  match columns with
  | [] => .error .ub
  | c :: cs => appendColumns c.length (c :: cs) [Dbl.ofNat c.length]

/-- Constructor from columns, /repo/src/ACEtk/base/ColumnData/src/ctor.hpp:15-17
(the two and three column overloads, lines 26-45, forward to the same
`generateXSS`). -/
def ofColumns (columns : List Words) : Res ColumnData := do
  return { xss := ← generateXSS columns, nc := columns.length }

/-- `verifySize`, /repo/src/ACEtk/base/ColumnData/src/verifySize.hpp:1-18. -/
def verifySize (size ne nc : Nat) : Res Unit :=
  guardThrow (size == 0 || !(size < (1 + ne * nc) % 18446744073709551616))

/-- Reading constructor, /repo/src/ACEtk/base/ColumnData/src/ctor.hpp:55-60: the
count used by the check is the first word truncated to `std::size_t`. -/
def ofRange (xs : Words) (nc : Nat) : Res ColumnData := do
  let ne ← match xs with
    | [] => .ok 0
    | d :: _ => toSize d.trunc?
  verifySize xs.length ne nc
  return { xss := xs, nc := nc }

/-- `N`, /repo/src/ACEtk/base/ColumnData.hpp:44. -/
def N (d : ColumnData) : Res Nat :=
  if d.xss.isEmpty then .ok 0 else do return sizeOfInt (← Base.IXSS d.xss 1)

/-- `C`, /repo/src/ACEtk/base/ColumnData.hpp:56-60. -/
def column (d : ColumnData) (column : Nat) : Res Words := do
  let number ← d.N
  Base.XSSr d.xss (position column number 2) number

/-- `value`, /repo/src/ACEtk/base/ColumnData.hpp:75-79. -/
def value (d : ColumnData) (column index : Nat) : Res Dbl := do
  let number ← d.N
  Base.XSS d.xss (position column number (2 + index - 1))

end ColumnData

/-! ## InterpolationData -/

/-- `continuous::InterpolationData` is a `ColumnData`,
/repo/src/ACEtk/continuous/InterpolationData.hpp:17. -/
abbrev InterpolationData := ColumnData

namespace InterpolationData

/-- Constructor, /repo/src/ACEtk/continuous/InterpolationData/src/ctor.hpp:16-21 and
generateXSS.hpp:1-9. -/
def mk' (boundaries interpolants : List Int) : Res InterpolationData :=
  ColumnData.ofColumns [boundaries.map Dbl.ofInt, interpolants.map Dbl.ofInt]

/-- Reading constructor, /repo/src/ACEtk/continuous/InterpolationData/src/ctor.hpp:30-31. -/
def ofRange (xs : Words) : Res InterpolationData := ColumnData.ofRange xs 2

/-- `NBT`, /repo/src/ACEtk/continuous/InterpolationData.hpp:47. -/
def NBT (d : InterpolationData) : Res Words := ColumnData.column d 1
/-- `INT`, /repo/src/ACEtk/continuous/InterpolationData.hpp:57. -/
def INT (d : InterpolationData) : Res Words := ColumnData.column d 2

end InterpolationData

/-! ## TabulatedData -/

/-- Fields of `base::TabulatedData`, /repo/src/ACEtk/base/TabulatedData.hpp:19-23. -/
structure TabulatedData where
  xss : Words
  interpolation : InterpolationData
  data : ColumnData
deriving DecidableEq, Repr

namespace TabulatedData

/-- `generateXSS`, /repo/src/ACEtk/base/TabulatedData/src/generateXSS.hpp:1-25. -/
def generateXSS (boundaries interpolants : List Int) (x y : Words) : Res Words := do
  let interpolation ← InterpolationData.mk' boundaries interpolants
  let table ← ColumnData.ofColumns [x, y]
  return interpolation.xss ++ table.xss

/-- `generateBlocks`, /repo/src/ACEtk/base/TabulatedData/src/generateBlocks.hpp:1-11. -/
def generateBlocks (xs : Words) : Res TabulatedData := do
  let nr := sizeOfInt (← Base.IXSS xs 1)
  let ne := sizeOfInt (← Base.IXSS xs (1 + 2 * nr + 1))
  let data := 2 * nr + 1
  let fin := data + 2 * ne + 1
  let interpolation ← InterpolationData.ofRange (← sub xs 0 data)
  let table ← ColumnData.ofRange (← sub xs data fin) 2
  return { xss := xs, interpolation := interpolation, data := table }

/-- Constructor from values, /repo/src/ACEtk/base/TabulatedData/src/ctor.hpp:32-41. -/
def mk' (boundaries interpolants : List Int) (x y : Words) : Res TabulatedData := do
  generateBlocks (← generateXSS boundaries interpolants x y)

/-- `verifySize`, /repo/src/ACEtk/base/TabulatedData/src/verifySize.hpp:1-15. -/
def verifySize (size nr ne : Nat) : Res Unit := guardThrow (!(size < (2 + 2 * nr + 2 * ne) % 4294967296))

/-- Reading constructor, /repo/src/ACEtk/base/TabulatedData/src/ctor.hpp:50-57. -/
def ofRange (xs : Words) : Res TabulatedData := do
  let nr ← toSize (← Base.XSS xs 1).round?
  let ne ← toSize (← Base.XSS xs (1 + 2 * nr + 1)).round?
  verifySize xs.length nr ne
  generateBlocks xs

/-- `NB`, /repo/src/ACEtk/base/TabulatedData.hpp:43. -/
def NB (d : TabulatedData) : Res Nat := ColumnData.N d.interpolation
/-- `NBT`, /repo/src/ACEtk/base/TabulatedData.hpp:53. -/
def NBT (d : TabulatedData) : Res Words := InterpolationData.NBT d.interpolation
/-- `INT`, /repo/src/ACEtk/base/TabulatedData.hpp:63. -/
def INT (d : TabulatedData) : Res Words := InterpolationData.INT d.interpolation
/-- `N`, /repo/src/ACEtk/base/TabulatedData.hpp:73. -/
def N (d : TabulatedData) : Res Nat := d.data.N
/-- `x`, /repo/src/ACEtk/base/TabulatedData.hpp:83. -/
def x (d : TabulatedData) : Res Words := d.data.column 1
/-- `y`, /repo/src/ACEtk/base/TabulatedData.hpp:88. -/
def y (d : TabulatedData) : Res Words := d.data.column 2

end TabulatedData

/-! ## TabulatedProbabilityDistribution -/

/-- `base::TabulatedProbabilityDistribution` has no fields besides the words,
/repo/src/ACEtk/base/TabulatedProbabilityDistribution.hpp:23. -/
structure TabProb where
  xss : Words
deriving DecidableEq, Repr

namespace TabProb

/-- `generateXSS`,
/repo/src/ACEtk/base/TabulatedProbabilityDistribution/src/generateXSS.hpp:1-17. -/
def generateXSS (interpolation : Int) (values pdf cdf : Words) (data : List Words) :
    Res Words := do
  let columns ← ColumnData.ofColumns (values :: pdf :: cdf :: data)
  return Dbl.ofInt interpolation :: columns.xss

/-- Constructors from values,
/repo/src/ACEtk/base/TabulatedProbabilityDistribution/src/ctor.hpp:19-46. -/
def mk' (interpolation : Int) (values pdf cdf : Words) (data : List Words) : Res TabProb := do
  return { xss := ← generateXSS interpolation values pdf cdf data }

/-- `interpolation`, /repo/src/ACEtk/base/TabulatedProbabilityDistribution.hpp:41. -/
def interpolation (d : TabProb) : Res Int := Base.IXSS d.xss 1

/-- `numberValues`, /repo/src/ACEtk/base/TabulatedProbabilityDistribution.hpp:46. -/
def numberValues (d : TabProb) : Res Nat := do return sizeOfInt (← Base.IXSS d.xss 2)

/-- Reading constructor,
/repo/src/ACEtk/base/TabulatedProbabilityDistribution/src/ctor.hpp:54-58 and
verifySize.hpp:1-13. -/
def ofRange (xs : Words) : Res TabProb := do
  let n ← numberValues { xss := xs }
  guardThrow (!(xs.length < (3 * n + 2) % 4294967296))
  return { xss := xs }

/-- `values`, /repo/src/ACEtk/base/TabulatedProbabilityDistribution.hpp:51-54. -/
def values (d : TabProb) : Res Words := do Base.XSSr d.xss 3 (← d.numberValues)
/-- `pdf`, /repo/src/ACEtk/base/TabulatedProbabilityDistribution.hpp:59-62. -/
def pdf (d : TabProb) : Res Words := do
  let n ← d.numberValues
  Base.XSSr d.xss (3 + n) n
/-- `cdf`, /repo/src/ACEtk/base/TabulatedProbabilityDistribution.hpp:67-70. -/
def cdf (d : TabProb) : Res Words := do
  let n ← d.numberValues
  Base.XSSr d.xss (3 + 2 * n) n
/-- `column`, /repo/src/ACEtk/base/TabulatedProbabilityDistribution.hpp:75-79
(the index of an extra column is zero based). -/
def column (d : TabProb) (index : Nat) : Res Words := do
  let n ← d.numberValues
  Base.XSSr d.xss (3 + (3 + index) * n) n

end TabProb

/-! ## TwoParameterDistribution and EvaporationSpectrum -/

/-- `base::TwoParameterDistribution`,
/repo/src/ACEtk/base/TwoParameterDistribution.hpp:18-22. -/
structure TwoParam where
  xss : Words
  emin : Dbl
  emax : Dbl
deriving DecidableEq, Repr

namespace TwoParam
/-- Constructor, /repo/src/ACEtk/base/TwoParameterDistribution/src/ctor.hpp:18-21. -/
def mk' (emin emax c1 c2 : Dbl) : TwoParam := { xss := [c1, c2], emin := emin, emax := emax }
/-- Reading constructor, /repo/src/ACEtk/base/TwoParameterDistribution/src/ctor.hpp:32-38
and verifySize.hpp:1-12. -/
def ofRange (xs : Words) (emin emax : Dbl) : Res TwoParam := do
  guardThrow (!(xs.length < 2))
  return { xss := xs, emin := emin, emax := emax }
/-- `C1`, /repo/src/ACEtk/base/TwoParameterDistribution.hpp:61. -/
def C1 (d : TwoParam) : Res Dbl := Base.XSS d.xss 1
/-- `C2`, /repo/src/ACEtk/base/TwoParameterDistribution.hpp:66. -/
def C2 (d : TwoParam) : Res Dbl := Base.XSS d.xss 2
end TwoParam

/-- `base::EvaporationSpectrum`, /repo/src/ACEtk/base/EvaporationSpectrum.hpp:19-23
(the law tag `type_` is carried by the energy law type of `Verif.Model.Laws`). -/
structure Evaporation where
  xss : Words
  tabulated : TabulatedData
deriving DecidableEq, Repr

namespace Evaporation
/-- `generateBlocks`, /repo/src/ACEtk/base/EvaporationSpectrum/src/generateBlocks.hpp:1-9. -/
def generateBlocks (xs : Words) : Res Evaporation := do
  let nr := sizeOfInt (← Base.IXSS xs 1)
  let ne := sizeOfInt (← Base.IXSS xs (1 + 2 * nr + 1))
  let tab ← TabulatedData.ofRange (← sub xs 0 (2 * nr + 2 * ne + 2))
  return { xss := xs, tabulated := tab }
/-- Constructor from values, /repo/src/ACEtk/base/EvaporationSpectrum/src/ctor.hpp:34-45
and generateXSS.hpp:1-22. -/
def mk' (boundaries interpolants : List Int) (energies temperatures : Words) (u : Dbl) :
    Res Evaporation := do
  let table ← TabulatedData.mk' boundaries interpolants energies temperatures
  generateBlocks (table.xss ++ [u])
/-- Reading constructor, /repo/src/ACEtk/base/EvaporationSpectrum/src/ctor.hpp:55-63
and verifySize.hpp:1-14. -/
def ofRange (xs : Words) : Res Evaporation := do
  let nr ← toSize (← Base.XSS xs 1).round?
  let ne ← toSize (← Base.XSS xs (1 + 2 * nr + 1)).round?
  guardThrow (!(xs.length < (1 + 2 * nr + 1 + 2 * ne + 1) % 4294967296))
  generateBlocks xs
/-- `energies`, /repo/src/ACEtk/base/EvaporationSpectrum.hpp:105. -/
def energies (d : Evaporation) : Res Words := d.tabulated.x
/-- `temperatures`, /repo/src/ACEtk/base/EvaporationSpectrum.hpp:110. -/
def temperatures (d : Evaporation) : Res Words := d.tabulated.y
/-- `minimumIncidentEnergy`, /repo/src/ACEtk/base/EvaporationSpectrum.hpp:115-118. -/
def emin (d : Evaporation) : Res Dbl := do deref (← d.energies) 0
/-- `maximumIncidentEnergy`, /repo/src/ACEtk/base/EvaporationSpectrum.hpp:123-126. -/
def emax (d : Evaporation) : Res Dbl := do
  let e ← d.energies
  match e.getLast? with
  | some v => return v
  | none => .error .ub
/-- `U`, /repo/src/ACEtk/base/EvaporationSpectrum.hpp:131: the word that follows the
tabulated sub range. -/
def U (d : Evaporation) : Res Dbl := deref d.xss d.tabulated.xss.length
end Evaporation

end ACE

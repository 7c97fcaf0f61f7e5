import Verif.Model.Arrays

/-!
# Array blocks whose shape is computed: JINC, JCOH and ESZE
-/

namespace ACE

/-- The momentum grid of JINC and JCOH: either the fixed grid (kept as literals, in units
of 0.001; the conversion of a decimal literal to the nearest `double` is not modelled) or
words of the block. -/
inductive Momentum where
  | fixed (thousandths : List Nat)
  | words (ws : Words)
deriving DecidableEq, Repr

/-- `IncoherentScatteringFunctionBlock`, /repo/src/ACEtk/photoatomic/IncoherentScatteringFunctionBlock.hpp:28-31;
`grid` is the optional `momentum_`. -/
structure JINC where
  data : ArrayData
  grid : Option (List Nat)
deriving DecidableEq, Repr

namespace JINC

/-- The literal grid, /repo/src/ACEtk/photoatomic/IncoherentScatteringFunctionBlock/src/ctor.hpp:18-19,44-45. -/
def fixedGrid : List Nat :=
  [0, 5, 10, 50, 100, 150, 200, 300, 400, 500, 600, 700, 800, 900, 1000, 1500, 2000, 3000, 4000,
   5000, 8000]

/-- `generateArrays` and the fixed grid constructor,
/repo/src/ACEtk/photoatomic/IncoherentScatteringFunctionBlock/src/generateArrays.hpp:1-12 and
ctor.hpp:14-20. -/
def mkFixed (values : Words) : Res JINC := do
  guardThrow (values.length == 21)
  return { data := ← ArrayData.ofArrays [values], grid := some fixedGrid }

/-- The tabulated constructor, ctor.hpp:28-30 of the same directory. -/
def mkTabulated (momentum values : Words) : Res JINC := do
  return { data := ← ArrayData.ofArrays [momentum, values], grid := none }

/-- `numberElements`, numberElements.hpp:1-19. -/
def numberElements (size : Nat) : Res Nat :=
  if size = 21 then .ok 21
  else do
    guardThrow (size % 2 == 0)
    return size / 2

/-- `numberArrays`, numberArrays.hpp:1-4. -/
def numberArrays (size : Nat) : Nat := if size = 21 then 1 else 2

/-- The reading constructor, ctor.hpp:37-61. -/
def ofRange (xs : Words) : Res JINC := do
  let n ← numberElements xs.length
  let m := numberArrays xs.length
  let d ← ArrayData.ofRange xs n m
  return { data := d, grid := if xs.length = 21 then some fixedGrid else none }

/-- `NM`, IncoherentScatteringFunctionBlock.hpp:48. -/
def NM (d : JINC) : Nat := d.data.n
/-- `momentum`, IncoherentScatteringFunctionBlock.hpp:58-69. -/
def momentum (d : JINC) : Res Momentum :=
  match d.grid with
  | some g => .ok (.fixed g)
  | none => do return .words (← d.data.darray 1)
/-- `values`, IncoherentScatteringFunctionBlock.hpp:74-77. -/
def values (d : JINC) : Res Words := d.data.darray (if d.grid.isSome then 1 else 2)

end JINC

/-- `CoherentFormFactorBlock`, /repo/src/ACEtk/photoatomic/CoherentFormFactorBlock.hpp:25-28. -/
structure JCOH where
  data : ArrayData
  grid : Option (List Nat)
deriving DecidableEq, Repr

namespace JCOH

/-- The literal grid, /repo/src/ACEtk/photoatomic/CoherentFormFactorBlock/src/ctor.hpp:20-24,52-56. -/
def fixedGrid : List Nat :=
  [0, 10, 20, 30, 40, 50, 60, 80, 100, 120, 150,
   180, 200, 250, 300, 350, 400, 450, 500, 550, 600, 700,
   800, 900, 1000, 1100, 1200, 1300, 1400, 1500, 1600, 1700, 1800,
   1900, 2000, 2200, 2400, 2600, 2800, 3000, 3200, 3400, 3600, 3800,
   4000, 4200, 4400, 4600, 4800, 5000, 5200, 5400, 5600, 5800, 6000]

/-- `generateArrays` and the fixed grid constructor,
/repo/src/ACEtk/photoatomic/CoherentFormFactorBlock/src/generateArrays.hpp:1-13 and
ctor.hpp:15-25. -/
def mkFixed (integrated factors : Words) : Res JCOH := do
  guardThrow (integrated.length + factors.length == 110)
  return { data := ← ArrayData.ofArrays [integrated, factors], grid := some fixedGrid }

/-- The tabulated constructor, ctor.hpp:34-38 of the same directory. -/
def mkTabulated (momentum integrated factors : Words) : Res JCOH := do
  return { data := ← ArrayData.ofArrays [momentum, integrated, factors], grid := none }

/-- `numberElements`, numberElements.hpp:1-19. -/
def numberElements (size : Nat) : Res Nat :=
  if size = 110 then .ok 55
  else do
    guardThrow (size % 3 == 0)
    return size / 3

/-- `numberArrays`, numberArrays.hpp:1-4. -/
def numberArrays (size : Nat) : Nat := if size = 110 then 2 else 3

/-- The reading constructor, ctor.hpp:45-72. -/
def ofRange (xs : Words) : Res JCOH := do
  let n ← numberElements xs.length
  let m := numberArrays xs.length
  let d ← ArrayData.ofRange xs n m
  return { data := d, grid := if xs.length = 110 then some fixedGrid else none }

/-- `NM`, CoherentFormFactorBlock.hpp:45. -/
def NM (d : JCOH) : Nat := d.data.n
/-- `momentum`, CoherentFormFactorBlock.hpp:55-66. -/
def momentum (d : JCOH) : Res Momentum :=
  match d.grid with
  | some g => .ok (.fixed g)
  | none => do return .words (← d.data.darray 1)
/-- `integratedFormFactors`, CoherentFormFactorBlock.hpp:72-75. -/
def integratedFormFactors (d : JCOH) : Res Words := d.data.darray (if d.grid.isSome then 1 else 2)
/-- `formFactors`, CoherentFormFactorBlock.hpp:81-84. -/
def formFactors (d : JCOH) : Res Words := d.data.darray (if d.grid.isSome then 2 else 3)

end JCOH

/-- ESZE, /repo/src/ACEtk/electron/PrincipalCrossSectionBlock.hpp. -/
abbrev ESZE := ArrayData

namespace ESZE

/-- `std::transform( x.begin(), x.end(), acc.begin(), acc.begin(), std::plus<>{} )`; the
addition of doubles is a parameter. -/
def addInto (add : Dbl → Dbl → Dbl) (x acc : Words) : Words := List.zipWith add x acc

/-- The sum over the subshells, /repo/src/ACEtk/electron/PrincipalCrossSectionBlock/src/generateArrays.hpp:44,54-63. -/
def sumSubshells (add : Dbl → Dbl → Dbl) : List Words → Words
  | [] => []
  | s :: ss => ss.foldl (fun acc x => addInto add x acc) s

/-- `generateArrays`, /repo/src/ACEtk/electron/PrincipalCrossSectionBlock/src/generateArrays.hpp:1-71. -/
def generateArrays (add : Dbl → Dbl → Dbl) (energies elastic bremsstrahlung excitation : Words)
    (electroionisation : List Words) : Res (List Words) := do
  let ne := energies.length
  guardThrow (!(electroionisation.length == 0))
  guardThrow (!(elastic.length != ne || bremsstrahlung.length != ne || excitation.length != ne ||
    electroionisation.any (fun values => values.length != ne)))
  let total := addInto add bremsstrahlung elastic
  let total := addInto add excitation total
  let totalionisation := sumSubshells add electroionisation
  let total := addInto add totalionisation total
  let arrays := [energies, elastic, bremsstrahlung, excitation] ++ electroionisation
  let arrays := arrays.take 4 ++ [totalionisation] ++ arrays.drop 4
  return arrays.take 1 ++ [total] ++ arrays.drop 1

/-- /repo/src/ACEtk/electron/PrincipalCrossSectionBlock/src/ctor.hpp:19-28. -/
def mk' (add : Dbl → Dbl → Dbl) (energies elastic bremsstrahlung excitation : Words)
    (electroionisation : List Words) : Res ESZE := do
  ArrayData.ofArrays (← generateArrays add energies elastic bremsstrahlung excitation electroionisation)

/-- /repo/src/ACEtk/electron/PrincipalCrossSectionBlock/src/ctor.hpp:38-40. -/
def ofRange (xs : Words) (nssh ne : Nat) : Res ESZE := ArrayData.ofRange xs ne (6 + nssh)

/-- `NSSH`, PrincipalCrossSectionBlock.hpp:61. -/
def NSSH (d : ESZE) : Nat := d.m - 6
/-- PrincipalCrossSectionBlock.hpp:71. -/
def energies (d : ESZE) : Res Words := ArrayData.darray d 1
/-- PrincipalCrossSectionBlock.hpp:76. -/
def total (d : ESZE) : Res Words := ArrayData.darray d 2
/-- PrincipalCrossSectionBlock.hpp:81. -/
def elastic (d : ESZE) : Res Words := ArrayData.darray d 3
/-- PrincipalCrossSectionBlock.hpp:86. -/
def bremsstrahlung (d : ESZE) : Res Words := ArrayData.darray d 4
/-- PrincipalCrossSectionBlock.hpp:91. -/
def excitation (d : ESZE) : Res Words := ArrayData.darray d 5
/-- PrincipalCrossSectionBlock.hpp:96. -/
def totalElectroionisation (d : ESZE) : Res Words := ArrayData.darray d 6
/-- `electroionisation( index )`, PrincipalCrossSectionBlock.hpp:104-110 with
verifyIndex.hpp:1-11. -/
def electroionisation (d : ESZE) (index : Nat) : Res Words := do
  if index < 1 ∨ index > NSSH d then .error .range
  else ArrayData.darray d (6 + index)

end ESZE
end ACE

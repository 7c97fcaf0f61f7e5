import Verif.Model.Text

/-!
# Table headers: `Table::Header` and `Table::Header201`

The member functions `VERS`, `ZAID`, ... return the fields.
-/

namespace ACE
open Text

/-- `Table::Header`, /repo/src/ACEtk/Table/Header.hpp:16-23 (version 1.0.0). -/
structure Header where
  zaid : Str
  awr : Dbl
  temp : Dbl
  date : Str
  title : Str
  material : Str
deriving DecidableEq, Repr

namespace Header

/-- `VERS`, /repo/src/ACEtk/Table/Header.hpp:36 with Header/src/ctor.hpp:20. -/
def version (_ : Header) : Str := "1.0.0".toList

/-- Construction, /repo/src/ACEtk/Table/Header/src/ctor.hpp:17-22. -/
def mk' (zaid : Str) (awr temp : Dbl) (date title material : Str) : Header :=
  ⟨strip zaid, awr, temp, strip date, strip title, strip material⟩

/-- `print`, /repo/src/ACEtk/Table/Header/src/print.hpp:1-19. -/
def print (F : Formats) (h : Header) : Res Str := do
  let zaid ← right h.zaid 10
  let date ← right h.date 10
  let line1 := zaid ++ pad 12 (F.fixed 6 h.awr) ++ pad 12 (F.sci 'E' 4 h.temp) ++ [' '] ++ date
  let material ← right h.material 10
  let line2 := left h.title 70 ++ material
  return line1 ++ [newline] ++ line2 ++ [newline]

/-- `parse`, /repo/src/ACEtk/Table/Header/src/parse.hpp:1-42: the header and the rest of the text. -/
def parse (F : Formats) (text : Str) : Res (Header × Str) := do
  let (line1, text) ← nextLine text
  let zaid := column line1 0 10
  let awr ← F.read (column line1 10 12)
  let temp ← F.read (column line1 22 12)
  let date := column line1 35 10
  guardThrow (!awr.isNeg)
  guardThrow (!temp.isNeg)
  let (line2, text) ← nextLine text
  let title := column line2 0 70
  let material := column line2 70 10
  return (Header.mk' zaid awr temp date title material, text)

end Header

/-- `Table::Header201`, /repo/src/ACEtk/Table/Header201.hpp:31-38. -/
structure Header201 where
  vers : Str
  szaid : Str
  src : Str
  awr : Dbl
  temp : Dbl
  date : Str
  comments : List Str
deriving DecidableEq, Repr

namespace Header201

/-- The private constructor, /repo/src/ACEtk/Table/Header201/src/ctor.hpp:12-18. -/
def make (version szaid source : Str) (awr temp : Dbl) (date : Str) (comments : List Str) : Header201 :=
  ⟨strip version, strip szaid, strip source, awr, temp, strip date, comments⟩

/-- Construction, /repo/src/ACEtk/Table/Header201/src/ctor.hpp:32-35. -/
def mk' (szaid source : Str) (awr temp : Dbl) (date : Str) (comments : List Str) : Header201 :=
  make "2.0.1".toList szaid source awr temp date comments

/-- The comment lines, /repo/src/ACEtk/Table/Header201/src/print.hpp:29-32. -/
def printComments : List Str → Str
  | [] => []
  | line :: lines => line ++ [newline] ++ printComments lines

/-- `print`, /repo/src/ACEtk/Table/Header201/src/print.hpp:1-33. -/
def print (F : Formats) (h : Header201) : Res Str := do
  let szaid ← right h.szaid 24
  let src ← right h.src 24
  let line1 := left h.vers 10 ++ [' '] ++ szaid ++ [' '] ++ src
  let date ← right h.date 10
  let line2 := pad 12 (F.fixed 6 h.awr) ++ [' '] ++ pad 12 (F.sci 'E' 4 h.temp) ++ [' '] ++ date ++ [' '] ++
    pad 10 (ofNat h.comments.length)
  return line1 ++ [newline] ++ line2 ++ [newline] ++ printComments h.comments

/-- The digits of a number that is not negative (0 when there are none). -/
def unsigned (s : Str) : Nat := toNat (s.takeWhile (·.isDigit))

/-- `stream >> number` for an `int`, /repo/src/ACEtk/Table/Header201/src/parse.hpp:38: nothing is stored
at the end of the stream (reading `number` is then undefined), 0 when there are no digits, and the
largest or smallest `int` when the value does not fit. -/
def number (s : Str) : Res Int :=
  match s.dropWhile isSpace with
  | [] => .error .ub
  | '-' :: cs => .ok (-(min (unsigned cs) 2147483648 : Nat))
  | '+' :: cs => .ok (min (unsigned cs) 2147483647 : Nat)
  | cs => .ok (min (unsigned cs) 2147483647 : Nat)

/-- The second line, /repo/src/ACEtk/Table/Header201/src/parse.hpp:35-38. When a value cannot be read the
variables behind it are not assigned: using them is undefined. -/
def line2 (F : Formats) (line : Str) : Res (Dbl × Dbl × Str × Int) :=
  match F.extract line with
  | none => .error .ub
  | some (awr, s) => match F.extract s with
    | none => .error .ub
    | some (temp, s) => match extract s with
      | none => .error .ub
      | some (date, s) => do return (awr, temp, date, ← number s)

/-- Trailing white space is erased, /repo/src/ACEtk/Table/Header201/src/parse.hpp:63-64. -/
def stripRight (s : Str) : Str := (s.reverse.dropWhile isSpace).reverse

/-- The comment lines, /repo/src/ACEtk/Table/Header201/src/parse.hpp:58-66. -/
def parseComments : Nat → Str → Res (List Str × Str)
  | 0, text => .ok ([], text)
  | n + 1, text => do
      let (line, text) ← nextLine text
      let (lines, text) ← parseComments n text
      return (stripRight (column line 0 80) :: lines, text)

/-- `parse`, /repo/src/ACEtk/Table/Header201/src/parse.hpp:1-71. Simplification: the line number of the
state, used for messages only, is left out. -/
def parse (F : Formats) (text : Str) : Res (Header201 × Str) := do
  let (line1, text) ← nextLine text
  let version := strip (column line1 0 10)
  let szaid := column line1 11 24
  let source := column line1 36 24
  guardThrow (version == "2.0.0".toList || version == "2.0.1".toList)
  let (line, text) ← nextLine text
  let (awr, temp, date, number) ← line2 F (column line 0 80)
  guardThrow (!awr.isNeg)
  guardThrow (!temp.isNeg)
  guardThrow (!decide (number < 0))
  let (comments, text) ← parseComments number.toNat text
  return (make version szaid source awr temp date comments, text)

end Header201
end ACE

import Verif.Model.Ident

/-!
# Text: columns, tokens and numbers

Strings and files are lists of characters. ACEtk writes and reads its files through two libraries that
are not in /repo: disco (fixed column records) for tables, the standard streams for xsdir files. This
file describes what they do:

* a record is one line; writing concatenates the fields and adds a newline, reading takes the fields by
  column from the next line (columns behind its end are blank) and moves behind its newline;
* an integer field is right justified, a blank field is 0, anything else than an optional sign and
  digits is refused;
* a real is written by `fixed` or `sci`, right justified, and read by `value` from its characters: these
  three functions are a parameter (`Formats`) of the model, the round trip theorems are about every
  choice, and `Verif/Model/Decimal.lean` gives the usual one;
* `operator>>` skips white space and then takes as many characters as belong to the value.

Simplification: reading a record at the end of the buffer is refused.
-/

namespace ACE

/-- A string. -/
abbrev Str := List Char

namespace Text

/-- `std::isspace` in the "C" locale. -/
def isSpace (c : Char) : Bool := Ident.isSpace c

/-- `strip`, /repo/src/ACEtk/Table/Header/src/strip.hpp:1-11 (also `trim`,
/repo/src/ACEtk/XsdirEntry/src/parse.hpp:1-11 and Xsdir/src/parse.hpp:1-11). -/
def strip (s : Str) : Str :=
  let front := s.dropWhile isSpace
  (front.reverse.dropWhile isSpace).reverse

/-- `left`, /repo/src/ACEtk/Table/Header/src/strip.hpp:13-18: `resize` to a length, with blanks. -/
def left (s : Str) (length : Nat) : Str :=
  s.take length ++ List.replicate (length - s.length) ' '

/-- `right`, /repo/src/ACEtk/Table/Header/src/strip.hpp:20-29: the resized string rotated by the
size of the original one, which is past the end if the string is too long. -/
def right (s : Str) (length : Nat) : Res Str :=
  let pivot := s.length
  let result := left s length
  if pivot ≤ result.length then .ok (result.drop pivot ++ result.take pivot) else .error .ub

/-- Right justification, as `std::setw`. -/
def pad (width : Nat) (s : Str) : Str := List.replicate (width - s.length) ' ' ++ s

/-- Lines of text end with this. -/
def newline : Char := '\n'

/-- The next line (without its newline) and the rest of the text. -/
def nextLine : Str → Res (Str × Str)
  | [] => .error .thrown
  | s => .ok (s.takeWhile (· != newline), (s.dropWhile (· != newline)).drop 1)

/-- `width` columns of a line from a position on: blank behind its end. -/
def column (line : Str) (start width : Nat) : Str := left (line.drop start) width

/-- The decimal digit of a number below 10. -/
def digit (n : Nat) : Char := Char.ofNat (48 + n % 10)

/-- The last `k` decimal digits. -/
def digits : Nat → Nat → Str
  | 0, _ => []
  | k + 1, n => digits k (n / 10) ++ [digit n]

/-- The number of further digits of `n`, looking for at most `fuel` of them. -/
def moreDigits : Nat → Nat → Nat
  | 0, _ => 0
  | fuel + 1, n => if n < 10 then 0 else moreDigits fuel (n / 10) + 1

/-- The number of decimal digits. -/
def numDigits (n : Nat) : Nat := moreDigits n n + 1

/-- An unsigned integer. -/
def ofNat (n : Nat) : Str := digits (numDigits n) n

/-- An integer. -/
def ofInt (i : Int) : Str := if i < 0 then '-' :: ofNat i.natAbs else ofNat i.natAbs

/-- The value of decimal digits. -/
def toNat (s : Str) : Nat := s.foldl (fun v c => 10 * v + (c.toNat - 48)) 0

/-- A number without sign that consists of digits only. -/
def allDigits (s : Str) : Option Nat := if s ≠ [] ∧ s.all (·.isDigit) then some (toNat s) else none

/-- disco: read an integer field. -/
def readInt (field : Str) : Res Int :=
  match strip field with
  | [] => .ok 0
  | '-' :: s => match allDigits s with
    | some n => .ok (-(n : Int))
    | none => .error .thrown
  | '+' :: s => match allDigits s with
    | some n => .ok n
    | none => .error .thrown
  | s => match allDigits s with
    | some n => .ok n
    | none => .error .thrown

/-- How reals are written and read. -/
structure Formats where
  /-- fixed point with a number of decimals -/
  fixed : Nat → Dbl → Str
  /-- scientific with a number of decimals, with the character of the exponent -/
  sci : Char → Nat → Dbl → Str
  /-- the value of a written number -/
  value : Str → Option Dbl

/-- disco: read a real field. -/
def Formats.read (F : Formats) (field : Str) : Res Dbl :=
  match strip field with
  | [] => .ok (Dbl.ofNat 0)
  | s => match F.value s with
    | some x => .ok x
    | none => .error .thrown

/-! ## `operator>>` on a string stream: the remaining characters are the state -/

/-- `stream >> string`: fails when only white space is left. -/
def extract (s : Str) : Option (Str × Str) :=
  let t := s.dropWhile isSpace
  if t = [] then none else some (t.takeWhile (!isSpace ·), t.dropWhile (!isSpace ·))

/-- The characters of a real. -/
def isReal (c : Char) : Bool := c.isDigit || c == '+' || c == '-' || c == '.' || c == 'e' || c == 'E'

/-- `stream >> double`: the characters that belong to a real. -/
def Formats.extract (F : Formats) (s : Str) : Option (Dbl × Str) :=
  let t := s.dropWhile isSpace
  match F.value (t.takeWhile isReal) with
  | some x => some (x, t.dropWhile isReal)
  | none => none

/-- `stream >> unsigned int`: an optional sign and digits. A value that does not fit fails; the value of
a number with a minus sign is taken modulo 2^32. -/
def extractNat (s : Str) : Option (Nat × Str) :=
  let t := s.dropWhile isSpace
  let neg := t.head? == some '-'
  let u := if neg || t.head? == some '+' then t.drop 1 else t
  let ds := u.takeWhile (·.isDigit)
  if ds = [] ∨ 4294967296 ≤ toNat ds then none
  else some (if neg then (4294967296 - toNat ds) % 4294967296 else toNat ds, u.dropWhile (·.isDigit))

/-- The value that `stream >> unsigned int` stores when it fails (in a variable that was 0): 0 when there
is no number, the largest value when the number is too large. -/
def failedNat (s : Str) : Nat :=
  let t := s.dropWhile isSpace
  let u := if t.head? == some '-' || t.head? == some '+' then t.drop 1 else t
  if u.takeWhile (·.isDigit) = [] then 0 else 4294967295

end Text
end ACE

import Verif.Model.Stream

/-!
# Xsdir entries

`XsdirEntry`: printing, reading and the stream operators.
-/

namespace ACE
open Text

/-- `XsdirEntry`, /repo/src/ACEtk/XsdirEntry.hpp:36-47. Simplification: `unsigned int` values are natural
numbers. -/
structure XsdirEntry where
  zaid : Str
  awr : Dbl
  fileName : Str
  access : Option Str
  fileType : Nat
  address : Nat
  tableLength : Nat
  recordLength : Option Nat
  entries : Option Nat
  temperature : Option Dbl
  ptable : Bool
deriving DecidableEq, Repr

namespace XsdirEntry

/-! ## Printing -/

/-- The record length and the number of entries, /repo/src/ACEtk/XsdirEntry/src/print.hpp:18-29. -/
def printRecord (e : XsdirEntry) : Str :=
  match e.recordLength, e.entries with
  | some r, some n => [' '] ++ ofNat r ++ [' '] ++ ofNat n
  | _, _ => if e.temperature.isSome || e.ptable then " 0 0".toList else []

/-- The temperature, /repo/src/ACEtk/XsdirEntry/src/print.hpp:30-41. -/
def printTemperature (F : Formats) (e : XsdirEntry) : Str :=
  match e.temperature with
  | some t => pad 13 (F.sci 'e' 6 t)
  | none => if e.ptable then " 0".toList else []

/-- The entry on one line, /repo/src/ACEtk/XsdirEntry/src/print.hpp:9-43. -/
def oneLine (F : Formats) (e : XsdirEntry) : Str :=
  pad 10 e.zaid ++ pad 13 (F.fixed 6 e.awr) ++ [' '] ++ e.fileName ++ [' '] ++ e.access.getD "0".toList ++
    [' '] ++ ofNat e.fileType ++ [' '] ++ ofNat e.address ++ [' '] ++ ofNat e.tableLength ++
    e.printRecord ++ e.printTemperature F ++ (if e.ptable then " ptable".toList else []) ++ [newline]

/-- The inner loop, /repo/src/ACEtk/XsdirEntry/src/print.hpp:52-57: `r` is the reversed text from `begin` to
`iter`; `check` when the length is to be compared, otherwise a space is being looked for. When there is no
space `begin` is incremented past the end. -/
def cut : Bool → Str → Res Str
  | check, [] => if check then .ok [] else .error .ub
  | check, c :: r =>
      if check && decide ((c :: r).length ≤ 100) then .ok (c :: r)
      else if c == ' ' then cut true r else cut false r

/-- The outer loop, /repo/src/ACEtk/XsdirEntry/src/print.hpp:47-62, of at most `fuel` steps: `s` is the text
behind the last inserted newline. -/
def split : Nat → Str → Res Str
  | 0, s => if s.length ≤ 100 then .ok s else .error .endless
  | fuel + 1, s =>
      if s.length ≤ 100 then .ok s
      else do
        let r ← cut true s.reverse
        let rest ← split fuel ("    ".toList ++ s.drop r.length)
        return r.reverse ++ " +\n".toList ++ rest

/-- `print`, /repo/src/ACEtk/XsdirEntry/src/print.hpp:6-66. The loop has at most as many steps as the entry
has words or it does not end (`C43_lines`, `C43_endless`). -/
def print (F : Formats) (e : XsdirEntry) : Res Str := split (e.oneLine F).length (e.oneLine F)

/-! ## Reading -/

/-- A comment line, /repo/src/ACEtk/XsdirEntry/src/parse.hpp:16-23. -/
def isComment (line : Str) : Bool := line.head? == some '#'

/-- The loop over comment lines, /repo/src/ACEtk/XsdirEntry/src/parse.hpp:28-31, of at most `fuel` steps. -/
def skipComments : Nat → Str → IStream → Res (Str × IStream)
  | 0, current, st => if isComment current then .error .endless else .ok (current, st)
  | fuel + 1, current, st =>
      if isComment current then
        let r := st.getline current
        skipComments fuel r.1 r.2
      else .ok (current, st)

/-- `getline`, /repo/src/ACEtk/XsdirEntry/src/parse.hpp:13-36. A step of the loop takes a character of the
text unless the stream is no longer good, and then nothing changes any more. -/
def readLine (st : IStream) : Res (Str × IStream) := do
  let r := st.getline []
  let (line, st) ← skipComments (st.content.length + 1) r.1 r.2
  return (strip line, st)

/-- The loop over continued lines, /repo/src/ACEtk/XsdirEntry/src/parse.hpp:47-52, of at most `fuel` steps:
`back()` of an empty string is undefined. -/
def continued : Nat → Str → IStream → Res (Str × IStream)
  | fuel, line, st =>
      match line.getLast? with
      | none => .error .ub
      | some c =>
          if c == '+' then
            match fuel with
            | 0 => .error .endless
            | fuel + 1 => do
                let (next, st) ← readLine st
                continued fuel (line.dropLast ++ [' '] ++ next) st
          else .ok (line, st)

/-- The optional values: record length, number of entries, temperature and ptable,
/repo/src/ACEtk/XsdirEntry/src/parse.hpp:74-101; `none` when the string stream fails. -/
def options (F : Formats) (s : Str) : Option (Nat × Nat × Dbl × Bool) :=
  match extractNat s with
  | none => some (failedNat s, 0, Dbl.ofNat 0, false)
  | some (recordLength, s) =>
    match extractNat s with
    | none => none
    | some (entries, s) =>
      match F.extract s with
      | none => none
      | some (temperature, s) =>
        match extract s with
        | none => some (recordLength, entries, temperature, false)
        | some (next, _) =>
          if next = "ptable".toList then some (recordLength, entries, temperature, true) else none

/-- Zero stands for no value, /repo/src/ACEtk/XsdirEntry/src/parse.hpp:119-125. -/
def nonZero (n : Nat) : Option Nat := if n = 0 then none else some n

/-- The values on a line, /repo/src/ACEtk/XsdirEntry/src/parse.hpp:70-128; `none` when the string stream
fails. -/
def ofLine (F : Formats) (line : Str) : Option XsdirEntry :=
  match extract line with
  | none => none
  | some (zaid, s) =>
  match F.extract s with
  | none => none
  | some (awr, s) =>
  match extract s with
  | none => none
  | some (fileName, s) =>
  match extract s with
  | none => none
  | some (access, s) =>
  match extractNat s with
  | none => none
  | some (fileType, s) =>
  match extractNat s with
  | none => none
  | some (address, s) =>
  match extractNat s with
  | none => none
  | some (tableLength, s) =>
  match options F s with
  | none => none
  | some (recordLength, entries, temperature, ptable) =>
    some ⟨zaid, awr, fileName, if access = "0".toList then none else some access, fileType, address, tableLength,
      nonZero recordLength, nonZero entries, if temperature.eqInt 0 then none else some temperature, ptable⟩

/-- `parse`, /repo/src/ACEtk/XsdirEntry/src/parse.hpp:38-136, with the state of the stream; `none` is an
exception. -/
def parse (F : Formats) (st : IStream) : Res (Option XsdirEntry × IStream) := do
  let (position, st) := st.tellg
  let (line, st) ← readLine st
  let (line, st) ← continued (st.content.length + 1) line st
  if !st.eof then
    match ofLine F line with
    | some e => return (some e, st)
    | none => return (none, (st.clear.seekg position).setFail)
  else return (none, st)

/-- `operator>>`, /repo/src/ACEtk/XsdirEntry/src/stream.hpp:9-24: the new content of the target. -/
def readInto {α : Type} (F : Formats) (target : α) (make : XsdirEntry → α) (st : IStream) : Res (α × IStream) := do
  let (e, st) ← parse F st
  return match e with
    | some e => (make e, st)
    | none => (target, st)

end XsdirEntry
end ACE

import Verif.Model.Header
import Verif.Model.TableData

/-!
# The text of a table: `Table::Data` and `Table`, concatenated files
-/

namespace ACE
open Text

namespace TableData

/-- A pair of the IZAW lines, /repo/src/ACEtk/Table/Data/src/print.hpp:8-11. -/
def printPair (F : Formats) (d : TableData) (i : Nat) : Res Str := do
  return pad 7 (Text.ofInt (← fetch d.iz i)) ++ pad 11 (F.fixed 7 (← fetch d.aw i))

/-- An IZAW line that starts with an index, /repo/src/ACEtk/Table/Data/src/print.hpp:13-24. -/
def printPairs (F : Formats) (d : TableData) (i : Nat) : Res Str := do
  return (← d.printPair F i) ++ (← d.printPair F (i + 1)) ++ (← d.printPair F (i + 2)) ++
    (← d.printPair F (i + 3)) ++ [newline]

/-- Eight integers, /repo/src/ACEtk/Table/Data/src/print.hpp:26-58. -/
def printInts (l : List Int) : Str := (l.map fun i => pad 9 (Text.ofInt i)).flatten ++ [newline]

/-- The NXS array that is printed: NXS(1) is the size of the XSS array,
/repo/src/ACEtk/Table/Data/src/print.hpp:31-37. -/
def printedNXS (d : TableData) : Res (List Int) := do
  let l ← (List.range' 2 15).mapM fun i => d.NXS i
  return (d.xss.length : Int) :: l

/-- A real of the XSS array, /repo/src/ACEtk/Table/Data/src/print.hpp:64-67 and 79. -/
def printWord (F : Formats) (x : Dbl) : Str := pad 20 (F.sci 'E' 12 x)

/-- The full lines of the XSS array, /repo/src/ACEtk/Table/Data/src/print.hpp:69-73: the text and the
words that are left. -/
def printLines (F : Formats) : Nat → Words → Res (Str × Words)
  | 0, w => .ok ([], w)
  | k + 1, a :: b :: c :: d :: w => do
      let r ← printLines F k w
      return (printWord F a ++ printWord F b ++ printWord F c ++ printWord F d ++ [newline] ++ r.1, r.2)
  | _ + 1, _ => .error .ub

/-- The words of the last line, /repo/src/ACEtk/Table/Data/src/print.hpp:77-81. -/
def printEntries (F : Formats) : Nat → Words → Res Str
  | 0, _ => .ok []
  | k + 1, x :: w => do return printWord F x ++ (← printEntries F k w)
  | _ + 1, [] => .error .ub

/-- The last line, /repo/src/ACEtk/Table/Data/src/print.hpp:75-83. -/
def printLast (F : Formats) (entries : Nat) (w : Words) : Res Str :=
  if entries ≠ 0 then do return (← printEntries F entries w) ++ [newline] else .ok []

/-- The XSS array, /repo/src/ACEtk/Table/Data/src/print.hpp:60-83. -/
def printXSS (F : Formats) (w : Words) : Res Str := do
  let lines := w.length / 4
  let entries := w.length % 4
  let r ← printLines F lines w
  return r.1 ++ (← printLast F entries r.2)

/-- `Data::print`, /repo/src/ACEtk/Table/Data/src/print.hpp:1-84. -/
def print (F : Formats) (d : TableData) : Res Str := do
  let izaw := (← d.printPairs F 1) ++ (← d.printPairs F 5) ++ (← d.printPairs F 9) ++ (← d.printPairs F 13)
  let nxs ← d.printedNXS
  let jxs ← (List.range' 1 32).mapM fun i => d.JXS i
  let ints := printInts (nxs.take 8) ++ printInts (nxs.drop 8) ++ printInts (jxs.take 8) ++
    printInts ((jxs.drop 8).take 8) ++ printInts ((jxs.drop 16).take 8) ++ printInts (jxs.drop 24)
  return izaw ++ ints ++ (← printXSS F d.xss)

/-- A pair of an IZAW line, /repo/src/ACEtk/Table/Data/Parse/src/IZAW.hpp:7-10. -/
def parsePair (F : Formats) (line : Str) (i : Nat) : Res (Int × Dbl) := do
  return (← readInt (column line (18 * i) 7), ← F.read (column line (18 * i + 7) 11))

/-- The IZAW lines, /repo/src/ACEtk/Table/Data/Parse/src/IZAW.hpp:12-29: the pairs and the rest of the
text. -/
def parseIZAW (F : Formats) : Nat → Str → Res (List (Int × Dbl) × Str)
  | 0, text => .ok ([], text)
  | n + 1, text => do
      let (line, text) ← nextLine text
      let pairs ← (List.range 4).mapM (parsePair F line)
      let (more, text) ← parseIZAW F n text
      return (pairs ++ more, text)

/-- Lines of eight integers, /repo/src/ACEtk/Table/Data/Parse/src/NXS.hpp:7-26 and JXS.hpp:7-25. -/
def parseInts : Nat → Str → Res (List Int × Str)
  | 0, text => .ok ([], text)
  | n + 1, text => do
      let (line, text) ← nextLine text
      let ints ← (List.range 8).mapM fun i => readInt (column line (9 * i) 9)
      let (more, text) ← parseInts n text
      return (ints ++ more, text)

/-- The words of a line of the XSS array, /repo/src/ACEtk/Table/Data/Parse/src/XSS.hpp:7-10 and 28-32. -/
def parseWords (F : Formats) (line : Str) (n : Nat) : Res Words :=
  (List.range n).mapM fun i => F.read (column line (20 * i) 20)

/-- The full lines of the XSS array, /repo/src/ACEtk/Table/Data/Parse/src/XSS.hpp:18-25. -/
def parseLines (F : Formats) : Nat → Str → Res (Words × Str)
  | 0, text => .ok ([], text)
  | n + 1, text => do
      let (line, text) ← nextLine text
      let words ← parseWords F line 4
      let (more, text) ← parseLines F n text
      return (words ++ more, text)

/-- The last line, /repo/src/ACEtk/Table/Data/Parse/src/XSS.hpp:26-35. -/
def parseLast (F : Formats) (entries : Nat) (text : Str) : Res (Words × Str) :=
  if entries ≠ 0 then do
    let (line, text) ← nextLine text
    return (← parseWords F line entries, text)
  else .ok ([], text)

/-- The XSS array, /repo/src/ACEtk/Table/Data/Parse/src/XSS.hpp:1-54: a negative size is refused by
`resize`. -/
def parseXSS (F : Formats) (size : Int) (text : Str) : Res (Words × Str) := do
  guardThrow (decide (0 ≤ size))
  let (lines, text) ← parseLines F (size.toNat / 4) text
  let (last, text) ← parseLast F (size.toNat % 4) text
  return (lines ++ last, text)

/-- Construction from a text, /repo/src/ACEtk/Table/Data/src/ctor.hpp:36-80. -/
def parse (F : Formats) (text : Str) : Res (TableData × Str) := do
  let (izaw, text) ← parseIZAW F 4 text
  let (nxs, text) ← parseInts 2 text
  let (jxs, text) ← parseInts 4 text
  let (xss, text) ← parseXSS F (nxs.headD 0) text
  return (⟨izaw.map (·.1), izaw.map (·.2), nxs, jxs, xss⟩, text)

end TableData

/-- The header of a table, /repo/src/ACEtk/Table.hpp:38. -/
inductive AnyHeader where
  | v1 (h : Header)
  | v2 (h : Header201)
deriving DecidableEq, Repr

/-- `Table`, /repo/src/ACEtk/Table.hpp:42-43. -/
structure Table where
  header : AnyHeader
  data : TableData
deriving DecidableEq, Repr

namespace AnyHeader
/-- /repo/src/ACEtk/Table/src/print.hpp:9-10. -/
def print (F : Formats) : AnyHeader → Res Str
  | .v1 h => h.print F
  | .v2 h => h.print F
end AnyHeader

namespace Table

/-- `Table::print`, /repo/src/ACEtk/Table/src/print.hpp:6-12. -/
def print (F : Formats) (t : Table) : Res Str := do
  return (← t.header.print F) ++ (← t.data.print F)

/-- `readVersion`, /repo/src/ACEtk/Table/src/parse.hpp:1-18. -/
def readVersion (text : Str) : Res Str := do
  let (line, _) ← nextLine text
  return match extract (column line 0 80) with
    | some (version, _) => version
    | none => []

/-- The header, /repo/src/ACEtk/Table/src/parse.hpp:20-32. -/
def parseHeader (F : Formats) (text : Str) : Res (AnyHeader × Str) := do
  let version ← readVersion text
  if version == "2.0.0".toList || version == "2.0.1".toList then do
    let (h, text) ← Header201.parse F text
    return (.v2 h, text)
  else do
    let (h, text) ← Header.parse F text
    return (.v1 h, text)

/-- Construction from a text, /repo/src/ACEtk/Table/src/ctor.hpp:15-17 and 34-41. -/
def parse (F : Formats) (text : Str) : Res (Table × Str) := do
  let (h, text) ← parseHeader F text
  let (d, text) ← TableData.parse F text
  return (⟨h, d⟩, text)

/-- `fromFile`, /repo/src/ACEtk/fromFile.hpp:46-54, of the content of a file. -/
def fromFile (F : Formats) (content : Str) : Res Table := do
  let (t, _) ← parse F content
  return t

/-- The loop of `fromConcatenatedFile`, /repo/src/ACEtk/fromFile.hpp:68-72, of at most `fuel` steps. -/
def tables (F : Formats) : Nat → Str → Res (List Table)
  | _, [] => .ok []
  | 0, _ :: _ => .error .endless
  | fuel + 1, c :: content => do
      let (t, rest) ← parse F (c :: content)
      return t :: (← tables F fuel rest)

/-- `fromConcatenatedFile`, /repo/src/ACEtk/fromFile.hpp:61-75, of the content of a file: a table has at
least one character (`C41_ends`), so there are at most as many tables. -/
def fromConcatenatedFile (F : Formats) (content : Str) : Res (List Table) :=
  tables F content.length content

end Table
end ACE

import Verif.Model.XsdirEntry

/-!
# Xsdir files

`Xsdir`: lookups, printing and reading.
-/

namespace ACE
open Text

/-- `std::map< unsigned int, double >`: pairs with increasing keys. -/
abbrev Ratios := List (Nat × Dbl)

/-- `Xsdir`, /repo/src/ACEtk/Xsdir.hpp:28-32. `indices` is an association list: the first pair with a key
counts. -/
structure Xsdir where
  dataPath : Option Str
  awr : Ratios
  entries : List XsdirEntry
  indices : List (Str × Nat)
deriving DecidableEq, Repr

namespace Xsdir

/-- `indices`, /repo/src/ACEtk/Xsdir/src/indices.hpp:1-10, from an index on. Simplification: the loop variable
is a natural number. -/
def indicesFrom : Nat → List XsdirEntry → List (Str × Nat) → List (Str × Nat)
  | _, [], m => m
  | i, e :: es, m => indicesFrom (i + 1) es ((e.zaid, i) :: m)

/-- Construction, /repo/src/ACEtk/Xsdir/src/ctor.hpp:12-16. -/
def mk' (awr : Ratios) (entries : List XsdirEntry) (dataPath : Option Str) : Xsdir :=
  ⟨dataPath, awr, entries, indicesFrom 0 entries []⟩

/-- `ratios[ za ] = awr`, /repo/src/ACEtk/Xsdir/src/parse.hpp:110. -/
def assign (za : Nat) (x : Dbl) : Ratios → Ratios
  | [] => [(za, x)]
  | (z, y) :: m => if za < z then (za, x) :: (z, y) :: m else if za = z then (za, x) :: m else (z, y) :: assign za x m

/-- `atomicWeightRatio`, /repo/src/ACEtk/Xsdir.hpp:63-74. -/
def atomicWeightRatio (d : Xsdir) (za : Nat) : Res Dbl :=
  match d.awr.lookup za with
  | some x => .ok x
  | none => .error .thrown

/-- `entry`, /repo/src/ACEtk/Xsdir.hpp:84-96. -/
def entry (d : Xsdir) (zaid : Str) : Res XsdirEntry :=
  match d.indices.lookup zaid with
  | some i => match d.entries[i]? with
    | some e => .ok e
    | none => .error .ub
  | none => .error .thrown

/-! ## Printing -/

/-- A new line begins, /repo/src/ACEtk/Xsdir/src/print.hpp:20-27: the text and the new `count`. -/
def newElement (za : Nat) (count : Int) : Str × Int :=
  if za = 1 ∨ za % 1000 = 0 then (if za ≠ 1 then [newline] else [], -1) else ([], count)

/-- A line is continued, /repo/src/ACEtk/Xsdir/src/print.hpp:29-32. -/
def wrap (count : Int) : Str :=
  if count ≠ 0 ∧ count.tmod 3 = 0 then [newline] ++ pad 21 [' '] else []

/-- The atomic weight ratios, /repo/src/ACEtk/Xsdir/src/print.hpp:18-39. -/
def printRatios (F : Formats) : Int → Ratios → Str
  | _, [] => []
  | count, (za, awr) :: m =>
      (newElement za count).1 ++ wrap (newElement za count).2 ++ pad 8 (ofNat za) ++ pad 13 (F.fixed 8 awr) ++
        printRatios F ((newElement za count).2 + 1) m

/-- The data path, /repo/src/ACEtk/Xsdir/src/print.hpp:9-13. -/
def printPath : Option Str → Str
  | some path => "datapath=".toList ++ path ++ [newline]
  | none => [newline]

/-- `print`, /repo/src/ACEtk/Xsdir/src/print.hpp:6-49. -/
def print (F : Formats) (d : Xsdir) : Res Str := do
  let texts ← d.entries.mapM fun e => e.print F
  return printPath d.dataPath ++ "atomic weight ratios".toList ++ [newline] ++ printRatios F (-1) d.awr ++
    [newline] ++ [newline] ++ "directory".toList ++ [newline] ++ texts.flatten

/-! ## Reading -/

/-- `toLowerCase`, /repo/src/ACEtk/Xsdir/src/parse.hpp:13-17. -/
def toLower (s : Str) : Str := s.map Char.toLower

/-- `tellg` and `std::getline`, /repo/src/ACEtk/Xsdir/src/parse.hpp:40-41 and 44-45. -/
def tellLine (current : Str) (st : IStream) : Str × Option Nat × IStream :=
  let t := st.tellg
  let r := t.2.getline current
  (r.1, t.1, r.2)

/-- The loop over comment lines and empty lines, /repo/src/ACEtk/Xsdir/src/parse.hpp:42-46, of at most `fuel`
steps. -/
def skipLines : Nat → Str × Option Nat × IStream → Res (Str × Option Nat × IStream)
  | 0, r => if !r.2.2.eof && (XsdirEntry.isComment r.1 || r.1.isEmpty) then .error .endless else .ok r
  | fuel + 1, r =>
      if !r.2.2.eof && (XsdirEntry.isComment r.1 || r.1.isEmpty) then skipLines fuel (tellLine r.1 r.2.2)
      else .ok r

/-- `getline`, /repo/src/ACEtk/Xsdir/src/parse.hpp:25-51: the line, its position and the stream. -/
def getline (st : IStream) : Res (Str × Option Nat × IStream) := do
  let (line, position, st) ← skipLines (st.content.length + 1) (tellLine [] st)
  return (strip line, position, st)

/-- The data path on a line, /repo/src/ACEtk/Xsdir/src/parse.hpp:69-81. -/
def readPath (current : Str) : Option Str :=
  match strip (current.drop 8) with
  | '=' :: path => if path ≠ [] then some path else none
  | _ => none

/-- The start of the file up to the line of the atomic weight ratios, /repo/src/ACEtk/Xsdir/src/parse.hpp:55-86:
the data path, the line, its position and the stream. -/
def readStart (st : IStream) : Res (Option Str × Str × Option Nat × IStream) := do
  let (current, position, st) ← getline st.tellg.2
  if !current.isEmpty && toLower (current.take 8) == "datapath".toList then do
    let path := readPath current
    let (current, position, st) ← getline st
    return (path, toLower current, position, st)
  else return (none, current, position, st)

/-- Reading fails, /repo/src/ACEtk/Xsdir/src/parse.hpp:91-93, 118-120 and 149-151. -/
def failAt (st : IStream) (position : Option Nat) : IStream := (st.clear.seekg position).setFail

/-- The pairs on a line, /repo/src/ACEtk/Xsdir/src/parse.hpp:107-111, at most `fuel` of them: each takes at
least one character. -/
def pairs (F : Formats) : Nat → Str → Ratios → Ratios
  | 0, _, m => m
  | fuel + 1, s, m =>
      match extractNat s with
      | none => m
      | some (za, s) => match F.extract s with
        | none => m
        | some (x, s) => pairs F fuel s (assign za x m)

/-- The loop over the lines with atomic weight ratios, /repo/src/ACEtk/Xsdir/src/parse.hpp:104-125, of at most
`fuel` steps: the ratios (`none` is an exception), the position of the last line and the stream. -/
def readRatios (F : Formats) : Nat → Str → Option Nat → Ratios → IStream → Res (Option Ratios × Option Nat × IStream)
  | fuel, current, position, m, st =>
      if current = "directory".toList then .ok (some m, position, st)
      else match fuel with
        | 0 => .error .endless
        | fuel + 1 => do
            let m := pairs F current.length current m
            let (current, position, st) ← getline st
            if st.fail then return (none, position, failAt st position)
            else readRatios F fuel (toLower current) position m st

/-- An entry after `std::move` (what libstdc++ leaves: empty strings). -/
def movedFrom (e : XsdirEntry) : XsdirEntry :=
  { e with zaid := [], fileName := [], access := e.access.map fun _ => [] }

/-- The loop over the entries, /repo/src/ACEtk/Xsdir/src/parse.hpp:130-145, of at most `fuel` steps: the
entries and the stream. `target` is the variable `entry`; `none` is its value after default construction, with
numbers that were never initialised: moving it is undefined. The position of the last line is returned too. -/
def readEntries (F : Formats) : Nat → Option XsdirEntry → Option Nat → IStream →
    Res (List XsdirEntry × Option Nat × IStream)
  | 0, _, _, _ => .error .endless
  | fuel + 1, target, position, st => do
      let (target, st) ← XsdirEntry.readInto F target some st
      if st.fail then return ([], position, st)
      else match target with
        | none => .error .ub
        | some e => do
            let (_, position, st) ← getline st
            if !st.eof then do
              let (more, position, st) ← readEntries F fuel (some (movedFrom e)) position (st.clear.seekg position)
              return (e :: more, position, st)
            else return ([e], position, st)

/-- The entries and the end of the file, /repo/src/ACEtk/Xsdir/src/parse.hpp:127-162. -/
def readDirectory (F : Formats) (path : Option Str) (m : Ratios) (position : Option Nat) (st : IStream) :
    Res (Option Xsdir × IStream) := do
  let (entries, position, st) ← readEntries F (st.content.length + 1) none position st
  if !st.eof then return (none, failAt st position)
  else return (some (mk' m entries path), st)

/-- `parse`, /repo/src/ACEtk/Xsdir/src/parse.hpp:53-163, with the state of the stream; `none` is an
exception. -/
def parse (F : Formats) (st : IStream) : Res (Option Xsdir × IStream) := do
  let (path, current, position, st) ← readStart st
  if current ≠ "atomic weight ratios".toList then return (none, failAt st position)
  else do
    let (current, position, st) ← getline st
    let (m, position, st) ← readRatios F (st.content.length + 2) current position [] st
    match m with
    | none => return (none, st)
    | some m => readDirectory F path m position st

/-- `operator>>`, /repo/src/ACEtk/Xsdir/src/stream.hpp:9-24: the new content of the target. -/
def readInto (F : Formats) (target : Xsdir) (st : IStream) : Res (Xsdir × IStream) := do
  let (d, st) ← parse F st
  return match d with
    | some d => (d, st)
    | none => (target, st)

end Xsdir
end ACE

import Verif.Model.Typed
import Verif.Model.Xsdir

/-!
# Files: `from_file`, `from_concatenated_file`, `to_file`

The file system is not in /repo. Simplification: files are contents by name; directories, permissions, other names of a
file (links) and other programs are left out, except that opening a file for writing can be refused.
-/

namespace ACE
open Text

/-- The contents of the files by name. -/
abbrev Disk := Str → Option Str

/-- What happens to a file that is written: it cannot be opened, only the first `n` characters get to it (the disk is
full, or the program or the machine stopped), or everything does. -/
inductive Fate where
  | refused
  | cut (n : Nat)
  | whole
deriving DecidableEq, Repr

/-- A file of the name has this content. -/
def Disk.put (d : Disk) (name content : Str) : Disk := fun other => if other = name then some content else d other

/-- `std::ofstream out( filename ); self.print( out ); out.close();`, /repo/python/src/Table.python.cpp:76-78,
definitions.hpp:76-78, Xsdir.python.cpp:120-122: opening empties the file, and the state of the stream is not
looked at. -/
def Disk.write (d : Disk) (name text : Str) : Fate → Disk
  | .refused => d
  | .cut n => d.put name (text.take n)
  | .whole => d.put name text

/-- `readContentFromFile`, /repo/src/ACEtk/fromFile.hpp:19-37: the whole content of a file that can be opened. -/
def Disk.read (d : Disk) (name : Str) : Res Str :=
  match d name with
  | none => .error .thrown
  | some content => .ok content

/-- `fromFile`, /repo/src/ACEtk/fromFile.hpp:46-54; `Table.from_file`, /repo/python/src/Table.python.cpp:61-64. -/
def Table.ofFile (F : Formats) (d : Disk) (name : Str) : Res Table := do
  fromFile F (← d.read name)

/-- `fromConcatenatedFile`, /repo/src/ACEtk/fromFile.hpp:61-75. -/
def Table.ofConcatenatedFile (F : Formats) (d : Disk) (name : Str) : Res (List Table) := do
  fromConcatenatedFile F (← d.read name)

/-- `from_file` of a table class, /repo/python/src/definitions.hpp:41-45. -/
def Typed.ofFile (F : Formats) (k : TableType) (d : Disk) (name : Str) : Res Typed := do
  ofTable k (← Table.ofFile F d name)

/-- `from_concatenated_file` of a table class, /repo/python/src/definitions.hpp:53-64: all tables of the file are
made tables of the class. -/
def Typed.ofConcatenatedFile (F : Formats) (k : TableType) (d : Disk) (name : Str) : Res (List Typed) := do
  (← Table.ofConcatenatedFile F d name).mapM (ofTable k)

/-- `Xsdir::fromFile`, /repo/src/ACEtk/Xsdir/src/fromFile.hpp:6-15: the exception of `parse` is not caught. -/
def Xsdir.ofFile (F : Formats) (d : Disk) (name : Str) : Res Xsdir := do
  let (x, _) ← parse F (IStream.ofText (← d.read name))
  match x with
  | some x => return x
  | none => .error .thrown

/-- What has a `to_file`: /repo/python/src/Table.python.cpp:73, definitions.hpp:73, Xsdir.python.cpp:117. -/
inductive Printed where
  | table (t : Table)
  | typed (t : Typed)
  | xsdir (x : Xsdir)

/-- `print` of these. -/
def Printed.print (F : Formats) : Printed → Res Str
  | .table t => t.print F
  | .typed t => t.print F
  | .xsdir x => x.print F

/-- `to_file`, /repo/python/src/Table.python.cpp:74-79, definitions.hpp:74-79, Xsdir.python.cpp:118-123.
Simplification: a `print` that is undefined or does not end leaves no disk. -/
def Printed.toFile (F : Formats) (x : Printed) (d : Disk) (name : Str) (fate : Fate) : Res Disk := do
  return d.write name (← x.print F) fate

/-- Calls of `to_file` one after the other. -/
def Disk.after (F : Formats) : List (Printed × Str × Fate) → Disk → Res Disk
  | [], d => .ok d
  | (x, name, fate) :: calls, d => do Disk.after F calls (← x.toFile F d name fate)

end ACE

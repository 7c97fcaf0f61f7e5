import Verif.Model.Core

/-!
# Storage model of `base::Base` and of the classes composed of sub blocks

An object is a `Base` (an optional vector and a range) together with the ranges
of its sub objects. Buffers have identities; the assignment of a vector
invalidates iterators into it, so it is modelled as freeing the old buffer and
allocating a new one. A moved-from vector is empty and has no buffer.
-/

namespace ACE.Memory
open ACE

/-- A pair of iterators into a vector buffer. -/
structure Range where
  buf : Nat
  off : Nat
  len : Nat
deriving DecidableEq, Repr

/-- A block object. `own` is the optional `xss_` of
/repo/src/ACEtk/base/Base.hpp:33: `none` is a disengaged optional (a view),
`some none` an engaged optional whose vector was moved from, `some (some b)` an
engaged optional whose vector uses buffer `b`. `ranges` are the iterators
`begin_`, `end_` (Base.hpp:34-35), first, followed by those of the sub objects.
`cls` is the class. -/
structure Obj where
  cls : Nat
  own : Option (Option Nat)
  ranges : List Range
deriving DecidableEq, Repr

/-- The sub ranges (offset, length) that `generateBlocks` of a class makes from the
words of the block; it is a function of the words only, e.g.
/repo/src/ACEtk/base/TabulatedData/src/generateBlocks.hpp:1-11. -/
abbrev Layout := Nat → Words → List (Nat × Nat)

/-- The machine: buffers, the next free buffer identity and the named objects. -/
structure Mem where
  heap : Nat → Option Words
  next : Nat
  objs : Nat → Option Obj

/-- The initial state. -/
def Mem.init : Mem := { heap := fun _ => none, next := 0, objs := fun _ => none }

/-- Update of a finite map. -/
def upd {α : Type} (f : Nat → Option α) (i : Nat) (v : Option α) : Nat → Option α :=
  fun k => if k = i then v else f k

/-- Reading through a pair of iterators. -/
def Mem.read (m : Mem) (r : Range) : Res Words :=
  match m.heap r.buf with
  | some ws => sub ws r.off (r.off + r.len)
  | none => .error .ub

/-- The ranges of an owner: `generateData` takes the iterators of the own vector
(/repo/src/ACEtk/base/Base/src/generateData.hpp:3-8) and `generateBlocks` makes the
sub ranges from them (e.g. TabulatedData/src/ctor.hpp:7-10). -/
def ownRanges (L : Layout) (cls b : Nat) (ws : Words) : List Range :=
  ⟨b, 0, ws.length⟩ :: (L cls ws).map (fun p => ⟨b, p.1, p.2⟩)

/-- `generateData( base )` and `if ( owner() ) generateBlocks()`:
/repo/src/ACEtk/base/Base/src/generateData.hpp:1-15 and the copy/move operations of
every composite class, e.g. /repo/src/ACEtk/base/TabulatedData/src/ctor.hpp:3-21,59-86.
An owner uses its own vector, a view copies the iterators of the source. -/
def generate (L : Layout) (cls : Nat) (own : Option (Option Nat)) (words : Words)
    (source : List Range) : List Range :=
  match own with
  | some (some b) => ownRanges L cls b words
  | some none => source
  | none => source

/-- Free the vector of an object. -/
def freeOwn (heap : Nat → Option Words) (own : Option (Option Nat)) : Nat → Option Words :=
  match own with
  | some (some b) => upd heap b none
  | _ => heap

/-- The operations of a history, on object names. -/
inductive Op where
  | make (i cls : Nat) (ws : Words)
  | copyCtor (i j : Nat)
  | moveCtor (i j : Nat)
  | copyAssign (i j : Nat)
  | moveAssign (i j : Nat)
  | destroy (i : Nat)
  | view (i j cls : Nat) (rs : List Range)
deriving DecidableEq, Repr

/-- Is `r` a part of `r0`? -/
def Range.inside (r r0 : Range) : Bool :=
  r.buf == r0.buf && decide (r0.off ≤ r.off) && decide (r.off + r.len ≤ r0.off + r0.len)

/-- Construction of object `i` as a copy of `o`: `xss_( base.xss_ )` then
`generateData`, /repo/src/ACEtk/base/Base/src/ctor.hpp:3-7 (and 28-37 for the
assignment). Copying an owner that was moved from is outside of the model
(its class would rebuild its sub blocks from an empty vector). -/
def copyInto (L : Layout) (m : Mem) (i : Nat) (o : Obj) : Option Mem :=
  match o.own with
  | none =>
      some { m with objs := upd m.objs i (some ⟨o.cls, none, generate L o.cls none [] o.ranges⟩) }
  | some none => none
  | some (some b) =>
      match m.heap b with
      | none => none
      | some ws =>
          let b' := m.next
          some { heap := upd m.heap b' (some ws)
                 next := m.next + 1
                 objs := upd m.objs i
                   (some ⟨o.cls, some (some b'), generate L o.cls (some (some b')) ws o.ranges⟩) }

/-- What is left of an object that was moved from: the members `begin_` and `end_`
are not touched (Base/src/ctor.hpp:9-13), an engaged optional stays engaged with an empty
vector, and the members that hold the sub objects are moved as well, so that the sub
ranges are gone (e.g. /repo/src/ACEtk/base/BlockWithLocators/src/ctor.hpp:29-39).
Simplification: a sub object that is a direct member keeps its iterators in C++. -/
def Obj.movedFrom (o : Obj) : Obj :=
  { o with own := o.own.map (fun _ => none), ranges := o.ranges.take 1 }

/-- Construction of object `i` by moving from object `j`: `xss_( std::move( base.xss_ ) )`
then `generateData`, /repo/src/ACEtk/base/Base/src/ctor.hpp:9-13 (and 39-48). -/
def moveInto (L : Layout) (m : Mem) (i j : Nat) (o : Obj) : Option Mem :=
  match o.own with
  | none =>
      some { m with
             objs := upd (upd m.objs j (some o.movedFrom)) i
               (some ⟨o.cls, none, generate L o.cls none [] o.ranges⟩) }
  | some none => none
  | some (some b) =>
      match m.heap b with
      | none => none
      | some ws =>
          some { m with
                 objs := upd (upd m.objs j (some o.movedFrom)) i
                   (some ⟨o.cls, some (some b), generate L o.cls (some (some b)) ws o.ranges⟩) }

/-- One operation; `none` means that the history is not a valid C++ history (a name
is reused while alive, an absent object is used, a moved-from owner is copied, an
assignment between different classes). Construction from values is
/repo/src/ACEtk/base/Base/src/ctor.hpp:20-26, a view is 15-18, self assignment is a
no-op (28-30, 39-41). -/
def step (L : Layout) (m : Mem) : Op → Option Mem
  | .make i cls ws =>
      match m.objs i with
      | some _ => none
      | none =>
          let b := m.next
          some { heap := upd m.heap b (some ws)
                 next := m.next + 1
                 objs := upd m.objs i
                   (some ⟨cls, some (some b), generate L cls (some (some b)) ws []⟩) }
  | .copyCtor i j =>
      match m.objs i, m.objs j with
      | none, some o => copyInto L m i o
      | _, _ => none
  | .moveCtor i j =>
      match m.objs i, m.objs j with
      | none, some o => moveInto L m i j o
      | _, _ => none
  | .copyAssign i j =>
      match m.objs i, m.objs j with
      | some t, some o =>
          if i = j then some m
          else if t.cls = o.cls then
            (copyInto L m i o).map (fun m' => { m' with heap := freeOwn m'.heap t.own })
          else none
      | _, _ => none
  | .moveAssign i j =>
      match m.objs i, m.objs j with
      | some t, some o =>
          if i = j then some m
          else if t.cls = o.cls then
            (moveInto L m i j o).map (fun m' => { m' with heap := freeOwn m'.heap t.own })
          else none
      | _, _ => none
  | .destroy i =>
      match m.objs i with
      | some o => some { m with heap := freeOwn m.heap o.own, objs := upd m.objs i none }
      | none => none
  | .view i j cls rs =>
      match m.objs i, m.objs j with
      | none, some o =>
          if rs.all (fun r => o.ranges.any (fun r0 => r.inside r0)) then
            some { m with objs := upd m.objs i (some ⟨cls, none, rs⟩) }
          else none
      | _, _ => none

/-- A history. -/
def run (L : Layout) (m : Mem) : List Op → Option Mem
  | [] => some m
  | op :: ops => (step L m op).bind (fun m' => run L m' ops)

/-- The operations of a history in which tables are also edited. -/
inductive OpW where
  | plain (op : Op)
  | write (j pos : Nat) (v : Dbl)
deriving DecidableEq, Repr

/-- The assignment `data().XSS( pos + 1 ) = v` of a table through the reference of the mutable accessors,
/repo/src/ACEtk/Table.hpp:65-68 and Table/Data.hpp:69-72,167-175 (`using Table::data` makes them public in the
typed tables, e.g. ContinuousEnergyTable.hpp:86): the word is changed in place, no iterator is invalidated and no
block is read again. A position behind the end is an index error, which ends the history. Simplification: the
vector is not resized. -/
def writeWord (m : Mem) (j pos : Nat) (v : Dbl) : Option Mem :=
  match m.objs j with
  | none => none
  | some o =>
      match o.own with
      | some (some b) =>
          match m.heap b with
          | some ws => if pos < ws.length then some { m with heap := upd m.heap b (some (ws.set pos v)) } else none
          | none => none
      | _ => none

/-- One operation of a history with edits. -/
def stepW (L : Layout) (m : Mem) : OpW → Option Mem
  | .plain op => step L m op
  | .write j pos v => writeWord m j pos v

/-- A history with edits. -/
def runW (L : Layout) (m : Mem) : List OpW → Option Mem
  | [] => some m
  | op :: ops => (stepW L m op).bind (fun m' => runW L m' ops)

end ACE.Memory

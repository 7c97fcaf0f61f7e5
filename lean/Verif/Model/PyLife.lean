import Verif.Model.Core

/-!
# Life of the objects a Python program holds

The Python classes are made by pybind11 (/repo/python/src). An object of Python holds a C++ object of
its own, or refers to a part of another one and keeps that one alive. It is destroyed when neither a
name of the program nor a living object refers to it. The words a block or a range reads are those of
a table or of a block made from values, the owner; nothing but the keep-alive link prevents the owner
from being destroyed.

How the attributes are returned (no binding names a `return_value_policy` or a `keep_alive`, so these
are the rules of pybind11; they and `tools/views/views-python.hpp` are not in /repo):
* a property given as a pointer to a member function that returns a reference (`&Table::ESZ`,
  ContinuousEnergyTable.python.cpp:283; `&Block::data`, continuous/CrossSectionBlock.python.cpp:82, each
  element of the list): a reference to the part, the object asked is kept alive (`part`);
* a method that returns a reference (`&Table::HPD`, ContinuousEnergyTable.python.cpp:532;
  `&Block::crossSectionData`, continuous/CrossSectionBlock.python.cpp:88): a copy of the block. A block of
  a table is a view, its copy reads the words of the same owner
  (/repo/src/ACEtk/base/Base/src/ctor.hpp:3-7) and nothing is kept alive (`item`);
* a function that returns a range (`-> DoubleRange`, continuous/PrincipalCrossSectionBlock.python.cpp:71,
  definitions.hpp:115,134): the range is moved into the Python object, nothing is kept alive (`range`).

Simplification: words are not edited (Python has no access to them), a copy of a block made from
values, which would be an owner, is not among the operations, and numbers and strings, which are
copied, are not objects.
-/

namespace ACE.PyLife
open ACE

/-- An object of Python. -/
structure Obj where
  /-- A name of the program refers to it. -/
  held : Bool
  /-- The object it keeps alive. -/
  keeps : Option Nat
  /-- The object that owns the words it reads (itself for a table). -/
  owner : Nat
  /-- The part of the words of the owner. -/
  off : Nat
  len : Nat
  /-- The words of an owner. -/
  words : Words
deriving DecidableEq

/-- All objects made, the number of an object is its position. -/
abbrev State := List Obj

/-- An object, the one it keeps alive, the one that keeps alive, ... (the first argument bounds the
length; an object keeps an earlier one). -/
def chain (s : State) : Nat → Nat → List Nat
  | 0, _ => []
  | n + 1, x => x :: (match (s[x]?).bind Obj.keeps with
    | some p => chain s n p
    | none => [])

/-- Has the object not been destroyed? Some name refers to it or to an object that keeps it alive. -/
def alive (s : State) (x : Nat) : Bool :=
  (List.range s.length).any fun y =>
    (match s[y]? with | some o => o.held | none => false) && (chain s s.length y).contains x

/-- The words an object reads: undefined behaviour when their owner has been destroyed. -/
def read (s : State) (x : Nat) : Res Words :=
  match s[x]? with
  | none => .error .thrown
  | some o =>
    if alive s o.owner then
      match s[o.owner]? with
      | some w => sub w.words o.off (o.off + o.len)
      | none => .error .ub
    else .error .ub

/-- The operations of a program. -/
inductive Op where
  /-- A table is read or made, or a block is made from values. -/
  | make (ws : Words)
  /-- A property that refers to a part. -/
  | part (x off len : Nat)
  /-- A method that copies a block. -/
  | item (x off len : Nat)
  /-- A range. -/
  | range (x off len : Nat)
  /-- The values of an object are used. -/
  | use (x : Nat)
  /-- The name of an object goes away. -/
  | drop (x : Nat)
deriving DecidableEq

/-- An object obtained from `x`; the part has to lie inside of the part of `x`. An object without a
name cannot be used (an exception); making a block reads its words. -/
def obtain' (s : State) (x off len : Nat) (keep : Bool) : Res State :=
  match s[x]? with
  | none => .error .thrown
  | some o =>
    if o.held && decide (o.off ≤ off) && decide (off + len ≤ o.off + o.len) then do
      let _ ← read s x
      .ok (s ++ [⟨true, if keep then some x else none, o.owner, off, len, []⟩])
    else .error .thrown

/-- One operation. -/
def step (s : State) : Op → Res State
  | .make ws => .ok (s ++ [⟨true, none, s.length, 0, ws.length, ws⟩])
  | .part x off len => obtain' s x off len true
  | .item x off len => obtain' s x off len false
  | .range x off len => obtain' s x off len false
  | .use x =>
    match s[x]? with
    | none => .error .thrown
    | some o => if o.held then do let _ ← read s x; .ok s else .error .thrown
  | .drop x =>
    match s[x]? with
    | none => .error .thrown
    | some o => .ok (s.set x { o with held := false })

/-- A program. -/
def run (s : State) : List Op → Res State
  | [] => .ok s
  | op :: ops => do run (← step s op) ops

end ACE.PyLife

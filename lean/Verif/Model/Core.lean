/-!
# Core of the model: doubles, outcomes and `base::Base`

Everything in ACEtk is a range of `double`s. This file models the values, the
outcomes of a call, and the accessors of `base::Base`
(`/repo/src/ACEtk/base/Base.hpp`).
-/

namespace ACE

/-- How a call that does not return can end.

* `thrown` : an exception, in every build;
* `range`  : a `verifyIndex` style check fails: `std::out_of_range` when the
  check is compiled in (`NDEBUG` not defined), undefined behaviour otherwise;
* `ub`     : undefined behaviour in every build (iterator outside of the range
  of the block, `front()` of an empty vector, unrepresentable conversion);
* `endless` : the call never returns (or only when memory runs out). -/
inductive Err where
  | thrown
  | range
  | ub
  | endless
deriving DecidableEq, Repr

/-- Outcome of a C++ call. -/
abbrev Res (α : Type) := Except Err α

instance instDecidableEqRes {α : Type} [DecidableEq α] : DecidableEq (Except Err α)
  | .ok a, .ok b => if h : a = b then .isTrue (by rw [h]) else .isFalse (fun h' => h (by injection h'))
  | .error a, .error b =>
      if h : a = b then .isTrue (by rw [h]) else .isFalse (fun h' => h (by injection h'))
  | .ok _, .error _ => .isFalse (fun h => by cases h)
  | .error _, .ok _ => .isFalse (fun h => by cases h)

/-- A `double`: `(-1)^neg * man * 2^exp`, an infinity or a NaN.
Simplification: mantissa and exponent are unbounded, so every 64-bit double is
represented but not every `Dbl` is a 64-bit double. -/
inductive Dbl where
  | fin (neg : Bool) (man : Nat) (exp : Int)
  | inf (neg : Bool)
  | nan
deriving DecidableEq, Repr

namespace Dbl

/-- `static_cast< double >( n )` for an integer. Exact in C++ for
`|n| ≤ 2^53`; exact for every `n` here (simplification). -/
def ofInt (n : Int) : Dbl := .fin (decide (n < 0)) n.natAbs 0

/-- `static_cast< double >( n )` for an unsigned integer. -/
def ofNat (n : Nat) : Dbl := ofInt (n : Int)

/-- Magnitude of `man * 2^exp` rounded to the nearest integer, halfway cases
away from zero (`std::round`). -/
def roundMag (man : Nat) (exp : Int) : Nat :=
  if 0 ≤ exp then man * 2 ^ exp.toNat
  else (2 * man + 2 ^ (-exp).toNat) / 2 ^ ((-exp).toNat + 1)

/-- Magnitude of `man * 2^exp` rounded towards zero (`static_cast` to an
integer type). -/
def truncMag (man : Nat) (exp : Int) : Nat :=
  if 0 ≤ exp then man * 2 ^ exp.toNat else man / 2 ^ (-exp).toNat

/-- Attach a sign. -/
def signed (neg : Bool) (m : Nat) : Int := if neg then -(m : Int) else (m : Int)

/-- `std::round( x )` as a mathematical integer (`none` for infinities, NaN). -/
def round? : Dbl → Option Int
  | .fin s m e => some (signed s (roundMag m e))
  | _ => none

/-- `std::trunc( x )` as a mathematical integer (`none` for infinities, NaN). -/
def trunc? : Dbl → Option Int
  | .fin s m e => some (signed s (truncMag m e))
  | _ => none

/-- `x < 0.` -/
def isNeg : Dbl → Bool
  | .fin s m _ => s && m != 0
  | .inf s => s
  | .nan => false

/-- `x >= n` where the unsigned integer `n` is converted to `double`. -/
def geNat : Dbl → Nat → Bool
  | .fin false m e, n => if 0 ≤ e then n ≤ m * 2 ^ e.toNat else n * 2 ^ (-e).toNat ≤ m
  | .fin true m _, n => m == 0 && n == 0
  | .inf s, _ => !s
  | .nan, _ => false

/-- `x == n` where the integer `n` is converted to `double`. -/
def eqInt : Dbl → Int → Bool
  | .fin s m e, n =>
      if 0 ≤ e then signed s (m * 2 ^ e.toNat) == n
      else signed s m == n * 2 ^ (-e).toNat
  | _, _ => false

end Dbl

/-- A sequence of words of an XSS array. -/
abbrev Words := List Dbl

/-- `static_cast< int >` of an integer valued double: undefined when the value
is not finite or does not fit 32 bits. -/
def toInt32 : Option Int → Res Int
  | some i => if -2147483648 ≤ i ∧ i ≤ 2147483647 then .ok i else .error .ub
  | none => .error .ub

/-- `static_cast< std::size_t >` of an integer valued double: undefined when
the value is not finite, negative or does not fit 64 bits. -/
def toSize : Option Int → Res Nat
  | some i => if 0 ≤ i ∧ i < 18446744073709551616 then .ok i.toNat else .error .ub
  | none => .error .ub

/-- Implicit conversion of an `int` to `std::size_t` (modulo 2^64). -/
def sizeOfInt (i : Int) : Nat := (i % 18446744073709551616).toNat

/-- The sub range `[l, r)` of a range, zero based. A range that leaves the
block is undefined behaviour. Simplification: so is a reversed range, which a
size check of the reader may still reject with an exception. -/
def sub (xs : Words) (l r : Nat) : Res Words :=
  if l ≤ r ∧ r ≤ xs.length then .ok ((xs.drop l).take (r - l)) else .error .ub

/-- `*( begin + i )`, zero based. -/
def deref (xs : Words) (i : Nat) : Res Dbl :=
  match xs[i]? with
  | some d => .ok d
  | none => .error .ub

/-- A check that throws `std::exception` (never compiled out). -/
def guardThrow (c : Bool) : Res Unit := if c then .ok () else .error .thrown

/-- `( i - 1 ) * n + k` in `std::size_t`: for `i = 0` the difference wraps around. Simplification: for `i > 0` the
position is not reduced modulo 2^64 (it reaches 2^64 only for indices beyond the size of any block). -/
def position (i n k : Nat) : Nat := if i = 0 then sizeOfInt ((k : Int) - n) else (i - 1) * n + k

namespace Base

/-- `Base::verifyIndex`, /repo/src/ACEtk/base/Base/src/verifyIndex.hpp:1-13. -/
def verifyIndex (index min max : Nat) : Res Unit :=
  if index < min ∨ index > max then .error .range else .ok ()

/-- `Base::iterator`, /repo/src/ACEtk/base/Base.hpp:90-97. The result is the
zero based offset of the iterator from `begin()`. -/
def iterator (xs : Words) (index : Nat) : Res Nat := do
  verifyIndex index 1 (xs.length + 1)
  return index - 1

/-- `Base::XSS( index )`, /repo/src/ACEtk/base/Base.hpp:115-121. -/
def XSS (xs : Words) (index : Nat) : Res Dbl := do
  verifyIndex index 1 xs.length
  deref xs (index - 1)

/-- `Base::IXSS( index )`, /repo/src/ACEtk/base/Base.hpp:131-134. -/
def IXSS (xs : Words) (index : Nat) : Res Int := do
  toInt32 (← XSS xs index).round?

/-- `Base::XSS( index, length )`, /repo/src/ACEtk/base/Base.hpp:145-151. -/
def XSSr (xs : Words) (index length : Nat) : Res Words := do
  let left ← iterator xs index
  let right ← if length > 0 then (do return (← iterator xs (index + length - 1)) + 1)
              else pure left
  sub xs left right

/-- `Base::IXSS( index, length )`, /repo/src/ACEtk/base/Base.hpp:163-172: the
lazily rounded view, evaluated for all its elements. -/
def IXSSr (xs : Words) (index length : Nat) : Res (List Int) := do
  let ws ← XSSr xs index length
  ws.mapM (fun d => toInt32 d.round?)

end Base
end ACE

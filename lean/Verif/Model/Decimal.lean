import Verif.Model.Text

/-!
# Decimal numbers

The usual conversions between doubles and text (`printf` and `strtod`, which disco and the standard streams
follow): writing rounds the exact value to the nearest decimal (ties to even), reading rounds the exact
decimal to the nearest double (ties to even). Nothing of this is in /repo; it is the concrete `Formats` for
which the theorems about text are instantiated. Simplification: the exponent of a double is not bounded, so
nothing underflows or overflows.
-/

namespace ACE
namespace Decimal
open Text

/-- `a / b` rounded to the nearest integer, ties to even. -/
def roundDiv (a b : Nat) : Nat :=
  if 2 * (a % b) < b then a / b
  else if b < 2 * (a % b) then a / b + 1
  else a / b + a / b % 2

/-- `man * 2^exp` as a fraction. -/
def fraction (man : Nat) (exp : Int) : Nat × Nat :=
  if 0 ≤ exp then (man * 2 ^ exp.toNat, 1) else (man, 2 ^ (-exp).toNat)

/-- A sign. -/
def sign (neg : Bool) : Str := if neg then ['-'] else []

/-- `%.pf`. -/
def fixed (p : Nat) : Dbl → Str
  | .fin neg man exp =>
      let v := fraction man exp
      let n := roundDiv (v.1 * 10 ^ p) v.2
      sign neg ++ ofNat (n / 10 ^ p) ++ ['.'] ++ digits p n
  | .inf neg => sign neg ++ "inf".toList
  | .nan => "nan".toList

/-- The smallest `k` with `b ≤ a * 10^k`, looking at most `fuel` steps further. -/
def zeros : Nat → Nat → Nat → Nat
  | 0, _, _ => 0
  | fuel + 1, a, b => if b ≤ a then 0 else zeros fuel (a * 10) b + 1

/-- The decimal exponent of `a / b`. -/
def exponent (a b : Nat) : Int :=
  if b ≤ a then ((numDigits (a / b) - 1 : Nat) : Int) else -(zeros b a b : Int)

/-- `a / b * 10^(p - e)` rounded. -/
def scaled (p : Nat) (e : Int) (a b : Nat) : Nat :=
  if e ≤ p then roundDiv (a * 10 ^ ((p : Int) - e).toNat) b else roundDiv a (b * 10 ^ (e - (p : Int)).toNat)

/-- The digits and the exponent of `a / b` with `p` decimals. -/
def mantissa (p : Nat) (a b : Nat) : Nat × Int :=
  let e := exponent a b
  let n := scaled p e a b
  if n = 10 ^ (p + 1) then (10 ^ p, e + 1) else (n, e)

/-- The exponent with its sign and at least two digits. -/
def exponentText (e : Int) : Str :=
  (if e < 0 then ['-'] else ['+']) ++ (if e.natAbs < 100 then digits 2 e.natAbs else ofNat e.natAbs)

/-- The digits and exponent of zero or another value. -/
def significant (p : Nat) (man : Nat) (exp : Int) : Nat × Int :=
  if man = 0 then (0, 0) else mantissa p (fraction man exp).1 (fraction man exp).2

/-- `%.pe`. -/
def sci (c : Char) (p : Nat) : Dbl → Str
  | .fin neg man exp =>
      let r := significant p man exp
      sign neg ++ digits 1 (r.1 / 10 ^ p) ++ ['.'] ++ digits p r.1 ++ [c] ++ exponentText r.2
  | .inf neg => sign neg ++ "inf".toList
  | .nan => "nan".toList

/-- The binary exponent with which `a / b` has 53 bits. -/
def binary (a b : Nat) : Int :=
  let e := (a.log2 : Int) - (b.log2 : Int) - 52
  if (fraction 1 e).1 * b * 2 ^ 52 ≤ a * (fraction 1 e).2 then e else e - 1

/-- The double that is nearest to `a / b`: integers are kept with exponent 0. -/
def nearest (neg : Bool) (a b : Nat) : Dbl :=
  if a % b = 0 ∧ a / b < 2 ^ 53 then .fin neg (a / b) 0
  else
    let e := binary a b
    .fin neg (roundDiv (a * (fraction 1 e).2) (b * (fraction 1 e).1)) e

/-- `d * 10^q`. -/
def ofDecimal (neg : Bool) (d : Nat) (q : Int) : Dbl :=
  if 0 ≤ q then nearest neg (d * 10 ^ q.toNat) 1 else nearest neg d (10 ^ (-q).toNat)

/-- The exponent of a number: none, or a character, a sign and digits. -/
def readExponent : Str → Option Int
  | [] => some 0
  | _ :: '-' :: s => (allDigits s).map fun n : Nat => -(n : Int)
  | _ :: '+' :: s => (allDigits s).map fun n : Nat => (n : Int)
  | _ :: s => (allDigits s).map fun n : Nat => (n : Int)

/-- The digits behind a decimal point and what follows. -/
def readDecimals : Str → Str × Str
  | '.' :: s => (s.takeWhile (·.isDigit), s.dropWhile (·.isDigit))
  | s => ([], s)

/-- A number without sign. -/
def unsigned (neg : Bool) (s : Str) : Option Dbl :=
  let i := s.takeWhile (·.isDigit)
  let f := readDecimals (s.dropWhile (·.isDigit))
  if i ++ f.1 = [] then none
  else match readExponent f.2 with
    | some e => some (ofDecimal neg (Text.toNat (i ++ f.1)) (e - (f.1.length : Int)))
    | none => none

/-- `strtod` of a number without white space. -/
def value : Str → Option Dbl
  | '-' :: s => unsigned true s
  | '+' :: s => unsigned false s
  | s => unsigned false s

/-- The formats. -/
def std : Formats := ⟨fixed, sci, value⟩

end Decimal
end ACE

import Verif.Model.TableData

/-!
# Table types and target identification

`verifyType` of the five table classes and `ContinuousEnergyTable::setSZA`. Strings are lists of
characters.
-/

namespace ACE

/-- The five table classes. -/
inductive TableType where
  | continuousEnergy
  | dosimetry
  | photoatomic
  | photonuclear
  | thermal
deriving DecidableEq, Repr

namespace TableType

/-- The condition of `verifyType` on the last character:
/repo/src/ACEtk/ContinuousEnergyTable/src/verifyType.hpp:4-5, DosimetryTable/src/verifyType.hpp:4,
PhotoatomicTable/src/verifyType.hpp:4, PhotonuclearTable/src/verifyType.hpp:4,
ThermalScatteringTable/src/verifyType.hpp:4 (`true` when it throws). -/
def refuses : TableType → Char → Bool
  | .continuousEnergy, type =>
      type != 'c' && type != 'h' && type != 'o' && type != 'r' && type != 's' && type != 'a'
  | .dosimetry, type => type != 'y'
  | .photoatomic, type => type != 'p'
  | .photonuclear, type => type != 'u'
  | .thermal, type => type != 't'

/-- `verifyType`, same files, lines 1-12. `back()` of an empty string is undefined. -/
def verifyType (t : TableType) (zaid : List Char) : Res Unit :=
  match zaid.getLast? with
  | none => .error .ub
  | some c => guardThrow (!t.refuses c)

end TableType

namespace Ident

/-- `std::isspace` in the "C" locale. -/
def isSpace (c : Char) : Bool :=
  c = ' ' ∨ c = '\t' ∨ c = '\n' ∨ c = '\x0b' ∨ c = '\x0c' ∨ c = '\r'

/-- The value of the leading digits, continuing from `v`. -/
def digits : List Char → Nat → Nat
  | [], v => v
  | c :: cs, v => if c.isDigit then digits cs (10 * v + (c.toNat - '0'.toNat)) else v

/-- A number without sign: `std::invalid_argument` without digits. -/
def number (neg : Bool) (cs : List Char) : Res Int :=
  match cs with
  | c :: _ =>
      if c.isDigit then
        let v : Int := if neg then -(digits cs 0 : Int) else (digits cs 0 : Int)
        if -2147483648 ≤ v ∧ v ≤ 2147483647 then .ok v else .error .thrown
      else .error .thrown
  | [] => .error .thrown

/-- `std::stoi` of the C++ library: white space, a sign, digits; anything may follow;
`std::out_of_range` when the value does not fit. -/
def stoi (s : List Char) : Res Int :=
  match s.dropWhile isSpace with
  | '-' :: cs => number true cs
  | '+' :: cs => number false cs
  | cs => number false cs

/-- `zaid.substr( 0, zaid.size() - 4 )`, ContinuousEnergyTable/src/setSZA.hpp:10: a shorter string
is taken as a whole (the subtraction wraps around). -/
def target (zaid : List Char) : List Char :=
  if zaid.length < 4 then zaid else zaid.take (zaid.length - 4)

/-- The approximate mass number, ContinuousEnergyTable/src/setSZA.hpp:24-25:
`round( ( 0.0064 z + 2.0009 ) z - 0.281 )`, computed exactly. For `z < 1000` the value is never
within 0.0001 of a halfway case (`estimate_not_halfway`), so the rounding of the double
computation does not matter. -/
def estimate (z : Nat) : Nat := (64 * z * z + 20009 * z + 5000 - 2810) / 10000

/-- The while loop of ContinuousEnergyTable/src/setSZA.hpp:31-35. -/
def lower (estimate a s : Nat) : Nat × Nat :=
  if a > 100 ∧ a > estimate + 40 then lower estimate (a - 100) (s + 1) else (a, s)
termination_by a

/-- The isomer rules of ContinuousEnergyTable/src/setSZA.hpp:27-36. -/
def unfoldIsomer (estimate a s : Nat) : Nat × Nat :=
  if a > 400 ∧ a > estimate + 40 then lower estimate (a - 400) 1 else (a, s)

/-- The exception for Am242, ContinuousEnergyTable/src/setSZA.hpp:40-46. -/
def americium (z a s : Nat) : Nat :=
  if z = 95 ∧ a = 242 ∧ s < 2 then (if s = 0 then 1 else 0) else s

/-- (S, Z, A) from the integer before the suffix (an `unsigned int`),
ContinuousEnergyTable/src/setSZA.hpp:11-47. -/
def derive (za : Nat) : Nat × Nat × Nat :=
  let a := za % 1000
  let z := (za - a) / 1000
  let zs := if z > 999 then (z % 1000, (z - z % 1000) / 1000) else (z, 0)
  if zs.1 ≠ 999 then
    let as := unfoldIsomer (estimate zs.1) a zs.2
    (americium zs.1 as.1 as.2, zs.1, as.1)
  else (zs.2, zs.1, a)

end Ident

/-- `setSZA`, /repo/src/ACEtk/ContinuousEnergyTable/src/setSZA.hpp:1-53. -/
def TableData.setSZA (d : TableData) (zaid : List Char) : Res TableData := do
  if (← d.NXS 9) = 0 ∧ (← d.NXS 10) = 0 ∧ (← d.NXS 11) = 0 then
    let za ← Ident.stoi (Ident.target zaid)
    let sza := Ident.derive (za % 4294967296).toNat
    ((← d.setNXS 9 sza.1).setNXS 10 sza.2.1) >>= fun d => d.setNXS 11 sza.2.2
  else return d

end ACE

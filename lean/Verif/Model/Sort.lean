import Verif.Model.Core

/-!
# `std::sort` by a key

`std::sort` with the comparator `key( left ) < key( right )` returns a permutation in which no
later key is less than an earlier one. The order of equal keys is not specified; with a NaN among
the keys the behaviour is undefined. The model takes the sorting function as a parameter, so
theorems hold for every function that `std::sort` may be.
-/

namespace ACE

/-- `a < b` for doubles. -/
def Dbl.lt : Dbl → Dbl → Bool
  | .fin s m e, .fin t n f =>
      decide (Dbl.signed s (m * 2 ^ (e - min e f).toNat) < Dbl.signed t (n * 2 ^ (f - min e f).toNat))
  | .fin _ _ _, .inf t => !t
  | .inf s, .fin _ _ _ => s
  | .inf s, .inf t => s && !t
  | _, _ => false

/-- What `std::sort` guarantees about its result `order` for the list `l`. -/
def IsSort {α : Type} (key : α → Dbl) (l order : List α) : Prop :=
  order.Perm l ∧ order.Pairwise (fun a b => (key b).lt (key a) = false)

/-- A function that `std::sort` with the comparator on `key` may be. -/
structure StdSort {α : Type} (key : α → Dbl) where
  run : List α → List α
  spec : ∀ l, (∀ x ∈ l, key x ≠ .nan) → IsSort key l (run l)

end ACE

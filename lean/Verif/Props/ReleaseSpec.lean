import Verif.Model.Core

/-!
# What it means that the release build does the same

Small and independent of the proofs. `r` is how a call ends in a program compiled without `NDEBUG`,
`r'` how it ends in the same program compiled with `NDEBUG`.
-/

namespace ACE.Release

/-- The release build ends as the debug build (with the same value, or with the same exception)
unless an index check of the debug build fails or its behaviour is undefined. -/
def Keeps {α : Type} (r r' : Res α) : Prop := r = .error .range ∨ r = .error .ub ∨ r' = r

/-- No index check fails (nothing throws `std::out_of_range`). -/
def Never {α : Type} (r : Res α) : Prop := r ≠ .error .range

/-- Both. -/
structure Compares {α : Type} (debug release : Res α) : Prop where
  keeps : Keeps debug release
  never : Never release

end ACE.Release

import Verif.Model.Ident
import Verif.Lemmas.Core

/-!
# C37: a table type accepts exactly its own ZAID suffixes
-/

namespace ACE.Props
open ACE

/-- The class letters of each table type. -/
def classLetters : TableType → List Char
  | .continuousEnergy => ['c', 'h', 'o', 'r', 's', 'a']
  | .dosimetry => ['y']
  | .photoatomic => ['p']
  | .photonuclear => ['u']
  | .thermal => ['t']

/-- A ZAID is accepted exactly when its last character is a class letter; otherwise an exception is
thrown. -/
theorem C37_accepts (t : TableType) (zaid : List Char) (c : Char) :
    (c ∈ classLetters t → t.verifyType (zaid ++ [c]) = .ok ()) ∧
    (c ∉ classLetters t → t.verifyType (zaid ++ [c]) = .error .thrown) := by
  unfold TableType.verifyType
  rw [List.getLast?_append]
  simp only [List.getLast?_singleton, Option.some_or]
  cases t <;> simp only [classLetters, TableType.refuses, List.mem_cons, List.not_mem_nil, or_false] <;>
    refine ⟨fun h => ?_, fun h => ?_⟩
  all_goals first
    | (simp only [not_or] at h; simp [guardThrow, h]; done)
    | (simp [guardThrow, h]; done)
    | (rcases h with h | h | h | h | h | h <;> subst h <;> rfl)
    | (subst h; rfl)

/-- No ZAID is accepted by two table types. -/
theorem C37_exclusive (t u : TableType) (zaid : List Char) (ht : t.verifyType zaid = .ok ())
    (hu : u.verifyType zaid = .ok ()) : t = u := by
  unfold TableType.verifyType at ht hu
  cases hz : zaid.getLast? with
  | none => rw [hz] at ht; simp at ht
  | some c =>
    simp only [hz, guardThrow] at ht hu
    cases t <;> cases u <;> simp_all [TableType.refuses]
    all_goals first | (subst_vars; simp_all) | skip

example : TableType.continuousEnergy.verifyType "92238.80c".toList = .ok () ∧
    TableType.thermal.verifyType "92238.80c".toList = .error .thrown := by decide

example := C37_exclusive .thermal .thermal "lwtr.10t".toList (by decide) (by decide)

end ACE.Props

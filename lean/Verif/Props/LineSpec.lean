import Verif.Model.Text

/-!
# Specification: the lines of a text

`linesOf s`: the lines of a text, each ended by a newline or by the end of the text. `SameLine`: two lines that differ
in the number of blanks at their ends. `SameLines`: two texts with as many lines, one by one the same up to such
blanks; the last newline can be missing.
-/

namespace ACE
open Text

/-- The lines of a text. -/
def linesOf : Str → List Str
  | [] => []
  | c :: s => if c = newline then [] :: linesOf s else
      match linesOf s with
      | [] => [[c]]
      | l :: m => (c :: l) :: m

/-- Two lines that differ in the number of blanks at their ends. -/
def SameLine (l l' : Str) : Prop := ∃ a b, l ++ List.replicate a ' ' = l' ++ List.replicate b ' '

/-- Two texts whose lines differ in the number of blanks at their ends. -/
def SameLines (s s' : Str) : Prop := (linesOf s).length = (linesOf s').length ∧
  ∀ (i : Nat) (l l' : Str), (linesOf s)[i]? = some l → (linesOf s')[i]? = some l' → SameLine l l'

end ACE

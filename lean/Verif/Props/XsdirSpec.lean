import Verif.Lemmas.Xsdir

/-!
# What xsdir files look like

A description of the texts that the theorems of C44 and C50 are about.
-/

namespace ACE.Props
open ACE ACE.Text

/-- A line without characters or a comment line. -/
def IsNoise (line : Str) : Prop := newline ∉ line ∧ (line = [] ∨ line.head? = some '#')

/-- The text of lines. -/
def linesText (lines : List Str) : Str := (lines.map (· ++ [newline])).flatten

/-- A line that says something. -/
def IsLine (line : Str) : Prop := newline ∉ line ∧ line ≠ [] ∧ line.head? ≠ some '#'

/-- A text from which an entry is read, wherever it is in a stream: the stream is then behind it. (`C42_read`
shows that the printed form of an entry is such a text.) -/
structure EntryText (F : Formats) (text : Str) (e : XsdirEntry) : Prop where
  first : ∃ line rest, text = line ++ newline :: rest ∧ IsLine line
  read : ∀ before rest : Str, XsdirEntry.parse F ⟨before ++ (text ++ rest), before.length, false, false⟩ =
    .ok (some e, ⟨before ++ (text ++ rest), before.length + text.length, false, false⟩)

/-- Entries, each followed by lines that say nothing. -/
def entriesText : List (Str × List Str) → Str
  | [] => []
  | (text, noise) :: l => text ++ linesText noise ++ entriesText l

/-- The words of pairs of a ZA number and an atomic weight ratio, which is written as `w`. -/
def pairWords : List (Nat × Str × Dbl) → List Str
  | [] => []
  | (za, w, _) :: l => ofNat za :: w :: pairWords l

/-- The pairs of a line: reals written in any number of characters, none of them an upper case letter. -/
structure PairLine (F : Formats) (line : Str) (ps : List (Nat × Str × Dbl)) : Prop where
  says : IsLine line
  content : words line = pairWords ps
  some : ps ≠ []
  pairs : ∀ p ∈ ps, p.1 < 2 ^ 32 ∧ Written F p.2.1.length p.2.1 p.2.2
  lower : ∀ c ∈ line, c.toLower = c

/-- Lines with atomic weight ratios, and lines that say nothing. -/
inductive RatioText (F : Formats) : Str → List (Nat × Dbl) → Prop where
  | nil : RatioText F [] []
  | noise (line text : Str) (m : List (Nat × Dbl)) (h : IsNoise line) (ht : RatioText F text m) :
      RatioText F (line ++ newline :: text) m
  | line (line : Str) (ps : List (Nat × Str × Dbl)) (text : Str) (m : List (Nat × Dbl)) (h : PairLine F line ps)
      (ht : RatioText F text m) : RatioText F (line ++ newline :: text) (ps.map (fun p => (p.1, p.2.2)) ++ m)

end ACE.Props

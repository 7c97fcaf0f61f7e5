import Verif.Props.TableSpec

/-!
# Specification: two tables that differ in some words
-/

namespace ACE

/-- The same numbers and locators, and as many words. -/
structure TableData.SameFrame (d d' : TableData) : Prop where
  nxs : d'.nxs = d.nxs
  jxs : d'.jxs = d.jxs
  size : d'.xss.length = d.xss.length

/-- The words at the positions `r.1`, ..., `r.2 - 1` of XSS are the same in both. -/
def TableData.SameWords (d d' : TableData) (r : Nat × Nat) : Prop :=
  ∀ k, r.1 ≤ k → k < r.2 → d'.xss[k]? = d.xss[k]?

/-- The words of a block, if it has a range of words, are the same in both. -/
def TableData.SameBlock (d d' : TableData) (range : Res (Nat × Nat)) : Prop :=
  ∀ r, range = .ok r → d.SameWords d' r

/-- The words of a block of locators and of the data behind it are the same in both. -/
def TableData.SamePair (d d' : TableData) (locators data : Res (Nat × Nat)) : Prop :=
  ∀ r s, locators = .ok r → data = .ok s → d.SameWords d' (r.1, s.2)

/-- The words from the start of one block to the start of another are the same in both. -/
def TableData.SameUpTo (d d' : TableData) (first next : Res (Nat × Nat)) : Prop :=
  ∀ r s, first = .ok r → next = .ok s → d.SameWords d' (r.1, s.1)

/-- The words of the subshell transition data of an electron subshell (EION): the lengths and locators of the `n`
subshells from JXS(23) on, and the words from its locator to that of the next, or to JXS(24). -/
def TableData.SameShell (d d' : TableData) (n index : Nat) : Prop :=
  (∀ o, d.offset 23 = .ok o → d.SameWords d' (o, o + 2 * n)) ∧
  (∀ o start stop, d.offset 23 = .ok o → PA.wordOffset d (o + n + index - 1) = .ok start →
    (if index ≠ n then PA.wordOffset d (o + n + index) else d.offset 24) = .ok stop → d.SameWords d' (start, stop))

end ACE

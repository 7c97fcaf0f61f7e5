import Verif.Model.TableText

/-!
# Specification: a file that ends too early

A program or the machine can stop while a file is written, a disk can be full, a transfer can break off: what is
there is the beginning of the text. `Table.CutLine t t' k`: the table `t'` is `t` except for the numbers of the last
line, of which the first `k` columns are left.
-/

namespace ACE

/-- The same numbers up to the last line of the text, of which `k` columns are left: four words, 20 columns each, or,
for a table without words, eight locators. -/
structure Table.CutLine (t t' : Table) (k : Nat) : Prop where
  header : t'.header = t.header
  iz : t'.data.iz = t.data.iz
  aw : t'.data.aw = t.data.aw
  nxs : t'.data.nxs = t.data.nxs
  size : t'.data.xss.length = t.data.xss.length
  locators : t'.data.jxs.length = t.data.jxs.length ∧ t'.data.jxs.take 24 = t.data.jxs.take 24 ∧
    (t.data.xss ≠ [] → t'.data.jxs = t.data.jxs)
  /-- the words before the last line -/
  before : ∀ i, 4 * (i / 4) + 4 < t.data.xss.length → t'.data.xss[i]? = t.data.xss[i]?
  /-- the words of the last line that are left -/
  kept : ∀ i, 20 * (i % 4) + 20 ≤ k → t'.data.xss[i]? = t.data.xss[i]?
  /-- the words of the last line that are lost -/
  lost : ∀ i, i < t.data.xss.length → t.data.xss.length ≤ 4 * (i / 4) + 4 → k ≤ 20 * (i % 4) →
    t'.data.xss[i]? = some (Dbl.ofNat 0)

end ACE

import Verif.Props.TableSpec

/-!
# Specification: the blocks of a table at other places

The JXS array of a table says where its blocks start. `CE.Moved d d'`: the generic table `d'` has
the same NXS array as `d`, and the words of each block of `d`, wherever the locators of `d'` say.
-/

namespace ACE

/-- The words `ws` are in the XSS array from the word `start` on, where one is the first. -/
def TableData.Has (d : TableData) (start : Nat) (ws : Words) : Prop :=
  start ≠ 0 ∧ start - 1 + ws.length ≤ d.xss.length ∧ ws <+: d.xss.drop (start - 1)

namespace CE

/-- No locator behind `index` points into the `length` words at `start`, except JXS(21), which points
into the cross sections, and JXS(22), which is the last word of the table. -/
def Clear (d : TableData) (index start length : Nat) : Prop :=
  (∀ j, index < j → j ≠ 21 → j ≠ 22 → ∀ v, d.JXS j = .ok v → (start : Int) ≤ v → (start + length : Nat) ≤ v) ∧
  (∀ last, d.JXS 22 = .ok last → (start + length : Nat) ≤ last + 1)

/-- The words `ws` are those from JXS(`index`) on. -/
def Placed (d : TableData) (index : Nat) (ws : Words) : Prop :=
  ∃ start : Nat, d.JXS index = .ok (start : Int) ∧ d.Has start ws ∧ Clear d index start ws.length

/-- The words `ws` are those from JXS(`index`) on, the locators, and the first word of the data,
which JXS(`index + 1`) points to, is `first` words behind the first locator. -/
def PlacedPair (d : TableData) (index : Nat) (ws : Words) (first : Nat) : Prop :=
  ∃ start : Nat, d.JXS index = .ok (start : Int) ∧ d.JXS (index + 1) = .ok ((start + first : Nat) : Int) ∧
    d.Has start ws ∧ first ≤ ws.length ∧ Clear d (index + 1) (start + first) (ws.length - first) ∧
    (∀ last, d.JXS 22 = .ok last → (start + ws.length : Nat) ≤ last + 1)

/-- The blocks of one part. -/
def singles : List Nat := [1, 2, 3, 4, 5, 12, 13, 20, 23, 24, 25]
/-- The blocks of locators, each followed by a block of data. -/
def pairs : List Nat := [6, 8, 10, 14, 16, 18, 26]

/-- The words of each block of `d` are in `d'`, where the locators of `d'` say. -/
structure Moved (d d' : TableData) : Prop where
  /-- the same numbers -/
  nxs : d'.nxs = d.nxs
  /-- the locators of `d'` are in its XSS array, or just behind -/
  inside : d'.jxs.length = 32 ∧ ∀ v ∈ d'.jxs, 0 ≤ v ∧ v ≤ d'.xss.length + 1
  last : ∀ v, d'.JXS 22 = .ok v → v ≤ d'.xss.length
  size : d'.xss.length < 2147483648
  /-- the same blocks are present -/
  present : ∀ i ∈ [2, 23, 24], ∃ v v', d.JXS i = .ok v ∧ d'.JXS i = .ok v' ∧ (v > 0 ↔ v' > 0)
  single : ∀ i ∈ singles, ∀ r ws, block d i = .ok r → d.words r = .ok ws → Placed d' i ws
  pair : ∀ i ∈ pairs, ∀ r s p, block d i = .ok r → block d (i + 1) = .ok s → located d r s = .ok p →
    PlacedPair d' i p.1 p.2

/-- In `d'`, the delayed neutron data are before the photon production data, if there are both. -/
structure MovedInOrder (d d' : TableData) : Prop extends Moved d d' where
  photons : ∀ r s p start gpd, block d 26 = .ok r → block d 27 = .ok s → located d r s = .ok p →
    d'.JXS 26 = .ok start → d'.JXS 12 = .ok gpd → gpd = 0 ∨ start + p.1.length ≤ gpd

end CE

namespace Dosimetry

/-- The words of each block of the dosimetry table `d` are in `d'`, where the locators of `d'` say. -/
structure Moved (d d' : TableData) : Prop where
  /-- the same numbers -/
  nxs : d'.nxs = d.nxs
  /-- the locators of the cross sections are before the cross sections -/
  order : ∀ l s, d.offset 6 = .ok l → d.offset 7 = .ok s → l ≤ s
  mtr : ∀ m l ws, d.offset 3 = .ok m → d.offset 6 = .ok l → sub d.xss m l = .ok ws →
    ∃ start : Nat, d'.JXS 3 = .ok (start : Int) ∧ d'.Has start ws
  sigd : ∀ l s, d.offset 6 = .ok l → d.offset 7 = .ok s →
    ∃ start : Nat, d'.JXS 6 = .ok (start : Int) ∧ d'.JXS 7 = .ok ((start + (s - l) : Nat) : Int) ∧
      d'.Has start (d.xss.drop l)

/-- In `d'`, the reaction numbers are before the cross sections. -/
structure MovedInOrder (d d' : TableData) : Prop extends Moved d d' where
  before : ∀ m l ws start cross, d.offset 3 = .ok m → d.offset 6 = .ok l → sub d.xss m l = .ok ws →
    d'.JXS 3 = .ok start → d'.JXS 6 = .ok cross → start + ws.length ≤ cross

end Dosimetry

namespace TS

/-- No locator behind `index` points into the `length` words at `start`, except the next one if it
points to the cross sections of the same block. -/
def Clear (d : TableData) (index start length : Nat) : Prop :=
  ∀ j, index < j → ¬ (j = index + 1 ∧ index ∈ [1, 4, 7]) → ∀ v, d.JXS j = .ok v → (start : Int) ≤ v →
    (start + length : Nat) ≤ v

/-- The words `ws` are those from JXS(`index`) on. -/
def Placed (d : TableData) (index : Nat) (ws : Words) : Prop :=
  ∃ start : Nat, d.JXS index = .ok (start : Int) ∧ d.Has start ws ∧ Clear d index start ws.length

/-- The words of each block of the thermal scattering table `d` are in `d'`, where the locators of
`d'` say. -/
structure Moved (d d' : TableData) : Prop where
  /-- the same numbers -/
  nxs : d'.nxs = d.nxs
  /-- the locators of `d'` are in its XSS array, or just behind -/
  inside : d'.jxs.length = 32 ∧ ∀ v ∈ d'.jxs, 0 ≤ v ∧ v ≤ d'.xss.length + 1
  size : d'.xss.length < 2147483648
  /-- the inelastic blocks are present in both or in none -/
  present : ∃ v v', d.JXS 1 = .ok v ∧ d'.JXS 1 = .ok v' ∧ (v > 0 ↔ v' > 0)
  single : ∀ i ∈ [1, 3, 4, 6, 7, 9], ∀ r ws, block d i = .ok r → d.words r = .ok ws → Placed d' i ws
  /-- the words of ITXE have locators when IFENG is 2, from the first word of XSS: it is not moved -/
  locators : ∀ n, d.count 7 = .ok n → n < 2 ∨ d'.locator 3 = d.locator 3

end TS

namespace PA

/-- No locator behind `index` points into the `length` words at `start`. -/
def Clear (d : TableData) (index start length : Nat) : Prop :=
  ∀ j, index < j → ∀ v, d.JXS j = .ok v → (start : Int) ≤ v → (start + length : Nat) ≤ v

/-- The words `ws` are those from JXS(`index`) on. -/
def Placed (d : TableData) (index : Nat) (ws : Words) : Prop :=
  ∃ start : Nat, d.JXS index = .ok (start : Int) ∧ d.Has start ws ∧ Clear d index start ws.length

/-- The words `ws` are those from JXS(`index`) on, and a locator behind JXS(`index`) points to the
word behind them. -/
def PlacedWhole (d : TableData) (index : Nat) (ws : Words) : Prop :=
  ∃ start : Nat, d.JXS index = .ok (start : Int) ∧ d.Has start ws ∧ Clear d index start ws.length ∧
    ∃ j, index < j ∧ d.JXS j = .ok ((start + ws.length : Nat) : Int)

/-- The words `ws` are those from JXS(`index`) on, and JXS(`other`), which is behind JXS(`index`),
points to the word `first` words further. -/
def PlacedPair (d : TableData) (index other : Nat) (ws : Words) (first : Nat) : Prop :=
  ∃ start : Nat, d.JXS index = .ok (start : Int) ∧ d.JXS other = .ok ((start + first : Nat) : Int) ∧
    d.Has start ws ∧ first ≤ ws.length ∧ Clear d other (start + first) (ws.length - first)

/-- Where the electroionisation data of a subshell end: where those of the next one start, or, for the
last one, where the bremsstrahlung data start. The locators of the subshells are words; `offset` is the
number of words before the first of the electroionisation data. -/
def subshellEnd (d : TableData) (offset nssh i : Nat) : Res Nat :=
  if i ≠ nssh then wordOffset d (offset + nssh + i) else d.offset 24

/-- The words of each block of the photoatomic table `d` are in `d'`, where the locators of `d'` say. -/
structure Moved (d d' : TableData) : Prop where
  /-- the same numbers -/
  nxs : d'.nxs = d.nxs
  /-- the locators of `d'` are in its XSS array, or just behind -/
  inside : d'.jxs.length = 32 ∧ ∀ v ∈ d'.jxs, 0 ≤ v ∧ v ≤ d'.xss.length + 1
  size : d'.xss.length < 2147483648
  single : ∀ i ∈ [1, 4, 5, 16, 19, 20, 26, 27], ∀ r ws, block d i = .ok r → d.words r = .ok ws → Placed d' i ws
  /-- the scattering functions and the form factors -/
  whole : ∀ i ∈ [2, 3], ∀ r ws, block d i = .ok r → d.words r = .ok ws → PlacedWhole d' i ws
  /-- the electron shells, three arrays with three locators -/
  shells : ∀ l6 l8 ws, block d 6 = .ok l6 → block d 8 = .ok l8 → sub d.xss l6.1 l8.2 = .ok ws →
    PlacedPair d' 6 8 ws (l8.1 - l6.1)
  /-- the Compton profiles -/
  profiles : ∀ r s p, block d 9 = .ok r → block d 10 = .ok s → CE.located d r s = .ok p →
    PlacedPair d' 9 10 p.1 p.2
  /-- the subshells, five arrays with five locators -/
  subshells : ∀ l11 l16 ws, block d 11 = .ok l11 → block d 16 = .ok l16 → sub d.xss l11.1 l16.1 = .ok ws →
    ∃ start : Nat, d'.JXS 11 = .ok (start : Int) ∧ d'.Has start ws
  /-- the transitions -/
  transitions : ∀ r s p, block d 17 = .ok r → block d 18 = .ok s → CE.located d r s = .ok p →
    PlacedPair d' 17 18 p.1 p.2
  /-- the elastic scattering of electrons and the bremsstrahlung -/
  electrons : ∀ i ∈ [21, 24], ∀ l l' ws, block d i = .ok l → block d (i + 1) = .ok l' → sub d.xss l.1 l'.2 = .ok ws →
    PlacedPair d' i (i + 1) ws (l'.1 - l.1)
  /-- the electroionisation data: the same lengths, and locators to the same words, in order -/
  ionisation : ∀ nssh offset, d.count 7 = .ok nssh → d.offset 23 = .ok offset → ∃ offset', d'.offset 23 = .ok offset' ∧
    ∀ i, 1 ≤ i → i ≤ nssh → ∀ n start stop ws, d.xss[offset + i - 1]? = some n →
      wordOffset d (offset + nssh + i - 1) = .ok start → subshellEnd d offset nssh i = .ok stop →
      sub d.xss start stop = .ok ws →
      d'.xss[offset' + i - 1]? = some n ∧ ∃ start' stop', wordOffset d' (offset' + nssh + i - 1) = .ok start' ∧
        d'.Has (start' + 1) ws ∧ subshellEnd d' offset' nssh i = .ok stop' ∧ start' + ws.length ≤ stop' ∧
        stop' ≤ d'.xss.length

/-- In `d'`, the first locator that points behind the start of the scattering functions points to
their end, and so for the form factors and the transitions; the subshells are before the fluorescence
data of SPHEL. -/
structure MovedInOrder (d d' : TableData) : Prop extends Moved d d' where
  next : ∀ i ∈ [2, 3], ∀ r ws start, block d i = .ok r → d.words r = .ok ws → d'.JXS i = .ok start →
    ∃ j, i < j ∧ d'.JXS j = .ok (start + ws.length) ∧ ∀ k, i < k → k < j → ∀ v, d'.JXS k = .ok v → v < start
  behind : ∀ r s p start, block d 17 = .ok r → block d 18 = .ok s → CE.located d r s = .ok p →
    d'.JXS 17 = .ok start → ∃ j, 18 < j ∧ d'.JXS j = .ok (start + p.1.length) ∧
      ∀ k, 18 < k → k < j → ∀ v, d'.JXS k = .ok v → v < start + p.2
  before : ∀ l11 l16 ws start other, block d 11 = .ok l11 → block d 16 = .ok l16 → sub d.xss l11.1 l16.1 = .ok ws →
    d'.JXS 11 = .ok start → d'.JXS 16 = .ok other → start + ws.length ≤ other

end PA

namespace PN

/-- The words of each block of the photonuclear table `d`, except those of its secondary particles,
are in `d'`, where the locators of `d'` say. The locators are used as in photoatomic tables. -/
structure Moved (d d' : TableData) : Prop where
  /-- the same numbers -/
  nxs : d'.nxs = d.nxs
  /-- the locators of `d'` are in its XSS array, or just behind -/
  inside : d'.jxs.length = 32 ∧ ∀ v ∈ d'.jxs, 0 ≤ v ∧ v ≤ d'.xss.length + 1
  size : d'.xss.length < 2147483648
  /-- elastic scattering cross sections are present in both or in none -/
  present : ∃ v v', d.JXS 4 = .ok v ∧ d'.JXS 4 = .ok v' ∧ (v ≠ 0 ↔ v' ≠ 0)
  /-- the principal cross sections, arrays with their own locators -/
  principal : ∀ b1 b6 ws, block d 1 = .ok b1 → block d 6 = .ok b6 → sub d.xss b1.1 b6.1 = .ok ws →
    ∃ start : Nat, d'.JXS 1 = .ok (start : Int) ∧ d'.Has start ws
  single : ∀ i ∈ [6, 7], ∀ r ws, block d i = .ok r → d.words r = .ok ws → PA.Placed d' i ws
  sections : ∀ r s p, block d 8 = .ok r → block d 9 = .ok s → CE.located d r s = .ok p →
    PA.PlacedPair d' 8 9 p.1 p.2

/-- In `d'`, the principal cross sections are before the reaction numbers. -/
structure MovedInOrder (d d' : TableData) : Prop extends Moved d d' where
  before : ∀ b1 b6 ws start numbers, block d 1 = .ok b1 → block d 6 = .ok b6 → sub d.xss b1.1 b6.1 = .ok ws →
    d'.JXS 1 = .ok start → d'.JXS 6 = .ok numbers → start + ws.length ≤ numbers

end PN

end ACE

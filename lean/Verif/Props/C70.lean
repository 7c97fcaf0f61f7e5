import Verif.Props.C70Functions
import Verif.Props.C60Case

/-!
# C70: compiled with NDEBUG

The index checks of ACEtk are compiled only without `NDEBUG`. Whatever a program does with a table or
a block, the program compiled with `NDEBUG` gets what the one compiled without gets: the same values
and the same exceptions, as long as no index check fails. `Verif.Props.C70Functions` says so for every
function of every class; here for the table classes in plain terms, and what happens to an index
that the debug build refuses.
-/

namespace ACE.Props
open ACE.Release (Compares)
open C60 (exCE)

/-- In plain terms: what the debug build returns the release build returns, what the debug build
throws (other than for an index) the release build throws, and the release build never throws for
an index. -/
theorem C70_meaning {α : Type} {debug release : Res α} (h : Compares debug release) :
    (∀ v, debug = .ok v → release = .ok v) ∧
    (debug = .error .thrown → release = .error .thrown) ∧
    (debug = .error .endless → release = .error .endless) ∧
    release ≠ .error .range := by
  refine ⟨fun v hv => ?_, fun hv => ?_, fun hv => ?_, h.never⟩ <;>
  · rcases h.keeps with h | h | h
    · rw [hv] at h; exact nomatch h
    · rw [hv] at h; exact nomatch h
    · rw [h, hv]

/-- A table that the debug build reads is read by the release build as the same table, and a table that
the debug build refuses with an exception of its own is refused by the release build. -/
theorem C70_tables (zaid : Str) (d : TableData) :
    (∀ t, CE.ofTable zaid d = .ok t → Release.CE.ofTable zaid d = .ok t) ∧
    (∀ t, Dosimetry.ofTable zaid d = .ok t → Release.Dosimetry.ofTable zaid d = .ok t) ∧
    (∀ t, TS.ofTable zaid d = .ok t → Release.TS.ofTable zaid d = .ok t) ∧
    (∀ t, PA.ofTable zaid d = .ok t → Release.PA.ofTable zaid d = .ok t) ∧
    (∀ t, PN.ofTable zaid d = .ok t → Release.PN.ofTable zaid d = .ok t) ∧
    (CE.ofTable zaid d = .error .thrown → Release.CE.ofTable zaid d = .error .thrown) ∧
    (Dosimetry.ofTable zaid d = .error .thrown → Release.Dosimetry.ofTable zaid d = .error .thrown) ∧
    (TS.ofTable zaid d = .error .thrown → Release.TS.ofTable zaid d = .error .thrown) ∧
    (PA.ofTable zaid d = .error .thrown → Release.PA.ofTable zaid d = .error .thrown) ∧
    (PN.ofTable zaid d = .error .thrown → Release.PN.ofTable zaid d = .error .thrown) := by
  have h1 := C70_meaning ⟨Release.CE.ofTable.keeps zaid d, Release.CE.ofTable.never zaid d⟩
  have h2 := C70_meaning ⟨Release.Dosimetry.ofTable.keeps zaid d, Release.Dosimetry.ofTable.never zaid d⟩
  have h3 := C70_meaning ⟨Release.TS.ofTable.keeps zaid d, Release.TS.ofTable.never zaid d⟩
  have h4 := C70_meaning ⟨Release.PA.ofTable.keeps zaid d, Release.PA.ofTable.never zaid d⟩
  have h5 := C70_meaning ⟨Release.PN.ofTable.keeps zaid d, Release.PN.ofTable.never zaid d⟩
  exact ⟨h1.1, h2.1, h3.1, h4.1, h5.1, h1.2.1, h2.2.1, h3.2.1, h4.2.1, h5.2.1⟩

-- a table that the debug build reads, and one that it refuses with an exception
example : ∃ t, CE.ofTable "92235.80c".toList exCE = .ok t ∧
    Release.CE.ofTable "92235.80c".toList exCE = .ok t := by
  have h : (CE.ofTable "92235.80c".toList exCE).toOption.isSome := by
    decide +kernel
  cases hr : CE.ofTable "92235.80c".toList exCE with
  | error e => rw [hr] at h; exact nomatch h
  | ok t => exact ⟨t, rfl, (C70_tables _ _).1 t hr⟩
example : CE.ofTable "92235.80t".toList exCE = .error .thrown ∧
    Release.CE.ofTable "92235.80t".toList exCE = .error .thrown :=
  ⟨by decide +kernel, (C70_tables _ _).2.2.2.2.2.1 (by decide +kernel)⟩

/-! ## What the release build does with an index that the debug build refuses -/

/-- **Finding.** A value index behind the last value: the debug build refuses it, the release build
answers with a value of the next array. -/
theorem C70_next_array (d : ArrayData) (array index : Nat) (v : Dbl) (ha : 1 ≤ array) (hi : 1 ≤ index)
    (h : ArrayData.dvalue d (array + 1) index = .ok v) :
    ArrayData.dvalue d array (d.n + index) = .error .range ∧
    Release.ArrayData.dvalue d array (d.n + index) = .ok v := by
  constructor
  · unfold ArrayData.dvalue ArrayData.verifyIndex ArrayData.verifyArray
    by_cases hc : array < 1 ∨ array > d.m
    · rw [if_pos hc]; rfl
    · rw [if_neg hc, ok_bind, if_pos (.inr (by omega))]; rfl
  · have e := (C70_meaning ⟨Release.ArrayData.dvalue.keeps d (array + 1) index,
      Release.ArrayData.dvalue.never d (array + 1) index⟩).1 v h
    unfold Release.ArrayData.dvalue position at e ⊢
    rw [if_neg (by omega)] at e ⊢
    have : (array - 1) * d.n + (d.n + index) = (array + 1 - 1) * d.n + index := by
      obtain ⟨a, rfl⟩ : ∃ a, array = a + 1 := ⟨array - 1, by omega⟩
      rw [Nat.add_sub_cancel, Nat.add_sub_cancel, Nat.succ_mul]
      omega
    rw [this]
    exact e

/-- **Finding.** Array number 0: the debug build refuses it, the release build answers with a value of
the first array. -/
theorem C70_array_zero (d : ArrayData) (index : Nat) (v : Dbl) (hi : index < 18446744073709551616)
    (h : ArrayData.dvalue d 1 index = .ok v) :
    ArrayData.dvalue d 0 (d.n + index) = .error .range ∧
    Release.ArrayData.dvalue d 0 (d.n + index) = .ok v := by
  constructor
  · unfold ArrayData.dvalue ArrayData.verifyIndex ArrayData.verifyArray
    rw [if_pos (.inl (by omega))]; rfl
  · have e := (C70_meaning ⟨Release.ArrayData.dvalue.keeps d 1 index,
      Release.ArrayData.dvalue.never d 1 index⟩).1 v h
    unfold Release.ArrayData.dvalue position at e ⊢
    rw [if_neg (by omega)] at e
    rw [if_pos rfl]
    have : sizeOfInt (((d.n + index : Nat) : Int) - d.n) = (1 - 1) * d.n + index := by
      unfold sizeOfInt
      omega
    rw [this]
    exact e

/-- **Finding.** A locator index behind the last locator: the debug build refuses it, the release
build answers with the first word of the data. -/
theorem C70_locator {D : Type} (b : LocBlock D) (i : Int) (h : Base.IXSS b.xss (b.n + 1) = .ok i) :
    LocBlock.LLOC b (b.n + 1) = .error .range ∧
    Release.LocBlock.LLOC b (b.n + 1) = .ok (sizeOfInt (if b.locator then i else i + 1)) := by
  have e := (C70_meaning ⟨Release.Base.IXSS.keeps b.xss (b.n + 1),
      Release.Base.IXSS.never b.xss (b.n + 1)⟩).1 i h
  constructor
  · unfold LocBlock.LLOC LocBlock.LLOCof LocBlock.verifyDataIndex
    rw [if_pos (.inr (by omega))]; rfl
  · unfold Release.LocBlock.LLOC Release.LocBlock.LLOCof
    rw [e]
    cases b.locator <;> rfl

/-- An index of a data set or of an entry of NXS or JXS that does not exist: the debug build refuses it,
in the release build the behaviour is undefined; a value is never made up from the other entries. -/
theorem C70_no_element :
    (∀ {D : Type} (b : LocBlock D) (index : Nat), b.data.length = b.n → index < 1 ∨ b.n < index →
      LocBlock.get b index = .error .range ∧ Release.LocBlock.get b index = .error .ub) ∧
    (∀ (d : TableData) (index : Nat), d.nxs.length = 16 → index < 1 ∨ 16 < index →
      d.NXS index = .error .range ∧ Release.TableData.NXS d index = .error .ub) ∧
    (∀ (d : TableData) (index : Nat), d.jxs.length = 32 → index < 1 ∨ 32 < index →
      d.JXS index = .error .range ∧ Release.TableData.JXS d index = .error .ub) ∧
    (∀ (d : TableData) (index : Nat), index < 1 ∨ d.xss.length < index →
      d.XSS index = .error .range ∧ Release.TableData.XSS d index = .error .ub) := by
  have elem : ∀ {α : Type} (l : List α) (index : Nat), index < 1 ∨ l.length < index →
      Release.element l index = .error .ub := by
    intro α l index h
    unfold Release.element
    split
    · rfl
    · rw [List.getElem?_eq_none (by omega)]
  have fetch : ∀ {α : Type} (l : List α) (index : Nat), index < 1 ∨ l.length < index →
      TableData.fetch l index = .error .range := by
    intro α l index h
    unfold TableData.fetch TableData.verifyIndex
    rw [if_pos h]; rfl
  refine ⟨fun b index hl h => ⟨?_, elem _ _ (by rw [hl]; exact h)⟩,
    fun d index hl h => ⟨fetch _ _ (by rw [hl]; exact h), elem _ _ (by rw [hl]; exact h)⟩,
    fun d index hl h => ⟨fetch _ _ (by rw [hl]; exact h), elem _ _ (by rw [hl]; exact h)⟩,
    fun d index h => ⟨fetch _ _ h, elem _ _ h⟩⟩
  unfold LocBlock.get LocBlock.verifyDataIndex
  rw [if_pos h]; rfl

-- an array block of two arrays of three values
example : ArrayData.dvalue ⟨[.ofNat 1, .ofNat 2, .ofNat 3, .ofNat 4, .ofNat 5, .ofNat 6], 3, 2⟩ 2 1 = .ok (.ofNat 4) ∧
    Release.ArrayData.dvalue ⟨[.ofNat 1, .ofNat 2, .ofNat 3, .ofNat 4, .ofNat 5, .ofNat 6], 3, 2⟩ 2 1 = .ok (.ofNat 4) ∧
    Release.ArrayData.dvalue ⟨[.ofNat 1, .ofNat 2, .ofNat 3, .ofNat 4, .ofNat 5, .ofNat 6], 3, 2⟩ 1 4 = .ok (.ofNat 4) ∧
    Release.ArrayData.dvalue ⟨[.ofNat 1, .ofNat 2, .ofNat 3, .ofNat 4, .ofNat 5, .ofNat 6], 3, 2⟩ 0 5 = .ok (.ofNat 2) ∧
    Release.ArrayData.dvalue ⟨[.ofNat 1, .ofNat 2, .ofNat 3, .ofNat 4, .ofNat 5, .ofNat 6], 3, 2⟩ 2 4 = .error .ub := by
  decide +kernel
-- a block with one locator and one data set
example : LocBlock.LLOC (⟨[.ofNat 1, .ofNat 7], 1, true, 1, [()]⟩ : LocBlock Unit) 2 = .error .range ∧
    Release.LocBlock.LLOC (⟨[.ofNat 1, .ofNat 7], 1, true, 1, [()]⟩ : LocBlock Unit) 2 = .ok 7 :=
  C70_locator _ 7 (by decide +kernel)
example : exCE.nxs.length = 16 ∧ exCE.jxs.length = 32 ∧ Release.TableData.NXS exCE 17 = .error .ub := by
  decide +kernel

end ACE.Props

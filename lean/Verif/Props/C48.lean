import Verif.Lemmas.Columns
import Verif.Lemmas.TabDist
import Verif.Model.Secondary
import Verif.Model.Thermal
import Verif.Model.EnergyData
import Verif.Model.Fission
import Verif.Model.Angular

/-!
# C48: an accepted range is large enough for every accessor

Specification: a call *reads inside* when it returns a value (`Reads`); the model ends a call that
leaves the range of a block with `.ub` or `.range`. The reading constructors compare the number of
words with a product of counts that is computed in `unsigned int`, and a negative count becomes a
large one, so the claim is false (`C48_false` and the findings below) and is proved for counts whose
required number of words is below 2^32.
-/

namespace ACE.Props
open ACE

/-- The call returns a value: it read nothing outside of the range. -/
def Reads {α : Type} (r : Res α) : Prop := ∃ v, r = .ok v

/-- The word rounds to a 32-bit integer. -/
def Readable (w : Dbl) : Prop := ∃ i, w.round? = some i ∧ Fits i

namespace C48

theorem XSS_in {xs : Words} {i : Nat} (h1 : 1 ≤ i) (h2 : i ≤ xs.length) : Reads (Base.XSS xs i) :=
  ⟨xs[i - 1]'(by omega), Base.XSS_eq_ok_iff.mpr ⟨h1, List.getElem?_eq_getElem _⟩⟩

theorem IXSS_in {xs : Words} {i : Nat} (h1 : 1 ≤ i) (h2 : i ≤ xs.length)
    (hr : ∀ w ∈ xs, Readable w) : Reads (Base.IXSS xs i) := by
  obtain ⟨w, hw⟩ := XSS_in h1 h2
  have hm := List.mem_of_getElem? (Base.XSS_eq_ok_iff.mp hw).2
  obtain ⟨j, hj, hf⟩ := hr w hm
  exact ⟨j, by unfold Base.IXSS; rw [hw, ok_bind, hj, toInt32_some hf]⟩

theorem XSSr_in {xs : Words} {i n : Nat} (h1 : 1 ≤ i) (h2 : i - 1 + n ≤ xs.length) :
    ∃ w, Base.XSSr xs i n = .ok w ∧ w.length = n := by
  refine ⟨(xs.drop (i - 1)).take n, ?_, by simp; omega⟩
  refine Base.XSSr_of_eq (a := xs.take (i - 1)) (c := xs.drop (i - 1 + n)) ?_ ?_ ?_
  · rw [List.append_assoc, ← List.drop_drop, List.take_append_drop, List.take_append_drop]
  · simp; omega
  · simp; omega

theorem mapM_readable {l : Words} (hr : ∀ w ∈ l, Readable w) :
    Reads (l.mapM (fun d => toInt32 d.round?)) := by
  induction l with
  | nil => exact ⟨[], rfl⟩
  | cons a l ih =>
    obtain ⟨v, hv⟩ := ih (fun w hw => hr w (by simp [hw]))
    obtain ⟨j, hj, hf⟩ := hr a (by simp)
    exact ⟨j :: v, by rw [List.mapM_cons, hj, toInt32_some hf, ok_bind, hv, ok_bind]; rfl⟩

theorem IXSSr_in {xs : Words} {i n : Nat} (h1 : 1 ≤ i) (h2 : i - 1 + n ≤ xs.length)
    (hr : ∀ w ∈ xs, Readable w) : Reads (Base.IXSSr xs i n) := by
  obtain ⟨w, hw, hl⟩ := XSSr_in h1 h2
  have he : Base.XSSr xs i n = .ok ((xs.drop (i - 1)).take n) := by
    refine Base.XSSr_of_eq (a := xs.take (i - 1)) (c := xs.drop (i - 1 + n)) ?_ ?_ ?_
    · rw [List.append_assoc, ← List.drop_drop, List.take_append_drop, List.take_append_drop]
    · simp; omega
    · simp; omega
  unfold Base.IXSSr
  rw [he, ok_bind]
  exact mapM_readable (fun x hx => hr x (List.mem_of_mem_drop (List.mem_of_mem_take hx)))

theorem guard_le {a b k : Nat} (h : guardThrow (!decide (a < b % k)) = .ok ()) (hb : b < k) :
    b ≤ a := by
  have := guardThrow_eq_ok.mp h
  rw [Nat.mod_eq_of_lt hb] at this
  simpa using this

end C48

open C48

/-! ## Arrays -/

/-- The arrays of every block of arrays: accepted exactly when all arrays are inside; then every
value and every array is read inside the range. -/
theorem C48_arrays_partial (xs : Words) (n m : Nat) (hw : n * m < 4294967296) :
    ((∃ d, ArrayData.ofRange xs n m = .ok d) ↔ n * m ≤ xs.length) ∧
    ∀ d, ArrayData.ofRange xs n m = .ok d → ∀ a, 1 ≤ a → a ≤ m →
      Reads (d.darray a) ∧ (∀ i, 1 ≤ i → i ≤ n → Reads (d.dvalue a i)) ∧
      ((∀ w ∈ xs, Readable w) →
        Reads (d.iarray a) ∧ ∀ i, 1 ≤ i → i ≤ n → Reads (d.ivalue a i)) := by
  refine ⟨⟨?_, fun h => ⟨_, ArrayData.ofRange_ok _ _ _ h⟩⟩, ?_⟩
  · rintro ⟨d, h⟩
    unfold ArrayData.ofRange ArrayData.verifySize at h
    obtain ⟨_, hg, _⟩ := bind_eq_ok.mp h
    exact guard_le hg hw
  · intro d h a h1 h2
    unfold ArrayData.ofRange ArrayData.verifySize at h
    obtain ⟨_, hg, h⟩ := bind_eq_ok.mp h
    injection h with h; subst h
    have hl := guard_le hg hw
    have hm : (a - 1) * n + n ≤ n * m := by
      have : (a - 1 + 1) * n ≤ m * n := Nat.mul_le_mul_right n (by omega)
      rw [Nat.add_mul, Nat.one_mul, Nat.mul_comm m] at this
      exact this
    have va : ArrayData.verifyArray ⟨xs, n, m⟩ a = .ok () := by
      unfold ArrayData.verifyArray; rw [if_neg (by simp; omega)]
    have vi : ∀ i, 1 ≤ i → i ≤ n → ArrayData.verifyIndex ⟨xs, n, m⟩ a i = .ok () := by
      intro i g1 g2
      unfold ArrayData.verifyIndex; rw [va, ok_bind, if_neg (by simp; omega)]
    refine ⟨?_, fun i g1 g2 => ?_, fun hr => ⟨?_, fun i g1 g2 => ?_⟩⟩
    · unfold ArrayData.darray
      rw [va, ok_bind]
      obtain ⟨w, hw, _⟩ := XSSr_in (xs := xs) (i := 1 + (a - 1) * n) (n := n) (by omega) (by omega)
      exact ⟨w, hw⟩
    · unfold ArrayData.dvalue
      rw [vi i g1 g2, ok_bind]
      exact XSS_in (by omega) (by simp only; omega)
    · unfold ArrayData.iarray
      rw [va, ok_bind]
      exact IXSSr_in (by omega) (by simp only; omega) hr
    · unfold ArrayData.ivalue
      rw [vi i g1 g2, ok_bind]
      exact IXSS_in (by omega) (by simp only; omega) hr

/-- The hypotheses are met: two arrays of two values and three further words. -/
example : ∃ d, ArrayData.ofRange ((List.range 7).map Dbl.ofNat) 2 2 = .ok d ∧
    Reads (d.darray 2) ∧ Reads (d.iarray 2) ∧ ∀ i, 1 ≤ i → i ≤ 2 → Reads (d.dvalue 2 i) := by
  have h := C48_arrays_partial ((List.range 7).map Dbl.ofNat) 2 2 (by decide)
  obtain ⟨d, hd⟩ := h.1.mpr (by decide)
  obtain ⟨g1, g2, g3⟩ := h.2 d hd 2 (by decide) (by decide)
  refine ⟨d, hd, g1, (g3 ?_).1, g2⟩
  intro w hw
  obtain ⟨n, hn, rfl⟩ := List.mem_map.mp hw
  exact ⟨n, Dbl.round?_ofNat n, by have := List.mem_range.mp hn; unfold Fits; omega⟩

/-- Finding: 65536 arrays of 65536 values need 2^32 words, which is 0 in `unsigned int`: an empty
range is accepted and the first value lies outside of it. -/
theorem C48_arrays_wrap : ∃ d, ArrayData.ofRange [] 65536 65536 = .ok d ∧
    d.dvalue 1 1 = .error .range ∧ d.darray 1 = .error .range :=
  ⟨_, rfl, by decide +kernel, by decide +kernel⟩

/-- Finding: the five arrays of the principal cross sections. With 858993460 energies the check
asks for 4 words only. -/
theorem C48_esz_wrap (a b c d : Dbl) : ∃ e, ArrayData.ofRange [a, b, c, d] 858993460 5 = .ok e ∧
    e.darray 1 = .error .range :=
  ⟨⟨[a, b, c, d], 858993460, 5⟩, by
    unfold ArrayData.ofRange ArrayData.verifySize
    rw [guardThrow_eq_ok.mpr (by simp)]; rfl, by
    unfold ArrayData.darray ArrayData.verifyArray Base.XSSr Base.iterator Base.verifyIndex
    simp⟩

/-! ## Columns -/

namespace C48

theorem column_in {d : ColumnData} {k nc c : Nat} (hN : d.N = .ok k) (hl : 1 + k * nc ≤ d.xss.length)
    (h1 : 1 ≤ c) (h2 : c ≤ nc) :
    (∃ w, d.column c = .ok w ∧ w.length = k) ∧ ∀ i, 1 ≤ i → i ≤ k → Reads (d.value c i) := by
  have hm : (c - 1) * k + k ≤ k * nc := by
    have : (c - 1 + 1) * k ≤ nc * k := Nat.mul_le_mul_right k (by omega)
    rw [Nat.add_mul, Nat.one_mul, Nat.mul_comm nc] at this
    exact this
  refine ⟨?_, fun i g1 g2 => ?_⟩
  · unfold ColumnData.column
    rw [hN, ok_bind, position_pos h1]
    exact XSSr_in (by omega) (by omega)
  · unfold ColumnData.value
    rw [hN, ok_bind, position_pos h1]
    exact XSS_in (by omega) (by omega)

theorem sub_in {xs w : Words} {l r : Nat} (h : sub xs l r = .ok w) :
    l ≤ r ∧ r ≤ xs.length ∧ w = (xs.drop l).take (r - l) ∧ w.length = r - l := by
  unfold sub at h
  split at h
  next hc => injection h with h; subst h; exact ⟨hc.1, hc.2, rfl, by simp; omega⟩
  · cases h

/-- The first word of a sub range. -/
theorem sub_first {xs w : Words} {l r : Nat} (h : sub xs l r = .ok w) (hlt : l < r) :
    Base.IXSS w 1 = Base.IXSS xs (l + 1) ∧ w.isEmpty = false := by
  obtain ⟨_, g2, rfl, hl⟩ := sub_in h
  have hw : Base.XSS ((xs.drop l).take (r - l)) 1 = Base.XSS xs (l + 1) := by
    have hx : Base.XSS xs (l + 1) = .ok (xs[l]'(by omega)) :=
      Base.XSS_eq_ok_iff.mpr ⟨by omega, by simp⟩
    rw [hx, Base.XSS_eq_ok_iff]
    refine ⟨by omega, ?_⟩
    rw [List.getElem?_take_of_lt (by omega), List.getElem?_drop]
    simp
  refine ⟨by unfold Base.IXSS; rw [hw], ?_⟩
  cases h : (xs.drop l).take (r - l) with
  | nil => rw [h] at hl; simp at hl; omega
  | cons _ _ => rfl

/-- A count and its columns in a sub range: what is accepted is read inside. -/
theorem columns_sub {xs w : Words} {l k nc : Nat} {i : Int} {d : ColumnData}
    (hw : sub xs l (l + (k * nc + 1)) = .ok w) (hd : ColumnData.ofRange w nc = .ok d)
    (hi : Base.IXSS xs (l + 1) = .ok i) (hk : sizeOfInt i = k) :
    d.N = .ok k ∧ 1 + k * nc ≤ d.xss.length := by
  obtain ⟨h1, h2⟩ := sub_first hw (by omega)
  obtain ⟨_, _, _, hl⟩ := sub_in hw
  have hd : d = ⟨w, nc⟩ := by
    unfold ColumnData.ofRange at hd
    cases w with
    | nil =>
      obtain ⟨_, _, hd⟩ := bind_eq_ok.mp hd
      obtain ⟨_, _, hd⟩ := bind_eq_ok.mp hd
      injection hd with hd; exact hd.symm
    | cons _ _ =>
      obtain ⟨_, _, hd⟩ := bind_eq_ok.mp hd
      obtain ⟨_, _, hd⟩ := bind_eq_ok.mp hd
      injection hd with hd; exact hd.symm
  subst hd
  refine ⟨?_, by simp only [hl]; omega⟩
  unfold ColumnData.N
  simp only [h2, Bool.false_eq_true, if_false, h1, hi, ok_bind, hk]; rfl

end C48

/-- Columns that follow a whole count: accepted exactly when all columns are inside; then every
column and value is read inside the range. -/
theorem C48_columns_partial (k nc : Nat) (ws : Words) (hk : FitsN k) (hw : 1 + k * nc < 2 ^ 64) :
    ((∃ d, ColumnData.ofRange (Dbl.ofNat k :: ws) nc = .ok d) ↔ k * nc ≤ ws.length) ∧
    ∀ d, ColumnData.ofRange (Dbl.ofNat k :: ws) nc = .ok d → d.N = .ok k ∧
      ∀ c, 1 ≤ c → c ≤ nc → (∃ w, d.column c = .ok w ∧ w.length = k) ∧
        ∀ i, 1 ≤ i → i ≤ k → Reads (d.value c i) := by
  have key : ColumnData.ofRange (Dbl.ofNat k :: ws) nc =
      if k * nc ≤ ws.length then .ok ⟨Dbl.ofNat k :: ws, nc⟩ else .error .thrown := by
    simp only [ColumnData.ofRange, Dbl.trunc?_ofNat, toSize_natCast hk, ok_bind,
      ColumnData.verifySize, Nat.mod_eq_of_lt hw]
    by_cases h : k * nc ≤ ws.length
    · rw [if_pos h, guardThrow_eq_ok.mpr (by simp; omega)]; rfl
    · rw [if_neg h]
      have : (Dbl.ofNat k :: ws).length < 1 + k * nc := by simp; omega
      simp only [this, decide_true, Bool.not_true, Bool.or_false]
      rfl
  rw [key]
  constructor
  · constructor
    · rintro ⟨d, h⟩
      by_cases h' : k * nc ≤ ws.length
      · exact h'
      · rw [if_neg h'] at h; cases h
    · intro h; exact ⟨_, if_pos h⟩
  · intro d h
    by_cases h' : k * nc ≤ ws.length
    · rw [if_pos h'] at h
      injection h with h; subst h
      have hN : ColumnData.N ⟨Dbl.ofNat k :: ws, nc⟩ = .ok k := by
        have : Base.IXSS (Dbl.ofNat k :: ws) 1 = .ok (k : Int) :=
          Base.IXSS_ofNat (a := []) (c := ws) (by simp) (by simp) hk
        unfold ColumnData.N
        simp [this, sizeOfInt_natCast hk]
      refine ⟨hN, fun c h1 h2 => column_in hN (by simp; omega) h1 h2⟩
    · rw [if_neg h'] at h; cases h

example : ∃ d, ColumnData.ofRange (Dbl.ofNat 2 :: (List.range 5).map Dbl.ofNat) 2 = .ok d ∧
    Reads (d.value 2 2) := by
  have h := C48_columns_partial 2 2 ((List.range 5).map Dbl.ofNat) (by decide) (by decide)
  obtain ⟨d, hd⟩ := h.1.mpr (by decide)
  exact ⟨d, hd, ((h.2 d hd).2 2 (by decide) (by decide)).2 2 (by decide) (by decide)⟩

/-- Finding: columns may be made of an empty range; their number of rows is then 0 although there is
no count, and a column is taken from outside of the range. -/
theorem C48_columns_empty : ∃ d, ColumnData.ofRange [] 2 = .ok d ∧ d.N = .ok 0 ∧
    d.column 1 = .error .range :=
  ⟨⟨[], 2⟩, rfl, rfl, by decide +kernel⟩

/-! ## Tabulated data -/

/-- Every accepted table of x and y values gives its interpolation table and its values without
leaving its range; no hypothesis on the words. -/
theorem C48_tabulated (xs : Words) (d : TabulatedData) (h : TabulatedData.ofRange xs = .ok d) :
    ∃ nr ne, d.NB = .ok nr ∧ d.N = .ok ne ∧ 2 + 2 * nr + 2 * ne ≤ xs.length ∧
      (∃ w, d.NBT = .ok w ∧ w.length = nr) ∧ (∃ w, d.INT = .ok w ∧ w.length = nr) ∧
      (∃ w, d.x = .ok w ∧ w.length = ne) ∧ ∃ w, d.y = .ok w ∧ w.length = ne := by
  unfold TabulatedData.ofRange at h
  obtain ⟨_, _, h⟩ := bind_eq_ok.mp h
  obtain ⟨_, _, h⟩ := bind_eq_ok.mp h
  obtain ⟨_, _, h⟩ := bind_eq_ok.mp h
  obtain ⟨_, _, h⟩ := bind_eq_ok.mp h
  obtain ⟨_, _, h⟩ := bind_eq_ok.mp h
  unfold TabulatedData.generateBlocks at h
  obtain ⟨i, hi, h⟩ := bind_eq_ok.mp h
  obtain ⟨j, hj, h⟩ := bind_eq_ok.mp h
  obtain ⟨w, hw, h⟩ := bind_eq_ok.mp h
  obtain ⟨a, ha, h⟩ := bind_eq_ok.mp h
  obtain ⟨v, hv, h⟩ := bind_eq_ok.mp h
  obtain ⟨b, hb, h⟩ := bind_eq_ok.mp h
  injection h with h; subst h
  generalize hnr : sizeOfInt i = nr at *
  generalize hne : sizeOfInt j = ne at *
  obtain ⟨a1, a2⟩ := columns_sub (l := 0) (k := nr) (nc := 2) (i := i)
    (by rw [show 0 + (nr * 2 + 1) = 2 * nr + 1 by omega]; exact hw) ha hi hnr
  obtain ⟨b1, b2⟩ := columns_sub (l := 2 * nr + 1) (k := ne) (nc := 2) (i := j)
    (by rw [show 2 * nr + 1 + (ne * 2 + 1) = 2 * nr + 1 + 2 * ne + 1 by omega]; exact hv) hb
    (by rw [show 2 * nr + 1 + 1 = 1 + 2 * nr + 1 by omega]; exact hj) hne
  obtain ⟨_, hlen, _, _⟩ := sub_in hv
  exact ⟨nr, ne, a1, b1, by omega, (column_in a1 a2 (by omega) (by omega)).1,
    (column_in a1 a2 (by omega) (by omega)).1, (column_in b1 b2 (by omega) (by omega)).1,
    (column_in b1 b2 (by omega) (by omega)).1⟩

/-- Accepted with a fractional count that rounds up (1.5) and with further words. -/
example : ∃ d, TabulatedData.ofRange
    ([Dbl.fin false 3 (-1)] ++ (List.range 4).map Dbl.ofNat ++ [Dbl.ofNat 1, Dbl.ofNat 5, Dbl.ofNat 6,
      Dbl.nan]) = .ok d ∧ d.NB = .ok 2 ∧ d.y = .ok [Dbl.ofNat 6] :=
  ⟨_, rfl, rfl, rfl⟩

/-- Finding: the second count is read before the size is checked: a range that holds nothing but a
first count is not refused but read beyond its end. -/
theorem C48_tabulated_short (n : Nat) (hn : FitsN n) :
    TabulatedData.ofRange [] = .error .range ∧
    TabulatedData.ofRange [Dbl.ofNat n] = .error .range := by
  refine ⟨rfl, ?_⟩
  have h1 : Base.XSS [Dbl.ofNat n] 1 = .ok (Dbl.ofNat n) := rfl
  unfold TabulatedData.ofRange
  rw [h1, ok_bind, Dbl.round?_ofNat, toSize_natCast hn, ok_bind]
  unfold Base.XSS Base.verifyIndex
  rw [if_pos (by simp; omega)]
  rfl

/-- Finding: with 2147483647 values the check asks for 2^32 words, which is 0 in `unsigned int`: two
words pass it and the reading constructor leaves the range. -/
theorem C48_tabulated_wrap :
    TabulatedData.ofRange [Dbl.ofNat 0, Dbl.ofNat 2147483647] = .error .ub := by decide +kernel

/-! ## Cross sections, photon production, particle production -/

/-- Cross sections: a count that is not negative. -/
theorem C48_cross_sections_partial (xs : Words) (d : CrossSectionData)
    (h : CrossSectionData.ofRange xs = .ok d) (n : Nat) (hn : d.numberValues = .ok n)
    (hw : n + 2 < 4294967296) : ∃ w, d.crossSections = .ok w ∧ w.length = n := by
  unfold CrossSectionData.ofRange at h
  obtain ⟨k, hk, h⟩ := bind_eq_ok.mp h
  obtain ⟨_, hg, h⟩ := bind_eq_ok.mp h
  injection h with h; subst h
  obtain rfl : k = n := Except.ok.inj (hk.symm.trans hn)
  have := guard_le hg hw
  unfold CrossSectionData.crossSections
  rw [hk, ok_bind]
  exact XSSr_in (by omega) (by simp only; omega)

example : ∃ d, CrossSectionData.ofRange ([1, 3, 7, 8, 9, 10].map Dbl.ofNat) = .ok d ∧
    d.crossSections = .ok ([7, 8, 9].map Dbl.ofNat) := ⟨_, rfl, rfl⟩

/-- Finding: a count of -1 passes the check (`-1 + 2` words in `unsigned int`), and the cross
sections are then read outside of the range. -/
theorem C48_cross_sections_negative :
    ∃ d, CrossSectionData.ofRange [Dbl.ofNat 1, Dbl.ofInt (-1)] = .ok d ∧
      d.crossSections = .error .range := ⟨_, rfl, by decide +kernel⟩

/-- Photon production cross sections. -/
theorem C48_photon_partial (xs : Words) (d : PhotonXS) (h : PhotonXS.ofRange xs = .ok d) (n : Nat)
    (hn : d.numberValues = .ok n) (hw : n + 3 < 4294967296) :
    ∃ w, d.crossSections = .ok w ∧ w.length = n := by
  unfold PhotonXS.ofRange at h
  obtain ⟨k, hk, h⟩ := bind_eq_ok.mp h
  obtain ⟨_, hg, h⟩ := bind_eq_ok.mp h
  injection h with h; subst h
  obtain rfl : k = n := Except.ok.inj (hk.symm.trans hn)
  have := guard_le hg hw
  unfold PhotonXS.crossSections
  rw [hk, ok_bind]
  exact XSSr_in (by omega) (by simp only; omega)

example : ∃ d, PhotonXS.ofRange ([13, 1, 2, 7, 8].map Dbl.ofNat) = .ok d ∧
    d.numberValues = .ok 2 ∧ d.crossSections = .ok ([7, 8].map Dbl.ofNat) := ⟨_, rfl, rfl, rfl⟩

/-- Finding: a count of 2^32 - 3 passes the check with no values at all. -/
theorem C48_photon_wrap :
    ∃ d, PhotonXS.ofRange [Dbl.ofNat 13, Dbl.ofNat 1, Dbl.ofNat 4294967293] = .ok d ∧
      d.crossSections = .error .range := ⟨_, rfl, by decide +kernel⟩

/-- Total production and heating of a secondary particle. -/
theorem C48_production_partial (xs : Words) (d : HPD) (h : HPD.ofRange xs = .ok d) (n : Nat)
    (hn : d.numberValues = .ok n) (hw : 2 * n + 2 < 4294967296) :
    (∃ w, d.totalProduction = .ok w ∧ w.length = n) ∧ ∃ w, d.heating = .ok w ∧ w.length = n := by
  unfold HPD.ofRange at h
  obtain ⟨k, hk, h⟩ := bind_eq_ok.mp h
  obtain ⟨_, hg, h⟩ := bind_eq_ok.mp h
  injection h with h; subst h
  obtain rfl : k = n := Except.ok.inj (hk.symm.trans hn)
  have := guard_le hg hw
  refine ⟨?_, ?_⟩
  · unfold HPD.totalProduction
    rw [hk, ok_bind]
    exact XSSr_in (by omega) (by simp only; omega)
  · unfold HPD.heating
    rw [hk]
    simp only [ok_bind]
    exact XSSr_in (by omega) (by omega)

example : ∃ d, HPD.ofRange ([1, 2, 7, 8, 9, 10].map Dbl.ofNat) = .ok d ∧
    d.heating = .ok ([9, 10].map Dbl.ofNat) := ⟨_, rfl, rfl⟩

/-! ## Tabulated probability distributions -/

/-- Values, probability density and cumulative distribution. -/
theorem C48_distribution_partial (xs : Words) (d : TabProb) (h : TabProb.ofRange xs = .ok d) (n : Nat)
    (hn : d.numberValues = .ok n) (hw : 3 * n + 2 < 4294967296) :
    (∃ w, d.values = .ok w ∧ w.length = n) ∧ (∃ w, d.pdf = .ok w ∧ w.length = n) ∧
      ∃ w, d.cdf = .ok w ∧ w.length = n := by
  unfold TabProb.ofRange at h
  obtain ⟨k, hk, h⟩ := bind_eq_ok.mp h
  obtain ⟨_, hg, h⟩ := bind_eq_ok.mp h
  injection h with h; subst h
  obtain rfl : k = n := Except.ok.inj (hk.symm.trans hn)
  have := guard_le hg hw
  unfold TabProb.values TabProb.pdf TabProb.cdf
  rw [hk]
  simp only [ok_bind]
  exact ⟨XSSr_in (by omega) (by omega), XSSr_in (by omega) (by omega),
    XSSr_in (by omega) (by omega)⟩

example : ∃ d, TabProb.ofRange ([2, 2, 3, 4, 5, 6, 7, 8].map Dbl.ofNat) = .ok d ∧
    d.cdf = .ok ([7, 8].map Dbl.ofNat) := ⟨_, rfl, rfl⟩

/-- Finding: a Kalbach-Mann distribution needs five columns and its reading constructor checks for
three: the slope values of an accepted distribution lie outside of the range. -/
theorem C48_kalbach : ∃ d, TabDist.ofRange (Dbl.ofNat 1) ([2, 1, 3, 4, 5].map Dbl.ofNat) = .ok d ∧
    d.dist.cdf = .ok [Dbl.ofNat 5] ∧ d.r = .error .ub ∧ d.a = .error .range :=
  ⟨_, rfl, rfl, by decide +kernel, by decide +kernel⟩

/-! ## Lookup blocks -/

/-- The reaction numbers of a YP block that is not empty. -/
theorem C48_yp_partial (xs : Words) (d : YP) (h : YP.ofRange xs = .ok d) (n : Nat)
    (hn : d.NYP = .ok n) (hne : xs ≠ []) (hw : n + 1 < 4294967296) :
    (∃ w, d.MTs = .ok w ∧ w.length = n) ∧
    ((∀ w ∈ xs, Readable w) → ∀ i, 1 ≤ i → i ≤ n → Reads (d.MT i)) := by
  unfold YP.ofRange at h
  obtain ⟨k, hk, h⟩ := bind_eq_ok.mp h
  obtain ⟨_, hg, h⟩ := bind_eq_ok.mp h
  injection h with h; subst h
  obtain rfl : k = n := Except.ok.inj (hk.symm.trans hn)
  have hl : 1 ≤ xs.length := List.length_pos_iff.mpr hne
  have hb : k + 1 ≤ xs.length := by
    have := guardThrow_eq_ok.mp hg
    rw [Nat.mod_eq_of_lt hw] at this
    simp at this
    rcases this with h | h
    · omega
    · exact h
  refine ⟨?_, fun hr i h1 h2 => ?_⟩
  · unfold YP.MTs
    rw [hk, ok_bind]
    exact XSSr_in (by omega) (by simp only; omega)
  · unfold YP.MT
    rw [hk, ok_bind, if_neg (by omega)]
    obtain ⟨v, hv⟩ := IXSS_in (xs := xs) (i := i + 1) (by omega) (by omega) hr
    exact ⟨u32OfInt v, by simp only [hv, ok_bind]; rfl⟩

example : ∃ d, YP.ofRange ([2, 18, 102, 5].map Dbl.ofNat) = .ok d ∧ d.NYP = .ok 2 ∧
    d.MTs = .ok ([18, 102].map Dbl.ofNat) ∧ d.MT 2 = .ok 102 := ⟨_, rfl, rfl, rfl, rfl⟩

/-- Finding: a count of -1 is 2^32 - 1 as `unsigned int` and passes the check of a YP block. -/
theorem C48_yp_negative : ∃ d, YP.ofRange [Dbl.ofInt (-1)] = .ok d ∧ d.NYP = .ok 4294967295 ∧
    d.MT 1 = .error .range ∧ d.MTs = .error .range :=
  ⟨_, rfl, rfl, by decide +kernel, by decide +kernel⟩

/-- The ten locators of every secondary particle. -/
theorem C48_locators_partial (xs : Words) (n : Nat) (d : IXS) (h : IXS.ofRange xs n = .ok d)
    (hw : 10 * n < 4294967296) (hr : ∀ w ∈ xs, Readable w) (p i : Nat) (hp : 1 ≤ p ∧ p ≤ n)
    (hi : 1 ≤ i ∧ i ≤ 10) : Reads (d.LLOC p i) := by
  unfold IXS.ofRange at h
  obtain ⟨_, hg, h⟩ := bind_eq_ok.mp h
  injection h with h; subst h
  have := guard_le hg hw
  obtain ⟨v, hv⟩ := IXSS_in (xs := xs) (i := (p - 1) * 10 + i) (by omega) (by omega) hr
  exact ⟨sizeOfInt v, by unfold IXS.LLOC; rw [position_pos hp.1]; simp only [hv, ok_bind]; rfl⟩

/-- The twelve words of every secondary particle of a photonuclear table. -/
theorem C48_photonuclear_locators_partial (xs : Words) (n : Nat) (d : IXSU)
    (h : IXSU.ofRange xs n = .ok d) (hw : 12 * n < 4294967296) (hr : ∀ w ∈ xs, Readable w)
    (p i : Nat) (hp : 1 ≤ p ∧ p ≤ n) (hi : 1 ≤ i ∧ i ≤ 12) : Reads (d.LLOC p i) := by
  unfold IXSU.ofRange at h
  obtain ⟨_, hg, h⟩ := bind_eq_ok.mp h
  injection h with h; subst h
  have := guard_le hg hw
  obtain ⟨v, hv⟩ := IXSS_in (xs := xs) (i := (p - 1) * 12 + i) (by omega) (by omega) hr
  exact ⟨sizeOfInt v, by unfold IXSU.LLOC; rw [position_pos hp.1]; simp only [hv, ok_bind]; rfl⟩

namespace C48
theorem readable_ofNat {l : List Nat} (h : ∀ n ∈ l, FitsN n) : ∀ w ∈ l.map Dbl.ofNat, Readable w := by
  intro w hw
  obtain ⟨n, hn, rfl⟩ := List.mem_map.mp hw
  exact ⟨n, Dbl.round?_ofNat n, (h n hn).fits⟩
end C48

example : ∃ d, IXS.ofRange ((List.range 21).map Dbl.ofNat) 2 = .ok d ∧ Reads (d.LLOC 2 10) :=
  ⟨_, rfl, C48_locators_partial ((List.range 21).map Dbl.ofNat) 2 _ rfl (by decide)
    (readable_ofNat (by decide)) 2 10 (by decide) (by decide)⟩
example : ∃ d, IXSU.ofRange ((List.range 24).map Dbl.ofNat) 2 = .ok d ∧ Reads (d.LLOC 2 12) :=
  ⟨_, rfl, C48_photonuclear_locators_partial ((List.range 24).map Dbl.ofNat) 2 _ rfl (by decide)
    (readable_ofNat (by decide)) 2 12 (by decide) (by decide)⟩

/-- The numbers of reactions of the secondary particles. -/
theorem C48_numbers (xs : Words) (n : Nat) (d : NTRO) (h : NTRO.ofRange xs n = .ok d) :
    (∃ w, d.NPs = .ok w ∧ w.length = n) ∧
    ((∀ w ∈ xs, Readable w) → ∀ i, 1 ≤ i → i ≤ n → Reads (d.NP i)) := by
  unfold NTRO.ofRange at h
  obtain ⟨_, hg, h⟩ := bind_eq_ok.mp h
  injection h with h; subst h
  have hg := guardThrow_eq_ok.mp hg
  have hl : n ≤ xs.length := by simpa using hg
  refine ⟨XSSr_in (by omega) (by simp only; omega), fun hr i h1 h2 => ?_⟩
  obtain ⟨v, hv⟩ := IXSS_in (xs := xs) h1 (Nat.le_trans h2 hl) hr
  exact ⟨u32OfInt v, by unfold NTRO.NP; simp only [hv, ok_bind]; rfl⟩

example : ∃ d, NTRO.ofRange ([3, 4, 5].map Dbl.ofNat) 2 = .ok d ∧ d.NPs = .ok ([3, 4].map Dbl.ofNat) :=
  ⟨_, rfl, rfl⟩

/-- The coefficients of a fission multiplicity polynomial. -/
theorem C48_polynomial_partial (xs : Words) (d : PolyNu) (h : PolyNu.ofRange xs = .ok d) (n : Nat)
    (hn : d.NC = .ok n) (hw : n + 2 < 4294967296) :
    d.LNU = .ok 1 ∧ ∃ w, d.C = .ok w ∧ w.length = n := by
  unfold PolyNu.ofRange at h
  obtain ⟨k, hk, h⟩ := bind_eq_ok.mp h
  obtain ⟨_, hg, h⟩ := bind_eq_ok.mp h
  obtain ⟨l, hL, h⟩ := bind_eq_ok.mp h
  obtain ⟨_, hg', h⟩ := bind_eq_ok.mp h
  injection h with h; subst h
  obtain rfl : k = n := Except.ok.inj (hk.symm.trans hn)
  have := guard_le hg hw
  refine ⟨by rw [hL]; have := guardThrow_eq_ok.mp hg'; simp at this; rw [this], ?_⟩
  unfold PolyNu.C
  rw [hk, ok_bind]
  exact XSSr_in (by omega) (by simp only; omega)

example : ∃ d, PolyNu.ofRange ([1, 2, 7, 8, 9].map Dbl.ofNat) = .ok d ∧ d.NC = .ok 2 ∧
    d.C = .ok ([7, 8].map Dbl.ofNat) := ⟨_, rfl, rfl, rfl⟩

/-- Finding: so does a count of -2 for a polynomial (2^64 - 2 coefficients). -/
theorem C48_polynomial_negative : ∃ d, PolyNu.ofRange [Dbl.ofNat 1, Dbl.ofInt (-2)] = .ok d ∧
    d.C = .error .range := ⟨_, rfl, by decide +kernel⟩

/-! ## Blocks with locators -/

/-- Every entry and locator of an accepted block with locators, whatever the data are. -/
theorem C48_located {D : Type} (gen : Nat → Words → Res D) (xs : Words) (iter n : Nat) (l : Bool)
    (b : LocBlock D) (h : LocBlock.ofRange gen xs iter n l = .ok b) (i : Nat) (h1 : 1 ≤ i) (h2 : i ≤ n) :
    Reads (b.get i) ∧ Reads (b.LLOC i) := by
  unfold LocBlock.ofRange LocBlock.generateBlocks at h
  obtain ⟨_, _, h⟩ := bind_eq_ok.mp h
  obtain ⟨ds, hds, h⟩ := bind_eq_ok.mp h
  injection h with h; subst h
  have hv : LocBlock.verifyDataIndex n i = .ok () := by
    unfold LocBlock.verifyDataIndex; rw [if_neg (by omega)]
  refine ⟨?_, ?_⟩
  · have hl : ds.length = n := by
      have : ∀ (l : List Nat) (r : List D), l.mapM (LocBlock.generateBlock gen xs n ‹_› iter) = .ok r →
          r.length = l.length := by
        intro l
        induction l with
        | nil => intro r hr; injection hr with hr; subst hr; rfl
        | cons a l ih =>
          intro r hr
          rw [List.mapM_cons] at hr
          obtain ⟨x, _, hr⟩ := bind_eq_ok.mp hr
          obtain ⟨y, hy, hr⟩ := bind_eq_ok.mp hr
          injection hr with hr; subst hr
          simp [ih y hy]
      simpa using this _ _ hds
    unfold LocBlock.get
    simp only [hv, ok_bind]
    rw [List.getElem?_eq_getElem (by omega)]
    exact ⟨_, rfl⟩
  · obtain ⟨y, hy⟩ : ∃ y, LocBlock.generateBlock gen xs n l iter (i - 1) = .ok y := by
      have : ∀ (js : List Nat) (r : List D), js.mapM (LocBlock.generateBlock gen xs n l iter) = .ok r →
          ∀ j ∈ js, ∃ y, LocBlock.generateBlock gen xs n l iter j = .ok y := by
        intro js
        induction js with
        | nil => intro r _ j hj; cases hj
        | cons a js ih =>
          intro r hr j hj
          rw [List.mapM_cons] at hr
          obtain ⟨x, hx, hr⟩ := bind_eq_ok.mp hr
          obtain ⟨y, hy, hr⟩ := bind_eq_ok.mp hr
          rcases List.mem_cons.mp hj with rfl | hj
          · exact ⟨x, hx⟩
          · exact ih y hy j hj
      exact this _ _ hds (i - 1) (by simp; omega)
    unfold LocBlock.generateBlock at hy
    obtain ⟨loc, hloc, _⟩ := bind_eq_ok.mp hy
    exact ⟨loc, by unfold LocBlock.LLOC; simp only; rw [← hloc]; congr 1; omega⟩

example : ∃ b, SIG.ofRange ([1, 4, 1, 1, 9, 1, 1, 8].map Dbl.ofNat) 2 2 = .ok b ∧
    Reads (b.get 2) ∧ Reads (b.LLOC 2) :=
  ⟨_, rfl, C48_located SIG.gen ([1, 4, 1, 1, 9, 1, 1, 8].map Dbl.ofNat) 2 2 true _ rfl 2 (by decide) (by decide)⟩

/-! ## Energy laws -/

namespace C48

theorem last_ok {w : Words} (h : w ≠ []) : ∃ v, w.getLast? = some v := by
  cases w with
  | nil => exact absurd rfl h
  | cons a l => exact ⟨_, List.getLast?_eq_some_getLast (by simp)⟩

theorem tab_xss {xs : Words} {d : TabulatedData} (h : TabulatedData.ofRange xs = .ok d) : d.xss = xs := by
  unfold TabulatedData.ofRange at h
  obtain ⟨_, _, h⟩ := bind_eq_ok.mp h
  obtain ⟨_, _, h⟩ := bind_eq_ok.mp h
  obtain ⟨_, _, h⟩ := bind_eq_ok.mp h
  obtain ⟨_, _, h⟩ := bind_eq_ok.mp h
  obtain ⟨_, _, h⟩ := bind_eq_ok.mp h
  unfold TabulatedData.generateBlocks at h
  obtain ⟨_, _, h⟩ := bind_eq_ok.mp h
  obtain ⟨_, _, h⟩ := bind_eq_ok.mp h
  obtain ⟨_, _, h⟩ := bind_eq_ok.mp h
  obtain ⟨_, _, h⟩ := bind_eq_ok.mp h
  obtain ⟨_, _, h⟩ := bind_eq_ok.mp h
  obtain ⟨_, _, h⟩ := bind_eq_ok.mp h
  injection h with h; subst h; rfl

theorem IXSS_le {xs : Words} {i : Nat} {v : Int} (h : Base.IXSS xs i = .ok v) : i ≤ xs.length := by
  unfold Base.IXSS at h
  obtain ⟨w, hw, _⟩ := bind_eq_ok.mp h
  have := Base.XSS_eq_ok_iff.mp hw
  have := (List.getElem?_eq_some_iff.mp this.2).1
  omega

/-- What is rounded to `std::size_t` and to `int` is the same count. -/
theorem count_eq {xs : Words} {p n : Nat} {w : Dbl} {i : Int} (hw : Base.XSS xs p = .ok w)
    (hn : toSize w.round? = .ok n) (hi : Base.IXSS xs p = .ok i) : sizeOfInt i = n := by
  unfold Base.IXSS at hi
  rw [hw, ok_bind] at hi
  cases hr : w.round? with
  | none => rw [hr] at hn; cases hn
  | some j =>
    rw [hr] at hi hn
    unfold toInt32 at hi; unfold toSize at hn
    simp only at hi hn
    split at hi
    next hc =>
      injection hi with hi; subst hi
      split at hn
      next hd => injection hn with hn; subst hn; unfold sizeOfInt; rw [Int.emod_eq_of_lt hd.1 hd.2]
      · cases hn
    · cases hi

end C48

/-- Evaporation and Maxwell spectra: energies, temperatures and the restriction energy; the first
and last energy when there is one. -/
theorem C48_evaporation_partial (xs : Words) (d : Evaporation) (h : Evaporation.ofRange xs = .ok d)
    (hw : xs.length < 4294967295) :
    ∃ n, (∃ w, d.energies = .ok w ∧ w.length = n) ∧ (∃ w, d.temperatures = .ok w ∧ w.length = n) ∧
      Reads d.U ∧ (1 ≤ n → Reads d.emin ∧ Reads d.emax) := by
  unfold Evaporation.ofRange at h
  obtain ⟨w1, hw1, h⟩ := bind_eq_ok.mp h
  obtain ⟨nr, hnr, h⟩ := bind_eq_ok.mp h
  obtain ⟨w2, hw2, h⟩ := bind_eq_ok.mp h
  obtain ⟨ne, hne, h⟩ := bind_eq_ok.mp h
  obtain ⟨_, hg, h⟩ := bind_eq_ok.mp h
  unfold Evaporation.generateBlocks at h
  obtain ⟨i, hi, h⟩ := bind_eq_ok.mp h
  rw [count_eq hw1 hnr hi] at h
  obtain ⟨j, hj, h⟩ := bind_eq_ok.mp h
  simp only [count_eq hw2 hne hj] at h
  obtain ⟨v, hv, h⟩ := bind_eq_ok.mp h
  obtain ⟨t, ht, h⟩ := bind_eq_ok.mp h
  injection h with h; subst h
  obtain ⟨_, g2, _, g4⟩ := sub_in hv
  have hl := guard_le hg (by omega)
  obtain ⟨nr', n, _, _, _, _, _, ⟨x, hx, hxl⟩, y⟩ := C48_tabulated _ _ ht
  have htx := tab_xss ht
  refine ⟨n, ⟨x, hx, hxl⟩, y, ?_, fun hn => ⟨?_, ?_⟩⟩
  · unfold Evaporation.U deref
    simp only [htx, g4]
    rw [List.getElem?_eq_getElem (by omega)]
    exact ⟨_, rfl⟩
  · unfold Evaporation.emin Evaporation.energies
    simp only [hx, ok_bind, deref]
    rw [List.getElem?_eq_getElem (by omega)]
    exact ⟨_, rfl⟩
  · unfold Evaporation.emax Evaporation.energies
    simp only [hx, ok_bind]
    obtain ⟨v, hv⟩ := last_ok (w := x) (by intro h0; subst h0; simp at hxl; omega)
    rw [hv]; exact ⟨_, rfl⟩

example : ∃ d, Evaporation.ofRange ([0, 2, 1, 2, 3, 4, 5].map Dbl.ofNat) = .ok d ∧
    d.U = .ok (Dbl.ofNat 5) ∧ d.emax = .ok (Dbl.ofNat 2) := ⟨_, rfl, rfl, rfl⟩

/-- Finding: a spectrum without energies is accepted and its first energy is read from an empty
range. -/
theorem C48_evaporation_empty : ∃ d, Evaporation.ofRange ([0, 0, 5].map Dbl.ofNat) = .ok d ∧
    d.emin = .error .ub := ⟨_, rfl, rfl⟩

/-- Finding: an N-body phase space distribution is accepted with two words only although its table
starts at the third. -/
theorem C48_nbody (a b emin emax : Dbl) : ∃ d, NBody.ofRange [a, b] emin emax = .ok d ∧
    d.interpolation = .error .range ∧ d.values = .error .range := ⟨_, rfl, rfl, rfl⟩

/-- Two parameter laws (2 and 3). -/
theorem C48_two_parameters (xs : Words) (emin emax : Dbl) (d : TwoParam)
    (h : TwoParam.ofRange xs emin emax = .ok d) : Reads d.C1 ∧ Reads d.C2 := by
  unfold TwoParam.ofRange at h
  obtain ⟨_, hg, h⟩ := bind_eq_ok.mp h
  injection h with h; subst h
  have hg := guardThrow_eq_ok.mp hg
  have hl : 2 ≤ xs.length := by simpa using hg
  exact ⟨XSS_in (by omega) (by simp only; omega), XSS_in (by omega) hl⟩

example : ∃ d, TwoParam.ofRange ([1, 2, 3].map Dbl.ofNat) (Dbl.ofNat 0) (Dbl.ofNat 20) = .ok d ∧
    d.C2 = .ok (Dbl.ofNat 2) := ⟨_, rfl, rfl⟩

/-- Watt spectra: both tables and the restriction energy. -/
theorem C48_watt_partial (xs : Words) (d : Watt) (h : Watt.ofRange xs = .ok d)
    (hw : xs.length < 4294967295) :
    Reads d.a.x ∧ Reads d.a.y ∧ Reads d.b.x ∧ Reads d.b.y ∧ Reads d.U := by
  unfold Watt.ofRange at h
  obtain ⟨i, hi, h⟩ := bind_eq_ok.mp h
  obtain ⟨j, hj, h⟩ := bind_eq_ok.mp h
  obtain ⟨k, hk, h⟩ := bind_eq_ok.mp h
  obtain ⟨l, hl, h⟩ := bind_eq_ok.mp h
  obtain ⟨_, hg, h⟩ := bind_eq_ok.mp h
  unfold Watt.generateBlocks at h
  obtain ⟨i', hi', h⟩ := bind_eq_ok.mp h
  obtain rfl : i = i' := Except.ok.inj (hi.symm.trans hi')
  obtain ⟨j', hj', h⟩ := bind_eq_ok.mp h
  obtain rfl : j = j' := Except.ok.inj (hj.symm.trans hj')
  generalize sizeOfInt i = nra at *
  generalize sizeOfInt j = nea at *
  obtain ⟨k', hk', h⟩ := bind_eq_ok.mp h
  rw [show 2 * nra + 2 * nea + 2 + 1 = 2 + 2 * nra + 2 * nea + 1 by omega] at hk'
  obtain rfl : k = k' := Except.ok.inj (hk.symm.trans hk')
  generalize sizeOfInt k = nrb at *
  obtain ⟨l', hl', h⟩ := bind_eq_ok.mp h
  rw [show 2 * nra + 2 * nea + 2 + 1 + 2 * nrb + 1 = 2 + 2 * nra + 2 * nea + 1 + 2 * nrb + 1 by omega]
    at hl'
  obtain rfl : l = l' := Except.ok.inj (hl.symm.trans hl')
  generalize sizeOfInt l = neb at *
  obtain ⟨va, hva, h⟩ := bind_eq_ok.mp h
  obtain ⟨a, ha, h⟩ := bind_eq_ok.mp h
  obtain ⟨vb, hvb, h⟩ := bind_eq_ok.mp h
  obtain ⟨b, hb, h⟩ := bind_eq_ok.mp h
  injection h with h; subst h
  obtain ⟨_, _, _, _, _, _, _, ⟨ax, hax, _⟩, ay, hay, _⟩ := C48_tabulated _ _ ha
  obtain ⟨_, _, _, _, _, _, _, ⟨bx, hbx, _⟩, by', hby, _⟩ := C48_tabulated _ _ hb
  obtain ⟨_, _, _, la⟩ := sub_in hva
  obtain ⟨_, g, _, lb⟩ := sub_in hvb
  have hle := guard_le hg (by omega)
  refine ⟨⟨ax, hax⟩, ⟨ay, hay⟩, ⟨bx, hbx⟩, ⟨by', hby⟩, ?_⟩
  unfold Watt.U deref
  simp only [tab_xss ha, tab_xss hb, la, lb]
  rw [List.getElem?_eq_getElem (by omega)]
  exact ⟨_, rfl⟩

example : ∃ d, Watt.ofRange ([0, 1, 1, 2, 0, 1, 3, 4, 5].map Dbl.ofNat) = .ok d ∧
    d.U = .ok (Dbl.ofNat 5) ∧ d.b.y = .ok [Dbl.ofNat 4] := ⟨_, rfl, rfl, rfl⟩

/-- General evaporation spectra: the table and the bins, for a whole number of bins. -/
theorem C48_general_partial (xs : Words) (d : GenEvap) (h : GenEvap.ofRange xs = .ok d)
    (hw : xs.length < 2147483648) :
    Reads d.tabulated.x ∧ Reads d.tabulated.y ∧
      ∀ n, d.NET = .ok n → n < 2147483648 → ∃ w, d.binValues = .ok w ∧ w.length = n := by
  unfold GenEvap.ofRange at h
  obtain ⟨i, hi, h⟩ := bind_eq_ok.mp h
  obtain ⟨j, hj, h⟩ := bind_eq_ok.mp h
  obtain ⟨k, hk, h⟩ := bind_eq_ok.mp h
  obtain ⟨_, hg, h⟩ := bind_eq_ok.mp h
  unfold GenEvap.generateBlocks at h
  obtain ⟨i', hi', h⟩ := bind_eq_ok.mp h
  obtain rfl : i = i' := Except.ok.inj (hi.symm.trans hi')
  obtain ⟨j', hj', h⟩ := bind_eq_ok.mp h
  obtain rfl : j = j' := Except.ok.inj (hj.symm.trans hj')
  generalize sizeOfInt i = nr at *
  generalize sizeOfInt j = ne at *
  obtain ⟨va, hva, h⟩ := bind_eq_ok.mp h
  obtain ⟨a, ha, h⟩ := bind_eq_ok.mp h
  obtain ⟨vb, hvb, h⟩ := bind_eq_ok.mp h
  obtain ⟨b, hb, h⟩ := bind_eq_ok.mp h
  injection h with h; subst h
  obtain ⟨_, _, _, _, _, _, _, ⟨ax, hax, _⟩, ay, hay, _⟩ := C48_tabulated _ _ ha
  refine ⟨⟨ax, hax⟩, ⟨ay, hay⟩, fun n hn hlt => ?_⟩
  obtain ⟨_, gb, _, lb⟩ := sub_in hvb
  have hkl : 1 + 2 * nr + 1 + 2 * ne + 1 ≤ xs.length := IXSS_le hk
  obtain ⟨f1, f2⟩ := sub_first hvb (by omega)
  rw [show 2 * nr + 2 * ne + 2 + 1 = 1 + 2 * nr + 1 + 2 * ne + 1 by omega, hk] at f1
  have hbx : b = ⟨vb, 1⟩ := by
    unfold ColumnData.ofRange at hb
    cases vb with
    | nil => cases f2
    | cons _ _ =>
      obtain ⟨_, _, hb⟩ := bind_eq_ok.mp hb
      obtain ⟨_, _, hb⟩ := bind_eq_ok.mp hb
      injection hb with hb; exact hb.symm
  subst hbx
  have hN : ColumnData.N ⟨vb, 1⟩ = .ok (sizeOfInt k) := by
    unfold ColumnData.N
    simp only [f2, f1, Bool.false_eq_true, if_false, ok_bind]; rfl
  obtain rfl : sizeOfInt k = n := Except.ok.inj (hN.symm.trans hn)
  have hle := guard_le hg (by omega)
  exact (column_in (nc := 1) (c := 1) hN (by simp only [lb]; omega) (by omega) (by omega)).1

example : ∃ d, GenEvap.ofRange ([0, 1, 1, 2, 2, 8, 9].map Dbl.ofNat) = .ok d ∧ d.NET = .ok 2 ∧
    d.binValues = .ok ([8, 9].map Dbl.ofNat) := ⟨_, rfl, rfl, rfl⟩

namespace C48

theorem mapM_len {α β : Type} (f : α → Res β) : ∀ (l : List α) (r : List β), l.mapM f = .ok r →
    r.length = l.length
  | [], r, hr => by injection hr with hr; subst hr; rfl
  | a :: l, r, hr => by
    rw [List.mapM_cons] at hr
    obtain ⟨x, _, hr⟩ := bind_eq_ok.mp hr
    obtain ⟨y, hy, hr⟩ := bind_eq_ok.mp hr
    injection hr with hr; subst hr
    simp [mapM_len f l y hy]

theorem mapM_each {α β : Type} (f : α → Res β) : ∀ (l : List α) (r : List β), l.mapM f = .ok r →
    ∀ j ∈ l, Reads (f j)
  | [], _, _, j, hj => by cases hj
  | a :: l, r, hr, j, hj => by
    rw [List.mapM_cons] at hr
    obtain ⟨x, hx, hr⟩ := bind_eq_ok.mp hr
    obtain ⟨y, hy, hr⟩ := bind_eq_ok.mp hr
    rcases List.mem_cons.mp hj with rfl | hj
    · exact ⟨x, hx⟩
    · exact mapM_each f l y hy j hj

theorem mapM_get {α β : Type} (f : α → Res β) : ∀ (l : List α) (r : List β), l.mapM f = .ok r →
    ∀ (i : Nat) (a : α), l[i]? = some a → ∃ b, r[i]? = some b ∧ f a = .ok b
  | [], _, _, i, a, hi => by simp at hi
  | a :: l, r, hr, i, a', hi => by
    rw [List.mapM_cons] at hr
    obtain ⟨x, hx, hr⟩ := bind_eq_ok.mp hr
    obtain ⟨y, hy, hr⟩ := bind_eq_ok.mp hr
    injection hr with hr; subst hr
    cases i with
    | zero => simp at hi; subst hi; exact ⟨x, by simp, hx⟩
    | succ i => simpa using mapM_get f l y hy i a' (by simpa using hi)

theorem iterator_in {xs : Words} {i l : Nat} (h : Base.iterator xs i = .ok l) :
    1 ≤ i ∧ i ≤ xs.length + 1 ∧ l = i - 1 := by
  unfold Base.iterator Base.verifyIndex at h
  split at h
  · cases h
  · next hc =>
    simp only [ok_bind, pure_eq_ok] at h
    injection h with h
    exact ⟨by omega, by omega, h.symm⟩

end C48

/-- Distributions by incident energy (laws 4, 44, 61 and 67, whatever the distributions are): every
accepted object gives its interpolation table, energies, locators and distributions without leaving
its range; no hypothesis on the words. -/
theorem C48_by_energy {D : Type} (gen : Dbl → Nat → Words → Res D) (locb : Nat) (xs : Words)
    (d : DistData D) (h : DistData.ofRange gen locb xs = .ok d) :
    ∃ nr ne, d.NB = .ok nr ∧ d.NE = .ok ne ∧ 2 + 2 * nr + 2 * ne ≤ xs.length ∧
      (∃ w, d.NBT = .ok w ∧ w.length = nr) ∧ (∃ w, d.INT = .ok w ∧ w.length = nr) ∧
      (∃ w, d.incidentEnergies = .ok w ∧ w.length = ne) ∧
      ∀ i, 1 ≤ i → i ≤ ne → Reads (d.incidentEnergy i) ∧ Reads (d.LOCC i) ∧
        Reads (d.relativeDistributionLocator i) ∧ Reads (d.distribution i) := by
  unfold DistData.ofRange at h
  obtain ⟨_, _, h⟩ := bind_eq_ok.mp h
  obtain ⟨_, _, h⟩ := bind_eq_ok.mp h
  obtain ⟨_, _, h⟩ := bind_eq_ok.mp h
  obtain ⟨_, _, h⟩ := bind_eq_ok.mp h
  obtain ⟨_, _, h⟩ := bind_eq_ok.mp h
  unfold DistData.generateBlocks at h
  obtain ⟨i, hi, h⟩ := bind_eq_ok.mp h
  obtain ⟨j, hj, h⟩ := bind_eq_ok.mp h
  obtain ⟨data, hdata, h⟩ := bind_eq_ok.mp h
  obtain ⟨fin, hfin, h⟩ := bind_eq_ok.mp h
  obtain ⟨v, hv, h⟩ := bind_eq_ok.mp h
  obtain ⟨a, ha, h⟩ := bind_eq_ok.mp h
  obtain ⟨w, hw, h⟩ := bind_eq_ok.mp h
  obtain ⟨b, hb, h⟩ := bind_eq_ok.mp h
  obtain ⟨n, hn, h⟩ := bind_eq_ok.mp h
  obtain ⟨ds, hds, h⟩ := bind_eq_ok.mp h
  injection h with h; subst h
  generalize hnr : sizeOfInt i = nr at *
  generalize hne : sizeOfInt j = ne at *
  obtain ⟨_, _, rfl⟩ := iterator_in hdata
  obtain ⟨_, hlen, rfl⟩ := iterator_in hfin
  obtain ⟨a1, a2⟩ := columns_sub (l := 0) (k := nr) (nc := 2) (i := i)
    (by rw [show 0 + (nr * 2 + 1) = 2 + 2 * nr - 1 by omega]; exact hv) ha hi hnr
  obtain ⟨b1, b2⟩ := columns_sub (l := 2 + 2 * nr - 1) (k := ne) (nc := 2) (i := j)
    (by rw [show 2 + 2 * nr - 1 + (ne * 2 + 1) = 2 + 2 * nr + 2 * ne + 1 - 1 by omega]; exact hw) hb
    (by rw [show 2 + 2 * nr - 1 + 1 = 2 + 2 * nr by omega]; exact hj) hne
  obtain rfl : ne = n := Except.ok.inj (b1.symm.trans hn)
  refine ⟨nr, ne, a1, b1, by omega, (column_in a1 a2 (by omega) (by omega)).1,
    (column_in a1 a2 (by omega) (by omega)).1, (column_in b1 b2 (by omega) (by omega)).1, ?_⟩
  intro k h1 h2
  obtain ⟨x, hx⟩ := mapM_each _ _ _ hds (k - 1) (by simp; omega)
  unfold Dist.generateBlock at hx
  simp only [show k - 1 + 1 = k by omega] at hx
  obtain ⟨v1, hv1, hx⟩ := bind_eq_ok.mp hx
  obtain ⟨v2, hv2, hx⟩ := bind_eq_ok.mp hx
  obtain ⟨v3, hv3, hx⟩ := bind_eq_ok.mp hx
  refine ⟨⟨v1, hv1⟩, ⟨v2, hv2⟩, ⟨sizeOfInt v3, ?_⟩, ?_⟩
  · unfold DistData.relativeDistributionLocator
    simp only [hv3, ok_bind]; rfl
  · unfold DistData.distribution Dist.verifyValueIndex
    have hl := mapM_len _ _ _ hds
    simp only [List.length_range] at hl
    simp only [b1, ok_bind]
    rw [if_neg (by omega), ok_bind, List.getElem?_eq_getElem (by omega)]
    exact ⟨_, rfl⟩

/-- Law 4 with one energy, two outgoing energies and a further word. -/
example : ∃ d, Law4.ofRange 1 ([0, 1, 7, 5, 2, 2, 1, 2, 3, 4, 5, 6, 99].map Dbl.ofNat) = .ok d ∧
    d.NE = .ok 1 ∧ Reads (d.distribution 1) := by
  obtain ⟨d, hd⟩ : ∃ d, Law4.ofRange 1 ([0, 1, 7, 5, 2, 2, 1, 2, 3, 4, 5, 6, 99].map Dbl.ofNat) = .ok d :=
    ⟨_, rfl⟩
  obtain ⟨nr, ne, h1, h2, _, _, _, _, h⟩ := C48_by_energy _ _ _ _ hd
  have : d.NE = .ok 1 := by injection hd with hd; subst hd; rfl
  obtain rfl : 1 = ne := Except.ok.inj (this.symm.trans h2)
  exact ⟨d, hd, h2, (h 1 (by decide) (by decide)).2.2.2⟩

/-- Angular distributions of a reaction: energies, types and distributions of every accepted object. -/
theorem C48_angular (locb : Nat) (xs : Words) (d : AngularData) (h : AngularData.ofRange locb xs = .ok d) :
    ∃ ne, d.NE = .ok ne ∧ 1 + 2 * ne ≤ xs.length ∧ (∃ w, d.incidentEnergies = .ok w ∧ w.length = ne) ∧
      ∀ i, 1 ≤ i → i ≤ ne → Reads (d.incidentEnergy i) ∧ Reads (d.distributionType i) ∧
        Reads (d.LOCC i) ∧ Reads (d.distribution i) := by
  unfold AngularData.ofRange at h
  obtain ⟨d', hd', h⟩ := bind_eq_ok.mp h
  obtain ⟨_, _, h⟩ := bind_eq_ok.mp h
  obtain ⟨_, _, h⟩ := bind_eq_ok.mp h
  injection h with h; subst h
  unfold AngularData.generateBlocks at hd'
  obtain ⟨i, hi, h⟩ := bind_eq_ok.mp hd'
  obtain ⟨fin, hfin, h⟩ := bind_eq_ok.mp h
  obtain ⟨w, hw, h⟩ := bind_eq_ok.mp h
  obtain ⟨b, hb, h⟩ := bind_eq_ok.mp h
  obtain ⟨n, hn, h⟩ := bind_eq_ok.mp h
  obtain ⟨ds, hds, h⟩ := bind_eq_ok.mp h
  injection h with h; subst h
  generalize hne : sizeOfInt i = ne at *
  obtain ⟨_, hlen, rfl⟩ := iterator_in hfin
  obtain ⟨b1, b2⟩ := columns_sub (l := 0) (k := ne) (nc := 2) (i := i)
    (by rw [show 0 + (ne * 2 + 1) = 2 * ne + 2 - 1 by omega]; exact hw) hb hi hne
  obtain rfl : ne = n := Except.ok.inj (b1.symm.trans hn)
  refine ⟨ne, b1, by omega, (column_in b1 b2 (by omega) (by omega)).1, ?_⟩
  intro k h1 h2
  obtain ⟨x, hx⟩ := mapM_each _ _ _ hds (k - 1) (by simp; omega)
  unfold AngularData.generateBlock at hx
  simp only [show k - 1 + 1 = k by omega] at hx
  obtain ⟨v1, hv1, hx⟩ := bind_eq_ok.mp hx
  obtain ⟨v2, hv2, hx⟩ := bind_eq_ok.mp hx
  refine ⟨⟨v2, hv2⟩, ⟨v1, hv1⟩, ?_, ?_⟩
  · unfold AngularData.typeOf at hv1
    obtain ⟨v, hv, _⟩ := bind_eq_ok.mp hv1
    exact ⟨v, hv⟩
  · unfold AngularData.distribution AngularData.verifyIndexOf
    have hl := mapM_len _ _ _ hds
    simp only [List.length_range] at hl
    simp only [b1, ok_bind]
    rw [if_neg (by omega), ok_bind, List.getElem?_eq_getElem (by omega)]
    exact ⟨_, rfl⟩

example : ∃ d, AngularData.ofRange 1 ([2, 1, 20, 0, 0, 7].map Dbl.ofNat) = .ok d ∧ d.NE = .ok 2 ∧
    Reads (d.distribution 2) := by
  obtain ⟨d, hd⟩ : ∃ d, AngularData.ofRange 1 ([2, 1, 20, 0, 0, 7].map Dbl.ofNat) = .ok d := ⟨_, rfl⟩
  obtain ⟨ne, h2, _, _, h⟩ := C48_angular _ _ _ hd
  have : d.NE = .ok 2 := by injection hd with hd; subst hd; rfl
  obtain rfl : 2 = ne := Except.ok.inj (this.symm.trans h2)
  exact ⟨d, hd, h2, (h 2 (by decide) (by decide)).2.2.2⟩

/-! ## Equiprobable bins -/

/-- Equiprobable energy bins: every accepted object gives its table, energies, number of bin
boundaries and bins. -/
theorem C48_bins (xs : Words) (d : EquiBinData) (h : EquiBinData.ofRange xs = .ok d) :
    ∃ nr ne net, d.NB = .ok nr ∧ d.NE = .ok ne ∧ d.NET = .ok net ∧
      (∃ w, d.NBT = .ok w ∧ w.length = nr) ∧ (∃ w, d.INT = .ok w ∧ w.length = nr) ∧
      (∃ w, d.incidentEnergies = .ok w ∧ w.length = ne) ∧
      (∀ i, 1 ≤ i → i ≤ ne → Reads (d.incidentEnergy i) ∧ ∃ e, d.distribution i = .ok e ∧
        e.xss.length = net) ∧ 3 + 2 * nr + ne + ne * net ≤ xs.length := by
  unfold EquiBinData.ofRange at h
  obtain ⟨i, hi, h⟩ := bind_eq_ok.mp h
  obtain ⟨j, hj, h⟩ := bind_eq_ok.mp h
  obtain ⟨k, hk, h⟩ := bind_eq_ok.mp h
  obtain ⟨_, _, h⟩ := bind_eq_ok.mp h
  unfold EquiBinData.generateBlocks at h
  obtain ⟨i', hi', h⟩ := bind_eq_ok.mp h
  obtain rfl : i = i' := Except.ok.inj (hi.symm.trans hi')
  obtain ⟨j', hj', h⟩ := bind_eq_ok.mp h
  obtain rfl : j = j' := Except.ok.inj (hj.symm.trans hj')
  obtain ⟨v, hv, h⟩ := bind_eq_ok.mp h
  obtain ⟨a, ha, h⟩ := bind_eq_ok.mp h
  obtain ⟨w, hw, h⟩ := bind_eq_ok.mp h
  obtain ⟨b, hb, h⟩ := bind_eq_ok.mp h
  obtain ⟨ds, hds, h⟩ := bind_eq_ok.mp h
  injection h with h; subst h
  have hkl := IXSS_le hk
  generalize hnr : sizeOfInt i = nr at *
  generalize hne : sizeOfInt j = ne at *
  generalize hnet : sizeOfInt k = net at *
  obtain ⟨a1, a2⟩ := columns_sub (l := 0) (k := nr) (nc := 2) (i := i)
    (by rw [show 0 + (nr * 2 + 1) = 2 * nr + 1 by omega]; exact hv) ha hi hnr
  obtain ⟨b1, b2⟩ := columns_sub (l := 2 * nr + 1) (k := ne) (nc := 1) (i := j)
    (by rw [show 2 * nr + 1 + (ne * 1 + 1) = 2 * nr + 1 + ne + 1 by omega]; exact hw) hb
    (by rw [show 2 * nr + 1 + 1 = 1 + 2 * nr + 1 by omega]; exact hj) hne
  have hNET : EquiBinData.NETof xs a b = .ok net := by
    unfold EquiBinData.NETof
    rw [a1, b1]
    simp only [ok_bind, hk, hnet]; rfl
  have each : ∀ q, 1 ≤ q → q ≤ ne → ∃ e, EquiBinData.generateBlock xs a b (2 * nr + 1 + ne + 1) (q - 1) =
      .ok e ∧ e.xss.length = net ∧ Reads (EquiBinData.incidentOf b q) ∧
      2 * nr + 1 + ne + 1 + 1 + net * q ≤ xs.length := by
    intro q h1 h2
    obtain ⟨e, he⟩ := mapM_each _ _ _ hds (q - 1) (by simp; omega)
    refine ⟨e, he, ?_⟩
    unfold EquiBinData.generateBlock at he
    rw [show q - 1 + 1 = q by omega] at he
    obtain ⟨v1, hv1, he⟩ := bind_eq_ok.mp he
    rw [hNET, ok_bind] at he
    obtain ⟨v2, hv2, he⟩ := bind_eq_ok.mp he
    injection he with he; subst he
    obtain ⟨_, g2, _, g4⟩ := sub_in hv2
    refine ⟨?_, ⟨v1, hv1⟩, g2⟩
    simp only [g4]
    have : net * q = net * (q - 1) + net := by
      rw [← Nat.mul_succ]; congr 1; omega
    omega
  refine ⟨nr, ne, net, a1, b1, hNET, (column_in a1 a2 (by omega) (by omega)).1,
    (column_in a1 a2 (by omega) (by omega)).1, (column_in b1 b2 (by omega) (by omega)).1, ?_, ?_⟩
  · intro q h1 h2
    obtain ⟨e, he, hel, hinc, _⟩ := each q h1 h2
    refine ⟨hinc, ?_⟩
    have hl := mapM_len _ _ _ hds
    simp only [List.length_range] at hl
    unfold EquiBinData.distribution EquiBinData.NE
    simp only [b1, ok_bind]
    rw [if_neg (by omega), List.getElem?_eq_getElem (by omega)]
    refine ⟨ds[q - 1], rfl, ?_⟩
    obtain ⟨b, hb1, hb2⟩ := mapM_get _ _ _ hds (q - 1) (q - 1)
      (by rw [List.getElem?_eq_getElem (by simp; omega)]; simp)
    rw [List.getElem?_eq_getElem (by omega)] at hb1
    injection hb1 with hb1
    rw [hb1]
    rw [hb2] at he
    injection he with he; rw [he]; exact hel
  · rcases Nat.eq_zero_or_pos ne with h0 | h0
    · subst h0; omega
    · obtain ⟨_, _, _, _, g⟩ := each ne h0 (Nat.le_refl _)
      rw [Nat.mul_comm ne]; omega

example : ∃ d, EquiBinData.ofRange ([0, 1, 7, 3, 4, 5, 6, 99].map Dbl.ofNat) = .ok d ∧ d.NET = .ok 3 ∧
    d.distribution 1 = .ok ⟨Dbl.ofNat 7, [4, 5, 6].map Dbl.ofNat⟩ := ⟨_, rfl, rfl, rfl⟩

/-- The 33 cosines of equiprobable angular bins. -/
theorem C48_cosine_bins (e : Dbl) (xs : Words) (d : EquiAngular) (h : EquiAngular.mk' e xs = .ok d) :
    ∃ w, d.cosines = .ok w ∧ w.length = 33 := by
  unfold EquiAngular.mk' at h
  obtain ⟨_, hg, h⟩ := bind_eq_ok.mp h
  injection h with h; subst h
  have hg := guardThrow_eq_ok.mp hg
  have hl : 33 ≤ xs.length := by simpa using hg
  exact XSSr_in (by omega) (by simp only; omega)

example : ∃ d, EquiAngular.mk' (Dbl.ofNat 1) ((List.range 34).map Dbl.ofNat) = .ok d := ⟨_, rfl⟩

/-! ## Thermal scattering -/

/-- Discrete cosines. -/
theorem C48_cosines (nc : Nat) (xs : Words) :
    (∀ d, DCos.ofRange nc xs = .ok d → Reads d.energy ∧ ∃ w, d.cosines = .ok w ∧ w.length = nc) ∧
    ∀ d, PCos.ofRange nc xs = .ok d → Reads d.energy ∧ Reads d.pdf ∧ Reads d.cdf ∧
      ∃ w, d.cosines = .ok w ∧ w.length = nc := by
  constructor
  · intro d h
    unfold DCos.ofRange at h
    obtain ⟨_, hg, h⟩ := bind_eq_ok.mp h
    injection h with h; subst h
    have hg := guardThrow_eq_ok.mp hg
    have hl : 1 + nc ≤ xs.length := by simpa using hg
    exact ⟨XSS_in (by omega) (by simp only; omega), XSSr_in (by omega) (by simp only; omega)⟩
  · intro d h
    unfold PCos.ofRange at h
    obtain ⟨_, hg, h⟩ := bind_eq_ok.mp h
    injection h with h; subst h
    have hg := guardThrow_eq_ok.mp hg
    have hl : 3 + nc ≤ xs.length := by simpa using hg
    exact ⟨XSS_in (by omega) (by simp only; omega), XSS_in (by omega) (by simp only; omega),
      XSS_in (by omega) (by simp only; omega), XSSr_in (by omega) (by simp only; omega)⟩

example : (∃ d, DCos.ofRange 2 ([1, 2, 3, 4].map Dbl.ofNat) = .ok d) ∧
    ∃ d, PCos.ofRange 1 ([1, 2, 3, 4].map Dbl.ofNat) = .ok d := ⟨⟨_, rfl⟩, ⟨_, rfl⟩⟩

namespace C48

theorem plainLoop_len (xs : Words) (nc : Nat) : ∀ (todo cur : Nat) (r : List CosData × Nat),
    ITXE.plainLoop xs nc todo cur = .ok r → r.1.length = todo
  | 0, _, r, h => by injection h with h; subst h; rfl
  | todo + 1, cur, r, h => by
    unfold ITXE.plainLoop at h
    obtain ⟨w, _, h⟩ := bind_eq_ok.mp h
    obtain ⟨d, _, h⟩ := bind_eq_ok.mp h
    obtain ⟨q, hq, h⟩ := bind_eq_ok.mp h
    obtain ⟨ds, c⟩ := q
    injection h with h; subst h
    simp [plainLoop_len xs nc todo _ _ hq]

theorem plainBlocks_len (xs : Words) (nc nieb : Nat) : ∀ (todo cur : Nat) (r : List (List CosData)),
    ITXE.plainBlocks xs nc nieb todo cur = .ok r → r.length = todo ∧ ∀ l ∈ r, l.length = nieb
  | 0, _, r, h => by injection h with h; subst h; exact ⟨rfl, by simp⟩
  | todo + 1, cur, r, h => by
    unfold ITXE.plainBlocks at h
    obtain ⟨q, hq, h⟩ := bind_eq_ok.mp h
    obtain ⟨ds, c⟩ := q
    simp only at h
    obtain ⟨r', hr', h⟩ := bind_eq_ok.mp h
    injection h with h; subst h
    obtain ⟨h1, h2⟩ := plainBlocks_len xs nc nieb todo _ _ hr'
    refine ⟨by simp [h1], ?_⟩
    intro l hl
    rcases List.mem_cons.mp hl with rfl | hl
    · exact plainLoop_len xs nc _ _ _ hq
    · exact h2 l hl

end C48

/-- Inelastic scattering with discrete cosines: the data of every incident and outgoing energy of an
accepted block. -/
theorem C48_inelastic (ifeng nieb nc ne locb : Nat) (xs : Words) (d : ITXE)
    (h : ITXE.ofRange ifeng nieb nc ne locb xs = .ok d) (hi : ifeng < 2) (a b : Nat)
    (ha : 1 ≤ a ∧ a ≤ ne) (hb : 1 ≤ b ∧ b ≤ nieb) : Reads (d.get a b) := by
  unfold ITXE.ofRange at h
  rw [if_pos hi] at h
  obtain ⟨_, _, h⟩ := bind_eq_ok.mp h
  obtain ⟨data, hd, h⟩ := bind_eq_ok.mp h
  injection h with h; subst h
  unfold ITXE.generateBlocks at hd
  rw [if_pos hi, if_neg (by omega)] at hd
  unfold ITXE.NIEBof at hd
  simp only [ok_bind] at hd
  obtain ⟨l1, l2⟩ := plainBlocks_len _ _ _ _ _ _ hd
  unfold ITXE.get ITXE.verifyIndices ITXE.NIEB ITXE.NIEBof
  simp only [ok_bind]
  rw [if_neg (by omega), if_neg (by omega)]
  simp only [pure_eq_ok, ok_bind]
  rw [List.getElem?_eq_getElem (by omega)]
  have := l2 data[a - 1] (List.getElem_mem _)
  simp only
  rw [List.getElem?_eq_getElem (by omega)]
  exact ⟨_, rfl⟩

example : ∃ d, ITXE.ofRange 0 2 1 2 1 ((List.range 9).map Dbl.ofNat) = .ok d ∧ Reads (d.get 2 2) :=
  ⟨_, rfl, C48_inelastic 0 2 1 2 1 ((List.range 9).map Dbl.ofNat) _ rfl (by decide) 2 2 (by decide)
    (by decide)⟩

/-- Finding: 65536 incident and 65536 outgoing energies with one cosine need 2^33 words, which is 0
in `unsigned int`: an empty range passes the check and the reading constructor leaves it. -/
theorem C48_inelastic_wrap :
    ITXE.verifySize [] 0 65536 1 65536 = .ok () ∧
    ITXE.ofRange 0 65536 1 65536 1 [] = .error .ub := by
  refine ⟨by decide +kernel, ?_⟩
  have h1 : ITXE.verifySize [] 0 65536 1 65536 = .ok () := by decide +kernel
  have h2 : ∀ k j, ITXE.plainBlocks [] 1 (k + 1) (j + 1) 0 = .error .ub := by
    intro k j
    unfold ITXE.plainBlocks ITXE.plainLoop
    rfl
  unfold ITXE.ofRange
  rw [h1, ok_bind]
  have h3 : ITXE.generateBlocks [] 0 1 (some 65536) 65536 1 = .error .ub := by
    unfold ITXE.generateBlocks ITXE.NIEBof
    rw [if_pos (by decide), if_neg (by decide), ok_bind]
    exact h2 65535 65535
  rw [if_pos (by decide), h3]; rfl

/-! ## The claim as stated is false -/

/-- The claim for blocks of arrays and for cross sections, with every 32-bit count. -/
def C48Statement : Prop :=
  (∀ (xs : Words) (n m : Nat) (d : ArrayData), n < 4294967296 → m < 4294967296 →
    ArrayData.ofRange xs n m = .ok d → ∀ a i, 1 ≤ a → a ≤ m → 1 ≤ i → i ≤ n → Reads (d.dvalue a i)) ∧
  ∀ (xs : Words) (d : CrossSectionData), CrossSectionData.ofRange xs = .ok d → Reads d.crossSections

theorem C48_false : ¬ C48Statement := by
  intro ⟨h, _⟩
  obtain ⟨d, h1, h2, _⟩ := C48_arrays_wrap
  obtain ⟨v, hv⟩ := h [] 65536 65536 d (by decide) (by decide) h1 1 1 (by decide) (by decide) (by decide)
    (by decide)
  rw [h2] at hv; cases hv

/-- The hypotheses of the other theorems are met too. -/
private abbrev exRange (l : List Int) : Words := l.map Dbl.ofInt
example := C48_tabulated (exRange [0, 2, 1, 20, 3, 4, 7]) _ rfl
example := C48_tabulated_short 3 (by decide)
example := C48_cross_sections_partial (exRange [5, 2, 8, 9, 7]) _ rfl 2 (by decide) (by decide)
example := C48_photon_partial (exRange [13, 5, 2, 8, 9, 7]) _ rfl 2 (by decide) (by decide)
example := C48_production_partial (exRange [5, 2, 8, 9, 10, 11, 7]) _ rfl 2 (by decide) (by decide)
example := C48_distribution_partial (exRange [2, 2, 1, 2, 3, 4, 5, 6, 7]) _ rfl 2 (by decide) (by decide)
example := C48_yp_partial (exRange [2, 102, 4, 7]) _ rfl 2 (by decide) (by decide) (by decide)
example := C48_numbers (exRange [2, 102, 7]) 2 _ rfl
example := C48_polynomial_partial (exRange [1, 2, 5, 6, 7]) _ rfl 2 (by decide) (by decide)
example := C48_evaporation_partial (exRange [0, 2, 1, 20, 3, 4, 5, 7]) _ rfl (by decide)
example := C48_two_parameters (exRange [3, 4, 7]) (Dbl.ofNat 1) (Dbl.ofNat 20) _ rfl
example := C48_watt_partial (exRange [0, 2, 1, 20, 3, 4, 0, 1, 6, 7, 8, 9]) _ rfl (by decide)
example := C48_general_partial (exRange [0, 2, 1, 20, 3, 4, 2, 8, 9, 10]) _ rfl (by decide)
example := C48_bins (exRange [0, 2, 1, 20, 3, 4, 5, 6, 7, 8, 9, 10]) _ rfl
example := C48_cosine_bins (Dbl.ofNat 1) (List.replicate 33 (Dbl.ofNat 0)) _ rfl

end ACE.Props

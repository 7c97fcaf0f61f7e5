import Verif.Lemmas.Lookup

/-!
# C21: reaction number lookup

`FirstAt l key i` says that `i` is the smallest one-based index of `key` in `l`.
Full statement wanted: for every block range that starts with the `n` reactions,
`hasReactionNumber( mt )` is true iff `mt` is one of them and `index( mt )` is the first
index or throws. It holds when the range has no further words and `index` is right for a
reaction that is present in any case; it is false for an absent reaction in a longer
range (`C21_longer_range`).
-/

namespace ACE.Props
open ACE

theorem MTR.find_words (mts : List Nat) (rest : Words) (mt : Nat)
    (hf : ∀ n ∈ mts, n < 4294967296) :
    MTR.find ⟨mts.map Dbl.ofNat ++ rest, mts.length, 1⟩ mt = .ok (mts.findIdx (· == mt)) := by
  have : sub (mts.map Dbl.ofNat ++ rest) 0 mts.length = .ok (mts.map Dbl.ofNat) :=
    sub_of_eq (a := []) (c := rest) (by simp) (by simp) (by simp)
  simp [MTR.find, this, findRounded_ofNat mt mts hf]

/-- A built block and a reader over the words and trailing words are what we think. -/
theorem C21_objects (mts : List Nat) (rest : Words) :
    MTR.mk' mts = .ok ⟨mts.map Dbl.ofNat, mts.length, 1⟩ ∧
    MTR.ofRange (mts.map Dbl.ofNat ++ rest) mts.length =
      .ok ⟨mts.map Dbl.ofNat ++ rest, mts.length, 1⟩ := by
  constructor
  · have := ArrayData.ofArrays_ok [mts.map Dbl.ofNat] mts.length (by simp) (by simp)
    simpa [MTR.mk'] using this
  · exact ArrayData.ofRange_ok _ _ _ (by simp)

/-- Reactions are given back, whatever follows the block. -/
theorem C21_values (mts : List Nat) (rest : Words) (hf : ∀ n ∈ mts, FitsN n) :
    MTR.NTR ⟨mts.map Dbl.ofNat ++ rest, mts.length, 1⟩ = mts.length ∧
    MTR.MTs ⟨mts.map Dbl.ofNat ++ rest, mts.length, 1⟩ = .ok (mts.map Int.ofNat) ∧
    ∀ (i : Nat) (h : i < mts.length),
      MTR.MT ⟨mts.map Dbl.ofNat ++ rest, mts.length, 1⟩ (i + 1) = .ok mts[i] := by
  have hh : ArrayData.Holds ⟨mts.map Dbl.ofNat ++ rest, mts.length, 1⟩ [mts.map Dbl.ofNat] :=
    ⟨rfl, by simp, rest, by simp⟩
  refine ⟨rfl, hh.iarray 0 (by simp) _ (by simp [Dbl.ofNat]) ?_, fun i h => ?_⟩
  · intro i hi
    obtain ⟨n, hn, rfl⟩ := List.mem_map.mp hi
    exact FitsN.fits (hf n hn)
  · have hn := hf _ (List.getElem_mem h)
    have := hh.ivalue 0 i (by simp) (by simpa using h) (mts[i] : Int) (by simp [Dbl.ofNat])
      (FitsN.fits hn)
    unfold MTR.MT
    simp only [Nat.zero_add] at this
    rw [this]
    simp only [ok_bind, pure_eq_ok]
    rw [u32OfInt_natCast (by omega)]

/-- `hasMT` and `index` for a block that is exactly its entries. -/
theorem C21_lookup_partial (mts : List Nat) (mt : Nat) (d : MTR) (hd : MTR.mk' mts = .ok d)
    (hf : ∀ n ∈ mts, n < 4294967296) :
    MTR.hasMT d mt = .ok (decide (mt ∈ mts)) ∧
    (mt ∈ mts → ∃ i, MTR.index d mt = .ok i ∧ FirstAt mts mt i) ∧
    (mt ∉ mts → MTR.index d mt = .error .thrown) := by
  rw [(C21_objects mts []).1] at hd
  injection hd with hd; subst hd
  have hfind := MTR.find_words mts [] mt hf
  simp only [List.append_nil] at hfind
  refine ⟨?_, fun h => ⟨_, ?_, firstAt_findIdx h⟩, fun h => ?_⟩
  · unfold MTR.hasMT
    rw [hfind]
    by_cases h : mt ∈ mts
    · have := findIdx_lt h
      simp [h]
    · simp [h, findIdx_absent h]
  · have := findIdx_lt h
    unfold MTR.index
    rw [hfind]
    simp only [ok_bind, List.length_map]
    rw [if_pos (by omega)]; rfl
  · unfold MTR.index
    rw [hfind]
    simp [findIdx_absent h]

/-- Whatever follows the entries, a reaction that is present is found at its first index. -/
theorem C21_present (mts : List Nat) (rest : Words) (mt : Nat) (h : mt ∈ mts)
    (hf : ∀ n ∈ mts, n < 4294967296) :
    ∃ d i, MTR.ofRange (mts.map Dbl.ofNat ++ rest) mts.length = .ok d ∧
      MTR.hasMT d mt = .ok true ∧ MTR.index d mt = .ok i ∧ FirstAt mts mt i := by
  refine ⟨_, _, (C21_objects mts rest).2, ?_, ?_, firstAt_findIdx h⟩
  · have := findIdx_lt h
    unfold MTR.hasMT
    rw [MTR.find_words mts rest mt hf]
    simp; omega
  · have := findIdx_lt h
    unfold MTR.index
    rw [MTR.find_words mts rest mt hf]
    simp only [ok_bind, List.length_append, List.length_map]
    rw [if_pos (by omega)]; rfl

/-- Finding: when the range of the block is longer than its entries, every absent reaction
is reported as present, at the index one past the last entry. -/
theorem C21_longer_range (mts : List Nat) (rest : Words) (hr : rest ≠ []) (mt : Nat)
    (h : mt ∉ mts) (hf : ∀ n ∈ mts, n < 4294967296) :
    ∃ d, MTR.ofRange (mts.map Dbl.ofNat ++ rest) mts.length = .ok d ∧
      MTR.hasMT d mt = .ok true ∧ MTR.index d mt = .ok (mts.length + 1) := by
  have hl : 0 < rest.length := List.length_pos_iff.mpr hr
  refine ⟨_, (C21_objects mts rest).2, ?_, ?_⟩
  · unfold MTR.hasMT
    rw [MTR.find_words mts rest mt hf, findIdx_absent h]
    simp; omega
  · unfold MTR.index
    rw [MTR.find_words mts rest mt hf, findIdx_absent h]
    simp only [ok_bind, List.length_append, List.length_map]
    rw [if_pos (by omega)]; rfl

example : ∃ d, MTR.mk' [2, 18, 102, 18] = .ok d ∧ MTR.index d 18 = .ok 2 ∧
    MTR.index d 16 = .error .thrown ∧ MTR.hasMT d 102 = .ok true := ⟨⟨_, 4, 1⟩, rfl, by decide⟩
example : ∃ d, MTR.ofRange ([2, 18].map Dbl.ofNat ++ [Dbl.ofNat 7]) 2 = .ok d ∧
    MTR.hasMT d 5 = .ok true ∧ MTR.index d 5 = .ok 3 := ⟨⟨_, 2, 1⟩, rfl, by decide⟩

/-- The hypotheses of the theorems are met by the reactions 18 and 102, followed by anything. -/
example := C21_values [18, 102] [Dbl.ofNat 7] (by decide)
example := C21_lookup_partial [18, 102] 102 _ rfl (by decide)
example := C21_present [18, 102] [Dbl.ofNat 7] 102 (by decide) (by decide)
example := C21_longer_range [18, 102] [Dbl.ofNat 7] (by decide) 16 (by decide) (by decide)

end ACE.Props

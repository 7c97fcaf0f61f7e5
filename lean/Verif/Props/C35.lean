import Verif.Model.Dosimetry
import Verif.Props.C30

/-!
# C35: a dosimetry table returns the blocks it was made from
-/

namespace ACE.Props
open ACE

theorem sigd_length {ds : List TabulatedData} {b : SIGD} (h : SIGD.mk' ds = .ok b) :
    b.n = ds.length ∧ b.n ≤ b.xss.length ∧ SIGD.ofRange b.xss b.n b.n = .ok b := by
  obtain ⟨h1, h2⟩ := built_located h
  refine ⟨h1, ?_, h2⟩
  unfold SIGD.mk' LocBlock.ofData LocBlock.generateBlocks at h
  obtain ⟨_, _, h⟩ := bind_eq_ok.mp h
  injection h with h
  subst h
  simp [LocBlock.generateXSS_eq]

theorem mtr_words {mts : List Nat} {b : MTR} (h : MTR.mk' mts = .ok b) :
    b.n = mts.length ∧ b.xss.length = mts.length ∧ MTR.ofRange b.xss b.n = .ok b := by
  have h2 := C28_built_MTR h
  rw [(C21_objects mts []).1] at h
  injection h with h
  subst h
  exact ⟨by simp, by simp, h2⟩

/-- Every pair of blocks for the same reactions comes back, with the ZAID, the target and the number
of reactions that were given, whatever the content; tables of less than 2^31 words. -/
theorem C35_blocks (zaid : List Char) (z a : Nat) (mts : List Nat) (ds : List TabulatedData)
    (mtr : MTR) (sigd : SIGD) (hm : MTR.mk' mts = .ok mtr) (hs : SIGD.mk' ds = .ok sigd)
    (hn : mts.length = ds.length) (hf : FitsN mts.length) (hza : z * 1000 + a < 4294967296)
    (ht : TableType.dosimetry.verifyType zaid = .ok ()) :
    ∃ t, Dosimetry.mk' zaid z a mtr sigd = .ok t ∧ t.zaid = zaid ∧ t.mtr = mtr ∧ t.sigd = sigd ∧
      t.NTR = .ok mts.length ∧ t.ZA = .ok (z * 1000 + a) ∧ t.data.xss = mtr.xss ++ sigd.xss := by
  obtain ⟨m1, m2, m3⟩ := mtr_words hm
  obtain ⟨s1, s2, s3⟩ := sigd_length hs
  have hnn : mtr.n = sigd.n := by omega
  unfold FitsN at hf
  unfold Dosimetry.mk' Dosimetry.generateData
  rw [guardThrow_eq_ok.mpr (by simp [hnn]), ok_bind, pure_eq_ok, ok_bind]
  unfold Dosimetry.ofTable
  rw [ht, ok_bind]
  generalize hd : (⟨List.replicate 16 0, List.replicate 16 (Dbl.ofNat 0), _, _, _⟩ : TableData) = d
  have hx : d.xss = mtr.xss ++ sigd.xss := by rw [← hd]
  have hl : d.xss.length = mtr.xss.length + sigd.xss.length := by rw [hx]; simp
  have hc : d.count 4 = .ok mtr.n := by
    unfold TableData.count
    rw [NXS_get d 3 (mtr.n : Int) (by rw [← hd]; rfl)]
    simp only [ok_bind, pure_eq_ok]
    congr 1
    unfold u32OfInt
    omega
  have hc2 : d.count 2 = .ok (z * 1000 + a) := by
    unfold TableData.count
    rw [NXS_get d 1 (((z * 1000 + a) % 4294967296 : Nat) : Int) (by rw [← hd]; rfl)]
    simp only [ok_bind, pure_eq_ok]
    congr 1
    unfold u32OfInt
    omega
  have o3 : d.offset 3 = .ok 0 := by
    unfold TableData.offset
    rw [JXS_get d 2 1 (by rw [← hd]; rfl), ok_bind, if_neg (by omega)]
    rfl
  have o6 : d.offset 6 = .ok mtr.xss.length := by
    unfold TableData.offset
    rw [JXS_get d 5 ((mtr.xss.length + 1 : Nat) : Int) (by rw [← hd]; rfl), ok_bind,
      if_neg (by omega), pure_eq_ok]
    congr 1
  have o7 : d.offset 7 = .ok (mtr.xss.length + mtr.n) := by
    unfold TableData.offset
    rw [JXS_get d 6 ((mtr.xss.length + mtr.n + 1 : Nat) : Int) (by rw [← hd]; rfl), ok_bind,
      if_neg (by omega), pure_eq_ok]
    congr 1
  have e1 : sub d.xss 0 mtr.xss.length = .ok mtr.xss :=
    sub_of_eq (a := []) (b := mtr.xss) (c := sigd.xss) (by rw [hx]; simp) rfl (by simp)
  have e2 : sub d.xss mtr.xss.length d.xss.length = .ok sigd.xss :=
    sub_of_eq (a := mtr.xss) (b := sigd.xss) (c := []) (by rw [hx]; simp) rfl (by rw [hl])
  refine ⟨⟨zaid, d, mtr, sigd⟩, ?_, rfl, rfl, rfl, by rw [← m1]; exact hc, hc2, hx⟩
  unfold Dosimetry.generateBlocks CE.located
  rw [o3, ok_bind, o6, ok_bind, o7, ok_bind, hc, ok_bind, e1, ok_bind, m3, ok_bind, e2]
  simp only [ok_bind, pure_eq_ok]
  rw [Nat.add_sub_cancel_left, hnn, s3]
  rfl

/-- Blocks for different numbers of reactions are refused. -/
theorem C35_refused (zaid : List Char) (z a : Nat) (mtr : MTR) (sigd : SIGD) (hn : mtr.n ≠ sigd.n) :
    Dosimetry.mk' zaid z a mtr sigd = .error .thrown := by
  unfold Dosimetry.mk' Dosimetry.generateData
  have : (!(mtr.n != sigd.n)) = false := by simpa using hn
  rw [this]
  rfl

/-- Two reactions. -/
def exSigd : List TabulatedData :=
  [made (TabulatedData.mk' [] [] [num 1, num 20] [num 3, num 4]),
   made (TabulatedData.mk' [2] [2] [num 2, num 20] [num 5, num 6])]

/-- C35 for a table with two reactions. -/
example : ∃ t, Dosimetry.mk' "26056.10y".toList 26 56 (made (MTR.mk' [16, 107]))
    (made (SIGD.mk' exSigd)) = .ok t ∧ t.mtr = made (MTR.mk' [16, 107]) ∧
    t.sigd = made (SIGD.mk' exSigd) ∧ t.NTR = .ok 2 ∧ (made (SIGD.mk' exSigd)).n = 2 := by
  obtain ⟨t, h, _, h1, h2, h3, _⟩ := C35_blocks "26056.10y".toList 26 56 [16, 107] exSigd
    (made (MTR.mk' [16, 107])) (made (SIGD.mk' exSigd)) (by decide +kernel) (by decide +kernel)
    (by decide) (by decide) (by decide) (by decide +kernel)
  exact ⟨t, h, h1, h2, h3, by decide +kernel⟩
example : Dosimetry.mk' "26056.10y".toList 26 56 (made (MTR.mk' [16]))
    (made (SIGD.mk' exSigd)) = .error .thrown :=
  C35_refused _ _ _ _ _ (by decide +kernel)

end ACE.Props

import Verif.Lemmas.ContinuousRead

/-! # Positions of the blocks of a sound set -/

namespace ACE.CE
open ACE.Props

theorem mtr_of {B : Blocks} {mts : List Nat} {vs : List (Frame × Nat)} (hs : Sound B mts vs) :
    B.mtr = ⟨mts.map Dbl.ofNat, mts.length, 1⟩ := by
  have := hs.mtr
  have h2 := ArrayData.ofArrays_ok [mts.map Dbl.ofNat] mts.length (by simp) (by simp)
  unfold MTR.mk' at this
  rw [h2] at this
  injection this with this
  rw [← this]; simp

/-- Lengths that follow from soundness. -/
theorem sound_lengths {B : Blocks} {mts : List Nat} {vs : List (Frame × Nat)} (hs : Sound B mts vs) :
    B.mtr.n = mts.length ∧ B.mtr.xss.length = mts.length ∧ mts.length ≤ B.sig.xss.length ∧
    B.ang.nr + 1 ≤ B.ang.xss.length ∧ B.ang.nr ≤ B.dlw.xss.length ∧
    5 * B.esz.n ≤ B.esz.xss.length ∧ B.esz.m = 5 := by
  have h1 := mtr_of hs
  have h2 := array_fields hs.esz
  refine ⟨by rw [h1], by rw [h1]; simp, locBlock_length hs.sig, ?_, dlw_length hs.dlw, ?_, ?_⟩
  · simpa using angular_length hs.ang
  · exact hs.esz_holds
  · have := congrArg ArrayData.m h2; simpa using this

/-- What the positions have to satisfy, in terms of the lengths of the blocks. -/
theorem ok_of_lengths (M : Marks) (sig ang dlw a1 a2 a3 a4 a5 a6 a7 a8 a9 a10 : Nat)
    (mono : M.n1 ≤ M.n2 ∧ M.n2 ≤ M.n3 ∧ M.n3 ≤ M.n4 ∧ M.n4 ≤ M.n5)
    (hnu : M.nu = false → M.n2 = M.n1)
    (hfis : M.fis = 0 ∨ (1 ≤ M.ntr ∧ M.n5 + M.ntr + 1 ≤ M.fis ∧ M.fis ≤ M.n6))
    (e6 : M.n6 = M.n5 + sig) (e8 : M.n8 = M.n6 + ang) (e10 : M.n10 = M.n8 + dlw)
    (e23 : M.n23 = M.n10 + a1) (e24 : M.n24 = M.n23 + a2) (e25 : M.n25 = M.n24 + a3)
    (e26 : M.n26 = M.n25 + a4) (e12 : M.n12 = M.n26 + a5) (e13 : M.n13 = M.n12 + a6)
    (e14 : M.n14 = M.n13 + a7) (e16 : M.n16 = M.n14 + a8) (e18 : M.n18 = M.n16 + a9)
    (e20 : M.n20 = M.n18 + a10) (h30 : M.n20 ≤ M.n30) (h31 : M.n30 ≤ M.n31)
    (l3 : M.ntr ≤ sig) (l4 : M.nr + 1 ≤ ang) (l5 : M.nr ≤ dlw) (hdlw : dlw ≠ 1)
    (hU : (M.unr = false ∧ a1 = 0) ∨ (M.unr = true ∧ 2 ≤ a1))
    (hD : (M.dl = false ∧ a2 = 0 ∧ a3 = 0 ∧ a4 = 0) ∨ (M.dl = true ∧ M.npcr ≤ a4 ∧ 2 ≤ a4))
    (hP : (M.ph = false ∧ a5 = 0 ∧ a6 = 0 ∧ a7 = 0 ∧ a8 = 0 ∧ a9 = 0 ∧ a10 = 0) ∨
      (M.ph = true ∧ M.ntrp ≤ a7 ∧ M.ntrp ≤ a8 ∧ M.ntrp ≤ a9 ∧ 2 ≤ a10))
    (hlast : 2 ≤ ang ∨ 2 ≤ dlw ∨ M.unr = true ∨ M.ph = true ∨ M.dl = true) : M.Ok := by
  refine { mono := mono, sig := by omega, ang := by omega, dlw := by omega, unr := by omega,
           nonu := hnu, nounr := ?_, nodl := ?_, noph := ?_, dl := ?_, ph := ?_, sp := ⟨h30, h31⟩,
           fis := hfis, clash := ?_ }
  · intro h
    rcases hU with ⟨_, h0⟩ | ⟨h1, _⟩
    · omega
    · rw [h] at h1; cases h1
  · intro h
    rcases hD with ⟨_, h0⟩ | ⟨h1, _⟩
    · omega
    · rw [h] at h1; cases h1
  · intro h
    rcases hP with ⟨_, h0⟩ | ⟨h1, _⟩
    · omega
    · rw [h] at h1; cases h1
  · clear hU hP hlast
    rcases hD with h | h
    · rw [h.1]; simp only [Bool.false_eq_true, if_false]; omega
    · rw [h.1]; simp only [if_true]; omega
  · clear hU hD hlast
    rcases hP with h | h
    · rw [h.1]; simp only [Bool.false_eq_true, if_false]; omega
    · rw [h.1]; simp only [if_true]; omega
  · have hsum : M.n20 = M.n6 + ang + dlw + a1 + (a2 + a3 + a4) + (a5 + a6 + a7 + a8 + a9 + a10) := by
      clear hU hD hP hlast hfis; omega
    have hU' : a1 = 0 ∨ 2 ≤ a1 := by omega
    have hD' : a2 + a3 + a4 = 0 ∨ 2 ≤ a2 + a3 + a4 := by omega
    have hP' : a5 + a6 + a7 + a8 + a9 + a10 = 0 ∨ 2 ≤ a5 + a6 + a7 + a8 + a9 + a10 := by omega
    have hlast' : 2 ≤ ang ∨ 2 ≤ dlw ∨ 2 ≤ a1 ∨ 2 ≤ a5 + a6 + a7 + a8 + a9 + a10 ∨
        2 ≤ a2 + a3 + a4 := by
      rcases hlast with h | h | h | h | h
      · exact .inl h
      · exact .inr (.inl h)
      · rcases hU with h1 | h1
        · rw [h] at h1; cases h1.1
        · exact .inr (.inr (.inl h1.2))
      · rcases hP with h1 | h1
        · rw [h] at h1; cases h1.1
        · right; right; right; left; omega
      · rcases hD with h1 | h1
        · rw [h] at h1; cases h1.1
        · right; right; right; right; omega
    refine ⟨?_, ?_, ?_, ?_⟩
    · clear hU hD hP hlast hfis
      generalize a2 + a3 + a4 = s1 at *
      generalize a5 + a6 + a7 + a8 + a9 + a10 = s2 at *
      omega
    · clear hU hD hP hlast hfis
      generalize a2 + a3 + a4 = s1 at *
      generalize a5 + a6 + a7 + a8 + a9 + a10 = s2 at *
      omega
    · intro h
      rcases hP with h1 | h1
      · rw [h] at h1; cases h1.1
      · omega
    · intro h
      rcases hD with h1 | h1
      · rw [h] at h1; cases h1.1
      · clear hU hP hlast hlast' hU' hD' hP' hfis; omega

section
variable {B : Blocks} {mts : List Nat} {vs : List (Frame × Nat)}

theorem photon_lengths (hs : Sound B mts vs) (hc : Clear B) (T : TYR) (fis : Nat) :
    (B.photons.isSome = false ∧ (optWords (·.gpd.xss) B.photons).length = 0 ∧
      (optWords (·.mtrp.xss) B.photons).length = 0 ∧ (optWords (·.sigp.xss) B.photons).length = 0 ∧
      (optWords (·.andp.xss) B.photons).length = 0 ∧
      (optWords (·.dlwp.block.xss) B.photons).length = 0 ∧
      (optWords (·.yp.xss) B.photons).length = 0) ∨
      (B.photons.isSome = true ∧ (marks B T fis).ntrp ≤ (optWords (·.sigp.xss) B.photons).length ∧
        (marks B T fis).ntrp ≤ (optWords (·.andp.xss) B.photons).length ∧
        (marks B T fis).ntrp ≤ (optWords (·.dlwp.block.xss) B.photons).length ∧
        2 ≤ (optWords (·.yp.xss) B.photons).length) := by
  have hph : ∀ p, B.photons = some p → p.mtrp.n ≤ p.sigp.xss.length ∧
      p.mtrp.n ≤ p.andp.xss.length ∧ p.mtrp.n ≤ p.dlwp.block.xss.length ∧ 2 ≤ p.yp.xss.length := by
    intro p hp
    have h := hs.photons p hp
    refine ⟨locBlock_length h.sigp, by simpa using angular_length h.andp, ?_, hc.yp p hp⟩
    have := locBlock_length h.dlwp
    rw [h.ndlwp] at this; exact this
  cases hy : B.photons with
  | none => left; simp [optWords]
  | some u => right; simp only [marks, hy]; exact ⟨rfl, hph u hy⟩

theorem delayed_lengths (hs : Sound B mts vs) (hc : Clear B) (T : TYR) (fis : Nat) :
    (B.delayed.isSome = false ∧ (optWords (·.dnu.xss) B.delayed).length = 0 ∧
      (optWords (·.bdd.xss) B.delayed).length = 0 ∧
      (optWords (·.dned.block.xss) B.delayed).length = 0) ∨
      (B.delayed.isSome = true ∧ (marks B T fis).npcr ≤ (optWords (·.dned.block.xss) B.delayed).length ∧
        2 ≤ (optWords (·.dned.block.xss) B.delayed).length) := by
  have hdl : ∀ p, B.delayed = some p → p.bdd.npcr ≤ p.dned.block.xss.length ∧
      2 ≤ p.dned.block.xss.length := by
    intro p hp
    have h := hs.delayed p hp
    have := locBlock_length h.dned
    rw [h.ndned] at this
    exact ⟨this, hc.dned p hp⟩
  cases hy : B.delayed with
  | none => left; simp [optWords]
  | some u => right; simp only [marks, hy]; exact ⟨rfl, hdl u hy⟩

theorem unr_lengths (hc : Clear B) :
    (B.unr.isSome = false ∧ (optWords (·.xss) B.unr).length = 0) ∨
      (B.unr.isSome = true ∧ 2 ≤ (optWords (·.xss) B.unr).length) := by
  cases hy : B.unr with
  | none => left; simp [optWords]
  | some u => right; exact ⟨rfl, hc.unr u hy⟩

attribute [local irreducible] x1 x2 x3 x4 x5 x6 x8 x10 x23 x24 x25 x26 x12 x13 x14 x16 x18 x20

theorem marks_ok (hs : Sound B mts vs)
    (hc : Clear B) (T : TYR) (fis : Nat)
    (hfis : fis = 0 ∨ (1 ≤ mts.length ∧ (x5 B T).length + mts.length + 1 ≤ fis ∧
      fis ≤ (x6 B T).length)) : (marks B T fis).Ok := by
  obtain ⟨l1, l2, l3, l4, l5, l6, l7⟩ := sound_lengths hs
  refine ok_of_lengths (marks B T fis) B.sig.xss.length B.ang.xss.length B.dlw.xss.length
    (optWords (fun u : UNR => u.xss) B.unr).length (optWords (fun u : DelayedBlocks => u.dnu.xss) B.delayed).length
    (optWords (fun u : DelayedBlocks => u.bdd.xss) B.delayed).length (optWords (fun u : DelayedBlocks => u.dned.block.xss) B.delayed).length
    (optWords (fun u : PhotonBlocks => u.gpd.xss) B.photons).length (optWords (fun u : PhotonBlocks => u.mtrp.xss) B.photons).length
    (optWords (fun u : PhotonBlocks => u.sigp.xss) B.photons).length (optWords (fun u : PhotonBlocks => u.andp.xss) B.photons).length
    (optWords (fun u : PhotonBlocks => u.dlwp.block.xss) B.photons).length (optWords (fun u : PhotonBlocks => u.yp.xss) B.photons).length
    ?_ ?_ ?_  ?_  ?_  ?_  ?_  ?_  ?_  ?_  ?_  ?_  ?_  ?_  ?_  ?_ ?_ ?_ ?_ l4 l5
    hc.dlw (unr_lengths hc) (delayed_lengths hs hc T fis) (photon_lengths hs hc T fis) hc.last
  · simp only [marks, x2, x3, x4, x5, List.length_append]; omega
  · intro h
    have h : B.nu.isSome = false := h
    have : B.nu = none := by simpa using h
    simp only [marks, x2, this, optWords, List.append_nil]
  · show fis = 0 ∨ (1 ≤ B.mtr.n ∧ (x5 B T).length + B.mtr.n + 1 ≤ fis ∧ fis ≤ (x6 B T).length)
    rw [l1]; exact hfis
  · show (x6 B T).length = (x5 B T).length + _
    rw [x6, List.length_append]
  · show (x8 B T).length = (x6 B T).length + _
    rw [x8, List.length_append]
  · show (x10 B T).length = (x8 B T).length + _
    rw [x10, List.length_append]
  · show (x23 B T).length = (x10 B T).length + _
    rw [x23, List.length_append]
  · show (x24 B T).length = (x23 B T).length + _
    rw [x24, List.length_append]
  · show (x25 B T).length = (x24 B T).length + _
    rw [x25, List.length_append]
  · show (x26 B T).length = (x25 B T).length + _
    rw [x26, List.length_append]
  · show (x12 B T).length = (x26 B T).length + _
    rw [x12, List.length_append]
  · show (x13 B T).length = (x12 B T).length + _
    rw [x13, List.length_append]
  · show (x14 B T).length = (x13 B T).length + _
    rw [x14, List.length_append]
  · show (x16 B T).length = (x14 B T).length + _
    rw [x16, List.length_append]
  · show (x18 B T).length = (x16 B T).length + _
    rw [x18, List.length_append]
  · show (x20 B T).length = (x18 B T).length + _
    rw [x20, List.length_append]
  · show (x20 B T).length ≤ n30 B T
    unfold n30; omega
  · show n30 B T ≤ n31 B T
    unfold n31; omega
  · show B.mtr.n ≤ _
    omega

end

end ACE.CE

import Verif.Model.FormatBlocks
import Verif.Lemmas.Arrays

/-!
# C46: JINC and JCOH recognise their format from their size
-/

namespace ACE.Props
open ACE ArrayData

/-- Fixed-grid JINC: built from exactly 21 values, and read back as the same block. -/
theorem C46_jinc_fixed (values : Words) :
    (values.length ≠ 21 → JINC.mkFixed values = .error .thrown) ∧
    (values.length = 21 → ∃ d, JINC.mkFixed values = .ok d ∧ JINC.ofRange d.data.xss = .ok d ∧
      d.NM = 21 ∧ d.momentum = .ok (.fixed JINC.fixedGrid) ∧ d.values = .ok values) := by
  constructor
  · intro h
    have : (values.length == 21) = false := by simpa using h
    unfold JINC.mkFixed; rw [this]; rfl
  · intro h
    have h1 : ofArrays [values] = .ok ⟨values, 21, 1⟩ := by
      have := ofArrays_ok [values] 21 (by simpa using h) (by simp)
      simpa using this
    refine ⟨⟨⟨values, 21, 1⟩, some JINC.fixedGrid⟩, ?_, ?_, rfl, rfl, ?_⟩
    · unfold JINC.mkFixed
      rw [show (values.length == 21) = true by simpa using h, h1]; rfl
    · unfold JINC.ofRange JINC.numberElements JINC.numberArrays
      simp only [if_pos h, ok_bind]
      rw [ofRange_ok _ _ _ (by simp [h])]; rfl
    · have hh := (ofArrays_holds h1).1.darray 0 (by simp)
      simpa [JINC.values] using hh

/-- Tabulated JINC, for every number of points: read back as the same block. -/
theorem C46_jinc_tabulated (momentum values : Words) :
    (values.length ≠ momentum.length → JINC.mkTabulated momentum values = .error .thrown) ∧
    (values.length = momentum.length → ∃ d, JINC.mkTabulated momentum values = .ok d ∧
      JINC.ofRange d.data.xss = .ok d ∧ d.NM = momentum.length ∧
      d.momentum = .ok (.words momentum) ∧ d.values = .ok values) := by
  constructor
  · intro h
    unfold JINC.mkTabulated
    rw [ofArrays_error _ _ (by simpa using h)]; rfl
  · intro h
    have h1 := ofArrays_ok [momentum, values] momentum.length (by simp [h]) (by simp)
    refine ⟨⟨⟨[momentum, values].flatten, momentum.length, 2⟩, none⟩, ?_, ?_, rfl, ?_, ?_⟩
    · unfold JINC.mkTabulated; rw [h1]; rfl
    · have hl : ([momentum, values].flatten).length = 2 * momentum.length := by simp [h]; omega
      have h21 : ¬ ([momentum, values].flatten).length = 21 := by rw [hl]; omega
      unfold JINC.ofRange JINC.numberElements JINC.numberArrays
      simp only [if_neg h21]
      rw [hl, show (2 * momentum.length % 2 == 0) = true by simp,
        show 2 * momentum.length / 2 = momentum.length by omega]
      simp only [guardThrow_true, ok_bind, pure_eq_ok]
      rw [ofRange_ok _ _ _ (by rw [hl, Nat.mul_comm]; exact Nat.le_refl _)]; rfl
    · have hh := (ofArrays_holds h1).1.darray 0 (by simp)
      simp only [JINC.momentum]
      rw [show (1 : Nat) = 0 + 1 from rfl]
      rw [show (⟨[momentum, values].flatten, momentum.length, 2⟩ : ArrayData)
        = ⟨[momentum, values].flatten, momentum.length, [momentum, values].length⟩ from rfl, hh]; rfl
    · exact (ofArrays_holds h1).1.darray 1 (by simp)

/-- Fixed-grid JCOH: two arrays of 55 values. -/
theorem C46_jcoh_fixed (integrated factors : Words) :
    (¬ (integrated.length = 55 ∧ factors.length = 55) →
      JCOH.mkFixed integrated factors = .error .thrown) ∧
    (integrated.length = 55 ∧ factors.length = 55 → ∃ d, JCOH.mkFixed integrated factors = .ok d ∧
      JCOH.ofRange d.data.xss = .ok d ∧ d.NM = 55 ∧ d.momentum = .ok (.fixed JCOH.fixedGrid) ∧
      d.integratedFormFactors = .ok integrated ∧ d.formFactors = .ok factors) := by
  constructor
  · intro h
    by_cases hs : integrated.length + factors.length = 110
    · unfold JCOH.mkFixed
      rw [show (integrated.length + factors.length == 110) = true by simpa using hs,
        ofArrays_error _ _ (by simp; omega)]; rfl
    · unfold JCOH.mkFixed
      rw [show (integrated.length + factors.length == 110) = false by simpa using hs]; rfl
  · rintro ⟨h1, h2⟩
    have ha := ofArrays_ok [integrated, factors] 55 (by simp [h1, h2]) (by simp)
    have hl : ([integrated, factors].flatten).length = 110 := by simp [h1, h2]
    refine ⟨⟨⟨[integrated, factors].flatten, 55, 2⟩, some JCOH.fixedGrid⟩, ?_, ?_, rfl, rfl, ?_, ?_⟩
    · unfold JCOH.mkFixed
      rw [show (integrated.length + factors.length == 110) = true by simp [h1, h2], ha]; rfl
    · unfold JCOH.ofRange JCOH.numberElements JCOH.numberArrays
      simp only [if_pos hl, ok_bind]
      rw [ofRange_ok _ _ _ (by rw [hl]; decide)]; rfl
    · exact (ofArrays_holds ha).1.darray 0 (by simp)
    · exact (ofArrays_holds ha).1.darray 1 (by simp)

/-- Tabulated JCOH, for every number of points. -/
theorem C46_jcoh_tabulated (momentum integrated factors : Words) :
    (¬ (integrated.length = momentum.length ∧ factors.length = momentum.length) →
      JCOH.mkTabulated momentum integrated factors = .error .thrown) ∧
    (integrated.length = momentum.length ∧ factors.length = momentum.length →
      ∃ d, JCOH.mkTabulated momentum integrated factors = .ok d ∧
      JCOH.ofRange d.data.xss = .ok d ∧ d.NM = momentum.length ∧
      d.momentum = .ok (.words momentum) ∧
      d.integratedFormFactors = .ok integrated ∧ d.formFactors = .ok factors) := by
  constructor
  · intro h
    unfold JCOH.mkTabulated
    rw [ofArrays_error _ _ (by simpa using h)]; rfl
  · rintro ⟨h1, h2⟩
    have ha := ofArrays_ok [momentum, integrated, factors] momentum.length (by simp [h1, h2]) (by simp)
    have hl : ([momentum, integrated, factors].flatten).length = 3 * momentum.length := by
      simp [h1, h2]; omega
    have hne : ¬ ([momentum, integrated, factors].flatten).length = 110 := by rw [hl]; omega
    refine ⟨⟨⟨[momentum, integrated, factors].flatten, momentum.length, 3⟩, none⟩,
      ?_, ?_, rfl, ?_, ?_, ?_⟩
    · unfold JCOH.mkTabulated; rw [ha]; rfl
    · unfold JCOH.ofRange JCOH.numberElements JCOH.numberArrays
      simp only [if_neg hne]
      rw [hl, show (3 * momentum.length % 3 == 0) = true by simp,
        show 3 * momentum.length / 3 = momentum.length by omega]
      simp only [guardThrow_true, ok_bind, pure_eq_ok]
      rw [ofRange_ok _ _ _ (by rw [hl, Nat.mul_comm]; exact Nat.le_refl _)]; rfl
    · have hh := (ofArrays_holds ha).1.darray 0 (by simp)
      simp only [JCOH.momentum]
      rw [show (1 : Nat) = 0 + 1 from rfl]
      rw [show (⟨[momentum, integrated, factors].flatten, momentum.length, 3⟩ : ArrayData)
        = ⟨[momentum, integrated, factors].flatten, momentum.length,
            [momentum, integrated, factors].length⟩ from rfl, hh]; rfl
    · exact (ofArrays_holds ha).1.darray 1 (by simp)
    · exact (ofArrays_holds ha).1.darray 2 (by simp)

/-- The fixed grids have one entry per value and increase strictly from zero. -/
theorem C46_grids :
    JINC.fixedGrid.length = 21 ∧ JCOH.fixedGrid.length = 55 ∧
    List.Pairwise (· < ·) JINC.fixedGrid ∧ List.Pairwise (· < ·) JCOH.fixedGrid := by decide

/-- The momenta of the fixed grids of the format, in thousandths of an inverse ångström. -/
theorem C46_momenta :
    JINC.fixedGrid = [0, 5, 10, 50, 100, 150] ++ (List.range 9).map (fun i => 200 + 100 * i) ++
      [1500, 2000, 3000, 4000, 5000, 8000] ∧
    JCOH.fixedGrid = [0, 10, 20, 30, 40, 50, 60, 80, 100, 120, 150, 180, 200] ++
      (List.range 8).map (fun i => 250 + 50 * i) ++ (List.range 14).map (fun i => 700 + 100 * i) ++
      (List.range 20).map (fun i => 2200 + 200 * i) := by decide

example : ∃ d, JINC.mkTabulated [.ofInt 1, .ofInt 2] [.ofInt 3, .ofInt 4] = .ok d ∧
    JINC.ofRange d.data.xss = .ok d := by
  obtain ⟨d, h1, h2, _⟩ := (C46_jinc_tabulated [.ofInt 1, .ofInt 2] [.ofInt 3, .ofInt 4]).2 rfl
  exact ⟨d, h1, h2⟩

example : ∃ d, JINC.mkFixed (List.replicate 21 (.ofInt 7)) = .ok d ∧ d.NM = 21 := by
  obtain ⟨d, h1, _, h2, _⟩ := (C46_jinc_fixed (List.replicate 21 (.ofInt 7))).2 (by simp)
  exact ⟨d, h1, h2⟩

example : ∃ d, JCOH.mkFixed (List.replicate 55 (.ofInt 7)) (List.replicate 55 (.ofInt 8)) = .ok d := by
  obtain ⟨d, h1, _⟩ := (C46_jcoh_fixed (List.replicate 55 (.ofInt 7)) (List.replicate 55 (.ofInt 8))).2
    (by simp)
  exact ⟨d, h1⟩

end ACE.Props

import Verif.Lemmas.Columns

/-! # C07: interpolation tables and tabulated data round trip -/

namespace ACE.Props
open ACE

/-- Specification: `d` gives back boundaries, interpolants, x and y. -/
def GivesTable (d : TabulatedData) (b i : List Int) (x y : Words) : Prop :=
  d.NB = .ok b.length ∧ d.NBT = .ok (b.map Dbl.ofInt) ∧ d.INT = .ok (i.map Dbl.ofInt) ∧
  d.N = .ok x.length ∧ d.x = .ok x ∧ d.y = .ok y

/-- Construction succeeds iff boundaries and interpolants, and x and y, pair up. -/
theorem C07_accepts (b i : List Int) (x y : Words) (fb : FitsN b.length) (fx : FitsN x.length) :
    ((i.length = b.length ∧ y.length = x.length) → ∃ d, TabulatedData.mk' b i x y = .ok d) ∧
    (¬ (i.length = b.length ∧ y.length = x.length) →
      TabulatedData.mk' b i x y = .error .thrown) :=
  ⟨fun h => ⟨_, TabulatedData.mk'_ok ⟨h.1, h.2, fb, fx⟩⟩, TabulatedData.mk'_error⟩

theorem C07_built (b i : List Int) (x y : Words) (fb : FitsN b.length) (fx : FitsN x.length)
    (d : TabulatedData) (h : TabulatedData.mk' b i x y = .ok d) :
    GivesTable d b i x y ∧
    d.xss = Dbl.ofNat b.length :: b.map Dbl.ofInt ++ i.map Dbl.ofInt ++
      Dbl.ofNat x.length :: x ++ y := by
  by_cases hv : i.length = b.length ∧ y.length = x.length
  · have v : TabulatedData.Valid b i x y := ⟨hv.1, hv.2, fb, fx⟩
    rw [TabulatedData.mk'_ok v] at h
    injection h with h; subst h
    exact ⟨TabulatedData.tab_accessors v [], by simp [TabulatedData.tab, TabulatedData.words]⟩
  · rw [TabulatedData.mk'_error hv] at h; cases h

/-- A reader over the words followed by any further words finds the same lists. -/
theorem C07_read (b i : List Int) (x y : Words) (fb : FitsN b.length) (fx : FitsN x.length)
    (d : TabulatedData) (h : TabulatedData.mk' b i x y = .ok d) (rest : Words) :
    ∃ d', TabulatedData.ofRange (d.xss ++ rest) = .ok d' ∧ GivesTable d' b i x y := by
  by_cases hv : i.length = b.length ∧ y.length = x.length
  · have v : TabulatedData.Valid b i x y := ⟨hv.1, hv.2, fb, fx⟩
    rw [TabulatedData.mk'_ok v] at h
    injection h with h; subst h
    refine ⟨_, ?_, TabulatedData.tab_accessors v rest⟩
    simpa [TabulatedData.tab] using TabulatedData.ofRange_ok v rest
  · rw [TabulatedData.mk'_error hv] at h; cases h

/-- The interpolation table alone. -/
theorem C07_interpolation (b i : List Int) (h : i.length = b.length) (fb : FitsN b.length)
    (rest : Words) :
    ∃ d d', InterpolationData.mk' b i = .ok d ∧ InterpolationData.ofRange (d.xss ++ rest) = .ok d' ∧
      ∀ t ∈ [d, d'], ColumnData.N t = .ok b.length ∧
        InterpolationData.NBT t = .ok (b.map Dbl.ofInt) ∧
        InterpolationData.INT t = .ok (i.map Dbl.ofInt) := by
  have hl : ∀ x ∈ [b.map Dbl.ofInt, i.map Dbl.ofInt], x.length = b.length := by simp [h]
  refine ⟨_, _, ColumnData.ofColumns_ok _ b.length (by simp) hl,
    ColumnData.ofRange_ok _ b.length _ rest rfl hl fb, fun t ht => ?_⟩
  have hh : ColumnData.Holds t b.length [b.map Dbl.ofInt, i.map Dbl.ofInt] := by
    rcases List.mem_cons.mp ht with rfl | ht
    · exact ⟨hl, fb, [], by simp⟩
    · rw [List.mem_singleton.mp ht]; exact ⟨hl, fb, rest, rfl⟩
  exact ⟨hh.N, hh.column 0 (by simp), hh.column 1 (by simp)⟩

-- concrete case: two regions, three points
example : ∃ d, TabulatedData.mk' [2, 3] [2, 5] [Dbl.ofNat 1, Dbl.ofNat 2, Dbl.ofNat 3]
      [Dbl.ofNat 4, Dbl.ofNat 5, Dbl.ofNat 6] = .ok d ∧
    d.INT = .ok [Dbl.ofInt 2, Dbl.ofInt 5] ∧ d.y = .ok [Dbl.ofNat 4, Dbl.ofNat 5, Dbl.ofNat 6] :=
  ⟨_, TabulatedData.mk'_ok ⟨by decide, by decide, by decide, by decide⟩, by decide, by decide⟩

/-- The table of the example above meets the hypotheses of the theorems. -/
example := C07_accepts [2, 3] [2, 5] [Dbl.ofNat 1, Dbl.ofNat 2] [Dbl.ofNat 4, Dbl.ofNat 5] (by decide) (by decide)
example := C07_built [2, 3] [2, 5] [Dbl.ofNat 1, Dbl.ofNat 2, Dbl.ofNat 3] [Dbl.ofNat 4, Dbl.ofNat 5, Dbl.ofNat 6]
  (by decide) (by decide) _ (TabulatedData.mk'_ok ⟨by decide, by decide, by decide, by decide⟩)
example := C07_read [2, 3] [2, 5] [Dbl.ofNat 1, Dbl.ofNat 2, Dbl.ofNat 3] [Dbl.ofNat 4, Dbl.ofNat 5, Dbl.ofNat 6]
  (by decide) (by decide) _ (TabulatedData.mk'_ok ⟨by decide, by decide, by decide, by decide⟩) [Dbl.ofNat 9]
example := C07_interpolation [2, 3] [2, 5] rfl (by decide) [Dbl.ofNat 9]

end ACE.Props

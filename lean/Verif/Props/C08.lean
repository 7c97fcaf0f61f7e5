import Verif.Lemmas.TabDist

/-! # C08: tabulated probability distributions and the packed flag -/

namespace ACE.Props
open ACE

/-- Specification: `d` gives back flag, values, pdf, cdf and extra columns. -/
def GivesDistribution (d : TabProb) (flag : Int) (v p c : Words) (cols : List Words) : Prop :=
  d.interpolation = .ok flag ∧ d.numberValues = .ok v.length ∧ d.values = .ok v ∧
  d.pdf = .ok p ∧ d.cdf = .ok c ∧
  ∀ (k : Nat) (hk : k < cols.length), d.column k = .ok cols[k]

theorem Holds.givesDistribution {d : TabProb} {flag : Int} {n : Nat} {v p c : Words}
    {cols : List Words} (h : TabProb.Holds d flag n (v :: p :: c :: cols)) :
    GivesDistribution d flag v p c cols :=
  ⟨h.interpolation, by rw [h.hn v (by simp)]; exact h.numberValues, h.values, h.pdf, h.cdf,
   h.column⟩

/-- Construction succeeds iff all columns have the same length. -/
theorem C08_accepts (flag : Int) (v p c : Words) (cols : List Words) :
    ((∀ x ∈ p :: c :: cols, x.length = v.length) → ∃ d, TabProb.mk' flag v p c cols = .ok d) ∧
    (¬ (∀ x ∈ p :: c :: cols, x.length = v.length) →
      TabProb.mk' flag v p c cols = .error .thrown) := by
  constructor
  · intro h
    exact ⟨_, TabProb.mk'_ok flag v p c cols v.length (by
      intro x hx
      rcases List.mem_cons.mp hx with rfl | hx
      · rfl
      · exact h x hx)⟩
  · exact TabProb.mk'_error flag v p c cols

/-- Built and read back (with any trailing words) distributions return what was supplied. -/
theorem C08_roundtrip (flag : Int) (v p c : Words) (cols : List Words) (d : TabProb)
    (h : TabProb.mk' flag v p c cols = .ok d) (hflag : Fits flag) (hf : FitsN v.length)
    (rest : Words) :
    GivesDistribution d flag v p c cols ∧
    ∃ d', TabProb.ofRange (d.xss ++ rest) = .ok d' ∧ GivesDistribution d' flag v p c cols := by
  by_cases hv : ∀ x ∈ p :: c :: cols, x.length = v.length
  · have hv' : ∀ x ∈ v :: p :: c :: cols, x.length = v.length := by
      intro x hx
      rcases List.mem_cons.mp hx with rfl | hx
      · rfl
      · exact hv x hx
    rw [TabProb.mk'_ok flag v p c cols v.length hv'] at h
    injection h with h; subst h
    refine ⟨Holds.givesDistribution (n := v.length) ⟨hflag, hv', hf, [], by simp⟩, _,
      TabProb.ofRange_ok flag v.length v p c cols rest hflag hv' hf, ?_⟩
    exact Holds.givesDistribution (n := v.length) ⟨hflag, hv', hf, rest, rfl⟩
  · rw [TabProb.mk'_error flag v p c cols hv] at h; cases h

/-- Specification of the energy distributions with a packed flag. -/
def GivesPacked (d : TabDist) (e : Dbl) (int nd : Nat) (v p c : Words) : Prop :=
  d.value = e ∧ d.interpolation = .ok int ∧ d.numberDiscretePhotonLines = .ok nd ∧
  d.dist.numberValues = .ok v.length ∧ d.dist.values = .ok v ∧ d.dist.pdf = .ok p ∧
  d.dist.cdf = .ok c

theorem packed {d : TabDist} {e : Dbl} {int nd : Nat} {v p c : Words} {cols : List Words}
    (he : d.value = e) (hi : int < 10) (hf : Fits ((nd : Int) * 10 + int))
    (g : GivesDistribution d.dist ((nd : Int) * 10 + int) v p c cols) :
    GivesPacked d e int nd v p c := by
  obtain ⟨h1, h2, h3, h4, h5, _⟩ := g
  have hu := unpack int nd hi hf
  have hint : d.interpolation = .ok int := by
    simp only [TabDist.interpolation, h1, ok_bind, hu.1]; rfl
  refine ⟨he, hint, ?_, h2, h3, h4, h5⟩
  simp only [TabDist.numberDiscretePhotonLines, h1, hint, ok_bind, hu.2]; rfl

/-- Outgoing energy distributions (law 4) return flag, discrete lines and table,
directly and when read back. -/
theorem C08_energy (e : Dbl) (int nd : Nat) (v p c : Words) (d : TabDist) (hi : int < 10)
    (hp : Fits ((nd : Int) * 10 + int)) (hf : FitsN v.length)
    (h : TabDist.mkEnergy e int v p c nd = .ok d) (rest : Words) :
    GivesPacked d e int nd v p c ∧
    ∃ d', TabDist.ofRange e (d.xss ++ rest) = .ok d' ∧ GivesPacked d' e int nd v p c := by
  obtain ⟨t, ht, h⟩ := bind_eq_ok.mp h
  injection h with h; subst h
  obtain ⟨g, t', ht', g'⟩ := C08_roundtrip _ v p c [] t ht hp hf rest
  refine ⟨packed rfl hi hp g, ⟨e, t'⟩, ?_, packed rfl hi hp g'⟩
  simp [TabDist.ofRange, TabDist.xss, ht']

/-- Kalbach-Mann distributions (law 44) return flag, discrete lines, table and the
two extra columns, directly and when read back. -/
theorem C08_kalbach (e : Dbl) (int nd : Nat) (v p c r a : Words) (d : TabDist) (hi : int < 10)
    (hp : Fits ((nd : Int) * 10 + int)) (hf : FitsN v.length)
    (h : TabDist.mkKalbach e int v p c r a nd = .ok d) (rest : Words) :
    (GivesPacked d e int nd v p c ∧ d.r = .ok r ∧ d.a = .ok a) ∧
    ∃ d', TabDist.ofRange e (d.xss ++ rest) = .ok d' ∧ GivesPacked d' e int nd v p c ∧
      d'.r = .ok r ∧ d'.a = .ok a := by
  obtain ⟨t, ht, h⟩ := bind_eq_ok.mp h
  injection h with h; subst h
  obtain ⟨g, t', ht', g'⟩ := C08_roundtrip _ v p c [r, a] t ht hp hf rest
  refine ⟨⟨packed rfl hi hp g, g.2.2.2.2.2 0 (by simp), g.2.2.2.2.2 1 (by simp)⟩, ⟨e, t'⟩, ?_,
    packed rfl hi hp g', g'.2.2.2.2.2 0 (by simp), g'.2.2.2.2.2 1 (by simp)⟩
  simp [TabDist.ofRange, TabDist.xss, ht']

/-- Angular distributions keep the plain flag. -/
theorem C08_angular (e : Dbl) (int : Int) (v p c : Words) (d : TabDist) (hi : Fits int)
    (hf : FitsN v.length) (h : TabDist.mkAngular e int v p c = .ok d) (rest : Words) :
    (d.value = e ∧ GivesDistribution d.dist int v p c []) ∧
    ∃ d', TabDist.ofRange e (d.xss ++ rest) = .ok d' ∧ d'.value = e ∧
      GivesDistribution d'.dist int v p c [] := by
  obtain ⟨t, ht, h⟩ := bind_eq_ok.mp h
  injection h with h; subst h
  obtain ⟨g, t', ht', g'⟩ := C08_roundtrip _ v p c [] t ht hi hf rest
  exact ⟨⟨rfl, g⟩, ⟨e, t'⟩, by simp [TabDist.ofRange, TabDist.xss, ht'], rfl, g'⟩

-- 2 discrete lines, interpolation 1: the stored flag is 21
example : ∃ d, TabDist.mkEnergy (Dbl.ofNat 5) 1 [Dbl.ofNat 1, Dbl.ofNat 2] [Dbl.ofNat 3, Dbl.ofNat 4]
      [Dbl.ofNat 0, Dbl.ofNat 1] 2 = .ok d ∧ d.xss.head? = some (Dbl.ofNat 21) ∧
      d.interpolation = .ok 1 ∧ d.numberDiscretePhotonLines = .ok 2 :=
  ⟨⟨_, ⟨_⟩⟩, rfl, by decide, by decide, by decide⟩
-- an interpolation type of 10 or more is not recovered
example : ∃ d, TabDist.mkEnergy (Dbl.ofNat 5) 12 [Dbl.ofNat 1] [Dbl.ofNat 3]
      [Dbl.ofNat 0] 0 = .ok d ∧ d.interpolation = .ok 2 :=
  ⟨⟨_, ⟨_⟩⟩, rfl, by decide⟩

namespace C08
/-- Columns of two numbers. -/
def p (a b : Nat) : Words := [Dbl.ofNat a, Dbl.ofNat b]
end C08
open C08 (p)

/-- The hypotheses are met by columns of two numbers, interpolation type 2 and 3 discrete lines. -/
example := C08_accepts 2 (p 1 2) (p 3 4) (p 5 6) [p 7 8]
example := C08_roundtrip 2 (p 1 2) (p 3 4) (p 5 6) [p 7 8] _ rfl (by decide) (by decide) [Dbl.ofNat 9]
example := C08_energy (Dbl.ofNat 20) 2 3 (p 1 2) (p 3 4) (p 5 6) _ (by decide) (by decide) (by decide) rfl [Dbl.ofNat 9]
example := C08_kalbach (Dbl.ofNat 20) 2 3 (p 1 2) (p 3 4) (p 5 6) (p 7 8) (p 9 10) _ (by decide) (by decide) (by decide) rfl
  [Dbl.ofNat 9]
example := C08_angular (Dbl.ofNat 20) 2 (p 1 2) (p 3 4) (p 5 6) _ (by decide) (by decide) rfl [Dbl.ofNat 9]

end ACE.Props

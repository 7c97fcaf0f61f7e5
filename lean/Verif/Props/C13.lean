import Verif.Props.C49

/-!
# C13: every energy law is identified by its own law number

False for law 67: `AngleEnergyDistributionData::LAW()` is 61.
-/

namespace ACE.Props
open ACE

/-- The property: the data of each law report the law number of the format. -/
def C13Statement : Prop :=
  ∀ (sort : StdSort EquiEnergy.incident) (s : LawSpec) (d : LawData),
    s.build sort = .ok d → d.LAW = s.number

/-- Built data are of the kind that was asked for. -/
theorem build_kind (sort : StdSort EquiEnergy.incident) (s : LawSpec) (d : LawData)
    (hb : s.build sort = .ok d) : d.LAW = s.number ∨ (s.number = 67 ∧ d.LAW = 61) := by
  cases s <;> unfold LawSpec.build at hb <;>
    (try simp only [bind_eq_ok] at hb) <;>
    first
    | (injection hb with hb; subst hb; exact Or.inl rfl)
    | (obtain ⟨_, _, hb⟩ := hb; injection hb with hb; subst hb; exact Or.inl rfl)
    | (obtain ⟨_, _, _, _, hb⟩ := hb; injection hb with hb; subst hb; exact Or.inl rfl)
    | (obtain ⟨_, _, _, _, _, _, hb⟩ := hb; injection hb with hb; subst hb; exact Or.inl rfl)
    | (obtain ⟨_, _, _, _, hb⟩ := hb; injection hb with hb; subst hb; exact Or.inr ⟨rfl, rfl⟩)

/-- Every law but 67 reports its own number, and its words are decoded under the reported number as
the same law with the same values. Missing: law 67. -/
theorem C13_partial (sort : StdSort EquiEnergy.incident) (s : LawSpec) (d : LawData)
    (hb : s.build sort = .ok d) (h67 : s.number ≠ 67) :
    d.LAW = s.number ∧
    (s.Ok → FitsN (s.locator + d.words.length + 1) → ∀ emin emax rest,
      ∃ d', LawData.read d.LAW s.locator (d.words ++ rest) emin emax = .ok d' ∧
        s.Gives s.locator emin emax d') := by
  have e : d.LAW = s.number := (build_kind sort s d hb).resolve_right fun h => h67 h.1
  refine ⟨e, fun hok hf emin emax rest => ?_⟩
  rw [e]
  exact C49_read sort s d hb hok hf emin emax rest

/-- Law numbers are different for different laws. -/
theorem C13_distinct (d d' : LawData) (h : d.LAW = d'.LAW) (h61 : d.LAW ≠ 61) :
    ∀ idat xs emin emax r r', LawData.read d.LAW idat xs emin emax = .ok r →
      LawData.read d'.LAW idat xs emin emax = .ok r' → r = r' ∧ r.LAW = d.LAW := by
  intro idat xs emin emax r r' h1 h2
  rw [← h, h1] at h2
  injection h2 with h2
  refine ⟨h2, ?_⟩
  cases d <;> (try exact absurd rfl h61) <;>
    · simp only [LawData.LAW, LawData.read] at h1 ⊢
      simp only [reduceIte, Int.reduceEq, bind_eq_ok] at h1
      obtain ⟨x, _, h1⟩ := h1
      injection h1 with h1
      rw [← h1]

/-- Angle-energy data of every kind report 61; under the number they report they are never decoded
as angle-energy data. -/
theorem C13_law67 (d : Law67) (idat : Nat) (xs : Words) (emin emax : Dbl) (d' : Law67) :
    (LawData.angleEnergy d).LAW = 61 ∧
    LawData.read (LawData.angleEnergy d).LAW idat xs emin emax ≠ .ok (.angleEnergy d') := by
  refine ⟨rfl, fun h => ?_⟩
  simp only [LawData.LAW, LawData.read, reduceIte, Int.reduceEq, bind_eq_ok] at h
  obtain ⟨x, _, h⟩ := h
  injection h with h
  cases h

/-- A law 67 with one incident energy and one cosine. -/
def law67Example : LawSpec :=
  .angleEnergy [] [] [⟨Dbl.ofNat 1, 2, [⟨Dbl.ofNat 0, 2, [Dbl.ofNat 1, Dbl.ofNat 2],
    [Dbl.ofNat 1, Dbl.ofNat 1], [Dbl.ofNat 0, Dbl.ofNat 1], 0⟩], 0⟩] 0

/-- The property is false. -/
theorem C13_false : ¬ C13Statement := by
  intro h
  have hb : ∃ d, law67Example.build (sortBy _) = .ok d := by
    cases e : law67Example.build (sortBy _) with
    | ok d => exact ⟨d, rfl⟩
    | error x =>
      have : (law67Example.build (sortBy EquiEnergy.incident)).toBool = true := by decide +kernel
      rw [e] at this; cases this
  obtain ⟨d, hd⟩ := hb
  have h1 := h (sortBy _) _ d hd
  have h2 : d.LAW = 61 := by
    unfold law67Example LawSpec.build at hd
    simp only [bind_eq_ok] at hd
    obtain ⟨_, _, _, _, hd⟩ := hd
    injection hd with hd; subst hd; rfl
  rw [h2] at h1
  cases h1

-- a level scattering law reports 3 and is decoded under 3
example : ((LawSpec.level (Dbl.ofNat 1) (Dbl.ofNat 20) (Dbl.ofNat 3) (Dbl.ofNat 4)).build (sortBy _)
    >>= fun d => LawData.read d.LAW 7 (d.words ++ [Dbl.ofNat 9]) (Dbl.ofNat 1) (Dbl.ofNat 20)) =
    .ok (.level ⟨[Dbl.ofNat 3, Dbl.ofNat 4, Dbl.ofNat 9], Dbl.ofNat 1, Dbl.ofNat 20⟩) := by decide

/-- The hypotheses are met by level scattering data. -/
example := C13_partial (sortBy _) (.level (Dbl.ofNat 1) (Dbl.ofNat 20) (Dbl.ofNat 3) (Dbl.ofNat 4)) _ rfl (by decide)
example := C13_distinct (.level ⟨[Dbl.ofNat 3, Dbl.ofNat 4], Dbl.ofNat 1, Dbl.ofNat 20⟩)
  (.level ⟨[Dbl.ofNat 5, Dbl.ofNat 6], Dbl.ofNat 1, Dbl.ofNat 20⟩) rfl (by decide)

end ACE.Props

import Verif.Props.C63
import Verif.Props.C64

/-!
# C63, continued: the counts of a table are the numbers of its NXS array

Specification: the dictionaries below give the position in the NXS array of every number of the ACE
format, under its abbreviation and under the name that describes it. For every table whose NXS array
holds sixteen numbers, the C++ member function of that name gives the number at that position. The
total number of reactions of a continuous table is one more than NXS(4) (elastic scattering).
-/

namespace ACE.Props
open ACE ACE.Python

/-- The NXS array of a table holds the sixteen numbers `n 1`, …, `n 16`, none of them negative and all
below 2^32 - 1. -/
def Numbers (d : TableData) (n : Nat → Nat) : Prop :=
  d.nxs.length = 16 ∧ ∀ i, 1 ≤ i → i ≤ 16 → d.nxs[i - 1]? = some (n i : Int) ∧ n i < 4294967295

namespace C63

/-- Continuous tables, ACE manual: NXS. -/
def continuousNumbers : List (String × Nat) := [
  ("length", 1), ("ZA", 2), ("NES", 3), ("numberEnergyPoints", 3), ("NTR", 4), ("numberReactions", 4),
  ("NR", 5), ("numberProjectileProductionReactions", 5), ("NTRP", 6),
  ("numberPhotonProductionReactions", 6), ("NTYPE", 7), ("numberSecondaryParticleTypes", 7),
  ("NPCR", 8), ("numberDelayedPrecursors", 8), ("S", 9), ("isomericState", 9), ("Z", 10),
  ("atomNumber", 10), ("A", 11), ("massNumber", 11)]
/-- Dosimetry tables. -/
def dosimetryNumbers : List (String × Nat) := [
  ("length", 1), ("ZA", 2), ("NTR", 4), ("numberReactions", 4)]
/-- Photoatomic tables. -/
def photoatomicNumbers : List (String × Nat) := [
  ("length", 1), ("Z", 2), ("atomNumber", 2), ("NES", 3), ("numberEnergyPoints", 3), ("NFLO", 4),
  ("numberFluorescenceEdges", 4), ("NSH", 5), ("numberElectronShells", 5), ("NEPR", 6),
  ("electronPhotonRelaxationFormat", 6), ("NSSH", 7), ("numberElectronSubshells", 7), ("NE", 8),
  ("numberElectronEnergyPoints", 8), ("NXL", 9), ("numberElectronExcitationEnergyPoints", 9),
  ("NA", 10), ("numberElectronElasticEnergyPoints", 10), ("NB", 11),
  ("numberPhotonBremsstrahlungEnergyPoints", 11), ("NBL", 12),
  ("numberElectronBremsstrahlungEnergyPoints", 12), ("NINC", 13),
  ("numberIncoherentMomentumValues", 13), ("NCOH", 14), ("numberCoherentMomentumValues", 14)]
/-- Photonuclear tables. -/
def photonuclearNumbers : List (String × Nat) := [
  ("length", 1), ("ZA", 2), ("NES", 3), ("numberEnergyPoints", 3), ("NTR", 4), ("numberReactions", 4),
  ("NTYPE", 5), ("numberSecondaryParticleTypes", 5), ("S", 9), ("isomericState", 9), ("Z", 10),
  ("atomNumber", 10), ("A", 11), ("massNumber", 11)]
/-- Thermal scattering tables. -/
def thermalNumbers : List (String × Nat) := [
  ("length", 1), ("IDPNI", 2), ("inelasticScatteringMode", 2), ("NIL", 3),
  ("inelasticDimensioningParameter", 3), ("NIEB", 4), ("numberInelasticOutgoingEnergies", 4),
  ("IDPNC", 5), ("elasticScatteringMode", 5), ("IFENG", 7), ("secondaryEnergyMode", 7)]
/-- The numbers of thermal scattering tables that may be negative (-1: no such data). -/
def thermalSigned : List (String × Nat) := [
  ("NCL", 6), ("firstElasticDimensioningParameter", 6), ("NCLI", 8),
  ("secondElasticDimensioningParameter", 8)]

theorem find?_at {T : Type} (api : List (Member T)) (name : String) (k : Nat)
    (h : (api.map (·.name)).findIdx? (· == name) = some k) : api.find? (·.name == name) = api[k]? := by
  induction api generalizing k with
  | nil => simp at h
  | cons m api ih =>
    rw [List.map_cons, List.findIdx?_cons] at h
    rw [List.find?_cons]
    by_cases hm : (m.name == name) = true
    · simp only [hm, if_true] at h ⊢
      have := Option.some.inj h; subst this; rfl
    · simp only [hm, Bool.false_eq_true, if_false] at h ⊢
      obtain ⟨k', hk, rfl⟩ := Option.map_eq_some_iff.mp h
      exact ih k' hk

/-- A member that is no alias, by its place in the class. -/
theorem at_value {T : Type} {api : List (Member T)} {f : T → Res Val} (name : String) (k : Nat)
    (h : (api.map (·.name)).findIdx? (· == name) = some k) (hb : api[k]?.map (·.body) = some (.value f))
    (t : T) : cpp api t name none = .result (f t) := by
  unfold cpp find
  rw [find?_at api name k h, hb]
  rfl

/-- An alias, by its place in the class and that of the member it stands for. -/
theorem at_same {T : Type} {api : List (Member T)} {f : T → Res Val} (name : String) (k : Nat)
    (other : String) (l : Nat)
    (h : (api.map (·.name)).findIdx? (· == name) = some k)
    (hb : api[k]?.map (·.body) = some (.same other))
    (h' : (api.map (·.name)).findIdx? (· == other) = some l)
    (hb' : api[l]?.map (·.body) = some (.value f))
    (t : T) : cpp api t name none = .result (f t) := by
  unfold cpp find
  rw [find?_at api name k h, hb]
  show run t ((api.find? (·.name == other)).map (·.body)) none = _
  rw [find?_at api other l h', hb']
  rfl

theorem count_eq {d : TableData} {n : Nat → Nat} (h : Numbers d n) (i : Nat) (h1 : 1 ≤ i)
    (h2 : i ≤ 16) : d.count i = .ok (n i) := by
  obtain ⟨a, b⟩ := h.2 i h1 h2
  unfold TableData.count TableData.NXS TableData.fetch TableData.verifyIndex
  rw [h.1, if_neg (by omega), a]
  show Except.ok (u32OfInt (n i : Int)) = _
  unfold u32OfInt
  congr 1; omega

theorem signed_eq {d : TableData} {i : Nat} (hl : d.nxs.length = 16) (h1 : 1 ≤ i) (h2 : i ≤ 16)
    {v : Int} (hv : d.nxs[i - 1]? = some v) (ha : -2147483648 ≤ v) (hb : v < 2147483648) :
    d.signed i = .ok v := by
  unfold TableData.signed TableData.NXS TableData.fetch TableData.verifyIndex
  rw [hl, if_neg (by omega), hv]
  show Except.ok (if u32OfInt v < 2147483648 then (u32OfInt v : Int) else (u32OfInt v : Int) - 4294967296) = _
  unfold u32OfInt
  congr 1
  split <;> omega

end C63

open C63 in
/-- `ContinuousEnergyTable`: the member functions of numbers give the numbers of the NXS array. -/
theorem C63_numbers_continuous (h : AnyHeader) (t : CE) (n : Nat → Nat) (hn : Numbers t.data n) :
    (∀ p ∈ continuousNumbers, cpp continuousMembers (h, t) p.1 none = .result (.ok (.count (n p.2)))) ∧
      cpp continuousMembers (h, t) "totalNumberReactions" none = .result (.ok (.count (n 4 + 1))) := by
  have hc : ∀ i, 1 ≤ i → i ≤ 16 → (do return Val.count (← t.data.count i) : Res Val) = .ok (.count (n i)) :=
    fun i h1 h2 => by rw [count_eq hn i h1 h2]; rfl
  refine ⟨?_, (at_value "totalNumberReactions" 12 (by decide +kernel) rfl _).trans (congrArg _ ?_)⟩
  rotate_left
  · show (do return Val.count (← t.totalNumberReactions) : Res Val) = _
    unfold CE.totalNumberReactions CE.NTR
    rw [count_eq hn 4 (by omega) (by omega)]
    show Except.ok (Val.count ((n 4 + 1) % 4294967296)) = _
    rw [Nat.mod_eq_of_lt (by have := (hn.2 4 (by omega) (by omega)).2; omega)]
  refine List.forall_mem_cons.mpr ⟨(at_value "length" 6 (by decide +kernel) rfl _).trans (congrArg _ (hc 1 (by omega) (by omega))), ?_⟩
  refine List.forall_mem_cons.mpr ⟨(at_value "ZA" 7 (by decide +kernel) rfl _).trans (congrArg _ (hc 2 (by omega) (by omega))), ?_⟩
  refine List.forall_mem_cons.mpr ⟨(at_value "NES" 8 (by decide +kernel) rfl _).trans (congrArg _ (hc 3 (by omega) (by omega))), ?_⟩
  refine List.forall_mem_cons.mpr ⟨(at_same "numberEnergyPoints" 9 "NES" 8 (by decide +kernel) rfl (by decide +kernel) rfl _).trans (congrArg _ (hc 3 (by omega) (by omega))), ?_⟩
  refine List.forall_mem_cons.mpr ⟨(at_value "NTR" 10 (by decide +kernel) rfl _).trans (congrArg _ (hc 4 (by omega) (by omega))), ?_⟩
  refine List.forall_mem_cons.mpr ⟨(at_same "numberReactions" 11 "NTR" 10 (by decide +kernel) rfl (by decide +kernel) rfl _).trans (congrArg _ (hc 4 (by omega) (by omega))), ?_⟩
  refine List.forall_mem_cons.mpr ⟨(at_value "NR" 13 (by decide +kernel) rfl _).trans (congrArg _ (hc 5 (by omega) (by omega))), ?_⟩
  refine List.forall_mem_cons.mpr ⟨(at_same "numberProjectileProductionReactions" 14 "NR" 13 (by decide +kernel) rfl (by decide +kernel) rfl _).trans (congrArg _ (hc 5 (by omega) (by omega))), ?_⟩
  refine List.forall_mem_cons.mpr ⟨(at_value "NTRP" 15 (by decide +kernel) rfl _).trans (congrArg _ (hc 6 (by omega) (by omega))), ?_⟩
  refine List.forall_mem_cons.mpr ⟨(at_same "numberPhotonProductionReactions" 16 "NTRP" 15 (by decide +kernel) rfl (by decide +kernel) rfl _).trans (congrArg _ (hc 6 (by omega) (by omega))), ?_⟩
  refine List.forall_mem_cons.mpr ⟨(at_value "NTYPE" 17 (by decide +kernel) rfl _).trans (congrArg _ (hc 7 (by omega) (by omega))), ?_⟩
  refine List.forall_mem_cons.mpr ⟨(at_same "numberSecondaryParticleTypes" 18 "NTYPE" 17 (by decide +kernel) rfl (by decide +kernel) rfl _).trans (congrArg _ (hc 7 (by omega) (by omega))), ?_⟩
  refine List.forall_mem_cons.mpr ⟨(at_value "NPCR" 19 (by decide +kernel) rfl _).trans (congrArg _ (hc 8 (by omega) (by omega))), ?_⟩
  refine List.forall_mem_cons.mpr ⟨(at_same "numberDelayedPrecursors" 20 "NPCR" 19 (by decide +kernel) rfl (by decide +kernel) rfl _).trans (congrArg _ (hc 8 (by omega) (by omega))), ?_⟩
  refine List.forall_mem_cons.mpr ⟨(at_value "S" 21 (by decide +kernel) rfl _).trans (congrArg _ (hc 9 (by omega) (by omega))), ?_⟩
  refine List.forall_mem_cons.mpr ⟨(at_same "isomericState" 22 "S" 21 (by decide +kernel) rfl (by decide +kernel) rfl _).trans (congrArg _ (hc 9 (by omega) (by omega))), ?_⟩
  refine List.forall_mem_cons.mpr ⟨(at_value "Z" 23 (by decide +kernel) rfl _).trans (congrArg _ (hc 10 (by omega) (by omega))), ?_⟩
  refine List.forall_mem_cons.mpr ⟨(at_same "atomNumber" 24 "Z" 23 (by decide +kernel) rfl (by decide +kernel) rfl _).trans (congrArg _ (hc 10 (by omega) (by omega))), ?_⟩
  refine List.forall_mem_cons.mpr ⟨(at_value "A" 25 (by decide +kernel) rfl _).trans (congrArg _ (hc 11 (by omega) (by omega))), ?_⟩
  refine List.forall_mem_cons.mpr ⟨(at_same "massNumber" 26 "A" 25 (by decide +kernel) rfl (by decide +kernel) rfl _).trans (congrArg _ (hc 11 (by omega) (by omega))), ?_⟩
  exact fun _ h => absurd h List.not_mem_nil

open C63 in
/-- `DosimetryTable`: the member functions of numbers give the numbers of the NXS array. -/
theorem C63_numbers_dosimetry (h : AnyHeader) (t : Dosimetry) (n : Nat → Nat) (hn : Numbers t.data n) :
    (∀ p ∈ dosimetryNumbers, cpp dosimetryMembers (h, t) p.1 none = .result (.ok (.count (n p.2)))) := by
  have hc : ∀ i, 1 ≤ i → i ≤ 16 → (do return Val.count (← t.data.count i) : Res Val) = .ok (.count (n i)) :=
    fun i h1 h2 => by rw [count_eq hn i h1 h2]; rfl
  refine List.forall_mem_cons.mpr ⟨(at_value "length" 6 (by decide +kernel) rfl _).trans (congrArg _ (hc 1 (by omega) (by omega))), ?_⟩
  refine List.forall_mem_cons.mpr ⟨(at_value "ZA" 7 (by decide +kernel) rfl _).trans (congrArg _ (hc 2 (by omega) (by omega))), ?_⟩
  refine List.forall_mem_cons.mpr ⟨(at_value "NTR" 8 (by decide +kernel) rfl _).trans (congrArg _ (hc 4 (by omega) (by omega))), ?_⟩
  refine List.forall_mem_cons.mpr ⟨(at_same "numberReactions" 9 "NTR" 8 (by decide +kernel) rfl (by decide +kernel) rfl _).trans (congrArg _ (hc 4 (by omega) (by omega))), ?_⟩
  exact fun _ h => absurd h List.not_mem_nil

open C63 in
/-- `PhotoatomicTable`: the member functions of numbers give the numbers of the NXS array. -/
theorem C63_numbers_photoatomic (h : AnyHeader) (t : PA) (n : Nat → Nat) (hn : Numbers t.data n) :
    (∀ p ∈ photoatomicNumbers, cpp photoatomicMembers (h, t) p.1 none = .result (.ok (.count (n p.2)))) := by
  have hc : ∀ i, 1 ≤ i → i ≤ 16 → (do return Val.count (← t.data.count i) : Res Val) = .ok (.count (n i)) :=
    fun i h1 h2 => by rw [count_eq hn i h1 h2]; rfl
  refine List.forall_mem_cons.mpr ⟨(at_value "length" 6 (by decide +kernel) rfl _).trans (congrArg _ (hc 1 (by omega) (by omega))), ?_⟩
  refine List.forall_mem_cons.mpr ⟨(at_value "Z" 7 (by decide +kernel) rfl _).trans (congrArg _ (hc 2 (by omega) (by omega))), ?_⟩
  refine List.forall_mem_cons.mpr ⟨(at_same "atomNumber" 8 "Z" 7 (by decide +kernel) rfl (by decide +kernel) rfl _).trans (congrArg _ (hc 2 (by omega) (by omega))), ?_⟩
  refine List.forall_mem_cons.mpr ⟨(at_value "NES" 13 (by decide +kernel) rfl _).trans (congrArg _ (hc 3 (by omega) (by omega))), ?_⟩
  refine List.forall_mem_cons.mpr ⟨(at_same "numberEnergyPoints" 14 "NES" 13 (by decide +kernel) rfl (by decide +kernel) rfl _).trans (congrArg _ (hc 3 (by omega) (by omega))), ?_⟩
  refine List.forall_mem_cons.mpr ⟨(at_value "NFLO" 15 (by decide +kernel) rfl _).trans (congrArg _ (hc 4 (by omega) (by omega))), ?_⟩
  refine List.forall_mem_cons.mpr ⟨(at_same "numberFluorescenceEdges" 16 "NFLO" 15 (by decide +kernel) rfl (by decide +kernel) rfl _).trans (congrArg _ (hc 4 (by omega) (by omega))), ?_⟩
  refine List.forall_mem_cons.mpr ⟨(at_value "NSH" 17 (by decide +kernel) rfl _).trans (congrArg _ (hc 5 (by omega) (by omega))), ?_⟩
  refine List.forall_mem_cons.mpr ⟨(at_same "numberElectronShells" 18 "NSH" 17 (by decide +kernel) rfl (by decide +kernel) rfl _).trans (congrArg _ (hc 5 (by omega) (by omega))), ?_⟩
  refine List.forall_mem_cons.mpr ⟨(at_value "NEPR" 19 (by decide +kernel) rfl _).trans (congrArg _ (hc 6 (by omega) (by omega))), ?_⟩
  refine List.forall_mem_cons.mpr ⟨(at_same "electronPhotonRelaxationFormat" 20 "NEPR" 19 (by decide +kernel) rfl (by decide +kernel) rfl _).trans (congrArg _ (hc 6 (by omega) (by omega))), ?_⟩
  refine List.forall_mem_cons.mpr ⟨(at_value "NSSH" 21 (by decide +kernel) rfl _).trans (congrArg _ (hc 7 (by omega) (by omega))), ?_⟩
  refine List.forall_mem_cons.mpr ⟨(at_same "numberElectronSubshells" 22 "NSSH" 21 (by decide +kernel) rfl (by decide +kernel) rfl _).trans (congrArg _ (hc 7 (by omega) (by omega))), ?_⟩
  refine List.forall_mem_cons.mpr ⟨(at_value "NE" 23 (by decide +kernel) rfl _).trans (congrArg _ (hc 8 (by omega) (by omega))), ?_⟩
  refine List.forall_mem_cons.mpr ⟨(at_same "numberElectronEnergyPoints" 24 "NE" 23 (by decide +kernel) rfl (by decide +kernel) rfl _).trans (congrArg _ (hc 8 (by omega) (by omega))), ?_⟩
  refine List.forall_mem_cons.mpr ⟨(at_value "NXL" 25 (by decide +kernel) rfl _).trans (congrArg _ (hc 9 (by omega) (by omega))), ?_⟩
  refine List.forall_mem_cons.mpr ⟨(at_same "numberElectronExcitationEnergyPoints" 26 "NXL" 25 (by decide +kernel) rfl (by decide +kernel) rfl _).trans (congrArg _ (hc 9 (by omega) (by omega))), ?_⟩
  refine List.forall_mem_cons.mpr ⟨(at_value "NA" 27 (by decide +kernel) rfl _).trans (congrArg _ (hc 10 (by omega) (by omega))), ?_⟩
  refine List.forall_mem_cons.mpr ⟨(at_same "numberElectronElasticEnergyPoints" 28 "NA" 27 (by decide +kernel) rfl (by decide +kernel) rfl _).trans (congrArg _ (hc 10 (by omega) (by omega))), ?_⟩
  refine List.forall_mem_cons.mpr ⟨(at_value "NB" 29 (by decide +kernel) rfl _).trans (congrArg _ (hc 11 (by omega) (by omega))), ?_⟩
  refine List.forall_mem_cons.mpr ⟨(at_same "numberPhotonBremsstrahlungEnergyPoints" 30 "NB" 29 (by decide +kernel) rfl (by decide +kernel) rfl _).trans (congrArg _ (hc 11 (by omega) (by omega))), ?_⟩
  refine List.forall_mem_cons.mpr ⟨(at_value "NBL" 31 (by decide +kernel) rfl _).trans (congrArg _ (hc 12 (by omega) (by omega))), ?_⟩
  refine List.forall_mem_cons.mpr ⟨(at_same "numberElectronBremsstrahlungEnergyPoints" 32 "NBL" 31 (by decide +kernel) rfl (by decide +kernel) rfl _).trans (congrArg _ (hc 12 (by omega) (by omega))), ?_⟩
  refine List.forall_mem_cons.mpr ⟨(at_value "NINC" 33 (by decide +kernel) rfl _).trans (congrArg _ (hc 13 (by omega) (by omega))), ?_⟩
  refine List.forall_mem_cons.mpr ⟨(at_same "numberIncoherentMomentumValues" 34 "NINC" 33 (by decide +kernel) rfl (by decide +kernel) rfl _).trans (congrArg _ (hc 13 (by omega) (by omega))), ?_⟩
  refine List.forall_mem_cons.mpr ⟨(at_value "NCOH" 35 (by decide +kernel) rfl _).trans (congrArg _ (hc 14 (by omega) (by omega))), ?_⟩
  refine List.forall_mem_cons.mpr ⟨(at_same "numberCoherentMomentumValues" 36 "NCOH" 35 (by decide +kernel) rfl (by decide +kernel) rfl _).trans (congrArg _ (hc 14 (by omega) (by omega))), ?_⟩
  exact fun _ h => absurd h List.not_mem_nil

open C63 in
/-- `PhotonuclearTable`: the member functions of numbers give the numbers of the NXS array. -/
theorem C63_numbers_photonuclear (h : AnyHeader) (t : PN) (n : Nat → Nat) (hn : Numbers t.data n) :
    (∀ p ∈ photonuclearNumbers, cpp photonuclearMembers (h, t) p.1 none = .result (.ok (.count (n p.2)))) := by
  have hc : ∀ i, 1 ≤ i → i ≤ 16 → (do return Val.count (← t.data.count i) : Res Val) = .ok (.count (n i)) :=
    fun i h1 h2 => by rw [count_eq hn i h1 h2]; rfl
  refine List.forall_mem_cons.mpr ⟨(at_value "length" 6 (by decide +kernel) rfl _).trans (congrArg _ (hc 1 (by omega) (by omega))), ?_⟩
  refine List.forall_mem_cons.mpr ⟨(at_value "ZA" 7 (by decide +kernel) rfl _).trans (congrArg _ (hc 2 (by omega) (by omega))), ?_⟩
  refine List.forall_mem_cons.mpr ⟨(at_value "NES" 8 (by decide +kernel) rfl _).trans (congrArg _ (hc 3 (by omega) (by omega))), ?_⟩
  refine List.forall_mem_cons.mpr ⟨(at_same "numberEnergyPoints" 9 "NES" 8 (by decide +kernel) rfl (by decide +kernel) rfl _).trans (congrArg _ (hc 3 (by omega) (by omega))), ?_⟩
  refine List.forall_mem_cons.mpr ⟨(at_value "NTR" 10 (by decide +kernel) rfl _).trans (congrArg _ (hc 4 (by omega) (by omega))), ?_⟩
  refine List.forall_mem_cons.mpr ⟨(at_same "numberReactions" 11 "NTR" 10 (by decide +kernel) rfl (by decide +kernel) rfl _).trans (congrArg _ (hc 4 (by omega) (by omega))), ?_⟩
  refine List.forall_mem_cons.mpr ⟨(at_value "NTYPE" 12 (by decide +kernel) rfl _).trans (congrArg _ (hc 5 (by omega) (by omega))), ?_⟩
  refine List.forall_mem_cons.mpr ⟨(at_same "numberSecondaryParticleTypes" 13 "NTYPE" 12 (by decide +kernel) rfl (by decide +kernel) rfl _).trans (congrArg _ (hc 5 (by omega) (by omega))), ?_⟩
  refine List.forall_mem_cons.mpr ⟨(at_value "S" 14 (by decide +kernel) rfl _).trans (congrArg _ (hc 9 (by omega) (by omega))), ?_⟩
  refine List.forall_mem_cons.mpr ⟨(at_same "isomericState" 15 "S" 14 (by decide +kernel) rfl (by decide +kernel) rfl _).trans (congrArg _ (hc 9 (by omega) (by omega))), ?_⟩
  refine List.forall_mem_cons.mpr ⟨(at_value "Z" 16 (by decide +kernel) rfl _).trans (congrArg _ (hc 10 (by omega) (by omega))), ?_⟩
  refine List.forall_mem_cons.mpr ⟨(at_same "atomNumber" 17 "Z" 16 (by decide +kernel) rfl (by decide +kernel) rfl _).trans (congrArg _ (hc 10 (by omega) (by omega))), ?_⟩
  refine List.forall_mem_cons.mpr ⟨(at_value "A" 18 (by decide +kernel) rfl _).trans (congrArg _ (hc 11 (by omega) (by omega))), ?_⟩
  refine List.forall_mem_cons.mpr ⟨(at_same "massNumber" 19 "A" 18 (by decide +kernel) rfl (by decide +kernel) rfl _).trans (congrArg _ (hc 11 (by omega) (by omega))), ?_⟩
  exact fun _ h => absurd h List.not_mem_nil

open C63 in
/-- `ThermalScatteringTable`: the member functions of numbers give the numbers of the NXS array. -/
theorem C63_numbers_thermal (h : AnyHeader) (t : TS) (n : Nat → Nat) (hn : Numbers t.data n) :
    (∀ p ∈ thermalNumbers, cpp thermalMembers (h, t) p.1 none = .result (.ok (.count (n p.2)))) := by
  have hc : ∀ i, 1 ≤ i → i ≤ 16 → (do return Val.count (← t.data.count i) : Res Val) = .ok (.count (n i)) :=
    fun i h1 h2 => by rw [count_eq hn i h1 h2]; rfl
  refine List.forall_mem_cons.mpr ⟨(at_value "length" 6 (by decide +kernel) rfl _).trans (congrArg _ (hc 1 (by omega) (by omega))), ?_⟩
  refine List.forall_mem_cons.mpr ⟨(at_value "IDPNI" 7 (by decide +kernel) rfl _).trans (congrArg _ (hc 2 (by omega) (by omega))), ?_⟩
  refine List.forall_mem_cons.mpr ⟨(at_same "inelasticScatteringMode" 8 "IDPNI" 7 (by decide +kernel) rfl (by decide +kernel) rfl _).trans (congrArg _ (hc 2 (by omega) (by omega))), ?_⟩
  refine List.forall_mem_cons.mpr ⟨(at_value "NIL" 9 (by decide +kernel) rfl _).trans (congrArg _ (hc 3 (by omega) (by omega))), ?_⟩
  refine List.forall_mem_cons.mpr ⟨(at_same "inelasticDimensioningParameter" 10 "NIL" 9 (by decide +kernel) rfl (by decide +kernel) rfl _).trans (congrArg _ (hc 3 (by omega) (by omega))), ?_⟩
  refine List.forall_mem_cons.mpr ⟨(at_value "NIEB" 11 (by decide +kernel) rfl _).trans (congrArg _ (hc 4 (by omega) (by omega))), ?_⟩
  refine List.forall_mem_cons.mpr ⟨(at_same "numberInelasticOutgoingEnergies" 12 "NIEB" 11 (by decide +kernel) rfl (by decide +kernel) rfl _).trans (congrArg _ (hc 4 (by omega) (by omega))), ?_⟩
  refine List.forall_mem_cons.mpr ⟨(at_value "IDPNC" 13 (by decide +kernel) rfl _).trans (congrArg _ (hc 5 (by omega) (by omega))), ?_⟩
  refine List.forall_mem_cons.mpr ⟨(at_same "elasticScatteringMode" 14 "IDPNC" 13 (by decide +kernel) rfl (by decide +kernel) rfl _).trans (congrArg _ (hc 5 (by omega) (by omega))), ?_⟩
  refine List.forall_mem_cons.mpr ⟨(at_value "IFENG" 19 (by decide +kernel) rfl _).trans (congrArg _ (hc 7 (by omega) (by omega))), ?_⟩
  refine List.forall_mem_cons.mpr ⟨(at_same "secondaryEnergyMode" 20 "IFENG" 19 (by decide +kernel) rfl (by decide +kernel) rfl _).trans (congrArg _ (hc 7 (by omega) (by omega))), ?_⟩
  exact fun _ h => absurd h List.not_mem_nil

open C63 in
/-- `ThermalScatteringTable`: the numbers that may be negative. -/
theorem C63_numbers_thermal_signed (h : AnyHeader) (t : TS) (n : Nat → Int)
    (hl : t.data.nxs.length = 16)
    (hn : ∀ i, 1 ≤ i → i ≤ 16 → t.data.nxs[i - 1]? = some (n i) ∧ -2147483648 ≤ n i ∧ n i < 2147483648) :
    ∀ p ∈ thermalSigned, cpp thermalMembers (h, t) p.1 none = .result (.ok (.signed (n p.2))) := by
  have hc : ∀ i, 1 ≤ i → i ≤ 16 → (do return Val.signed (← t.data.signed i) : Res Val) = .ok (.signed (n i)) :=
    fun i h1 h2 => by
      obtain ⟨a, b, c⟩ := hn i h1 h2
      rw [signed_eq hl h1 h2 a b c]; rfl
  refine List.forall_mem_cons.mpr ⟨(at_value "NCL" 15 (by decide +kernel) rfl _).trans (congrArg _ (hc 6 (by omega) (by omega))), ?_⟩
  refine List.forall_mem_cons.mpr ⟨(at_same "firstElasticDimensioningParameter" 16 "NCL" 15 (by decide +kernel) rfl (by decide +kernel) rfl _).trans (congrArg _ (hc 6 (by omega) (by omega))), ?_⟩
  refine List.forall_mem_cons.mpr ⟨(at_value "NCLI" 17 (by decide +kernel) rfl _).trans (congrArg _ (hc 8 (by omega) (by omega))), ?_⟩
  refine List.forall_mem_cons.mpr ⟨(at_same "secondElasticDimensioningParameter" 18 "NCLI" 17 (by decide +kernel) rfl (by decide +kernel) rfl _).trans (congrArg _ (hc 8 (by omega) (by omega))), ?_⟩
  exact fun _ h => absurd h List.not_mem_nil

/-! ## Examples -/

namespace C63

theorem numbers_of {d : TableData} (l : List Nat) (hd : d.nxs = l.map Int.ofNat) (hl : l.length = 16)
    (h : ∀ x ∈ l, x < 4294967295) : Numbers d fun i => l.getD (i - 1) 0 := by
  refine ⟨by rw [hd, List.length_map, hl], fun i h1 h2 => ?_⟩
  have hi : i - 1 < l.length := by omega
  show d.nxs[i - 1]? = some (l.getD (i - 1) 0 : Int) ∧ l.getD (i - 1) 0 < 4294967295
  rw [hd, List.getElem?_map, List.getElem?_eq_getElem hi, List.getD_eq_getElem?_getD,
    List.getElem?_eq_getElem hi]
  exact ⟨rfl, h _ (List.getElem_mem hi)⟩

/-- A table that was made has the numbers given. -/
theorem made_numbers {T : Type} {r : Res T} {data : T → TableData} (l : List Nat)
    (h : (do return (data (← r)).nxs : Res (List Int)) = .ok (l.map Int.ofNat)) (hl : l.length = 16)
    (hb : ∀ x ∈ l, x < 4294967295) :
    ∃ t, r = .ok t ∧ Numbers (data t) fun i => l.getD (i - 1) 0 := by
  obtain ⟨t, ht, h⟩ := bind_eq_ok.mp h
  exact ⟨t, ht, numbers_of l (Except.ok.inj h) hl hb⟩

end C63

/-- A continuous table with two reactions besides elastic scattering and two secondary particles. -/
example : ∃ t, CE.mk' "92235.80c".toList 92 235 0 exBlocks.input = .ok t ∧
    cpp continuousMembers (C64.exHeader, t) "massNumber" none = .result (.ok (.count 235)) ∧
    cpp continuousMembers (C64.exHeader, t) "totalNumberReactions" none = .result (.ok (.count 3)) := by
  obtain ⟨t, ht, hn⟩ := C63.made_numbers (data := CE.data)
    [194, 92235, 2, 2, 1, 1, 2, 1, 0, 92, 235, 0, 0, 0, 0, 0]
    (by decide +kernel : (do return (← CE.mk' "92235.80c".toList 92 235 0 exBlocks.input).data.nxs) = _)
    (by decide) (by decide)
  obtain ⟨h1, h2⟩ := C63_numbers_continuous C64.exHeader t _ hn
  exact ⟨t, ht, h1 ("massNumber", 11) (by decide +kernel), h2⟩

example : ∃ t, PN.mk' "92235.70u".toList 92 235 0 (exPNBlocks [1, 9]).input = .ok t ∧
    cpp photonuclearMembers (C64.exHeader, t) "numberSecondaryParticleTypes" none =
      .result (.ok (.count 2)) := by
  obtain ⟨t, ht, hn⟩ := C63.made_numbers (data := PN.data)
    [108, 92235, 2, 2, 2, 2, 12, 0, 0, 92, 235, 0, 0, 0, 0, 1]
    (by decide +kernel : (do return (← PN.mk' "92235.70u".toList 92 235 0
      (exPNBlocks [1, 9]).input).data.nxs) = _)
    (by decide) (by decide)
  exact ⟨t, ht, C63_numbers_photonuclear C64.exHeader t _ hn
    ("numberSecondaryParticleTypes", 5) (by decide +kernel)⟩

example : ∃ t, PA.mk' "1000.12p".toList C32.exAll.input = .ok t ∧
    cpp photoatomicMembers (C64.exHeader, t) "numberIncoherentMomentumValues" none =
      .result (.ok (.count 3)) := by
  obtain ⟨t, ht, hn⟩ := C63.made_numbers (data := PA.data)
    [135, 1, 2, 1, 2, 3, 2, 1, 1, 2, 1, 1, 3, 1, 0, 0]
    (by decide +kernel : (do return (← PA.mk' "1000.12p".toList C32.exAll.input).data.nxs) = _)
    (by decide) (by decide)
  exact ⟨t, ht, C63_numbers_photoatomic C64.exHeader t _ hn
    ("numberIncoherentMomentumValues", 13) (by decide +kernel)⟩

example : ∃ t, Dosimetry.mk' "26056.10y".toList 26 56 (made (MTR.mk' [16, 107]))
      (made (SIGD.mk' exSigd)) = .ok t ∧
    cpp dosimetryMembers (C64.exHeader, t) "numberReactions" none = .result (.ok (.count 2)) := by
  obtain ⟨t, ht, hn⟩ := C63.made_numbers (data := Dosimetry.data)
    [18, 26056, 0, 2, 0, 0, 0, 0, 0, 0, 0, 0, 0, 0, 0, 0]
    (by decide +kernel : (do return (← Dosimetry.mk' "26056.10y".toList 26 56 (made (MTR.mk' [16, 107]))
      (made (SIGD.mk' exSigd))).data.nxs) = _)
    (by decide) (by decide)
  exact ⟨t, ht, C63_numbers_dosimetry C64.exHeader t _ hn ("numberReactions", 4) (by decide +kernel)⟩

example : ∃ t, TS.mk' "lwtr.10t".toList (tsInput [1001] exXS (made (ITXE.mkProb exPCos 6))
      (.incoherent exXS exCosines)) = .ok t ∧
    cpp thermalMembers (C64.exHeader, t) "elasticScatteringMode" none = .result (.ok (.count 3)) ∧
    cpp thermalMembers (C64.exHeader, t) "firstElasticDimensioningParameter" none =
      .result (.ok (.signed 1)) := by
  obtain ⟨t, ht, hn⟩ := C63.made_numbers (data := TS.data)
    [30, 3, 2, 0, 3, 1, 2, 0, 0, 0, 0, 0, 0, 0, 0, 0]
    (by decide +kernel : (do return (← TS.mk' "lwtr.10t".toList (tsInput [1001] exXS
      (made (ITXE.mkProb exPCos 6)) (.incoherent exXS exCosines))).data.nxs) = _)
    (by decide) (by decide)
  refine ⟨t, ht, C63_numbers_thermal C64.exHeader t _ hn ("elasticScatteringMode", 5)
    (by decide +kernel), C63_numbers_thermal_signed C64.exHeader t
    (fun i => (([30, 3, 2, 0, 3, 1, 2, 0, 0, 0, 0, 0, 0, 0, 0, 0] : List Nat).getD (i - 1) 0 : Int)) hn.1
    (fun i h1 h2 => ⟨(hn.2 i h1 h2).1, by omega, ?_⟩) ("firstElasticDimensioningParameter", 6)
    (by decide +kernel)⟩
  have : ∀ j < 16, (([30, 3, 2, 0, 3, 1, 2, 0, 0, 0, 0, 0, 0, 0, 0, 0] : List Nat).getD j 0) < 100 := by
    decide
  have := this (i - 1) (by omega)
  show (([30, 3, 2, 0, 3, 1, 2, 0, 0, 0, 0, 0, 0, 0, 0, 0] : List Nat).getD (i - 1) 0 : Int) < _
  omega

end ACE.Props

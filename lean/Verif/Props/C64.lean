import Verif.Model.Python
import Verif.Props.C63
import Verif.Props.C28Cases

/-!
# C64: the Python attributes of a table are its C++ members

Specification. The attribute of a Python table that belongs to a C++ member function has the same name
when that is an abbreviation of the ACE manual in capitals (`zaid` and `za` excepted), and the name in
lower case with underscores otherwise (`pythonName`). Used without or with an index it gives what the
member function gives, for every table. A descriptive name gives what its abbreviation gives
(`Abbreviation`).
-/

namespace ACE.Props
open ACE ACE.Python

namespace C64

/-- A capital letter. -/
def capital (c : Char) : Bool := 65 ≤ c.toNat && c.toNat ≤ 90
/-- A small letter. -/
def small (c : Char) : Bool := 97 ≤ c.toNat && c.toNat ≤ 122
/-- The small letter of a capital letter. -/
def toSmall (c : Char) : Char := if capital c then Char.ofNat (c.toNat + 32) else c
/-- Lower case with an underscore between a small letter and the capital letter after it; the first
argument is the letter before. -/
def snake : Char → List Char → List Char
  | _, [] => []
  | before, c :: s =>
    if capital c && small before then '_' :: toSmall c :: snake c s else toSmall c :: snake c s
/-- The Python name of a C++ member. -/
def pythonName (f : String) : String :=
  if f = "ZAID" then "zaid"
  else if f = "ZA" then "za"
  else if f.toList.all capital then f
  else String.ofList (snake ' ' f.toList)

example : pythonName "ESZ" = "ESZ" ∧ pythonName "ZA" = "za" ∧
    pythonName "photonMultiplicityReactionNumberBlock" = "photon_multiplicity_reaction_number_block" ∧
    pythonName "reactionQValueBlock" = "reaction_qvalue_block" := by decide +kernel

/-- The attribute for member `f` gives what `f` gives: for every table, without or with any index. -/
def Faithful {T : Type} (api : List (Member T)) (bs : List Binding) (f : String) : Prop :=
  ∀ (t : T) (index : Option Nat), python api bs t (pythonName f) index = cpp api t f index

/-- The names of the member functions. -/
def names {T : Type} (api : List (Member T)) : List String := api.map (·.name)

/-- What can be decided without a table: the binding of the Python name is the member and of the right
kind. -/
def check {T : Type} (api : List (Member T)) (bs : List Binding) (f : String) : Bool :=
  match binding bs (pythonName f) with
  | none => false
  | some b => b.member == f &&
    (match find api f with
     | some (.value _) => !b.method
     | some (.indexed _) => b.method
     | _ => false)

theorem faithful_of_check {T : Type} {api : List (Member T)} {bs : List Binding} {f : String}
    (h : check api bs f = true) : Faithful api bs f := by
  intro t index
  unfold check at h
  unfold python cpp
  cases hb : binding bs (pythonName f) with
  | none => rw [hb] at h; exact absurd h Bool.false_ne_true
  | some b =>
    rw [hb] at h
    simp only [Bool.and_eq_true, beq_iff_eq] at h
    obtain ⟨h1, h2⟩ := h
    show runPython t b.method (find api b.member) index = _
    rw [h1]
    generalize find api f = body at h2
    rcases body with _ | (f | v | f | n)
    · exact absurd h2 Bool.false_ne_true
    · have : b.method = false := by simpa using h2
      cases index <;> simp [runPython, run, this]
    · exact absurd h2 Bool.false_ne_true
    · have : b.method = true := h2
      cases index <;> simp [runPython, run, this]
    · exact absurd h2 Bool.false_ne_true

theorem all_faithful {T : Type} {api : List (Member T)} {bs : List Binding} {but : List String}
    (h : ((names api).all fun f => but.contains f || check api bs f) = true) :
    ∀ f ∈ names api, f ∉ but → Faithful api bs f := by
  intro f hf hn
  have := List.all_eq_true.mp h f hf
  rw [Bool.or_eq_true] at this
  rcases this with h | h
  · exact absurd (List.contains_iff_mem.mp h) hn
  · exact faithful_of_check h

/-- Abbreviations of the ACE manual and what they stand for, continuous tables. -/
def continuousManual : List (String × String) := [
  ("AWR", "atomicWeightRatio"), ("TEMP", "temperature"), ("NES", "numberEnergyPoints"),
  ("NTR", "numberReactions"), ("NR", "numberProjectileProductionReactions"),
  ("NTRP", "numberPhotonProductionReactions"), ("NTYPE", "numberSecondaryParticleTypes"),
  ("NPCR", "numberDelayedPrecursors"), ("S", "isomericState"), ("Z", "atomNumber"), ("A", "massNumber"),
  ("ESZ", "principalCrossSectionBlock"), ("NU", "fissionMultiplicityBlock"),
  ("MTR", "reactionNumberBlock"), ("LQR", "reactionQValueBlock"), ("TYR", "frameAndMultiplicityBlock"),
  ("SIG", "crossSectionBlock"), ("AND", "angularDistributionBlock"), ("DLW", "energyDistributionBlock"),
  ("GPD", "photonProductionBlock"), ("MTRP", "photonProductionReactionNumberBlock"),
  ("SIGP", "photonProductionCrossSectionBlock"), ("ANDP", "photonProductionAngularDistributionBlock"),
  ("DLWP", "photonProductionEnergyDistributionBlock"), ("YP", "photonMultiplicityReactionNumberBlock"),
  ("UNR", "probabilityTableBlock"), ("DNU", "delayedFissionMultiplicityBlock"),
  ("BDD", "delayedNeutronPrecursorBlock"), ("DNED", "delayedNeutronEnergyDistributionBlock"),
  ("PTYPE", "secondaryParticleTypeBlock"), ("NTRO", "secondaryParticleInformationBlock"),
  ("IXS", "secondaryParticleLocatorBlock"), ("HPD", "secondaryParticleProductionBlock"),
  ("MTRH", "secondaryParticleReactionNumberBlock"), ("TYRH", "secondaryParticleFrameAndMultiplicityBlock"),
  ("SIGH", "secondaryParticleProductionCrossSectionBlock"),
  ("ANDH", "secondaryParticleAngularDistributionBlock"),
  ("DLWH", "secondaryParticleEnergyDistributionBlock"),
  ("YH", "secondaryParticleMultiplicityReactionNumberBlock")]
/-- Abbreviations of the ACE manual and what they stand for, dosimetry tables. -/
def dosimetryManual : List (String × String) := [
  ("AWR", "atomicWeightRatio"), ("TEMP", "temperature"), ("NTR", "numberReactions"),
  ("MTR", "reactionNumberBlock"), ("SIGD", "crossSectionBlock")]
/-- Abbreviations of the ACE manual and what they stand for, photoatomic tables. -/
def photoatomicManual : List (String × String) := [
  ("AWR", "atomicWeightRatio"), ("TEMP", "temperature"), ("Z", "atomNumber"),
  ("NES", "numberEnergyPoints"), ("NFLO", "numberFluorescenceEdges"), ("NSH", "numberElectronShells"),
  ("NEPR", "electronPhotonRelaxationFormat"), ("NSSH", "numberElectronSubshells"),
  ("NE", "numberElectronEnergyPoints"), ("NXL", "numberElectronExcitationEnergyPoints"),
  ("NA", "numberElectronElasticEnergyPoints"), ("NB", "numberPhotonBremsstrahlungEnergyPoints"),
  ("NBL", "numberElectronBremsstrahlungEnergyPoints"), ("NINC", "numberIncoherentMomentumValues"),
  ("NCOH", "numberCoherentMomentumValues"), ("ESZG", "principalCrossSectionBlock"),
  ("JINC", "incoherentScatteringFunctionBlock"), ("JCOH", "coherentFormFactorBlock"),
  ("JFLO", "fluorescenceDataBlock"), ("LHNM", "heatingNumbersBlock"), ("EPS", "electronShellBlock"),
  ("SWD", "comptonProfileBlock"), ("SUBSH", "electronSubshellBlock"),
  ("SPHEL", "photoelectricCrossSectionBlock"), ("XPROB", "subshellTransitionDataBlock"),
  ("ESZE", "electronCrossSectionBlock"), ("EXCIT", "electronExcitationEnergyLossBlock"),
  ("ELAS", "electronElasticAngularDistributionBlock"),
  ("EION", "electroionisationEnergyDistributionBlock"), ("BREME", "bremsstrahlungEnergyDistributionBlock"),
  ("BREML", "electronEnergyAfterBremsstrahlungBlock"), ("SELAS", "electronElasticCrossSectionBlock")]
/-- Abbreviations of the ACE manual and what they stand for, photonuclear tables. -/
def photonuclearManual : List (String × String) := [
  ("AWR", "atomicWeightRatio"), ("TEMP", "temperature"), ("NES", "numberEnergyPoints"),
  ("NTR", "numberReactions"), ("NTYPE", "numberSecondaryParticleTypes"), ("S", "isomericState"),
  ("Z", "atomNumber"), ("A", "massNumber"), ("ESZ", "principalCrossSectionBlock"),
  ("MTR", "reactionNumberBlock"), ("LQR", "reactionQValueBlock"), ("SIG", "crossSectionBlock"),
  ("IXS", "secondaryParticleLocatorBlock"), ("PXS", "secondaryParticleProductionCrossSection"),
  ("PHN", "secondaryParticleHeatingCrossSection"), ("MTRH", "secondaryParticleReactionNumberBlock"),
  ("TYRH", "secondaryParticleFrameAndMultiplicityBlock"),
  ("SIGH", "secondaryParticleProductionCrossSectionBlock"),
  ("ANDH", "secondaryParticleAngularDistributionBlock"),
  ("DLWH", "secondaryParticleEnergyDistributionBlock")]
/-- Abbreviations of the ACE manual and what they stand for, thermal tables. -/
def thermalManual : List (String × String) := [
  ("AWR", "atomicWeightRatio"), ("TEMP", "temperature"), ("IDPNI", "inelasticScatteringMode"),
  ("NIL", "inelasticDimensioningParameter"), ("NIEB", "numberInelasticOutgoingEnergies"),
  ("IDPNC", "elasticScatteringMode"), ("NCL", "firstElasticDimensioningParameter"),
  ("NCLI", "secondElasticDimensioningParameter"), ("IFENG", "secondaryEnergyMode"),
  ("ITIE", "inelasticCrossSectionBlock"), ("ITXE", "inelasticAngularDistributionBlock"),
  ("ITCE", "coherentElasticCrossSectionBlock"), ("ITCA", "coherentElasticAngularDistributionBlock"),
  ("ITCEI", "incoherentElasticCrossSectionBlock"), ("ITCAI", "incoherentElasticAngularDistributionBlock")]

/-- What can be decided without a table: two attributes are members that run the same function. -/
def checkSame {T : Type} (api : List (Member T)) (p : String × String) : Bool :=
  (api.find? (·.name == p.1)).isSome &&
  (match (api.find? (·.name == p.2)).map Member.body, (api.find? (·.name == p.1)).map Member.body with
   | some (.same other), some (.same _) => other != p.1 && false
   | some (.same other), _ => other == p.1
   | _, _ => false)

theorem same_of_check {T : Type} {api : List (Member T)} {p : String × String}
    (h : checkSame api p = true) : find api p.2 = find api p.1 := by
  unfold checkSame at h
  unfold find
  rw [Bool.and_eq_true] at h
  obtain ⟨_, h⟩ := h
  revert h
  generalize h1 : (api.find? (·.name == p.1)).map Member.body = b1
  generalize (api.find? (·.name == p.2)).map Member.body = b2
  rcases b2 with _ | (f | v | f | n)
  · intro h; exact absurd h Bool.false_ne_true
  · intro h; exact absurd h Bool.false_ne_true
  · intro h; exact absurd h Bool.false_ne_true
  · intro h; exact absurd h Bool.false_ne_true
  · intro h
    have hn : n = p.1 := by
      rcases b1 with _ | (f | v | f | m)
      · simpa using h
      · simpa using h
      · simpa using h
      · simpa using h
      · simp at h
    subst hn
    simp only [h1]
    rcases b1 with _ | (f | v | f | m)
    · rfl
    · rfl
    · rfl
    · rfl
    · simp at h

theorem all_same {T : Type} {api : List (Member T)} {m : List (String × String)}
    (h : (m.all (checkSame api)) = true) :
    ∀ p ∈ m, ∀ (t : T) (index : Option Nat), cpp api t p.2 index = cpp api t p.1 index := by
  intro p hp t index
  unfold cpp
  rw [same_of_check (List.all_eq_true.mp h p hp)]

/-- The members of a continuous energy table whose Python attribute is another one. -/
def wrongContinuous : List String :=
  ["photonProductionCrossSectionBlock", "secondaryParticleProductionCrossSectionBlock"]
/-- The members of a photoatomic table whose Python attribute is not usable or not there. -/
def wrongPhotoatomic : List String :=
  ["S", "isomericState", "A", "massNumber", "numberPhotonBremsstrahlungEnergyPoints", "NINC",
   "numberIncoherentMomentumValues", "NCOH", "numberCoherentMomentumValues"]
/-- The member of a photonuclear table whose Python attribute has another name. -/
def wrongPhotonuclear : List String := ["secondaryParticleProductionCrossSection"]

end C64
open C64

/-- The full statement: every member function of the five classes has its attribute in Python. -/
def C64Statement : Prop :=
  (∀ f ∈ names continuousMembers, Faithful continuousMembers continuousBindings f) ∧
  (∀ f ∈ names dosimetryMembers, Faithful dosimetryMembers dosimetryBindings f) ∧
  (∀ f ∈ names photoatomicMembers, Faithful photoatomicMembers photoatomicBindings f) ∧
  (∀ f ∈ names photonuclearMembers, Faithful photonuclearMembers photonuclearBindings f) ∧
  (∀ f ∈ names thermalMembers, Faithful thermalMembers thermalBindings f)

theorem C64_dosimetry : ∀ f ∈ names dosimetryMembers, Faithful dosimetryMembers dosimetryBindings f :=
  fun f hf => all_faithful (but := []) (by decide +kernel) f hf List.not_mem_nil
theorem C64_thermal : ∀ f ∈ names thermalMembers, Faithful thermalMembers thermalBindings f :=
  fun f hf => all_faithful (but := []) (by decide +kernel) f hf List.not_mem_nil
/-- Two of the 83 members are missing, see `C64_continuous_photons` and `C64_continuous_particles`. -/
theorem C64_continuous_partial :
    ∀ f ∈ names continuousMembers, f ∉ wrongContinuous → Faithful continuousMembers continuousBindings f :=
  all_faithful (by decide +kernel)
/-- Nine of the 71 members are missing, see `C64_photoatomic_static`, `C64_photoatomic_missing`. -/
theorem C64_photoatomic_partial :
    ∀ f ∈ names photoatomicMembers, f ∉ wrongPhotoatomic →
      Faithful photoatomicMembers photoatomicBindings f :=
  all_faithful (by decide +kernel)
/-- One of the 44 members is missing, see `C64_photonuclear_name`. -/
theorem C64_photonuclear_partial :
    ∀ f ∈ names photonuclearMembers, f ∉ wrongPhotonuclear →
      Faithful photonuclearMembers photonuclearBindings f :=
  all_faithful (by decide +kernel)

/-- A descriptive name gives what its abbreviation gives, for every table. -/
theorem C64_manual :
    (∀ p ∈ continuousManual, ∀ t index,
      cpp continuousMembers t p.2 index = cpp continuousMembers t p.1 index) ∧
    (∀ p ∈ dosimetryManual, ∀ t index,
      cpp dosimetryMembers t p.2 index = cpp dosimetryMembers t p.1 index) ∧
    (∀ p ∈ photoatomicManual, ∀ t index,
      cpp photoatomicMembers t p.2 index = cpp photoatomicMembers t p.1 index) ∧
    (∀ p ∈ photonuclearManual, ∀ t index,
      cpp photonuclearMembers t p.2 index = cpp photonuclearMembers t p.1 index) ∧
    (∀ p ∈ thermalManual, ∀ t index,
      cpp thermalMembers t p.2 index = cpp thermalMembers t p.1 index) :=
  ⟨all_same (by decide +kernel), all_same (by decide +kernel), all_same (by decide +kernel),
   all_same (by decide +kernel), all_same (by decide +kernel)⟩

/-- There is no other attribute in Python: a name that is not the name of a member is missing. -/
theorem C64_nothing_else (name : String) :
    (name ∉ (names continuousMembers).map pythonName →
      ∀ t index, python continuousMembers continuousBindings t name index = .missing) ∧
    (name ∉ (names dosimetryMembers).map pythonName →
      ∀ t index, python dosimetryMembers dosimetryBindings t name index = .missing) ∧
    (name ∉ (names photoatomicMembers).map pythonName →
      ∀ t index, python photoatomicMembers photoatomicBindings t name index = .missing) ∧
    (name ∉ (names photonuclearMembers).map pythonName → name ≠ "secondary_particle_production_crossSection" →
      ∀ t index, python photonuclearMembers photonuclearBindings t name index = .missing) ∧
    (name ∉ (names thermalMembers).map pythonName →
      ∀ t index, python thermalMembers thermalBindings t name index = .missing) := by
  have key : ∀ {T : Type} (api : List (Member T)) (bs : List Binding) (ns : List String),
      (bs.all fun b => ns.contains b.python) = true → name ∉ ns →
      ∀ (t : T) index, python api bs t name index = .missing := by
    intro T api bs ns h hn t index
    have : binding bs name = none := by
      unfold binding
      rw [List.find?_eq_none]
      intro b hb e
      have h1 := List.all_eq_true.mp h b (List.mem_reverse.mp hb)
      rw [List.contains_iff_mem, eq_of_beq e] at h1
      exact hn h1
    unfold python
    rw [this]
  refine ⟨fun h => key _ _ _ (by decide +kernel) h, fun h => key _ _ _ (by decide +kernel) h,
    fun h => key _ _ _ (by decide +kernel) h, fun h h' => ?_, fun h => key _ _ _ (by decide +kernel) h⟩
  refine key _ _ ("secondary_particle_production_crossSection" ::
    (names photonuclearMembers).map pythonName) (by decide +kernel) ?_
  intro hm
  rcases List.mem_cons.mp hm with e | e
  · exact h' e
  · exact h e

/-! ## The members that are wrong -/

/-- Finding (ContinuousEnergyTable.python.cpp:409): `photon_production_cross_section_block` is the
cross section block of the neutrons, also when there are no photons. -/
theorem C64_continuous_photons (h : AnyHeader) (t : CE) :
    python continuousMembers continuousBindings (h, t) "photon_production_cross_section_block" none =
      .result (.ok (.SIG t.sig)) ∧
    cpp continuousMembers (h, t) "photonProductionCrossSectionBlock" none =
      .result (.ok (opt .SIGP t.sigp)) := by
  constructor
  · unfold python
    rw [show binding continuousBindings "photon_production_cross_section_block" =
      some ⟨409, "photon_production_cross_section_block", "crossSectionBlock", false⟩ by decide +kernel]
    rfl
  · rfl

/-- Finding (ContinuousEnergyTable.python.cpp:609): `secondary_particle_production_cross_section_block`
is the TYRH block. -/
theorem C64_continuous_particles (h : AnyHeader) (t : CE) (i : Nat) :
    python continuousMembers continuousBindings (h, t) "secondary_particle_production_cross_section_block"
      (some i) = .result (do return .TYR (← t.TYRH i)) ∧
    cpp continuousMembers (h, t) "secondaryParticleProductionCrossSectionBlock" (some i) =
      .result (do return .SIGH (← t.SIGH i)) := by
  constructor
  · unfold python
    rw [show binding continuousBindings "secondary_particle_production_cross_section_block" =
      some ⟨609, "secondary_particle_production_cross_section_block",
        "secondaryParticleFrameAndMultiplicityBlock", true⟩ by decide +kernel]
    rfl
  · rfl

/-- Finding (PhotoatomicTable.python.cpp:146-176): static member functions are given to pybind11 as
properties, which cannot be called with the table. -/
theorem C64_photoatomic_static (h : AnyHeader) (t : PA) :
    ∀ p ∈ [("S", "S"), ("isomericState", "isomeric_state"), ("A", "A"), ("massNumber", "mass_number")],
      cpp photoatomicMembers (h, t) p.1 none = .result (.ok (.count 0)) ∧
      python photoatomicMembers photoatomicBindings (h, t) p.2 none = .arguments := by
  refine List.forall_mem_cons.mpr ⟨⟨rfl, ?_⟩, List.forall_mem_cons.mpr ⟨⟨rfl, ?_⟩,
    List.forall_mem_cons.mpr ⟨⟨rfl, ?_⟩, List.forall_mem_cons.mpr ⟨⟨rfl, ?_⟩,
    fun _ hc => absurd hc List.not_mem_nil⟩⟩⟩⟩
  · unfold python
    rw [show binding photoatomicBindings "S" = some ⟨146, "S", "S", false⟩ by decide +kernel]
    rfl
  · unfold python
    rw [show binding photoatomicBindings "isomeric_state" =
      some ⟨152, "isomeric_state", "isomericState", false⟩ by decide +kernel]
    rfl
  · unfold python
    rw [show binding photoatomicBindings "A" = some ⟨170, "A", "A", false⟩ by decide +kernel]
    rfl
  · unfold python
    rw [show binding photoatomicBindings "mass_number" =
      some ⟨176, "mass_number", "massNumber", false⟩ by decide +kernel]
    rfl

/-- Finding (PhotoatomicTable.python.cpp:280-300): five members have no attribute. -/
theorem C64_photoatomic_missing (h : AnyHeader) (t : PA) (index : Option Nat) :
    ∀ name ∈ ["number_photon_bremsstrahlung_energy_points", "NINC", "number_incoherent_momentum_values",
      "NCOH", "number_coherent_momentum_values"],
      python photoatomicMembers photoatomicBindings (h, t) name index = .missing := by
  intro name hn
  have : (["number_photon_bremsstrahlung_energy_points", "NINC", "number_incoherent_momentum_values",
      "NCOH", "number_coherent_momentum_values"].all
      fun n => (binding photoatomicBindings n).isNone) = true := by decide +kernel
  have := List.all_eq_true.mp this name hn
  unfold python
  rw [Option.isNone_iff_eq_none.mp this]

/-- Finding (PhotonuclearTable.python.cpp:272): the attribute for the production cross section of a
particle is called `secondary_particle_production_crossSection`. -/
theorem C64_photonuclear_name (h : AnyHeader) (t : PN) (i : Nat) :
    python photonuclearMembers photonuclearBindings (h, t) "secondary_particle_production_cross_section"
      (some i) = .missing ∧
    python photonuclearMembers photonuclearBindings (h, t) "secondary_particle_production_crossSection"
      (some i) = cpp photonuclearMembers (h, t) "secondaryParticleProductionCrossSection" (some i) := by
  constructor
  · unfold python
    rw [show binding photonuclearBindings "secondary_particle_production_cross_section" = none by
      decide +kernel]
  · unfold python
    rw [show binding photonuclearBindings "secondary_particle_production_crossSection" =
      some ⟨272, "secondary_particle_production_crossSection",
        "secondaryParticleProductionCrossSection", true⟩ by decide +kernel]
    rfl

/-- A header for the examples. -/
def C64.exHeader : AnyHeader :=
  .v1 ⟨"92235.80c".toList, Dbl.ofNat 233, Dbl.ofNat 2, "2024-01-01".toList, "u235".toList,
    "mat9228".toList⟩

/-- The full statement does not hold. -/
theorem C64_false : ¬ C64Statement := fun hs => by
  obtain ⟨_, t, _⟩ := C63.ce_made
  have h := hs.1 "photonProductionCrossSectionBlock" (by decide +kernel) (C64.exHeader, t) none
  rw [show pythonName "photonProductionCrossSectionBlock" = "photon_production_cross_section_block" by
    decide +kernel, (C64_continuous_photons _ _).1, (C64_continuous_photons _ _).2] at h
  cases hb : t.sigp with
  | none => rw [hb] at h; cases h
  | some b => rw [hb] at h; cases h

/-- Consequence of C63 in Python: an index that is too large, or 0, is undefined behaviour (not an
IndexError), for every accepted table. -/
theorem C64_python_index (zaid : List Char) (d : TableData) (t : CE) (h : AnyHeader) (n i : Nat)
    (ht : CE.ofTable zaid d = .ok t)
    (hn : python continuousMembers continuousBindings (h, t) "NTYPE" none = .result (.ok (.count n)))
    (hi : i = 0 ∨ n < i) :
    python continuousMembers continuousBindings (h, t) "HPD" (some i) = .result (.error .ub) := by
  rw [← show pythonName "NTYPE" = "NTYPE" by decide +kernel,
    C64_continuous_partial "NTYPE" (by decide +kernel) (by decide +kernel)] at hn
  rw [← show pythonName "HPD" = "HPD" by decide +kernel,
    C64_continuous_partial "HPD" (by decide +kernel) (by decide +kernel)]
  have hn' : t.NTYPE = .ok n := by
    have : (do return Val.count (← t.NTYPE) : Res Val) = .ok (.count n) := Outcome.result.inj hn
    cases h7 : t.NTYPE with
    | error e => rw [h7] at this; cases this
    | ok m => rw [h7] at this; cases this; rfl
  have hu := (C63_continuous_particles zaid d t n ht hn').1
  have : t.HPD i = .error .ub := hu.2 i (by omega)
  show Outcome.result (do return Val.HPD (← t.HPD i)) = _
  rw [this]; rfl

/-! ## Examples -/

example : ∃ t, python continuousMembers continuousBindings (C64.exHeader, t) "number_energy_points" none =
      cpp continuousMembers (C64.exHeader, t) "NES" none ∧
    python continuousMembers continuousBindings (C64.exHeader, t) "HPD" (some 0) =
      .result (.error .ub) := by
  obtain ⟨d, t, ht, hn, _⟩ := C63.ce_made
  refine ⟨t, ?_, C64_python_index _ d t _ 2 0 ht ?_ (Or.inl rfl)⟩
  · rw [← C64_manual.1 ("NES", "numberEnergyPoints") (by decide +kernel)]
    exact C64_continuous_partial "numberEnergyPoints" (by decide +kernel) (by decide +kernel) _ none
  · rw [← show pythonName "NTYPE" = "NTYPE" by decide +kernel,
      C64_continuous_partial "NTYPE" (by decide +kernel) (by decide +kernel)]
    show Outcome.result (do return Val.count (← t.NTYPE)) = _
    rw [hn]; rfl

/-- The attribute `zaid` of any table is the ZAID in the header. -/
example (t : CE) : python continuousMembers continuousBindings (C64.exHeader, t) "zaid" none =
    .result (.ok (.text "92235.80c".toList)) :=
  C64_continuous_partial "ZAID" (by decide +kernel) (by decide +kernel) _ none

end ACE.Props

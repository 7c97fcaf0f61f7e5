import Verif.Props.C28
import Verif.Lemmas.Sort

/-!
# Cases for C28 to C31

A small table with every optional block, and the tables for which the search for the end of a block
goes wrong.
-/

namespace ACE.Props
open ACE

deriving instance Inhabited for Dbl
deriving instance Inhabited for ArrayData, LocBlock, AngularBlock, TYR, DLW, DLWH, ColumnData, BDD, UNR, YP, HPD
deriving instance Inhabited for TabulatedData, ProbabilityTable, PolyNu, PhotonXS
deriving instance Inhabited for TabNu, TabMult, Precursor
deriving instance Inhabited for NuData
deriving instance Inhabited for NU
/-- The outcome of a construction that succeeds. -/
def made {α : Type} [Inhabited α] : Res α → α
  | .ok a => a
  | .error _ => default

/-- A whole number. -/
def num (n : Nat) : Dbl := Dbl.ofNat n
/-- A level law. -/
def levelLaw : EnergyData := .law (.level (TwoParam.mk' (num 1) (num 20) (num 3) (num 4)))
/-- Two energies. -/
def exEsz : ESZ :=
  made (ESZ.mk' [num 1, num 2] [num 3, num 3] [num 1, num 1] [num 2, num 2] [num 0, num 0])
/-- Fission and capture. -/
def exMtr : MTR := made (MTR.mk' [18, 102])
/-- Q values. -/
def exLqr : LQR := made (LQR.mk' [num 180, num 0])
/-- Cross sections. -/
def exSig : SIG :=
  made (SIG.mk' [CrossSectionData.mk' 1 [num 5, num 6],
    CrossSectionData.mk' 1 [num 7, num 8]])
/-- Isotropic elastic scattering and fission. -/
def exAng : AngularBlock := made (AngularBlock.mkZero (sortBy _) .fullyIsotropic [.fullyIsotropic])
/-- The fission neutrons. -/
def exDlw : DLW := made (DLW.mk' [levelLaw] [.int 2] [.laboratory])
/-- A polynomial. -/
def exNu : NU := made (NU.mk1 (.poly (PolyNu.mk' [num 2])))
/-- One photon. -/
def exPhotons : PhotonBlocks where
  gpd := made (GPD.mk' [num 1, num 2])
  mtrp := made (MTR.mk' [18001])
  sigp := made (SIGP.mk' [.xs (PhotonXS.mk' 1 [num 1, num 2])])
  andp := made (AngularBlock.mk' (sortBy _) [.fullyIsotropic])
  dlwp := made (DLWH.mk' [levelLaw] none)
  yp := YP.mk' [18]
/-- One group. -/
def exDelayed : DelayedBlocks where
  dnu := made (NU.mk1 (.tab (made (TabNu.mk' [] [] [num 1, num 20] [num 1, num 1]))))
  bdd := made (BDD.mk' [made (Precursor.mk' 1 (num 1) [] [] [num 1, num 20] [num 1, num 1])])
  dned := made (DLWH.mk' [levelLaw] none)
/-- One probability table. -/
def exUnr : UNR :=
  made (UNR.mk' 2 0 0 1 [made (ProbabilityTable.mk' (num 1) [num 1] [num 1] [num 1]
    [num 1] [num 1] [num 1])])
/-- One reaction. -/
def exSecondary (i : Nat) : SecondaryBlocks where
  hpd := made (HPD.mk' i [num 1, num 2] [num 1, num 2])
  mtrh := made (MTR.mk' [5])
  sigh := made (SIGH.mk' [made (TabMult.mk' 12 5 [] [] [num 1, num 20] [num 1, num 1])])
  andh := made (AngularBlock.mk' (sortBy _) [.fullyIsotropic])
  dlwh := made (DLWH.mk' [levelLaw] (some [.centreOfMass]))
  yh := YP.mk' [5]
/-- All of them, with two secondary particle types. -/
def exBlocks : Blocks where
  esz := exEsz
  nu := some exNu
  mtr := exMtr
  lqr := exLqr
  sig := exSig
  ang := exAng
  dlw := exDlw
  photons := some exPhotons
  unr := some exUnr
  delayed := some exDelayed
  secondaries := some (made (PTYPE.mk' [9, 31]), [exSecondary 1, exSecondary 2])


theorem ex_photons : SoundPhotons exEsz.n exPhotons where
  gpd := by decide +kernel
  mtrp := by decide +kernel
  sigp := by decide +kernel
  andp := by decide +kernel
  dlwp := by unfold SoundDLWH; decide +kernel
  ndlwp := by decide +kernel
  yp := by decide +kernel

theorem ex_delayed : SoundDelayed exDelayed where
  dnu := by decide +kernel
  single := by decide +kernel
  tabulated := ⟨made (TabNu.mk' [] [] [num 1, num 20] [num 1, num 1]), by decide +kernel⟩
  bdd := by decide +kernel
  dned := by unfold SoundDLWH; decide +kernel
  ndned := by decide +kernel

theorem ex_secondary1 : SoundSecondary (exSecondary 1) where
  hpd := by decide +kernel
  mtrh := by decide +kernel
  sigh := by decide +kernel
  andh := by decide +kernel
  dlwh := by unfold SoundDLWH; decide +kernel
  ndlwh := by decide +kernel
  frames := ⟨[.centreOfMass], by decide +kernel⟩
  yh := by decide +kernel

theorem ex_secondary2 : SoundSecondary (exSecondary 2) where
  hpd := by decide +kernel
  mtrh := by decide +kernel
  sigh := by decide +kernel
  andh := by decide +kernel
  dlwh := by unfold SoundDLWH; decide +kernel
  ndlwh := by decide +kernel
  frames := ⟨[.centreOfMass], by decide +kernel⟩
  yh := by decide +kernel

theorem located_of {D : Type} (b : LocBlock D) (h1 : b.n = 2) (x y : Nat) (l1 : b.LLOC 1 = .ok x)
    (l2 : b.LLOC 2 = .ok y) (k : Nat) (hx : 1 ≤ x ∧ 2 + x ≤ k) (hy : 1 ≤ y ∧ 2 + y ≤ k) :
    ∀ i l, b.LLOC i = .ok l → 1 ≤ l ∧ 2 + l ≤ k := by
  intro i l h
  have hi : i = 1 ∨ i = 2 := by
    by_cases hi : i < 1 ∨ i > b.n
    · unfold LocBlock.LLOC LocBlock.LLOCof LocBlock.verifyDataIndex at h
      rw [if_pos hi] at h
      cases h
    · omega
  rcases hi with rfl | rfl
  · rw [l1] at h; injection h with h; subst h; exact hx
  · rw [l2] at h; injection h with h; subst h; exact hy

theorem ex_located (mts : List Nat) (h : mts.length = 2) :
    ∀ i l, exBlocks.sig.LLOC i = .ok l → 1 ≤ l ∧ mts.length + l ≤ exBlocks.sig.xss.length := by
  rw [h]
  exact located_of exBlocks.sig (by decide +kernel) 1 5 (by decide +kernel) (by decide +kernel) _
    (by decide +kernel) (by decide +kernel)

/-- The frame and multiplicity of the fission neutrons. -/
def exTyr : List (Frame × Nat) := [(.laboratory, 2)]

set_option maxRecDepth 4000 in
theorem ex_sound : Sound exBlocks [18, 102] exTyr where
  esz := by decide +kernel
  esz_holds := by decide +kernel
  nu := by intro x h; injection h with h; subst h; decide +kernel
  mtr := by decide +kernel
  lqr := by decide +kernel
  sig := by decide +kernel
  ang := by decide +kernel
  dlw := by decide +kernel
  tyr := by decide +kernel
  unr := by intro x h; injection h with h; subst h; decide +kernel
  photons := by intro x h; injection h with h; subst h; exact ex_photons
  delayed := by intro x h; injection h with h; subst h; exact ex_delayed
  ptype := by
    intro t ps h; injection h with h; injection h with h1 h2; subst h1 h2; decide +kernel
  secondaries := by
    intro t ps h; injection h with h; injection h with h1 h2; subst h1 h2
    intro p hp
    simp only [List.mem_cons, List.not_mem_nil, or_false] at hp
    rcases hp with rfl | rfl
    · exact ex_secondary1
    · exact ex_secondary2
  nr := by decide +kernel
  ntyr := by decide +kernel
  fission := fun _ => rfl
  located := ex_located _ rfl
  numbers := by decide +kernel
  signs := by
    intro v hv
    simp only [exTyr, List.mem_cons, List.not_mem_nil, or_false] at hv
    subst hv
    exact ⟨by decide, by simp⟩

theorem ex_clear : Clear exBlocks where
  ntrp := by intro x h; injection h with h; subst h; decide +kernel
  npcr := by intro x h; injection h with h; subst h; decide +kernel
  ntype := by intro t ps h; injection h with h; injection h with h1 h2; subst h1 h2; simp
  last := by decide +kernel
  dlw := by decide +kernel
  unr := by intro x h; injection h with h; subst h; decide +kernel
  yp := by intro x h; injection h with h; subst h; decide +kernel
  dned := by intro x h; injection h with h; subst h; decide +kernel
  unrPhotons := fun _ _ => rfl
  index := by
    intro t p ps h; injection h with h; injection h with h1 h2; injection h2 with h2 h3
    subst h1 h2 h3
    exact ⟨1, _, rfl, by decide +kernel⟩

/-- C28 for this table. -/
example : ∃ t, CE.mk' "92235.80c".toList 92 235 0 exBlocks.input = .ok t ∧
    t.zaid = "92235.80c".toList ∧ Returned exBlocks exTyr 2 t :=
  C28_blocks_partial _ 92 235 0 exBlocks [18, 102] exTyr ex_sound ex_clear (by decide +kernel)
    (by decide +kernel) (Or.inl (by decide))

/-! ## Where the search for the end of a block goes wrong -/

/-- Blocks with other optional blocks. -/
def Blocks.replace (B : Blocks) (photons : Option PhotonBlocks) (unr : Option UNR)
    (delayed : Option DelayedBlocks) (secondaries : Option (PTYPE × List SecondaryBlocks)) : Blocks :=
  { B with photons := photons, unr := unr, delayed := delayed, secondaries := secondaries }

theorem sound_replace {B : Blocks} {mts : List Nat} {vs : List (Frame × Nat)}
    (hb : Sound B mts vs) (photons : Option PhotonBlocks) (unr : Option UNR)
    (delayed : Option DelayedBlocks) (secondaries : Option (PTYPE × List SecondaryBlocks))
    (hp : ∀ p, photons = some p → SoundPhotons B.esz.n p)
    (hu : ∀ x, unr = some x → UNR.ofRange x.xss = .ok x)
    (hd : ∀ p, delayed = some p → SoundDelayed p)
    (ht : ∀ t ps, secondaries = some (t, ps) → PTYPE.ofRange t.xss ps.length = .ok t)
    (hs : ∀ t ps, secondaries = some (t, ps) → ∀ p ∈ ps, SoundSecondary p) :
    Sound (B.replace photons unr delayed secondaries) mts vs where
  esz := hb.esz
  esz_holds := hb.esz_holds
  nu := hb.nu
  mtr := hb.mtr
  lqr := hb.lqr
  sig := hb.sig
  ang := hb.ang
  dlw := hb.dlw
  tyr := hb.tyr
  unr := hu
  photons := hp
  delayed := hd
  ptype := ht
  secondaries := hs
  nr := hb.nr
  ntyr := hb.ntyr
  fission := hb.fission
  located := hb.located
  numbers := hb.numbers
  signs := hb.signs

/-- The table with other optional blocks. -/
def exWith (photons : Option PhotonBlocks) (unr : Option UNR) (delayed : Option DelayedBlocks)
    (secondaries : Option (PTYPE × List SecondaryBlocks)) : Blocks :=
  exBlocks.replace photons unr delayed secondaries

theorem ex_sound_with (photons : Option PhotonBlocks) (unr : Option UNR)
    (delayed : Option DelayedBlocks) (secondaries : Option (PTYPE × List SecondaryBlocks))
    (hp : ∀ p, photons = some p → SoundPhotons exEsz.n p)
    (hu : ∀ x, unr = some x → UNR.ofRange x.xss = .ok x)
    (hd : ∀ p, delayed = some p → SoundDelayed p)
    (ht : ∀ t ps, secondaries = some (t, ps) → PTYPE.ofRange t.xss ps.length = .ok t)
    (hs : ∀ t ps, secondaries = some (t, ps) → ∀ p ∈ ps, SoundSecondary p) :
    Sound (exWith photons unr delayed secondaries) [18, 102] exTyr :=
  sound_replace ex_sound photons unr delayed secondaries hp hu hd ht hs

/-- The table that is made from blocks. -/
def tableFrom (B : Blocks) : Res CE := CE.mk' "92235.80c".toList 92 235 0 B.input

/-- Elastic scattering, isotropic, and capture. -/
def isotropicBlocks : Blocks where
  esz := exEsz
  nu := none
  mtr := made (MTR.mk' [102])
  lqr := made (LQR.mk' [num 1])
  sig := made (SIG.mk' [CrossSectionData.mk' 1 [num 5, num 6]])
  ang := made (AngularBlock.mkZero (sortBy _) .fullyIsotropic [])
  dlw := made (DLW.mk' [] [] [])
  photons := none
  unr := none
  delayed := none
  secondaries := none

theorem located_one {D : Type} (b : LocBlock D) (h1 : b.n = 1) (x : Nat) (l1 : b.LLOC 1 = .ok x)
    (m k : Nat) (hx : 1 ≤ x ∧ m + x ≤ k) : ∀ i l, b.LLOC i = .ok l → 1 ≤ l ∧ m + l ≤ k := by
  intro i l h
  have hi : i = 1 := by
    by_cases hi : i < 1 ∨ i > b.n
    · unfold LocBlock.LLOC LocBlock.LLOCof LocBlock.verifyDataIndex at h
      rw [if_pos hi] at h
      cases h
    · omega
  subst hi
  rw [l1] at h; injection h with h; subst h; exact hx

theorem isotropic_sound : Sound isotropicBlocks [102] [] where
  esz := by decide +kernel
  esz_holds := by decide +kernel
  nu := by intro x h; cases h
  mtr := by decide +kernel
  lqr := by decide +kernel
  sig := by decide +kernel
  ang := by decide +kernel
  dlw := by decide +kernel
  tyr := by decide +kernel
  unr := by intro x h; cases h
  photons := by intro x h; cases h
  delayed := by intro x h; cases h
  ptype := by intro t ps h; cases h
  secondaries := by intro t ps h; cases h
  nr := by decide +kernel
  ntyr := by decide +kernel
  fission := by decide
  located := located_one _ (by decide +kernel) 1 (by decide +kernel) _ _ (by decide +kernel)
  numbers := by decide +kernel
  signs := by intro v hv; cases hv

theorem isotropic_table : (do
    let t ← tableFrom isotropicBlocks
    return (t.sig.xss.length, t.ang.xss.length)) = (.ok (6, 1) : Res (Nat × Nat)) := by
  decide +kernel

/-- Elastic scattering that is isotropic in a table without secondary neutrons: the SIG block has
one word too many, that of the AND block. -/
theorem C28_false : ¬ C28Statement := by
  intro h
  obtain ⟨t, ht, hr⟩ := h "92235.80c".toList 92 235 0 isotropicBlocks [102] [] isotropic_sound
    (by decide +kernel) (by decide +kernel) (by decide)
  have e := isotropic_table
  rw [show tableFrom isotropicBlocks = .ok t from ht, ok_bind, hr.sig] at e
  injection e with e
  injection e with e _
  revert e
  decide +kernel

/-- Something of a table. -/
def seen {α : Type} (f : CE → α) (B : Blocks) : Res α := do return f (← tableFrom B)

/-- The UNR block has the words of the photon blocks when there are no delayed neutrons. -/
theorem C28_unr_false : ∃ B, Sound B [18, 102] exTyr ∧ B.unr.isSome ∧
    seen (fun t => decide (t.unr = B.unr)) B = .ok false :=
  ⟨exWith (some exPhotons) (some exUnr) none none, ex_sound_with _ _ _ _
    (fun p h => by injection h with h; subst h; exact ex_photons)
    (fun p h => by injection h with h; subst h; decide +kernel)
    (fun p h => by cases h) (fun t p h => by cases h) (fun t p h => by cases h), rfl,
    by decide +kernel⟩

theorem yp_photons : SoundPhotons exEsz.n { exPhotons with yp := YP.mk' [] } where
  gpd := ex_photons.gpd
  mtrp := ex_photons.mtrp
  sigp := ex_photons.sigp
  andp := ex_photons.andp
  dlwp := ex_photons.dlwp
  ndlwp := ex_photons.ndlwp
  yp := by decide +kernel

/-- With an empty YP block the DLWP block has one word too many. -/
theorem C28_yp_false : ∃ B, Sound B [18, 102] exTyr ∧ B.photons.isSome ∧
    seen (fun t => decide (t.dlwp.map (·.block) = B.photons.map (·.dlwp.block))) B = .ok false :=
  ⟨exWith (some { exPhotons with yp := YP.mk' [] }) none none none, ex_sound_with _ _ _ _
    (fun p h => by injection h with h; subst h; exact yp_photons)
    (fun p h => by cases h)
    (fun p h => by cases h) (fun t p h => by cases h) (fun t p h => by cases h), rfl,
    by decide +kernel⟩

/-- Photon production without reactions. -/
def noPhotons : PhotonBlocks :=
  { exPhotons with
    mtrp := made (MTR.mk' [])
    sigp := made (SIGP.mk' [])
    andp := made (AngularBlock.mk' (sortBy _) [])
    dlwp := made (DLWH.mk' [] none) }

theorem noPhotons_sound : SoundPhotons exEsz.n noPhotons where
  gpd := by decide +kernel
  mtrp := by decide +kernel
  sigp := by decide +kernel
  andp := by decide +kernel
  dlwp := by unfold SoundDLWH; decide +kernel
  ndlwp := by decide +kernel
  yp := by decide +kernel

/-- Photon production blocks without reactions are lost, also the total cross section. -/
theorem C28_photons_lost : ∃ B, Sound B [18, 102] exTyr ∧ B.photons.isSome ∧
    seen (fun t => t.gpd.isSome || t.mtrp.isSome || t.yp.isSome) B = .ok false :=
  ⟨exWith (some noPhotons) none none none, ex_sound_with _ _ _ _
    (fun p h => by injection h with h; subst h; exact noPhotons_sound)
    (fun p h => by cases h)
    (fun p h => by cases h) (fun t p h => by cases h) (fun t p h => by cases h), rfl,
    by decide +kernel⟩

/-- No delayed neutron groups. -/
def noGroups : DelayedBlocks :=
  { exDelayed with bdd := made (BDD.mk' []), dned := made (DLWH.mk' [] none) }

theorem noGroups_sound : SoundDelayed noGroups where
  dnu := ex_delayed.dnu
  single := ex_delayed.single
  tabulated := ex_delayed.tabulated
  bdd := by decide +kernel
  dned := by unfold SoundDLWH; decide +kernel
  ndned := by decide +kernel

/-- Delayed neutron blocks without groups are lost. -/
theorem C28_groups_lost : ∃ B, Sound B [18, 102] exTyr ∧ B.delayed.isSome ∧
    seen (fun t => t.bdd.isSome || t.dned.isSome) B = .ok false :=
  ⟨exWith none none (some noGroups) none, ex_sound_with _ _ _ _
    (fun p h => by cases h) (fun p h => by cases h)
    (fun p h => by injection h with h; subst h; exact noGroups_sound)
    (fun t p h => by cases h) (fun t p h => by cases h), rfl,
    by decide +kernel⟩

/-- A PTYPE block without particles is lost. -/
theorem C28_types_lost : ∃ B, Sound B [18, 102] exTyr ∧ B.secondaries.isSome ∧
    seen (fun t => t.ptype.isSome) B = .ok false :=
  ⟨exWith none none none (some (made (PTYPE.mk' []), [])), ex_sound_with _ _ _ _
    (fun p h => by cases h) (fun p h => by cases h) (fun p h => by cases h)
    (fun t p h => by injection h with h; injection h with h1 h2; subst h1 h2; decide +kernel)
    (fun t p h => by injection h with h; injection h with h1 h2; subst h1 h2; simp), rfl,
    by decide +kernel⟩

end ACE.Props

import Verif.Props.C28Cases
import Verif.Props.C26

/-!
# C29: secondary particles of a continuous energy table

All blocks of every secondary particle type come back, in the order given, with TYRH the frames of
the DLWH block (`C29_particles_partial`, for the tables of C28). The PTYPE and NTRO blocks are those
of the particles. The IXS block that is read has one word too many, the first word of the first HPD
block, which is then taken for a locator (`C29_index`, `C29_false`).
-/

namespace ACE.Props
open ACE

/-- The full statement. -/
def C29Statement : Prop :=
  ∀ (zaid : List Char) (z a s : Nat) (B : Blocks) (mts : List Nat) (vs : List (Frame × Nat))
    (t : PTYPE) (ps : List SecondaryBlocks),
    Sound B mts vs → B.secondaries = some (t, ps) → FitsN (B.size mts.length + 2) →
    TableType.continuousEnergy.verifyType zaid = .ok () → s ≠ 0 ∨ z ≠ 0 ∨ a ≠ 0 →
    ∃ c, CE.mk' zaid z a s B.input = .ok c ∧ c.particles.length = ps.length ∧
      ∀ (i : Nat) (h : i < ps.length), ∃ q, c.particles[i]? = some q ∧ ReturnedParticle ps[i] q

/-- A production block (HPD) gives the values it was built from, also when its words are read with others behind
them; different numbers of values are refused. -/
theorem C29_production (index : Nat) (production heating rest : Words) (hi : FitsN index)
    (hf : FitsN production.length) :
    (heating.length ≠ production.length → HPD.mk' index production heating = .error .thrown) ∧
    (heating.length = production.length → ∃ d, HPD.mk' index production heating = .ok d ∧
      ∀ r, r = d ∨ HPD.ofRange (d.xss ++ rest) = .ok r → r.energyIndex = .ok index ∧
        r.numberValues = .ok production.length ∧ r.totalProduction = .ok production ∧ r.heating = .ok heating) ∧
    (heating.length = production.length → ∃ d r, HPD.mk' index production heating = .ok d ∧
      HPD.ofRange (d.xss ++ rest) = .ok r) := by
  have made : heating.length = production.length → HPD.mk' index production heating =
      .ok ⟨Dbl.ofNat index :: Dbl.ofNat production.length :: production ++ heating⟩ := by
    intro h
    unfold HPD.mk'
    rw [h]
    simp [guardThrow]
  have num : ∀ w : Words, HPD.numberValues ⟨Dbl.ofNat index :: Dbl.ofNat production.length :: w⟩ =
      .ok production.length := by
    intro w
    unfold HPD.numberValues
    have : Base.XSS (Dbl.ofNat index :: Dbl.ofNat production.length :: w) 2 = .ok (Dbl.ofNat production.length) :=
      Base.XSS_of_eq (a := [Dbl.ofNat index]) rfl rfl
    rw [this, ok_bind, Dbl.trunc?_ofNat, toSize_natCast hf]
  have read : ∀ w : Words, heating.length = production.length →
      HPD.ofRange (Dbl.ofNat index :: Dbl.ofNat production.length :: (production ++ heating ++ w)) =
        .ok ⟨Dbl.ofNat index :: Dbl.ofNat production.length :: (production ++ heating ++ w)⟩ := by
    intro w h
    unfold HPD.ofRange
    rw [num, ok_bind, guardThrow_not_lt_mod (by simp [h]; omega), ok_bind]
    rfl
  have values : ∀ w : Words, heating.length = production.length →
      let d : HPD := ⟨Dbl.ofNat index :: Dbl.ofNat production.length :: (production ++ heating ++ w)⟩
      d.energyIndex = .ok index ∧
        d.numberValues = .ok production.length ∧ d.totalProduction = .ok production ∧ d.heating = .ok heating := by
    intro w h
    refine ⟨?_, num _, ?_, ?_⟩
    · unfold HPD.energyIndex
      have : Base.XSS (Dbl.ofNat index :: Dbl.ofNat production.length :: (production ++ heating ++ w)) 1 =
        .ok (Dbl.ofNat index) := Base.XSS_of_eq (a := []) rfl rfl
      rw [this, ok_bind, Dbl.trunc?_ofNat, toSize_natCast hi]
    · unfold HPD.totalProduction
      rw [num, ok_bind]
      exact Base.XSSr_of_eq (a := [Dbl.ofNat index, Dbl.ofNat production.length]) (c := heating ++ w)
        (by simp) rfl rfl
    · unfold HPD.heating
      rw [num, ok_bind, ok_bind]
      exact Base.XSSr_of_eq (a := Dbl.ofNat index :: Dbl.ofNat production.length :: production) (c := w)
        (by simp) (by simp; omega) h.symm
  refine ⟨fun h => ?_, fun h => ?_, fun h => ?_⟩
  · unfold HPD.mk'
    have : (heating.length == production.length) = false := by simpa using h
    rw [this]
    rfl
  · refine ⟨_, made h, fun r hr => ?_⟩
    have e : Dbl.ofNat index :: Dbl.ofNat production.length :: production ++ heating ++ rest =
      Dbl.ofNat index :: Dbl.ofNat production.length :: (production ++ heating ++ rest) := by simp
    rcases hr with rfl | hr
    · have := values [] h
      rw [List.append_nil] at this
      exact this
    · have hr : HPD.ofRange (Dbl.ofNat index :: Dbl.ofNat production.length :: production ++ heating ++ rest) = .ok r := hr
      rw [e, read rest h] at hr
      injection hr with hr
      subst hr
      exact values rest h
  · refine ⟨_, ⟨Dbl.ofNat index :: Dbl.ofNat production.length :: (production ++ heating ++ rest)⟩, made h, ?_⟩
    show HPD.ofRange (Dbl.ofNat index :: Dbl.ofNat production.length :: production ++ heating ++ rest) = _
    have e : Dbl.ofNat index :: Dbl.ofNat production.length :: production ++ heating ++ rest =
      Dbl.ofNat index :: Dbl.ofNat production.length :: (production ++ heating ++ rest) := by simp
    rw [e]
    exact read rest h

-- two values of each
example : (HPD.mk' 3 [Dbl.ofNat 1, Dbl.ofNat 2] [Dbl.ofNat 4, Dbl.ofNat 5] >>= fun d => d.heating) =
    .ok [Dbl.ofNat 4, Dbl.ofNat 5] := by decide +kernel

/-- An information block (NTRO) gives the numbers it was built from, also when it is read. -/
theorem C29_information (numbers : List Nat) (rest : Words) (hf : ∀ n ∈ numbers, FitsN n) :
    (NTRO.mk' numbers).NTYPE = numbers.length ∧
    ∃ r, NTRO.ofRange ((NTRO.mk' numbers).xss ++ rest) numbers.length = .ok r ∧
      r.NTYPE = numbers.length ∧ (∀ i (h : i < numbers.length), r.NP (i + 1) = .ok numbers[i]) ∧
      r.NPs = .ok (numbers.map Dbl.ofNat) := by
  refine ⟨rfl, ⟨numbers.map Dbl.ofNat ++ rest, numbers.length⟩, ?_, rfl, fun i h => ?_, ?_⟩
  · unfold NTRO.ofRange
    rw [guardThrow_not_lt (by simp [NTRO.mk'])]
    rfl
  · unfold NTRO.NP
    have : Base.IXSS (numbers.map Dbl.ofNat ++ rest) (i + 1) = .ok (numbers[i] : Int) :=
      Base.IXSS_ofNat (a := (numbers.take i).map Dbl.ofNat) (c := (numbers.drop (i + 1)).map Dbl.ofNat ++ rest) (by
        rw [← List.cons_append, ← List.map_cons (f := Dbl.ofNat), ← List.drop_eq_getElem_cons h, ← List.append_assoc,
          ← List.map_append, List.take_append_drop]) (by simp; omega) (hf _ (List.getElem_mem h))
    rw [this, ok_bind, u32OfInt_natCast (by have := hf _ (List.getElem_mem h); omega)]
    rfl
  · exact Base.XSSr_of_eq (a := []) (c := rest) rfl rfl (by simp)

example : (NTRO.ofRange (NTRO.mk' [2, 1]).xss 2 >>= fun r => r.NP 1) = .ok 2 := by decide +kernel

/-- What comes back about the secondary particles as a whole. -/
structure ReturnedSecondaries (t : PTYPE) (ps : List SecondaryBlocks) (c : CE) : Prop where
  ptype : c.ptype = some t
  /-- as many particles as given, and each one in its place -/
  number : c.particles.length = ps.length
  particles : ∀ (i : Nat) (h : i < ps.length), ∃ q, c.particles[i]? = some q ∧
    ReturnedParticle ps[i] q
  /-- NTRO has the number of reactions of each -/
  ntro : ∃ n, c.ntro = some n ∧ n.NTYPE = ps.length ∧
    n.xss = ps.map (fun p => Dbl.ofNat p.mtrh.n)

/-- The secondary particles come back. Missing: blocks that are not `Clear`. -/
theorem C29_particles_partial (zaid : List Char) (z a s : Nat) (B : Blocks) (mts : List Nat)
    (vs : List (Frame × Nat)) (t : PTYPE) (ps : List SecondaryBlocks) (hs : Sound B mts vs)
    (hc : Clear B) (hp : B.secondaries = some (t, ps)) (hf : FitsN (B.size mts.length + 2))
    (ht : TableType.continuousEnergy.verifyType zaid = .ok ())
    (hid : (s ≠ 0 ∨ z ≠ 0 ∨ a ≠ 0) ∨ ∃ v, Ident.stoi (Ident.target zaid) = .ok v) :
    ∃ c, CE.mk' zaid z a s B.input = .ok c ∧ ReturnedSecondaries t ps c := by
  obtain ⟨fis, d, _, _, h⟩ := CE.mk_eq zaid z a s hs hc hf ht hid
  have hpart : (CE.tableOf zaid d B (CE.tyrBlock (CE.allTyr B vs mts.length))).particles =
      ps.map CE.particleOf := by simp [CE.tableOf, hp]
  refine ⟨_, h, ⟨by simp [CE.tableOf, hp], by rw [hpart, List.length_map], ?_,
    ⟨NTRO.mk' (ps.map (fun p => p.mtrh.n)), by simp [CE.tableOf, hp],
      by simp [NTRO.NTYPE, NTRO.mk'], by simp [NTRO.mk']⟩⟩⟩
  intro i hi
  refine ⟨CE.particleOf ps[i], by rw [hpart]; simp [hi], ?_⟩
  have hq := hs.secondaries t ps hp ps[i] (List.getElem_mem hi)
  generalize ps[i] = q at hq
  obtain ⟨fs, hfs, hl⟩ := hq.frames
  exact {
    hpd := rfl, mtrh := rfl, sigh := rfl, andh := rfl, yh := rfl
    tyrh := ⟨fs, hfs, by
      simp only [CE.particleOf, CE.framesOf_eq hfs, CE.frameTyr_eq]
      exact tyr_gives _ _⟩
    dlwh := ⟨rfl, rfl⟩ }

/-- A table without secondary particles has none. -/
theorem C29_none_partial (zaid : List Char) (z a s : Nat) (B : Blocks) (mts : List Nat)
    (vs : List (Frame × Nat)) (hs : Sound B mts vs)
    (hc : Clear B) (hp : B.secondaries = none) (hf : FitsN (B.size mts.length + 2))
    (ht : TableType.continuousEnergy.verifyType zaid = .ok ())
    (hid : (s ≠ 0 ∨ z ≠ 0 ∨ a ≠ 0) ∨ ∃ v, Ident.stoi (Ident.target zaid) = .ok v) :
    ∃ c, CE.mk' zaid z a s B.input = .ok c ∧ c.ptype = none ∧ c.ntro = none ∧ c.ixs = none ∧
      c.particles = [] := by
  obtain ⟨fis, d, _, _, h⟩ := CE.mk_eq zaid z a s hs hc hf ht hid
  exact ⟨_, h, by simp [CE.tableOf, hp], by simp [CE.tableOf, hp], by simp [CE.tableOf, hp],
    by simp [CE.tableOf, hp]⟩

/-- C29 for the table with two secondary particle types. -/
example : ∃ c, CE.mk' "92235.80c".toList 92 235 0 exBlocks.input = .ok c ∧
    ReturnedSecondaries (made (PTYPE.mk' [9, 31])) [exSecondary 1, exSecondary 2] c :=
  C29_particles_partial _ 92 235 0 exBlocks [18, 102] exTyr _ _ ex_sound ex_clear rfl
    (by decide +kernel) (by decide +kernel) (Or.inl (by decide))

/-! ## The word after the IXS block -/

theorem ex_secondary_far : SoundSecondary (exSecondary 5000) where
  hpd := by decide +kernel
  mtrh := by decide +kernel
  sigh := by decide +kernel
  andh := by decide +kernel
  dlwh := by unfold SoundDLWH; decide +kernel
  ndlwh := by decide +kernel
  frames := ⟨[.centreOfMass], by decide +kernel⟩
  yh := by decide +kernel

/-- A table with an HPD block for energies from index 5000. -/
def farBlocks : Blocks := exWith none none none (some (made (PTYPE.mk' [9]), [exSecondary 5000]))

theorem far_sound : Sound farBlocks [18, 102] exTyr :=
  ex_sound_with _ _ _ _ (fun p h => by cases h) (fun p h => by cases h) (fun p h => by cases h)
    (fun t p h => by injection h with h; injection h with h1 h2; subst h1 h2; decide +kernel)
    (fun t p h => by
      injection h with h; injection h with h1 h2; subst h1 h2
      intro q hq
      rw [List.mem_singleton] at hq
      subst hq
      exact ex_secondary_far)

/-- The word after the IXS block, the energy index of the first particle, is taken for a locator; with
a large one the last YH block ends outside of the XSS array. -/
theorem C29_index : tableFrom farBlocks = .error .ub := by decide +kernel

theorem C29_false : ¬ C29Statement := by
  intro h
  obtain ⟨c, hc, _⟩ := h "92235.80c".toList 92 235 0 farBlocks [18, 102] exTyr _ _ far_sound rfl
    (by decide +kernel) (by decide +kernel) (by decide)
  have e := C29_index
  rw [show tableFrom farBlocks = .ok c from hc] at e
  cases e

/-- The hypotheses of the other theorems are met too. -/
example := C29_production 3 [num 1, num 2] [num 4, num 5] [num 9] (by decide) (by decide)
example := C29_information [2, 3] [num 9] (by decide)

end ACE.Props

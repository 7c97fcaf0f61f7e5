import Verif.Lemmas.NaturalDist

/-! # Reading commutes with replacing words: energy distributions -/

set_option linter.unusedSectionVars false

namespace ACE

section
variable {r : Dbl → Dbl} [Keeps r]

@[natural] theorem last_mapw (xs : Words) : last (xs.map r) = Except.map r (last xs) := by
  unfold last
  rw [List.getLast?_map]
  cases xs.getLast? <;> rfl
@[natural] theorem TabulatedData.x_mapw (d : TabulatedData) :
    (d.mapw r).x = Except.map (List.map r) d.x := by
  unfold TabulatedData.x
  rw [← ColumnData.column_mapw]; rfl
@[natural] theorem TabulatedData.y_mapw (d : TabulatedData) :
    (d.mapw r).y = Except.map (List.map r) d.y := by
  unfold TabulatedData.y
  rw [← ColumnData.column_mapw]; rfl

@[natural] theorem EquiBinData.incidentOf_mapw (v : ColumnData) (i : Nat) :
    EquiBinData.incidentOf (v.mapw r) i = Except.map r (EquiBinData.incidentOf v i) := by
  simp only [EquiBinData.incidentOf, natural]
@[natural] theorem EquiBinData.NETof_mapw (xs : Words) (i v : ColumnData) :
    EquiBinData.NETof (xs.map r) (i.mapw r) (v.mapw r) = EquiBinData.NETof xs i v := by
  simp only [EquiBinData.NETof, natural]
@[natural] theorem EquiBinData.ofRange_mapw (xs : Words) :
    EquiBinData.ofRange (xs.map r) = Except.map (EquiBinData.mapw r) (EquiBinData.ofRange xs) := by
  have h : ∀ (i v : ColumnData) (b : Nat),
      EquiBinData.generateBlock (xs.map r) (i.mapw r) (v.mapw r) b =
      fun k => Except.map (EquiEnergy.mapw r) (EquiBinData.generateBlock xs i v b k) := by
    intro i v b; funext k
    simp only [EquiBinData.generateBlock, natural, EquiEnergy.mapw]
  simp only [EquiBinData.ofRange, EquiBinData.generateBlocks, InterpolationData.ofRange, natural, h,
    EquiBinData.mapw]
@[natural] theorem GenEvap.ofRange_mapw (xs : Words) :
    GenEvap.ofRange (xs.map r) = Except.map (GenEvap.mapw r) (GenEvap.ofRange xs) := by
  simp only [GenEvap.ofRange, GenEvap.generateBlocks, natural, GenEvap.mapw]
@[natural] theorem Watt.ofRange_mapw (xs : Words) :
    Watt.ofRange (xs.map r) = Except.map (Watt.mapw r) (Watt.ofRange xs) := by
  simp only [Watt.ofRange, Watt.generateBlocks, natural, Watt.mapw]
@[natural] theorem NBody.ofRange_mapw (xs : Words) (a b : Dbl) :
    NBody.ofRange (xs.map r) (r a) (r b) = Except.map (NBody.mapw r) (NBody.ofRange xs a b) := by
  simp only [NBody.ofRange, natural, NBody.mapw]

@[natural] theorem LawData.read_mapw (law : Int) (idat : Nat) (xs : Words) (a b : Dbl) :
    LawData.read law idat (xs.map r) (r a) (r b) =
      Except.map (LawData.mapw r) (LawData.read law idat xs a b) := by
  simp only [LawData.read, natural, LawData.mapw]
@[natural] theorem LawData.readMulti_mapw (law : Int) (idat : Nat) (xs : Words) (a b : Dbl) :
    LawData.readMulti law idat (xs.map r) (r a) (r b) =
      Except.map (List.map (LawData.mapw r)) (LawData.readMulti law idat xs a b) := by
  simp only [LawData.readMulti, natural, LawData.mapw, List.map_cons, List.map_nil]

@[natural] theorem MultiData.endOf_mapw (xs : Words) (l n : Nat) :
    MultiData.endOf (xs.map r) l n = MultiData.endOf xs l n := by
  simp only [MultiData.endOf, natural]
theorem MultiData.blocks_mapw (xs : Words) (locb : Nat) : ∀ fuel locator,
    MultiData.blocks (xs.map r) locb fuel locator =
      Except.map (fun p => (p.1.map (TabulatedData.mapw r), p.2.map (LawData.mapw r)))
        (MultiData.blocks xs locb fuel locator)
  | 0, _ => rfl
  | fuel + 1, locator => by
      simp only [MultiData.blocks, natural, MultiData.blocks_mapw xs locb fuel, List.map_cons,
        List.map_nil, List.map_append]
@[natural] theorem MultiData.ofRange_mapw (locb : Nat) (xs : Words) :
    MultiData.ofRange locb (xs.map r) = Except.map (MultiData.mapw r) (MultiData.ofRange locb xs) := by
  simp only [MultiData.ofRange, MultiData.generateBlocks, MultiData.blocks_mapw, natural,
    MultiData.mapw]

@[natural] theorem EnergyData.readLaw_mapw (l : Nat) (xs : Words) :
    EnergyData.readLaw l (xs.map r) = Except.map (EnergyData.mapw r) (EnergyData.readLaw l xs) := by
  simp only [EnergyData.readLaw, natural, EnergyData.mapw]
@[natural] theorem EnergyData.read_mapw (l : Nat) (xs : Words) :
    EnergyData.read l (xs.map r) = Except.map (EnergyData.mapw r) (EnergyData.read l xs) := by
  simp only [EnergyData.read, natural, EnergyData.mapw]
theorem EnergyData.readSecondary_mapw (l : Nat) (xs : Words) :
    EnergyData.readSecondary l (xs.map r) =
      Except.map (EnergyData.mapw r) (EnergyData.readSecondary l xs) := by
  simp only [EnergyData.readSecondary, natural, EnergyData.mapw]

/-! ## Blocks -/

@[natural] theorem TYR.ofRange_mapw (xs : Words) (n : Nat) :
    TYR.ofRange (xs.map r) n = Except.map (TYR.mapw r) (TYR.ofRange xs n) := by
  have h : TYR.generateBlock (xs.map r) = TYR.generateBlock xs := by
    funext i; simp only [TYR.generateBlock, natural]
  simp only [TYR.ofRange, TYR.generateBlocks, natural, h, TYR.mapw]
@[natural] theorem TYR.multiplicity_mapw (t : TYR) (i : Nat) :
    (t.mapw r).multiplicity i = t.multiplicity i := rfl
@[natural] theorem DLW.LDLWof_mapw (xs : Words) (n i : Nat) :
    DLW.LDLWof (xs.map r) n i = DLW.LDLWof xs n i := by
  simp only [DLW.LDLWof, natural]
@[natural] theorem DLW.rightOf_mapw (xs : Words) (n : Nat) (t : TYR) (i : Nat) :
    DLW.rightOf (xs.map r) n (t.mapw r) i = DLW.rightOf xs n t i := by
  simp only [DLW.rightOf, natural]
@[natural] theorem DLW.multOf_mapw (xs : Words) (n : Nat) (t : TYR) (i l : Nat) :
    DLW.multOf (xs.map r) n (t.mapw r) i l = Except.map (Mult.mapw r) (DLW.multOf xs n t i l) := by
  simp only [DLW.multOf, natural, Mult.mapw]
@[natural] theorem DLW.firstFrames_mapw (t : TYR) (n : Nat) :
    DLW.firstFrames (t.mapw r) n = DLW.firstFrames t n := rfl
@[natural] theorem DLW.ofRange_mapw (xs : Words) (data : Nat) (t : TYR) (n : Nat) :
    DLW.ofRange (xs.map r) data (t.mapw r) n = Except.map (DLW.mapw r) (DLW.ofRange xs data t n) := by
  have h : DLW.generateBlock (xs.map r) n (t.mapw r) =
      fun i => Except.map (fun p => (p.1.mapw r, p.2.mapw r)) (DLW.generateBlock xs n t i) := by
    funext i; simp only [DLW.generateBlock, natural]
  simp only [DLW.ofRange, DLW.generateBlocks, natural, h, DLW.mapw]
  rfl
@[natural] theorem DLWH.generateFrames_mapw (t : Option TYR) (n : Nat) :
    DLWH.generateFrames (t.map (TYR.mapw r)) n = DLWH.generateFrames t n := by cases t <;> rfl
@[natural] theorem DLWH.ofRange_mapw (xs : Words) (i : Nat) (t : Option TYR) (n : Nat) :
    DLWH.ofRange (xs.map r) i (t.map (TYR.mapw r)) n =
      Except.map (DLWH.mapw r) (DLWH.ofRange xs i t n) := by
  simp only [DLWH.ofRange, LocBlock.ofRange_mapw EnergyData.readSecondary_mapw, natural, DLWH.mapw]
@[natural] theorem HPD.ofRange_mapw (xs : Words) :
    HPD.ofRange (xs.map r) = Except.map (HPD.mapw r) (HPD.ofRange xs) := by
  simp only [HPD.ofRange, HPD.numberValues, natural, HPD.mapw]
@[natural] theorem NTRO.ofRange_mapw (xs : Words) (n : Nat) :
    NTRO.ofRange (xs.map r) n = Except.map (NTRO.mapw r) (NTRO.ofRange xs n) := by
  simp only [NTRO.ofRange, natural, NTRO.mapw]
@[natural] theorem NTRO.NP_mapw (d : NTRO) (i : Nat) : (d.mapw r).NP i = d.NP i := by
  simp only [NTRO.NP, NTRO.mapw, natural]

end
end ACE

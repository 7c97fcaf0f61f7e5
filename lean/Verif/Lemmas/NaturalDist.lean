import Verif.Lemmas.Natural

/-! # Reading commutes with replacing words: distributions -/

set_option linter.unusedSectionVars false

namespace ACE

section
variable {r : Dbl → Dbl} [Keeps r]

@[natural] theorem Dist.verifyValueIndex_mapw (v : ColumnData) (i : Nat) :
    Dist.verifyValueIndex (v.mapw r) i = Dist.verifyValueIndex v i := by
  simp only [Dist.verifyValueIndex, natural]
@[natural] theorem Dist.value_mapw (v : ColumnData) (c i : Nat) :
    Dist.value (v.mapw r) c i = Except.map r (Dist.value v c i) := by
  simp only [Dist.value, natural]
@[natural] theorem Dist.LOCC_mapw (v : ColumnData) (i : Nat) :
    Dist.LOCC (v.mapw r) i = Dist.LOCC v i := by
  simp only [Dist.LOCC, natural]; rfl
@[natural] theorem Dist.relInt_mapw (v : ColumnData) (l i : Nat) :
    Dist.relInt (v.mapw r) l i = Dist.relInt v l i := by
  simp only [Dist.relInt, natural]
@[natural] theorem Dist.relSize_mapw (v : ColumnData) (l i : Nat) :
    Dist.relSize (v.mapw r) l i = Dist.relSize v l i := by
  simp only [Dist.relSize, natural]

theorem Dist.generateBlock_mapw {D : Type} {f : D → D} {gen : Dbl → Nat → Words → Res D}
    (hg : ∀ v l xs, gen (r v) l (List.map r xs) = Except.map f (gen v l xs))
    {rel' rel : Nat → Res Int} (hr : rel' = rel) (xs : Words) (v : ColumnData) (n : Nat) :
    Dist.generateBlock gen rel' (xs.map r) (v.mapw r) n =
      fun i => Except.map f (Dist.generateBlock gen rel xs v n i) := by
  subst hr
  funext i
  simp only [Dist.generateBlock, natural]
  refine congrArg _ (funext fun a => congrArg _ (funext fun b => congrArg _ (funext fun c =>
    congrArg _ (funext fun d => congrArg _ (funext fun e => ?_)))))
  cases e <;> simp only [natural, hg]

theorem DistData.ofRange_mapw {D : Type} {f : D → D} {gen : Dbl → Nat → Words → Res D}
    (hg : ∀ v l xs, gen (r v) l (List.map r xs) = Except.map f (gen v l xs))
    (locb : Nat) (xs : Words) :
    DistData.ofRange gen locb (xs.map r) =
      Except.map (DistData.mapw f r) (DistData.ofRange gen locb xs) := by
  have h : ∀ v n, Dist.generateBlock gen (Dist.relInt (v.mapw r) locb) (xs.map r) (v.mapw r) n =
      fun i => Except.map f (Dist.generateBlock gen (Dist.relInt v locb) xs v n i) :=
    fun v n => Dist.generateBlock_mapw hg (funext fun i => Dist.relInt_mapw v locb i) xs v n
  simp only [DistData.ofRange, DistData.generateBlocks, InterpolationData.ofRange, natural, h,
    DistData.mapw]

@[natural] theorem Law4.ofRange_mapw (locb : Nat) (xs : Words) :
    Law4.ofRange locb (xs.map r) =
      Except.map (DistData.mapw (TabDist.mapw r) r) (Law4.ofRange locb xs) :=
  DistData.ofRange_mapw (fun _ _ _ => TabDist.ofRange_mapw _ _) ..

@[natural] theorem DistDataI.verifySize_mapw (xs : Words) :
    DistDataI.verifySize (xs.map r) = DistDataI.verifySize xs := by
  simp only [DistDataI.verifySize, natural]

@[natural] theorem AngleEnergy.ofRange_mapw (e : Dbl) (locb : Nat) (xs : Words) :
    AngleEnergy.ofRange (r e) locb (xs.map r) =
      Except.map (DistDataI.mapw (TabDist.mapw r) r) (AngleEnergy.ofRange e locb xs) := by
  have h : ∀ (v : ColumnData) (n : Nat) (rel : Nat → Res Int),
      Dist.generateBlock Law4.gen rel (xs.map r) (v.mapw r) n =
        fun i => Except.map (TabDist.mapw r) (Dist.generateBlock Law4.gen rel xs v n i) :=
    fun v n _ => Dist.generateBlock_mapw (fun _ _ _ => TabDist.ofRange_mapw _ _) rfl xs v n
  simp only [AngleEnergy.ofRange, AngleEnergy.generateBlocks, natural, h, DistDataI.mapw]

@[natural] theorem Law67.ofRange_mapw (locb : Nat) (xs : Words) :
    Law67.ofRange locb (xs.map r) =
      Except.map (DistData.mapw (DistDataI.mapw (TabDist.mapw r) r) r) (Law67.ofRange locb xs) :=
  DistData.ofRange_mapw (fun _ _ _ => AngleEnergy.ofRange_mapw _ _ _) ..

@[natural] theorem AngularProb.ofRange_mapw (e p c : Dbl) (xs : Words) :
    AngularProb.ofRange (r e) (r p) (r c) (xs.map r) =
      Except.map (AngularProb.mapw r) (AngularProb.ofRange e p c xs) := by
  simp only [AngularProb.ofRange, natural, AngularProb.mapw]

@[natural] theorem EnergyAngle.ofRange_mapw (e : Dbl) (locb : Nat) (xs : Words) :
    EnergyAngle.ofRange (r e) locb (xs.map r) =
      Except.map (DistDataI.mapw (AngularProb.mapw r) r) (EnergyAngle.ofRange e locb xs) := by
  have h : ∀ (v : ColumnData) (n : Nat), EnergyAngle.generateBlock (xs.map r) (v.mapw r) locb n =
      fun i => Except.map (AngularProb.mapw r) (EnergyAngle.generateBlock xs v locb n i) := by
    intro v n; funext i
    simp only [EnergyAngle.generateBlock, natural]
  simp only [EnergyAngle.ofRange, EnergyAngle.generateBlocks, natural, h, DistDataI.mapw]

@[natural] theorem Law61.ofRange_mapw (locb : Nat) (xs : Words) :
    Law61.ofRange locb (xs.map r) =
      Except.map (DistData.mapw (DistDataI.mapw (AngularProb.mapw r) r) r) (Law61.ofRange locb xs) :=
  DistData.ofRange_mapw (fun _ _ _ => EnergyAngle.ofRange_mapw _ _ _) ..

/-! ## Angular distributions -/

@[natural] theorem EquiAngular.mk'_mapw (e : Dbl) (xs : Words) :
    EquiAngular.mk' (r e) (xs.map r) = Except.map (EquiAngular.mapw r) (EquiAngular.mk' e xs) := by
  simp only [EquiAngular.mk', natural, EquiAngular.mapw]
@[natural] theorem rangeEnd_mapw (xs : Words) (o : Option Int) :
    rangeEnd (xs.map r) o = rangeEnd xs o := by
  cases o <;> simp only [rangeEnd, natural]
@[natural] theorem AngularData.verifyIndexOf_mapw (v : ColumnData) (i : Nat) :
    AngularData.verifyIndexOf (v.mapw r) i = AngularData.verifyIndexOf v i := by
  simp only [AngularData.verifyIndexOf, natural]
@[natural] theorem AngularData.incidentEnergyOf_mapw (v : ColumnData) (i : Nat) :
    AngularData.incidentEnergyOf (v.mapw r) i = Except.map r (AngularData.incidentEnergyOf v i) := by
  simp only [AngularData.incidentEnergyOf, natural]
@[natural] theorem AngularData.LOCCof_mapw (v : ColumnData) (i : Nat) :
    AngularData.LOCCof (v.mapw r) i = AngularData.LOCCof v i := by
  simp only [AngularData.LOCCof, natural]
@[natural] theorem AngularData.relativeOf_mapw (v : ColumnData) (l i : Nat) :
    AngularData.relativeOf (v.mapw r) l i = AngularData.relativeOf v l i := by
  simp only [AngularData.relativeOf, natural]
@[natural] theorem AngularData.typeOf_mapw (v : ColumnData) (i : Nat) :
    AngularData.typeOf (v.mapw r) i = AngularData.typeOf v i := by
  simp only [AngularData.typeOf, natural]
theorem AngularData.relIntOf_mapw (v : ColumnData) (l : Nat) :
    AngularData.relIntOf (v.mapw r) l = AngularData.relIntOf v l := by
  funext i; simp only [AngularData.relIntOf, natural]

@[natural] theorem AngularData.ofRange_mapw (locb : Nat) (xs : Words) :
    AngularData.ofRange locb (xs.map r) =
      Except.map (AngularData.mapw r) (AngularData.ofRange locb xs) := by
  have h : ∀ (v : ColumnData) (n : Nat), AngularData.generateBlock (xs.map r) (v.mapw r) locb n =
      fun i => Except.map (AngDist.mapw r) (AngularData.generateBlock xs v locb n i) := by
    intro v n; funext i
    simp only [AngularData.generateBlock, natural, AngularData.relIntOf_mapw, AngDist.mapw]
  simp only [AngularData.ofRange, AngularData.generateBlocks, natural, h, AngularData.mapw]

@[natural] theorem AngularBlock.LANDof_mapw (xs : Words) (nr : Nat) (z : Bool) (i : Nat) :
    AngularBlock.LANDof (xs.map r) nr z i = AngularBlock.LANDof xs nr z i := by
  simp only [AngularBlock.LANDof, natural]
theorem AngularBlock.next_mapw (xs : Words) (nr : Nat) (z : Bool) (iter : Nat) :
    AngularBlock.next (xs.map r) nr z iter = AngularBlock.next xs nr z iter := by
  funext j; simp only [AngularBlock.next, natural]
@[natural] theorem AngularBlock.ofRange_mapw (xs : Words) (iter nr : Nat) (z : Bool) :
    AngularBlock.ofRange (xs.map r) iter nr z =
      Except.map (AngularBlock.mapw r) (AngularBlock.ofRange xs iter nr z) := by
  have h : AngularBlock.generateBlock (xs.map r) nr z iter =
      fun i => Except.map (AngEntry.mapw r) (AngularBlock.generateBlock xs nr z iter i) := by
    funext i
    simp only [AngularBlock.generateBlock, natural, AngularBlock.next_mapw, AngEntry.mapw]
  simp only [AngularBlock.ofRange, AngularBlock.generateBlocks, natural, h, AngularBlock.mapw]

end
end ACE

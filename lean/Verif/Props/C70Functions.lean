import Verif.Lemmas.ReleaseNever

/-!
# C70, function by function

`Compares (f x) (Release.f x)`: see `Verif.Props.ReleaseSpec`. `f` is the function of the program
compiled without `NDEBUG`, `Release.f` the same function of the program compiled with `NDEBUG`.
-/

namespace ACE.Props
open ACE.Release (Compares)

/-- Words of a block. -/
theorem C70_core :
    (∀ (xs : Words) (index : Nat), Compares (Base.iterator xs index) (Release.Base.iterator xs index)) ∧
    (∀ (xs : Words) (index : Nat), Compares (Base.XSS xs index) (Release.Base.XSS xs index)) ∧
    (∀ (xs : Words) (index : Nat), Compares (Base.IXSS xs index) (Release.Base.IXSS xs index)) ∧
    (∀ (xs : Words) (index : Nat) (length : Nat),
      Compares (Base.XSSr xs index length) (Release.Base.XSSr xs index length)) ∧
    (∀ (xs : Words) (index : Nat) (length : Nat),
      Compares (Base.IXSSr xs index length) (Release.Base.IXSSr xs index length)) :=
  ⟨fun xs index => ⟨Release.Base.iterator.keeps xs index, Release.Base.iterator.never xs index⟩,
   fun xs index => ⟨Release.Base.XSS.keeps xs index, Release.Base.XSS.never xs index⟩,
   fun xs index => ⟨Release.Base.IXSS.keeps xs index, Release.Base.IXSS.never xs index⟩,
   fun xs index length => ⟨Release.Base.XSSr.keeps xs index length, Release.Base.XSSr.never xs index length⟩,
   fun xs index length => ⟨Release.Base.IXSSr.keeps xs index length, Release.Base.IXSSr.never xs index length⟩⟩

/-- Array, column, interpolation and tabulated data. -/
theorem C70_arrays :
    (∀ (d : ArrayData) (array : Nat) (index : Nat),
      Compares (ArrayData.dvalue d array index) (Release.ArrayData.dvalue d array index)) ∧
    (∀ (d : ArrayData) (array : Nat) (index : Nat),
      Compares (ArrayData.ivalue d array index) (Release.ArrayData.ivalue d array index)) ∧
    (∀ (d : ArrayData) (array : Nat),
      Compares (ArrayData.darray d array) (Release.ArrayData.darray d array)) ∧
    (∀ (d : ArrayData) (array : Nat),
      Compares (ArrayData.iarray d array) (Release.ArrayData.iarray d array)) ∧
    (∀ (d : ColumnData), Compares (ColumnData.N d) (Release.ColumnData.N d)) ∧
    (∀ (d : ColumnData) (column : Nat),
      Compares (ColumnData.column d column) (Release.ColumnData.column d column)) ∧
    (∀ (d : ColumnData) (column : Nat) (index : Nat),
      Compares (ColumnData.value d column index) (Release.ColumnData.value d column index)) ∧
    (∀ (d : InterpolationData), Compares (InterpolationData.NBT d) (Release.InterpolationData.NBT d)) ∧
    (∀ (d : InterpolationData), Compares (InterpolationData.INT d) (Release.InterpolationData.INT d)) ∧
    (∀ (boundaries : List Int) (interpolants : List Int) (x : Words) (y : Words),
      Compares (TabulatedData.mk' boundaries interpolants x y) (Release.TabulatedData.mk' boundaries interpolants x y)) ∧
    (∀ (xs : Words), Compares (TabulatedData.ofRange xs) (Release.TabulatedData.ofRange xs)) ∧
    (∀ (d : TabulatedData), Compares (TabulatedData.NB d) (Release.TabulatedData.NB d)) ∧
    (∀ (d : TabulatedData), Compares (TabulatedData.NBT d) (Release.TabulatedData.NBT d)) ∧
    (∀ (d : TabulatedData), Compares (TabulatedData.INT d) (Release.TabulatedData.INT d)) ∧
    (∀ (d : TabulatedData), Compares (TabulatedData.N d) (Release.TabulatedData.N d)) ∧
    (∀ (d : TabulatedData), Compares (TabulatedData.x d) (Release.TabulatedData.x d)) ∧
    (∀ (d : TabulatedData), Compares (TabulatedData.y d) (Release.TabulatedData.y d)) ∧
    (∀ (d : TabProb), Compares (TabProb.interpolation d) (Release.TabProb.interpolation d)) ∧
    (∀ (d : TabProb), Compares (TabProb.numberValues d) (Release.TabProb.numberValues d)) ∧
    (∀ (xs : Words), Compares (TabProb.ofRange xs) (Release.TabProb.ofRange xs)) ∧
    (∀ (d : TabProb), Compares (TabProb.values d) (Release.TabProb.values d)) ∧
    (∀ (d : TabProb), Compares (TabProb.pdf d) (Release.TabProb.pdf d)) ∧
    (∀ (d : TabProb), Compares (TabProb.cdf d) (Release.TabProb.cdf d)) ∧
    (∀ (d : TabProb) (index : Nat), Compares (TabProb.column d index) (Release.TabProb.column d index)) ∧
    (∀ (d : TwoParam), Compares (TwoParam.C1 d) (Release.TwoParam.C1 d)) ∧
    (∀ (d : TwoParam), Compares (TwoParam.C2 d) (Release.TwoParam.C2 d)) ∧
    (∀ (boundaries : List Int) (interpolants : List Int) (energies : Words) (temperatures : Words) (u : Dbl),
      Compares (Evaporation.mk' boundaries interpolants energies temperatures u) (Release.Evaporation.mk' boundaries interpolants energies temperatures u)) ∧
    (∀ (xs : Words), Compares (Evaporation.ofRange xs) (Release.Evaporation.ofRange xs)) ∧
    (∀ (d : Evaporation), Compares (Evaporation.energies d) (Release.Evaporation.energies d)) ∧
    (∀ (d : Evaporation), Compares (Evaporation.temperatures d) (Release.Evaporation.temperatures d)) ∧
    (∀ (d : Evaporation), Compares (Evaporation.emin d) (Release.Evaporation.emin d)) ∧
    (∀ (d : Evaporation), Compares (Evaporation.emax d) (Release.Evaporation.emax d)) :=
  ⟨fun d array index => ⟨Release.ArrayData.dvalue.keeps d array index, Release.ArrayData.dvalue.never d array index⟩,
   fun d array index => ⟨Release.ArrayData.ivalue.keeps d array index, Release.ArrayData.ivalue.never d array index⟩,
   fun d array => ⟨Release.ArrayData.darray.keeps d array, Release.ArrayData.darray.never d array⟩,
   fun d array => ⟨Release.ArrayData.iarray.keeps d array, Release.ArrayData.iarray.never d array⟩,
   fun d => ⟨Release.ColumnData.N.keeps d, Release.ColumnData.N.never d⟩,
   fun d column => ⟨Release.ColumnData.column.keeps d column, Release.ColumnData.column.never d column⟩,
   fun d column index => ⟨Release.ColumnData.value.keeps d column index, Release.ColumnData.value.never d column index⟩,
   fun d => ⟨Release.InterpolationData.NBT.keeps d, Release.InterpolationData.NBT.never d⟩,
   fun d => ⟨Release.InterpolationData.INT.keeps d, Release.InterpolationData.INT.never d⟩,
   fun boundaries interpolants x y => ⟨Release.TabulatedData.mk'.keeps boundaries interpolants x y, Release.TabulatedData.mk'.never boundaries interpolants x y⟩,
   fun xs => ⟨Release.TabulatedData.ofRange.keeps xs, Release.TabulatedData.ofRange.never xs⟩,
   fun d => ⟨Release.TabulatedData.NB.keeps d, Release.TabulatedData.NB.never d⟩,
   fun d => ⟨Release.TabulatedData.NBT.keeps d, Release.TabulatedData.NBT.never d⟩,
   fun d => ⟨Release.TabulatedData.INT.keeps d, Release.TabulatedData.INT.never d⟩,
   fun d => ⟨Release.TabulatedData.N.keeps d, Release.TabulatedData.N.never d⟩,
   fun d => ⟨Release.TabulatedData.x.keeps d, Release.TabulatedData.x.never d⟩,
   fun d => ⟨Release.TabulatedData.y.keeps d, Release.TabulatedData.y.never d⟩,
   fun d => ⟨Release.TabProb.interpolation.keeps d, Release.TabProb.interpolation.never d⟩,
   fun d => ⟨Release.TabProb.numberValues.keeps d, Release.TabProb.numberValues.never d⟩,
   fun xs => ⟨Release.TabProb.ofRange.keeps xs, Release.TabProb.ofRange.never xs⟩,
   fun d => ⟨Release.TabProb.values.keeps d, Release.TabProb.values.never d⟩,
   fun d => ⟨Release.TabProb.pdf.keeps d, Release.TabProb.pdf.never d⟩,
   fun d => ⟨Release.TabProb.cdf.keeps d, Release.TabProb.cdf.never d⟩,
   fun d index => ⟨Release.TabProb.column.keeps d index, Release.TabProb.column.never d index⟩,
   fun d => ⟨Release.TwoParam.C1.keeps d, Release.TwoParam.C1.never d⟩,
   fun d => ⟨Release.TwoParam.C2.keeps d, Release.TwoParam.C2.never d⟩,
   fun boundaries interpolants energies temperatures u => ⟨Release.Evaporation.mk'.keeps boundaries interpolants energies temperatures u, Release.Evaporation.mk'.never boundaries interpolants energies temperatures u⟩,
   fun xs => ⟨Release.Evaporation.ofRange.keeps xs, Release.Evaporation.ofRange.never xs⟩,
   fun d => ⟨Release.Evaporation.energies.keeps d, Release.Evaporation.energies.never d⟩,
   fun d => ⟨Release.Evaporation.temperatures.keeps d, Release.Evaporation.temperatures.never d⟩,
   fun d => ⟨Release.Evaporation.emin.keeps d, Release.Evaporation.emin.never d⟩,
   fun d => ⟨Release.Evaporation.emax.keeps d, Release.Evaporation.emax.never d⟩⟩

/-- Blocks that are arrays. -/
theorem C70_array_blocks :
    (∀ (d : ESZ), Compares (ESZ.energies d) (Release.ESZ.energies d)) ∧
    (∀ (d : ESZ), Compares (ESZ.total d) (Release.ESZ.total d)) ∧
    (∀ (d : ESZ), Compares (ESZ.disappearance d) (Release.ESZ.disappearance d)) ∧
    (∀ (d : ESZ), Compares (ESZ.elastic d) (Release.ESZ.elastic d)) ∧
    (∀ (d : ESZ), Compares (ESZ.heating d) (Release.ESZ.heating d)) ∧
    (∀ (d : LQR) (index : Nat), Compares (LQR.qvalue d index) (Release.LQR.qvalue d index)) ∧
    (∀ (d : LQR), Compares (LQR.qvalues d) (Release.LQR.qvalues d)) ∧
    (∀ (d : GPD), Compares (GPD.totalProduction d) (Release.GPD.totalProduction d)) ∧
    (∀ (d : ProbabilityTable),
      Compares (ProbabilityTable.probabilities d) (Release.ProbabilityTable.probabilities d)) ∧
    (∀ (d : ProbabilityTable), Compares (ProbabilityTable.total d) (Release.ProbabilityTable.total d)) ∧
    (∀ (d : ProbabilityTable), Compares (ProbabilityTable.elastic d) (Release.ProbabilityTable.elastic d)) ∧
    (∀ (d : ProbabilityTable), Compares (ProbabilityTable.fission d) (Release.ProbabilityTable.fission d)) ∧
    (∀ (d : ProbabilityTable), Compares (ProbabilityTable.capture d) (Release.ProbabilityTable.capture d)) ∧
    (∀ (d : ProbabilityTable), Compares (ProbabilityTable.heating d) (Release.ProbabilityTable.heating d)) ∧
    (∀ (d : ESZU), Compares (ESZU.energies d) (Release.ESZU.energies d)) ∧
    (∀ (d : ESZU), Compares (ESZU.total d) (Release.ESZU.total d)) ∧
    (∀ (d : ESZU), Compares (ESZU.elastic d) (Release.ESZU.elastic d)) ∧
    (∀ (d : ESZU), Compares (ESZU.heating d) (Release.ESZU.heating d)) ∧
    (∀ (d : ESZG), Compares (ESZG.energies d) (Release.ESZG.energies d)) ∧
    (∀ (d : ESZG), Compares (ESZG.incoherent d) (Release.ESZG.incoherent d)) ∧
    (∀ (d : ESZG), Compares (ESZG.coherent d) (Release.ESZG.coherent d)) ∧
    (∀ (d : ESZG), Compares (ESZG.photoelectric d) (Release.ESZG.photoelectric d)) ∧
    (∀ (d : ESZG), Compares (ESZG.pairproduction d) (Release.ESZG.pairproduction d)) ∧
    (∀ (d : LHNM), Compares (LHNM.heating d) (Release.LHNM.heating d)) ∧
    (∀ (d : JFLO), Compares (JFLO.E d) (Release.JFLO.E d)) ∧
    (∀ (d : JFLO), Compares (JFLO.PHI d) (Release.JFLO.PHI d)) ∧
    (∀ (d : JFLO), Compares (JFLO.Y d) (Release.JFLO.Y d)) ∧
    (∀ (d : JFLO), Compares (JFLO.F d) (Release.JFLO.F d)) ∧
    (∀ (d : SPHEL) (index : Nat),
      Compares (SPHEL.photoelectric d index) (Release.SPHEL.photoelectric d index)) ∧
    (∀ (d : EPS), Compares (EPS.LNEPS d) (Release.EPS.LNEPS d)) ∧
    (∀ (d : EPS), Compares (EPS.LBEPS d) (Release.EPS.LBEPS d)) ∧
    (∀ (d : EPS), Compares (EPS.LPIPS d) (Release.EPS.LPIPS d)) ∧
    (∀ (d : EPS) (index : Nat),
      Compares (EPS.numberElectrons d index) (Release.EPS.numberElectrons d index)) ∧
    (∀ (d : EPS) (index : Nat), Compares (EPS.bindingEnergy d index) (Release.EPS.bindingEnergy d index)) ∧
    (∀ (d : EPS) (index : Nat),
      Compares (EPS.interactionProbability d index) (Release.EPS.interactionProbability d index)) ∧
    (∀ (d : SUBSH), Compares (SUBSH.ID d) (Release.SUBSH.ID d)) ∧
    (∀ (d : SUBSH), Compares (SUBSH.EP d) (Release.SUBSH.EP d)) ∧
    (∀ (d : SUBSH), Compares (SUBSH.BE d) (Release.SUBSH.BE d)) ∧
    (∀ (d : SUBSH), Compares (SUBSH.CV d) (Release.SUBSH.CV d)) ∧
    (∀ (d : SUBSH), Compares (SUBSH.NT d) (Release.SUBSH.NT d)) ∧
    (∀ (d : SUBSH) (index : Nat),
      Compares (SUBSH.numberTransitions d index) (Release.SUBSH.numberTransitions d index)) ∧
    (∀ (d : SUBSH) (index : Nat), Compares (SUBSH.designator d index) (Release.SUBSH.designator d index)) ∧
    (∀ (d : SUBSH) (index : Nat), Compares (SUBSH.population d index) (Release.SUBSH.population d index)) ∧
    (∀ (d : SUBSH) (index : Nat),
      Compares (SUBSH.bindingEnergy d index) (Release.SUBSH.bindingEnergy d index)) ∧
    (∀ (d : SUBSH) (index : Nat),
      Compares (SUBSH.vacancyProbability d index) (Release.SUBSH.vacancyProbability d index)) ∧
    (∀ (d : EXCIT), Compares (EXCIT.energies d) (Release.EXCIT.energies d)) ∧
    (∀ (d : EXCIT), Compares (EXCIT.loss d) (Release.EXCIT.loss d)) ∧
    (∀ (d : BREML), Compares (BREML.energies d) (Release.BREML.energies d)) ∧
    (∀ (d : SELAS), Compares (SELAS.transport d) (Release.SELAS.transport d)) ∧
    (∀ (d : SELAS), Compares (SELAS.total d) (Release.SELAS.total d)) ∧
    (∀ (d : ITCA) (index : Nat), Compares (ITCA.cosines d index) (Release.ITCA.cosines d index)) ∧
    (∀ (d : ITIE), Compares (ITIE.NE d) (Release.ITIE.NE d)) ∧
    (∀ (d : ITIE), Compares (ITIE.energies d) (Release.ITIE.energies d)) ∧
    (∀ (d : ITIE), Compares (ITIE.crossSections d) (Release.ITIE.crossSections d)) ∧
    (∀ (d : TRAN) (index : Nat), Compares (TRAN.transition d index) (Release.TRAN.transition d index)) ∧
    (∀ (d : TRAN) (index : Nat),
      Compares (TRAN.primaryDesignator d index) (Release.TRAN.primaryDesignator d index)) ∧
    (∀ (d : TRAN) (index : Nat),
      Compares (TRAN.secondaryDesignator d index) (Release.TRAN.secondaryDesignator d index)) ∧
    (∀ (d : TRAN) (index : Nat), Compares (TRAN.energy d index) (Release.TRAN.energy d index)) ∧
    (∀ (d : TRAN) (index : Nat), Compares (TRAN.probability d index) (Release.TRAN.probability d index)) ∧
    (∀ (d : TRAN) (index : Nat),
      Compares (TRAN.isRadiativeTransition d index) (Release.TRAN.isRadiativeTransition d index)) :=
  ⟨fun d => ⟨Release.ESZ.energies.keeps d, Release.ESZ.energies.never d⟩,
   fun d => ⟨Release.ESZ.total.keeps d, Release.ESZ.total.never d⟩,
   fun d => ⟨Release.ESZ.disappearance.keeps d, Release.ESZ.disappearance.never d⟩,
   fun d => ⟨Release.ESZ.elastic.keeps d, Release.ESZ.elastic.never d⟩,
   fun d => ⟨Release.ESZ.heating.keeps d, Release.ESZ.heating.never d⟩,
   fun d index => ⟨Release.LQR.qvalue.keeps d index, Release.LQR.qvalue.never d index⟩,
   fun d => ⟨Release.LQR.qvalues.keeps d, Release.LQR.qvalues.never d⟩,
   fun d => ⟨Release.GPD.totalProduction.keeps d, Release.GPD.totalProduction.never d⟩,
   fun d => ⟨Release.ProbabilityTable.probabilities.keeps d, Release.ProbabilityTable.probabilities.never d⟩,
   fun d => ⟨Release.ProbabilityTable.total.keeps d, Release.ProbabilityTable.total.never d⟩,
   fun d => ⟨Release.ProbabilityTable.elastic.keeps d, Release.ProbabilityTable.elastic.never d⟩,
   fun d => ⟨Release.ProbabilityTable.fission.keeps d, Release.ProbabilityTable.fission.never d⟩,
   fun d => ⟨Release.ProbabilityTable.capture.keeps d, Release.ProbabilityTable.capture.never d⟩,
   fun d => ⟨Release.ProbabilityTable.heating.keeps d, Release.ProbabilityTable.heating.never d⟩,
   fun d => ⟨Release.ESZU.energies.keeps d, Release.ESZU.energies.never d⟩,
   fun d => ⟨Release.ESZU.total.keeps d, Release.ESZU.total.never d⟩,
   fun d => ⟨Release.ESZU.elastic.keeps d, Release.ESZU.elastic.never d⟩,
   fun d => ⟨Release.ESZU.heating.keeps d, Release.ESZU.heating.never d⟩,
   fun d => ⟨Release.ESZG.energies.keeps d, Release.ESZG.energies.never d⟩,
   fun d => ⟨Release.ESZG.incoherent.keeps d, Release.ESZG.incoherent.never d⟩,
   fun d => ⟨Release.ESZG.coherent.keeps d, Release.ESZG.coherent.never d⟩,
   fun d => ⟨Release.ESZG.photoelectric.keeps d, Release.ESZG.photoelectric.never d⟩,
   fun d => ⟨Release.ESZG.pairproduction.keeps d, Release.ESZG.pairproduction.never d⟩,
   fun d => ⟨Release.LHNM.heating.keeps d, Release.LHNM.heating.never d⟩,
   fun d => ⟨Release.JFLO.E.keeps d, Release.JFLO.E.never d⟩,
   fun d => ⟨Release.JFLO.PHI.keeps d, Release.JFLO.PHI.never d⟩,
   fun d => ⟨Release.JFLO.Y.keeps d, Release.JFLO.Y.never d⟩,
   fun d => ⟨Release.JFLO.F.keeps d, Release.JFLO.F.never d⟩,
   fun d index => ⟨Release.SPHEL.photoelectric.keeps d index, Release.SPHEL.photoelectric.never d index⟩,
   fun d => ⟨Release.EPS.LNEPS.keeps d, Release.EPS.LNEPS.never d⟩,
   fun d => ⟨Release.EPS.LBEPS.keeps d, Release.EPS.LBEPS.never d⟩,
   fun d => ⟨Release.EPS.LPIPS.keeps d, Release.EPS.LPIPS.never d⟩,
   fun d index => ⟨Release.EPS.numberElectrons.keeps d index, Release.EPS.numberElectrons.never d index⟩,
   fun d index => ⟨Release.EPS.bindingEnergy.keeps d index, Release.EPS.bindingEnergy.never d index⟩,
   fun d index => ⟨Release.EPS.interactionProbability.keeps d index, Release.EPS.interactionProbability.never d index⟩,
   fun d => ⟨Release.SUBSH.ID.keeps d, Release.SUBSH.ID.never d⟩,
   fun d => ⟨Release.SUBSH.EP.keeps d, Release.SUBSH.EP.never d⟩,
   fun d => ⟨Release.SUBSH.BE.keeps d, Release.SUBSH.BE.never d⟩,
   fun d => ⟨Release.SUBSH.CV.keeps d, Release.SUBSH.CV.never d⟩,
   fun d => ⟨Release.SUBSH.NT.keeps d, Release.SUBSH.NT.never d⟩,
   fun d index => ⟨Release.SUBSH.numberTransitions.keeps d index, Release.SUBSH.numberTransitions.never d index⟩,
   fun d index => ⟨Release.SUBSH.designator.keeps d index, Release.SUBSH.designator.never d index⟩,
   fun d index => ⟨Release.SUBSH.population.keeps d index, Release.SUBSH.population.never d index⟩,
   fun d index => ⟨Release.SUBSH.bindingEnergy.keeps d index, Release.SUBSH.bindingEnergy.never d index⟩,
   fun d index => ⟨Release.SUBSH.vacancyProbability.keeps d index, Release.SUBSH.vacancyProbability.never d index⟩,
   fun d => ⟨Release.EXCIT.energies.keeps d, Release.EXCIT.energies.never d⟩,
   fun d => ⟨Release.EXCIT.loss.keeps d, Release.EXCIT.loss.never d⟩,
   fun d => ⟨Release.BREML.energies.keeps d, Release.BREML.energies.never d⟩,
   fun d => ⟨Release.SELAS.transport.keeps d, Release.SELAS.transport.never d⟩,
   fun d => ⟨Release.SELAS.total.keeps d, Release.SELAS.total.never d⟩,
   fun d index => ⟨Release.ITCA.cosines.keeps d index, Release.ITCA.cosines.never d index⟩,
   fun d => ⟨Release.ITIE.NE.keeps d, Release.ITIE.NE.never d⟩,
   fun d => ⟨Release.ITIE.energies.keeps d, Release.ITIE.energies.never d⟩,
   fun d => ⟨Release.ITIE.crossSections.keeps d, Release.ITIE.crossSections.never d⟩,
   fun d index => ⟨Release.TRAN.transition.keeps d index, Release.TRAN.transition.never d index⟩,
   fun d index => ⟨Release.TRAN.primaryDesignator.keeps d index, Release.TRAN.primaryDesignator.never d index⟩,
   fun d index => ⟨Release.TRAN.secondaryDesignator.keeps d index, Release.TRAN.secondaryDesignator.never d index⟩,
   fun d index => ⟨Release.TRAN.energy.keeps d index, Release.TRAN.energy.never d index⟩,
   fun d index => ⟨Release.TRAN.probability.keeps d index, Release.TRAN.probability.never d index⟩,
   fun d index => ⟨Release.TRAN.isRadiativeTransition.keeps d index, Release.TRAN.isRadiativeTransition.never d index⟩⟩

/-- Tabulated distributions. -/
theorem C70_tables_of_values :
    (∀ (value : Dbl) (xs : Words), Compares (TabDist.ofRange value xs) (Release.TabDist.ofRange value xs)) ∧
    (∀ (d : TabDist), Compares (TabDist.interpolation d) (Release.TabDist.interpolation d)) ∧
    (∀ (d : TabDist),
      Compares (TabDist.numberDiscretePhotonLines d) (Release.TabDist.numberDiscretePhotonLines d)) ∧
    (∀ (d : TabDist), Compares (TabDist.a d) (Release.TabDist.a d)) :=
  ⟨fun value xs => ⟨Release.TabDist.ofRange.keeps value xs, Release.TabDist.ofRange.never value xs⟩,
   fun d => ⟨Release.TabDist.interpolation.keeps d, Release.TabDist.interpolation.never d⟩,
   fun d => ⟨Release.TabDist.numberDiscretePhotonLines.keeps d, Release.TabDist.numberDiscretePhotonLines.never d⟩,
   fun d => ⟨Release.TabDist.a.keeps d, Release.TabDist.a.never d⟩⟩

/-- The data section of a table. -/
theorem C70_data :
    (∀ (d : TableData) (index : Nat), Compares (TableData.IZ d index) (Release.TableData.IZ d index)) ∧
    (∀ (d : TableData) (index : Nat), Compares (TableData.AW d index) (Release.TableData.AW d index)) ∧
    (∀ (d : TableData) (index : Nat), Compares (TableData.NXS d index) (Release.TableData.NXS d index)) ∧
    (∀ (d : TableData) (index : Nat), Compares (TableData.JXS d index) (Release.TableData.JXS d index)) ∧
    (∀ (d : TableData) (index : Nat), Compares (TableData.XSS d index) (Release.TableData.XSS d index)) ∧
    (∀ (d : TableData) (index : Nat), Compares (TableData.IXSS d index) (Release.TableData.IXSS d index)) ∧
    (∀ (d : TableData) (index : Nat) (length : Nat),
      Compares (TableData.XSSr d index length) (Release.TableData.XSSr d index length)) ∧
    (∀ (d : TableData) (index : Nat) (value : Int),
      Compares (TableData.setNXS d index value) (Release.TableData.setNXS d index value)) :=
  ⟨fun d index => ⟨Release.TableData.IZ.keeps d index, Release.TableData.IZ.never d index⟩,
   fun d index => ⟨Release.TableData.AW.keeps d index, Release.TableData.AW.never d index⟩,
   fun d index => ⟨Release.TableData.NXS.keeps d index, Release.TableData.NXS.never d index⟩,
   fun d index => ⟨Release.TableData.JXS.keeps d index, Release.TableData.JXS.never d index⟩,
   fun d index => ⟨Release.TableData.XSS.keeps d index, Release.TableData.XSS.never d index⟩,
   fun d index => ⟨Release.TableData.IXSS.keeps d index, Release.TableData.IXSS.never d index⟩,
   fun d index length => ⟨Release.TableData.XSSr.keeps d index length, Release.TableData.XSSr.never d index length⟩,
   fun d index value => ⟨Release.TableData.setNXS.keeps d index value, Release.TableData.setNXS.never d index value⟩⟩

/-- Printing. -/
theorem C70_print :
    (∀ (F : Text.Formats) (d : TableData), Compares (TableData.print F d) (Release.TableData.print F d)) ∧
    (∀ (F : Text.Formats) (t : Table), Compares (Table.print F t) (Release.Table.print F t)) :=
  ⟨fun F d => ⟨Release.TableData.print.keeps F d, Release.TableData.print.never F d⟩,
   fun F t => ⟨Release.Table.print.keeps F t, Release.Table.print.never F t⟩⟩

/-- Fluorescence, form factor and electron blocks. -/
theorem C70_format_blocks :
    (∀ (d : JINC), Compares (JINC.momentum d) (Release.JINC.momentum d)) ∧
    (∀ (d : JINC), Compares (JINC.values d) (Release.JINC.values d)) ∧
    (∀ (d : JCOH), Compares (JCOH.momentum d) (Release.JCOH.momentum d)) ∧
    (∀ (d : JCOH), Compares (JCOH.integratedFormFactors d) (Release.JCOH.integratedFormFactors d)) ∧
    (∀ (d : JCOH), Compares (JCOH.formFactors d) (Release.JCOH.formFactors d)) ∧
    (∀ (d : ESZE), Compares (ESZE.energies d) (Release.ESZE.energies d)) ∧
    (∀ (d : ESZE), Compares (ESZE.total d) (Release.ESZE.total d)) ∧
    (∀ (d : ESZE), Compares (ESZE.elastic d) (Release.ESZE.elastic d)) ∧
    (∀ (d : ESZE), Compares (ESZE.bremsstrahlung d) (Release.ESZE.bremsstrahlung d)) ∧
    (∀ (d : ESZE), Compares (ESZE.excitation d) (Release.ESZE.excitation d)) ∧
    (∀ (d : ESZE), Compares (ESZE.totalElectroionisation d) (Release.ESZE.totalElectroionisation d)) ∧
    (∀ (d : ESZE) (index : Nat),
      Compares (ESZE.electroionisation d index) (Release.ESZE.electroionisation d index)) :=
  ⟨fun d => ⟨Release.JINC.momentum.keeps d, Release.JINC.momentum.never d⟩,
   fun d => ⟨Release.JINC.values.keeps d, Release.JINC.values.never d⟩,
   fun d => ⟨Release.JCOH.momentum.keeps d, Release.JCOH.momentum.never d⟩,
   fun d => ⟨Release.JCOH.integratedFormFactors.keeps d, Release.JCOH.integratedFormFactors.never d⟩,
   fun d => ⟨Release.JCOH.formFactors.keeps d, Release.JCOH.formFactors.never d⟩,
   fun d => ⟨Release.ESZE.energies.keeps d, Release.ESZE.energies.never d⟩,
   fun d => ⟨Release.ESZE.total.keeps d, Release.ESZE.total.never d⟩,
   fun d => ⟨Release.ESZE.elastic.keeps d, Release.ESZE.elastic.never d⟩,
   fun d => ⟨Release.ESZE.bremsstrahlung.keeps d, Release.ESZE.bremsstrahlung.never d⟩,
   fun d => ⟨Release.ESZE.excitation.keeps d, Release.ESZE.excitation.never d⟩,
   fun d => ⟨Release.ESZE.totalElectroionisation.keeps d, Release.ESZE.totalElectroionisation.never d⟩,
   fun d index => ⟨Release.ESZE.electroionisation.keeps d index, Release.ESZE.electroionisation.never d index⟩⟩

/-- Blocks that are searched. -/
theorem C70_lookup :
    (∀ (d : MTR) (index : Nat), Compares (MTR.MT d index) (Release.MTR.MT d index)) ∧
    (∀ (d : MTR), Compares (MTR.MTs d) (Release.MTR.MTs d)) ∧
    (∀ (d : PTYPE) (index : Nat), Compares (PTYPE.IP d index) (Release.PTYPE.IP d index)) ∧
    (∀ (d : YP), Compares (YP.NYP d) (Release.YP.NYP d)) ∧
    (∀ (xs : Words), Compares (YP.ofRange xs) (Release.YP.ofRange xs)) ∧
    (∀ (d : YP) (index : Nat), Compares (YP.MT d index) (Release.YP.MT d index)) ∧
    (∀ (d : YP), Compares (YP.MTs d) (Release.YP.MTs d)) ∧
    (∀ (d : IXS) (particle : Nat) (index : Nat),
      Compares (IXS.LLOC d particle index) (Release.IXS.LLOC d particle index)) ∧
    (∀ (d : IXS) (p : Nat), Compares (IXS.HPD d p) (Release.IXS.HPD d p)) ∧
    (∀ (d : IXS) (p : Nat), Compares (IXS.MTRH d p) (Release.IXS.MTRH d p)) ∧
    (∀ (d : IXS) (p : Nat), Compares (IXS.TYRH d p) (Release.IXS.TYRH d p)) ∧
    (∀ (d : IXS) (p : Nat), Compares (IXS.LSIGH d p) (Release.IXS.LSIGH d p)) ∧
    (∀ (d : IXS) (p : Nat), Compares (IXS.SIGH d p) (Release.IXS.SIGH d p)) ∧
    (∀ (d : IXS) (p : Nat), Compares (IXS.LANDH d p) (Release.IXS.LANDH d p)) ∧
    (∀ (d : IXS) (p : Nat), Compares (IXS.ANDH d p) (Release.IXS.ANDH d p)) ∧
    (∀ (d : IXS) (p : Nat), Compares (IXS.LDLWH d p) (Release.IXS.LDLWH d p)) ∧
    (∀ (d : IXS) (p : Nat), Compares (IXS.DLWH d p) (Release.IXS.DLWH d p)) ∧
    (∀ (d : IXS) (p : Nat), Compares (IXS.YP d p) (Release.IXS.YP d p)) ∧
    (∀ (d : IXSU) (particle : Nat) (index : Nat),
      Compares (IXSU.LLOC d particle index) (Release.IXSU.LLOC d particle index)) ∧
    (∀ (d : IXSU) (p : Nat), Compares (IXSU.IP d p) (Release.IXSU.IP d p)) ∧
    (∀ (d : IXSU) (p : Nat), Compares (IXSU.NP d p) (Release.IXSU.NP d p)) ∧
    (∀ (d : IXSU) (p : Nat), Compares (IXSU.PXS d p) (Release.IXSU.PXS d p)) ∧
    (∀ (d : IXSU) (p : Nat), Compares (IXSU.PHN d p) (Release.IXSU.PHN d p)) ∧
    (∀ (d : IXSU) (p : Nat), Compares (IXSU.MTRH d p) (Release.IXSU.MTRH d p)) ∧
    (∀ (d : IXSU) (p : Nat), Compares (IXSU.TYRH d p) (Release.IXSU.TYRH d p)) ∧
    (∀ (d : IXSU) (p : Nat), Compares (IXSU.LSIGH d p) (Release.IXSU.LSIGH d p)) ∧
    (∀ (d : IXSU) (p : Nat), Compares (IXSU.SIGH d p) (Release.IXSU.SIGH d p)) ∧
    (∀ (d : IXSU) (p : Nat), Compares (IXSU.LANDH d p) (Release.IXSU.LANDH d p)) ∧
    (∀ (d : IXSU) (p : Nat), Compares (IXSU.ANDH d p) (Release.IXSU.ANDH d p)) ∧
    (∀ (d : IXSU) (p : Nat), Compares (IXSU.LDLWH d p) (Release.IXSU.LDLWH d p)) ∧
    (∀ (d : IXSU) (p : Nat), Compares (IXSU.DLWH d p) (Release.IXSU.DLWH d p)) ∧
    (∀ (d : IXSU) (type : Nat), Compares (IXSU.hasIP d type) (Release.IXSU.hasIP d type)) ∧
    (∀ (d : IXSU) (type : Nat), Compares (IXSU.index d type) (Release.IXSU.index d type)) :=
  ⟨fun d index => ⟨Release.MTR.MT.keeps d index, Release.MTR.MT.never d index⟩,
   fun d => ⟨Release.MTR.MTs.keeps d, Release.MTR.MTs.never d⟩,
   fun d index => ⟨Release.PTYPE.IP.keeps d index, Release.PTYPE.IP.never d index⟩,
   fun d => ⟨Release.YP.NYP.keeps d, Release.YP.NYP.never d⟩,
   fun xs => ⟨Release.YP.ofRange.keeps xs, Release.YP.ofRange.never xs⟩,
   fun d index => ⟨Release.YP.MT.keeps d index, Release.YP.MT.never d index⟩,
   fun d => ⟨Release.YP.MTs.keeps d, Release.YP.MTs.never d⟩,
   fun d particle index => ⟨Release.IXS.LLOC.keeps d particle index, Release.IXS.LLOC.never d particle index⟩,
   fun d p => ⟨Release.IXS.HPD.keeps d p, Release.IXS.HPD.never d p⟩,
   fun d p => ⟨Release.IXS.MTRH.keeps d p, Release.IXS.MTRH.never d p⟩,
   fun d p => ⟨Release.IXS.TYRH.keeps d p, Release.IXS.TYRH.never d p⟩,
   fun d p => ⟨Release.IXS.LSIGH.keeps d p, Release.IXS.LSIGH.never d p⟩,
   fun d p => ⟨Release.IXS.SIGH.keeps d p, Release.IXS.SIGH.never d p⟩,
   fun d p => ⟨Release.IXS.LANDH.keeps d p, Release.IXS.LANDH.never d p⟩,
   fun d p => ⟨Release.IXS.ANDH.keeps d p, Release.IXS.ANDH.never d p⟩,
   fun d p => ⟨Release.IXS.LDLWH.keeps d p, Release.IXS.LDLWH.never d p⟩,
   fun d p => ⟨Release.IXS.DLWH.keeps d p, Release.IXS.DLWH.never d p⟩,
   fun d p => ⟨Release.IXS.YP.keeps d p, Release.IXS.YP.never d p⟩,
   fun d particle index => ⟨Release.IXSU.LLOC.keeps d particle index, Release.IXSU.LLOC.never d particle index⟩,
   fun d p => ⟨Release.IXSU.IP.keeps d p, Release.IXSU.IP.never d p⟩,
   fun d p => ⟨Release.IXSU.NP.keeps d p, Release.IXSU.NP.never d p⟩,
   fun d p => ⟨Release.IXSU.PXS.keeps d p, Release.IXSU.PXS.never d p⟩,
   fun d p => ⟨Release.IXSU.PHN.keeps d p, Release.IXSU.PHN.never d p⟩,
   fun d p => ⟨Release.IXSU.MTRH.keeps d p, Release.IXSU.MTRH.never d p⟩,
   fun d p => ⟨Release.IXSU.TYRH.keeps d p, Release.IXSU.TYRH.never d p⟩,
   fun d p => ⟨Release.IXSU.LSIGH.keeps d p, Release.IXSU.LSIGH.never d p⟩,
   fun d p => ⟨Release.IXSU.SIGH.keeps d p, Release.IXSU.SIGH.never d p⟩,
   fun d p => ⟨Release.IXSU.LANDH.keeps d p, Release.IXSU.LANDH.never d p⟩,
   fun d p => ⟨Release.IXSU.ANDH.keeps d p, Release.IXSU.ANDH.never d p⟩,
   fun d p => ⟨Release.IXSU.LDLWH.keeps d p, Release.IXSU.LDLWH.never d p⟩,
   fun d p => ⟨Release.IXSU.DLWH.keeps d p, Release.IXSU.DLWH.never d p⟩,
   fun d type => ⟨Release.IXSU.hasIP.keeps d type, Release.IXSU.hasIP.never d type⟩,
   fun d type => ⟨Release.IXSU.index.keeps d type, Release.IXSU.index.never d type⟩⟩

/-- Blocks with locators. -/
theorem C70_located :
    (∀ {D : Type} (b : LocBlock D) (index : Nat),
      Compares (LocBlock.LLOC b index) (Release.LocBlock.LLOC b index)) ∧
    (∀ {D : Type} (b : LocBlock D) (index : Nat),
      Compares (LocBlock.get b index) (Release.LocBlock.get b index)) ∧
    (∀ (d : CrossSectionData),
      Compares (CrossSectionData.energyIndex d) (Release.CrossSectionData.energyIndex d)) ∧
    (∀ (d : CrossSectionData),
      Compares (CrossSectionData.numberValues d) (Release.CrossSectionData.numberValues d)) ∧
    (∀ (d : CrossSectionData),
      Compares (CrossSectionData.crossSections d) (Release.CrossSectionData.crossSections d)) ∧
    (∀ (xs : Words), Compares (CrossSectionData.ofRange xs) (Release.CrossSectionData.ofRange xs)) ∧
    (∀ (xs : List CrossSectionData), Compares (SIG.mk' xs) (Release.SIG.mk' xs)) ∧
    (∀ (xs : Words) (sig : Nat) (ntr : Nat),
      Compares (SIG.ofRange xs sig ntr) (Release.SIG.ofRange xs sig ntr)) ∧
    (∀ (d : SIG) (index : Nat),
      Compares (SIG.crossSectionData d index) (Release.SIG.crossSectionData d index)) ∧
    (∀ (d : SIG) (index : Nat), Compares (SIG.energyIndex d index) (Release.SIG.energyIndex d index)) ∧
    (∀ (d : SIG) (index : Nat), Compares (SIG.numberValues d index) (Release.SIG.numberValues d index)) ∧
    (∀ (d : SIG) (index : Nat), Compares (SIG.crossSections d index) (Release.SIG.crossSections d index)) ∧
    (∀ (xs : List TabulatedData), Compares (SIGD.mk' xs) (Release.SIGD.mk' xs)) ∧
    (∀ (xs : Words) (sig : Nat) (ntr : Nat),
      Compares (SIGD.ofRange xs sig ntr) (Release.SIGD.ofRange xs sig ntr)) ∧
    (∀ (d : PhotonXS), Compares (PhotonXS.MFTYPE d) (Release.PhotonXS.MFTYPE d)) ∧
    (∀ (d : PhotonXS), Compares (PhotonXS.energyIndex d) (Release.PhotonXS.energyIndex d)) ∧
    (∀ (d : PhotonXS), Compares (PhotonXS.numberValues d) (Release.PhotonXS.numberValues d)) ∧
    (∀ (d : PhotonXS), Compares (PhotonXS.crossSections d) (Release.PhotonXS.crossSections d)) ∧
    (∀ (xs : Words), Compares (PhotonXS.ofRange xs) (Release.PhotonXS.ofRange xs)) ∧
    (∀ (mftype : Nat) (mt : Nat) (boundaries : List Int) (interpolants : List Int) (x : Words) (y : Words),
      Compares (TabMult.mk' mftype mt boundaries interpolants x y) (Release.TabMult.mk' mftype mt boundaries interpolants x y)) ∧
    (∀ (xs : Words), Compares (TabMult.ofRange xs) (Release.TabMult.ofRange xs)) ∧
    (∀ (d : TabMult), Compares (TabMult.MFTYPE d) (Release.TabMult.MFTYPE d)) ∧
    (∀ (d : TabMult), Compares (TabMult.MT d) (Release.TabMult.MT d)) ∧
    (∀ (d : TabMult), Compares (TabMult.NB d) (Release.TabMult.NB d)) ∧
    (∀ (d : TabMult), Compares (TabMult.NBT d) (Release.TabMult.NBT d)) ∧
    (∀ (d : TabMult), Compares (TabMult.INT d) (Release.TabMult.INT d)) ∧
    (∀ (d : TabMult), Compares (TabMult.NE d) (Release.TabMult.NE d)) ∧
    (∀ (d : TabMult), Compares (TabMult.E d) (Release.TabMult.E d)) ∧
    (∀ (d : TabMult), Compares (TabMult.NU d) (Release.TabMult.NU d)) ∧
    (∀ (xs : List PhotonData), Compares (SIGP.mk' xs) (Release.SIGP.mk' xs)) ∧
    (∀ (xs : Words) (sig : Nat) (ntr : Nat),
      Compares (SIGP.ofRange xs sig ntr) (Release.SIGP.ofRange xs sig ntr)) ∧
    (∀ (xs : List TabMult), Compares (SIGH.mk' xs) (Release.SIGH.mk' xs)) ∧
    (∀ (xs : Words) (sig : Nat) (np : Nat),
      Compares (SIGH.ofRange xs sig np) (Release.SIGH.ofRange xs sig np)) ∧
    (∀ (xs : List TabProb), Compares (SWD.mk' xs) (Release.SWD.mk' xs)) ∧
    (∀ (xs : Words) (swd : Nat) (nsh : Nat),
      Compares (SWD.ofRange xs swd nsh) (Release.SWD.ofRange xs swd nsh)) ∧
    (∀ (xs : List TRAN), Compares (XPROB.mk' xs) (Release.XPROB.mk' xs)) ∧
    (∀ (xs : Words) (xprob : Nat) (nssh : Nat),
      Compares (XPROB.ofRange xs xprob nssh) (Release.XPROB.ofRange xs xprob nssh)) ∧
    (∀ (d : ElectronDist), Compares (ElectronDist.values d) (Release.ElectronDist.values d)) ∧
    (∀ (d : ElectronDist), Compares (ElectronDist.cdf d) (Release.ElectronDist.cdf d)) ∧
    (∀ (blocks : List ElectronDist),
      Compares (ElectronBlock.mk' blocks) (Release.ElectronBlock.mk' blocks)) ∧
    (∀ (xs : Words) (n : Nat), Compares (ElectronBlock.ofRange xs n) (Release.ElectronBlock.ofRange xs n)) ∧
    (∀ (b : ElectronBlock) (index : Nat),
      Compares (ElectronBlock.LLOC b index) (Release.ElectronBlock.LLOC b index)) ∧
    (∀ (b : ElectronBlock) (index : Nat),
      Compares (ElectronBlock.energy b index) (Release.ElectronBlock.energy b index)) ∧
    (∀ (b : ElectronBlock) (index : Nat),
      Compares (ElectronBlock.length b index) (Release.ElectronBlock.length b index)) ∧
    (∀ (b : ElectronBlock), Compares (ElectronBlock.E b) (Release.ElectronBlock.E b)) ∧
    (∀ (b : ElectronBlock), Compares (ElectronBlock.L b) (Release.ElectronBlock.L b)) ∧
    (∀ (b : ElectronBlock) (index : Nat),
      Compares (ElectronBlock.get b index) (Release.ElectronBlock.get b index)) :=
  ⟨fun b index => ⟨Release.LocBlock.LLOC.keeps b index, Release.LocBlock.LLOC.never b index⟩,
   fun b index => ⟨Release.LocBlock.get.keeps b index, Release.LocBlock.get.never b index⟩,
   fun d => ⟨Release.CrossSectionData.energyIndex.keeps d, Release.CrossSectionData.energyIndex.never d⟩,
   fun d => ⟨Release.CrossSectionData.numberValues.keeps d, Release.CrossSectionData.numberValues.never d⟩,
   fun d => ⟨Release.CrossSectionData.crossSections.keeps d, Release.CrossSectionData.crossSections.never d⟩,
   fun xs => ⟨Release.CrossSectionData.ofRange.keeps xs, Release.CrossSectionData.ofRange.never xs⟩,
   fun xs => ⟨Release.SIG.mk'.keeps xs, Release.SIG.mk'.never xs⟩,
   fun xs sig ntr => ⟨Release.SIG.ofRange.keeps xs sig ntr, Release.SIG.ofRange.never xs sig ntr⟩,
   fun d index => ⟨Release.SIG.crossSectionData.keeps d index, Release.SIG.crossSectionData.never d index⟩,
   fun d index => ⟨Release.SIG.energyIndex.keeps d index, Release.SIG.energyIndex.never d index⟩,
   fun d index => ⟨Release.SIG.numberValues.keeps d index, Release.SIG.numberValues.never d index⟩,
   fun d index => ⟨Release.SIG.crossSections.keeps d index, Release.SIG.crossSections.never d index⟩,
   fun xs => ⟨Release.SIGD.mk'.keeps xs, Release.SIGD.mk'.never xs⟩,
   fun xs sig ntr => ⟨Release.SIGD.ofRange.keeps xs sig ntr, Release.SIGD.ofRange.never xs sig ntr⟩,
   fun d => ⟨Release.PhotonXS.MFTYPE.keeps d, Release.PhotonXS.MFTYPE.never d⟩,
   fun d => ⟨Release.PhotonXS.energyIndex.keeps d, Release.PhotonXS.energyIndex.never d⟩,
   fun d => ⟨Release.PhotonXS.numberValues.keeps d, Release.PhotonXS.numberValues.never d⟩,
   fun d => ⟨Release.PhotonXS.crossSections.keeps d, Release.PhotonXS.crossSections.never d⟩,
   fun xs => ⟨Release.PhotonXS.ofRange.keeps xs, Release.PhotonXS.ofRange.never xs⟩,
   fun mftype mt boundaries interpolants x y => ⟨Release.TabMult.mk'.keeps mftype mt boundaries interpolants x y, Release.TabMult.mk'.never mftype mt boundaries interpolants x y⟩,
   fun xs => ⟨Release.TabMult.ofRange.keeps xs, Release.TabMult.ofRange.never xs⟩,
   fun d => ⟨Release.TabMult.MFTYPE.keeps d, Release.TabMult.MFTYPE.never d⟩,
   fun d => ⟨Release.TabMult.MT.keeps d, Release.TabMult.MT.never d⟩,
   fun d => ⟨Release.TabMult.NB.keeps d, Release.TabMult.NB.never d⟩,
   fun d => ⟨Release.TabMult.NBT.keeps d, Release.TabMult.NBT.never d⟩,
   fun d => ⟨Release.TabMult.INT.keeps d, Release.TabMult.INT.never d⟩,
   fun d => ⟨Release.TabMult.NE.keeps d, Release.TabMult.NE.never d⟩,
   fun d => ⟨Release.TabMult.E.keeps d, Release.TabMult.E.never d⟩,
   fun d => ⟨Release.TabMult.NU.keeps d, Release.TabMult.NU.never d⟩,
   fun xs => ⟨Release.SIGP.mk'.keeps xs, Release.SIGP.mk'.never xs⟩,
   fun xs sig ntr => ⟨Release.SIGP.ofRange.keeps xs sig ntr, Release.SIGP.ofRange.never xs sig ntr⟩,
   fun xs => ⟨Release.SIGH.mk'.keeps xs, Release.SIGH.mk'.never xs⟩,
   fun xs sig np => ⟨Release.SIGH.ofRange.keeps xs sig np, Release.SIGH.ofRange.never xs sig np⟩,
   fun xs => ⟨Release.SWD.mk'.keeps xs, Release.SWD.mk'.never xs⟩,
   fun xs swd nsh => ⟨Release.SWD.ofRange.keeps xs swd nsh, Release.SWD.ofRange.never xs swd nsh⟩,
   fun xs => ⟨Release.XPROB.mk'.keeps xs, Release.XPROB.mk'.never xs⟩,
   fun xs xprob nssh => ⟨Release.XPROB.ofRange.keeps xs xprob nssh, Release.XPROB.ofRange.never xs xprob nssh⟩,
   fun d => ⟨Release.ElectronDist.values.keeps d, Release.ElectronDist.values.never d⟩,
   fun d => ⟨Release.ElectronDist.cdf.keeps d, Release.ElectronDist.cdf.never d⟩,
   fun blocks => ⟨Release.ElectronBlock.mk'.keeps blocks, Release.ElectronBlock.mk'.never blocks⟩,
   fun xs n => ⟨Release.ElectronBlock.ofRange.keeps xs n, Release.ElectronBlock.ofRange.never xs n⟩,
   fun b index => ⟨Release.ElectronBlock.LLOC.keeps b index, Release.ElectronBlock.LLOC.never b index⟩,
   fun b index => ⟨Release.ElectronBlock.energy.keeps b index, Release.ElectronBlock.energy.never b index⟩,
   fun b index => ⟨Release.ElectronBlock.length.keeps b index, Release.ElectronBlock.length.never b index⟩,
   fun b => ⟨Release.ElectronBlock.E.keeps b, Release.ElectronBlock.E.never b⟩,
   fun b => ⟨Release.ElectronBlock.L.keeps b, Release.ElectronBlock.L.never b⟩,
   fun b index => ⟨Release.ElectronBlock.get.keeps b index, Release.ElectronBlock.get.never b index⟩⟩

/-- Distribution data. -/
theorem C70_distributions :
    (∀ (values : ColumnData) (column : Nat) (index : Nat),
      Compares (Dist.value values column index) (Release.Dist.value values column index)) ∧
    (∀ (values : ColumnData) (index : Nat),
      Compares (Dist.LOCC values index) (Release.Dist.LOCC values index)) ∧
    (∀ {D : Type} (d : DistData D), Compares (DistData.NB d) (Release.DistData.NB d)) ∧
    (∀ {D : Type} (d : DistData D), Compares (DistData.NBT d) (Release.DistData.NBT d)) ∧
    (∀ {D : Type} (d : DistData D), Compares (DistData.INT d) (Release.DistData.INT d)) ∧
    (∀ {D : Type} (d : DistData D), Compares (DistData.NE d) (Release.DistData.NE d)) ∧
    (∀ {D : Type} (d : DistData D),
      Compares (DistData.incidentEnergies d) (Release.DistData.incidentEnergies d)) ∧
    (∀ {D : Type} (d : DistData D) (index : Nat),
      Compares (DistData.incidentEnergy d index) (Release.DistData.incidentEnergy d index)) ∧
    (∀ {D : Type} (d : DistData D),
      Compares (DistData.minimumIncidentEnergy d) (Release.DistData.minimumIncidentEnergy d)) ∧
    (∀ {D : Type} (d : DistData D),
      Compares (DistData.maximumIncidentEnergy d) (Release.DistData.maximumIncidentEnergy d)) ∧
    (∀ {D : Type} (d : DistData D) (index : Nat),
      Compares (DistData.LOCC d index) (Release.DistData.LOCC d index)) ∧
    (∀ {D : Type} (d : DistData D) (index : Nat),
      Compares (DistData.distribution d index) (Release.DistData.distribution d index)) ∧
    (∀ (boundaries : List Int) (interpolants : List Int) (ds : List TabDist) (locb : Nat),
      Compares (Law4.mk' boundaries interpolants ds locb) (Release.Law4.mk' boundaries interpolants ds locb)) ∧
    (∀ (locb : Nat) (xs : Words), Compares (Law4.ofRange locb xs) (Release.Law4.ofRange locb xs)) ∧
    (∀ {D : Type} (d : DistDataI D),
      Compares (DistDataI.interpolation d) (Release.DistDataI.interpolation d)) ∧
    (∀ {D : Type} (d : DistDataI D), Compares (DistDataI.N d) (Release.DistDataI.N d)) ∧
    (∀ {D : Type} (d : DistDataI D) (column : Nat),
      Compares (DistDataI.column d column) (Release.DistDataI.column d column)) ∧
    (∀ {D : Type} (d : DistDataI D) (column : Nat) (index : Nat),
      Compares (DistDataI.value d column index) (Release.DistDataI.value d column index)) ∧
    (∀ {D : Type} (d : DistDataI D) (index : Nat),
      Compares (DistDataI.LOCC d index) (Release.DistDataI.LOCC d index)) ∧
    (∀ {D : Type} (d : DistDataI D) (index : Nat),
      Compares (DistDataI.distribution d index) (Release.DistDataI.distribution d index)) ∧
    (∀ (incident : Dbl) (interpolation : Int) (ds : List TabDist) (locb : Nat),
      Compares (AngleEnergy.mk' incident interpolation ds locb) (Release.AngleEnergy.mk' incident interpolation ds locb)) ∧
    (∀ (incident : Dbl) (locb : Nat) (xs : Words),
      Compares (AngleEnergy.ofRange incident locb xs) (Release.AngleEnergy.ofRange incident locb xs)) ∧
    (∀ (boundaries : List Int) (interpolants : List Int) (ds : List AngleEnergy) (locb : Nat),
      Compares (Law67.mk' boundaries interpolants ds locb) (Release.Law67.mk' boundaries interpolants ds locb)) ∧
    (∀ (locb : Nat) (xs : Words), Compares (Law67.ofRange locb xs) (Release.Law67.ofRange locb xs)) ∧
    (∀ (energy : Dbl) (probability : Dbl) (cumulative : Dbl) (xs : Words),
      Compares (AngularProb.ofRange energy probability cumulative xs) (Release.AngularProb.ofRange energy probability cumulative xs)) ∧
    (∀ (incident : Dbl) (interpolation : Int) (ds : List AngularProb) (locb : Nat),
      Compares (EnergyAngle.mk' incident interpolation ds locb) (Release.EnergyAngle.mk' incident interpolation ds locb)) ∧
    (∀ (incident : Dbl) (locb : Nat) (xs : Words),
      Compares (EnergyAngle.ofRange incident locb xs) (Release.EnergyAngle.ofRange incident locb xs)) ∧
    (∀ (boundaries : List Int) (interpolants : List Int) (ds : List EnergyAngle) (locb : Nat),
      Compares (Law61.mk' boundaries interpolants ds locb) (Release.Law61.mk' boundaries interpolants ds locb)) ∧
    (∀ (locb : Nat) (xs : Words), Compares (Law61.ofRange locb xs) (Release.Law61.ofRange locb xs)) :=
  ⟨fun values column index => ⟨Release.Dist.value.keeps values column index, Release.Dist.value.never values column index⟩,
   fun values index => ⟨Release.Dist.LOCC.keeps values index, Release.Dist.LOCC.never values index⟩,
   fun d => ⟨Release.DistData.NB.keeps d, Release.DistData.NB.never d⟩,
   fun d => ⟨Release.DistData.NBT.keeps d, Release.DistData.NBT.never d⟩,
   fun d => ⟨Release.DistData.INT.keeps d, Release.DistData.INT.never d⟩,
   fun d => ⟨Release.DistData.NE.keeps d, Release.DistData.NE.never d⟩,
   fun d => ⟨Release.DistData.incidentEnergies.keeps d, Release.DistData.incidentEnergies.never d⟩,
   fun d index => ⟨Release.DistData.incidentEnergy.keeps d index, Release.DistData.incidentEnergy.never d index⟩,
   fun d => ⟨Release.DistData.minimumIncidentEnergy.keeps d, Release.DistData.minimumIncidentEnergy.never d⟩,
   fun d => ⟨Release.DistData.maximumIncidentEnergy.keeps d, Release.DistData.maximumIncidentEnergy.never d⟩,
   fun d index => ⟨Release.DistData.LOCC.keeps d index, Release.DistData.LOCC.never d index⟩,
   fun d index => ⟨Release.DistData.distribution.keeps d index, Release.DistData.distribution.never d index⟩,
   fun boundaries interpolants ds locb => ⟨Release.Law4.mk'.keeps boundaries interpolants ds locb, Release.Law4.mk'.never boundaries interpolants ds locb⟩,
   fun locb xs => ⟨Release.Law4.ofRange.keeps locb xs, Release.Law4.ofRange.never locb xs⟩,
   fun d => ⟨Release.DistDataI.interpolation.keeps d, Release.DistDataI.interpolation.never d⟩,
   fun d => ⟨Release.DistDataI.N.keeps d, Release.DistDataI.N.never d⟩,
   fun d column => ⟨Release.DistDataI.column.keeps d column, Release.DistDataI.column.never d column⟩,
   fun d column index => ⟨Release.DistDataI.value.keeps d column index, Release.DistDataI.value.never d column index⟩,
   fun d index => ⟨Release.DistDataI.LOCC.keeps d index, Release.DistDataI.LOCC.never d index⟩,
   fun d index => ⟨Release.DistDataI.distribution.keeps d index, Release.DistDataI.distribution.never d index⟩,
   fun incident interpolation ds locb => ⟨Release.AngleEnergy.mk'.keeps incident interpolation ds locb, Release.AngleEnergy.mk'.never incident interpolation ds locb⟩,
   fun incident locb xs => ⟨Release.AngleEnergy.ofRange.keeps incident locb xs, Release.AngleEnergy.ofRange.never incident locb xs⟩,
   fun boundaries interpolants ds locb => ⟨Release.Law67.mk'.keeps boundaries interpolants ds locb, Release.Law67.mk'.never boundaries interpolants ds locb⟩,
   fun locb xs => ⟨Release.Law67.ofRange.keeps locb xs, Release.Law67.ofRange.never locb xs⟩,
   fun energy probability cumulative xs => ⟨Release.AngularProb.ofRange.keeps energy probability cumulative xs, Release.AngularProb.ofRange.never energy probability cumulative xs⟩,
   fun incident interpolation ds locb => ⟨Release.EnergyAngle.mk'.keeps incident interpolation ds locb, Release.EnergyAngle.mk'.never incident interpolation ds locb⟩,
   fun incident locb xs => ⟨Release.EnergyAngle.ofRange.keeps incident locb xs, Release.EnergyAngle.ofRange.never incident locb xs⟩,
   fun boundaries interpolants ds locb => ⟨Release.Law61.mk'.keeps boundaries interpolants ds locb, Release.Law61.mk'.never boundaries interpolants ds locb⟩,
   fun locb xs => ⟨Release.Law61.ofRange.keeps locb xs, Release.Law61.ofRange.never locb xs⟩⟩

/-- Angular distributions. -/
theorem C70_angular :
    (∀ (d : EquiAngular), Compares (EquiAngular.cosines d) (Release.EquiAngular.cosines d)) ∧
    (∀ (sort : StdSort AngDist.energy) (ds : List AngDist) (locb : Nat),
      Compares (AngularData.mk' sort ds locb) (Release.AngularData.mk' sort ds locb)) ∧
    (∀ (locb : Nat) (xs : Words),
      Compares (AngularData.ofRange locb xs) (Release.AngularData.ofRange locb xs)) ∧
    (∀ (d : AngularData), Compares (AngularData.NE d) (Release.AngularData.NE d)) ∧
    (∀ (d : AngularData),
      Compares (AngularData.incidentEnergies d) (Release.AngularData.incidentEnergies d)) ∧
    (∀ (d : AngularData) (index : Nat),
      Compares (AngularData.incidentEnergy d index) (Release.AngularData.incidentEnergy d index)) ∧
    (∀ (d : AngularData) (index : Nat),
      Compares (AngularData.LOCC d index) (Release.AngularData.LOCC d index)) ∧
    (∀ (d : AngularData) (index : Nat),
      Compares (AngularData.distributionType d index) (Release.AngularData.distributionType d index)) ∧
    (∀ (d : AngularData) (index : Nat),
      Compares (AngularData.distribution d index) (Release.AngularData.distribution d index)) ∧
    (∀ (sort : StdSort AngDist.energy) (entries : List AngEntry),
      Compares (AngularBlock.mk' sort entries) (Release.AngularBlock.mk' sort entries)) ∧
    (∀ (xs : Words) (iter : Nat) (nr : Nat) (zero : Bool),
      Compares (AngularBlock.ofRange xs iter nr zero) (Release.AngularBlock.ofRange xs iter nr zero)) ∧
    (∀ (b : AngularBlock) (index : Nat),
      Compares (AngularBlock.LAND b index) (Release.AngularBlock.LAND b index)) ∧
    (∀ (b : AngularBlock) (index : Nat),
      Compares (AngularBlock.isFullyIsotropic b index) (Release.AngularBlock.isFullyIsotropic b index)) ∧
    (∀ (b : AngularBlock) (index : Nat),
      Compares (AngularBlock.get b index) (Release.AngularBlock.get b index)) :=
  ⟨fun d => ⟨Release.EquiAngular.cosines.keeps d, Release.EquiAngular.cosines.never d⟩,
   fun sort ds locb => ⟨Release.AngularData.mk'.keeps sort ds locb, Release.AngularData.mk'.never sort ds locb⟩,
   fun locb xs => ⟨Release.AngularData.ofRange.keeps locb xs, Release.AngularData.ofRange.never locb xs⟩,
   fun d => ⟨Release.AngularData.NE.keeps d, Release.AngularData.NE.never d⟩,
   fun d => ⟨Release.AngularData.incidentEnergies.keeps d, Release.AngularData.incidentEnergies.never d⟩,
   fun d index => ⟨Release.AngularData.incidentEnergy.keeps d index, Release.AngularData.incidentEnergy.never d index⟩,
   fun d index => ⟨Release.AngularData.LOCC.keeps d index, Release.AngularData.LOCC.never d index⟩,
   fun d index => ⟨Release.AngularData.distributionType.keeps d index, Release.AngularData.distributionType.never d index⟩,
   fun d index => ⟨Release.AngularData.distribution.keeps d index, Release.AngularData.distribution.never d index⟩,
   fun sort entries => ⟨Release.AngularBlock.mk'.keeps sort entries, Release.AngularBlock.mk'.never sort entries⟩,
   fun xs iter nr zero => ⟨Release.AngularBlock.ofRange.keeps xs iter nr zero, Release.AngularBlock.ofRange.never xs iter nr zero⟩,
   fun b index => ⟨Release.AngularBlock.LAND.keeps b index, Release.AngularBlock.LAND.never b index⟩,
   fun b index => ⟨Release.AngularBlock.isFullyIsotropic.keeps b index, Release.AngularBlock.isFullyIsotropic.never b index⟩,
   fun b index => ⟨Release.AngularBlock.get.keeps b index, Release.AngularBlock.get.never b index⟩⟩

/-- Energy distribution laws. -/
theorem C70_laws :
    (∀ (d : TwoParam), Compares (TwoParam.LP d) (Release.TwoParam.LP d)) ∧
    (∀ (d : TwoParam), Compares (TwoParam.isPrimaryPhoton d) (Release.TwoParam.isPrimaryPhoton d)) ∧
    (∀ (d : TwoParam), Compares (TwoParam.EG d) (Release.TwoParam.EG d)) ∧
    (∀ (d : EquiEnergy), Compares (EquiEnergy.energies d) (Release.EquiEnergy.energies d)) ∧
    (∀ (sort : StdSort EquiEnergy.incident) (boundaries : List Int) (interpolants : List Int) (ds : List EquiEnergy),
      Compares (EquiBinData.mk' sort boundaries interpolants ds) (Release.EquiBinData.mk' sort boundaries interpolants ds)) ∧
    (∀ (xs : Words), Compares (EquiBinData.ofRange xs) (Release.EquiBinData.ofRange xs)) ∧
    (∀ (d : EquiBinData), Compares (EquiBinData.NB d) (Release.EquiBinData.NB d)) ∧
    (∀ (d : EquiBinData), Compares (EquiBinData.NBT d) (Release.EquiBinData.NBT d)) ∧
    (∀ (d : EquiBinData), Compares (EquiBinData.INT d) (Release.EquiBinData.INT d)) ∧
    (∀ (d : EquiBinData), Compares (EquiBinData.NE d) (Release.EquiBinData.NE d)) ∧
    (∀ (d : EquiBinData),
      Compares (EquiBinData.incidentEnergies d) (Release.EquiBinData.incidentEnergies d)) ∧
    (∀ (d : EquiBinData) (index : Nat),
      Compares (EquiBinData.incidentEnergy d index) (Release.EquiBinData.incidentEnergy d index)) ∧
    (∀ (d : EquiBinData), Compares (EquiBinData.NET d) (Release.EquiBinData.NET d)) ∧
    (∀ (d : EquiBinData), Compares (EquiBinData.emin d) (Release.EquiBinData.emin d)) ∧
    (∀ (d : EquiBinData), Compares (EquiBinData.emax d) (Release.EquiBinData.emax d)) ∧
    (∀ (d : EquiBinData) (index : Nat),
      Compares (EquiBinData.distribution d index) (Release.EquiBinData.distribution d index)) ∧
    (∀ (boundaries : List Int) (interpolants : List Int) (energies : Words) (temperatures : Words) (bins : Words),
      Compares (GenEvap.mk' boundaries interpolants energies temperatures bins) (Release.GenEvap.mk' boundaries interpolants energies temperatures bins)) ∧
    (∀ (xs : Words), Compares (GenEvap.ofRange xs) (Release.GenEvap.ofRange xs)) ∧
    (∀ (d : GenEvap), Compares (GenEvap.NET d) (Release.GenEvap.NET d)) ∧
    (∀ (d : GenEvap), Compares (GenEvap.emin d) (Release.GenEvap.emin d)) ∧
    (∀ (d : GenEvap), Compares (GenEvap.emax d) (Release.GenEvap.emax d)) ∧
    (∀ (x0 : TabulatedData) (b : TabulatedData) (energy : Dbl),
      Compares (Watt.mk' x0 b energy) (Release.Watt.mk' x0 b energy)) ∧
    (∀ (xs : Words), Compares (Watt.ofRange xs) (Release.Watt.ofRange xs)) ∧
    (∀ (d : Watt), Compares (Watt.emin d) (Release.Watt.emin d)) ∧
    (∀ (d : Watt), Compares (Watt.emax d) (Release.Watt.emax d)) ∧
    (∀ (d : NBody), Compares (NBody.NPSX d) (Release.NBody.NPSX d)) ∧
    (∀ (d : NBody), Compares (NBody.AP d) (Release.NBody.AP d)) ∧
    (∀ (d : NBody), Compares (NBody.interpolation d) (Release.NBody.interpolation d)) ∧
    (∀ (d : NBody), Compares (NBody.numberValues d) (Release.NBody.numberValues d)) ∧
    (∀ (d : NBody), Compares (NBody.values d) (Release.NBody.values d)) ∧
    (∀ (d : NBody), Compares (NBody.pdf d) (Release.NBody.pdf d)) ∧
    (∀ (d : NBody), Compares (NBody.cdf d) (Release.NBody.cdf d)) ∧
    (∀ (x0 : LawData), Compares (LawData.emin x0) (Release.LawData.emin x0)) ∧
    (∀ (x0 : LawData), Compares (LawData.emax x0) (Release.LawData.emax x0)) ∧
    (∀ (ps : List TabulatedData) (ds : List LawData) (locb : Nat),
      Compares (MultiData.mk' ps ds locb) (Release.MultiData.mk' ps ds locb)) ∧
    (∀ (locb : Nat) (xs : Words),
      Compares (MultiData.ofRange locb xs) (Release.MultiData.ofRange locb xs)) ∧
    (∀ (d : MultiData) (index : Nat),
      Compares (MultiData.probability d index) (Release.MultiData.probability d index)) ∧
    (∀ (d : MultiData) (index : Nat),
      Compares (MultiData.distribution d index) (Release.MultiData.distribution d index)) :=
  ⟨fun d => ⟨Release.TwoParam.LP.keeps d, Release.TwoParam.LP.never d⟩,
   fun d => ⟨Release.TwoParam.isPrimaryPhoton.keeps d, Release.TwoParam.isPrimaryPhoton.never d⟩,
   fun d => ⟨Release.TwoParam.EG.keeps d, Release.TwoParam.EG.never d⟩,
   fun d => ⟨Release.EquiEnergy.energies.keeps d, Release.EquiEnergy.energies.never d⟩,
   fun sort boundaries interpolants ds => ⟨Release.EquiBinData.mk'.keeps sort boundaries interpolants ds, Release.EquiBinData.mk'.never sort boundaries interpolants ds⟩,
   fun xs => ⟨Release.EquiBinData.ofRange.keeps xs, Release.EquiBinData.ofRange.never xs⟩,
   fun d => ⟨Release.EquiBinData.NB.keeps d, Release.EquiBinData.NB.never d⟩,
   fun d => ⟨Release.EquiBinData.NBT.keeps d, Release.EquiBinData.NBT.never d⟩,
   fun d => ⟨Release.EquiBinData.INT.keeps d, Release.EquiBinData.INT.never d⟩,
   fun d => ⟨Release.EquiBinData.NE.keeps d, Release.EquiBinData.NE.never d⟩,
   fun d => ⟨Release.EquiBinData.incidentEnergies.keeps d, Release.EquiBinData.incidentEnergies.never d⟩,
   fun d index => ⟨Release.EquiBinData.incidentEnergy.keeps d index, Release.EquiBinData.incidentEnergy.never d index⟩,
   fun d => ⟨Release.EquiBinData.NET.keeps d, Release.EquiBinData.NET.never d⟩,
   fun d => ⟨Release.EquiBinData.emin.keeps d, Release.EquiBinData.emin.never d⟩,
   fun d => ⟨Release.EquiBinData.emax.keeps d, Release.EquiBinData.emax.never d⟩,
   fun d index => ⟨Release.EquiBinData.distribution.keeps d index, Release.EquiBinData.distribution.never d index⟩,
   fun boundaries interpolants energies temperatures bins => ⟨Release.GenEvap.mk'.keeps boundaries interpolants energies temperatures bins, Release.GenEvap.mk'.never boundaries interpolants energies temperatures bins⟩,
   fun xs => ⟨Release.GenEvap.ofRange.keeps xs, Release.GenEvap.ofRange.never xs⟩,
   fun d => ⟨Release.GenEvap.NET.keeps d, Release.GenEvap.NET.never d⟩,
   fun d => ⟨Release.GenEvap.emin.keeps d, Release.GenEvap.emin.never d⟩,
   fun d => ⟨Release.GenEvap.emax.keeps d, Release.GenEvap.emax.never d⟩,
   fun x0 b energy => ⟨Release.Watt.mk'.keeps x0 b energy, Release.Watt.mk'.never x0 b energy⟩,
   fun xs => ⟨Release.Watt.ofRange.keeps xs, Release.Watt.ofRange.never xs⟩,
   fun d => ⟨Release.Watt.emin.keeps d, Release.Watt.emin.never d⟩,
   fun d => ⟨Release.Watt.emax.keeps d, Release.Watt.emax.never d⟩,
   fun d => ⟨Release.NBody.NPSX.keeps d, Release.NBody.NPSX.never d⟩,
   fun d => ⟨Release.NBody.AP.keeps d, Release.NBody.AP.never d⟩,
   fun d => ⟨Release.NBody.interpolation.keeps d, Release.NBody.interpolation.never d⟩,
   fun d => ⟨Release.NBody.numberValues.keeps d, Release.NBody.numberValues.never d⟩,
   fun d => ⟨Release.NBody.values.keeps d, Release.NBody.values.never d⟩,
   fun d => ⟨Release.NBody.pdf.keeps d, Release.NBody.pdf.never d⟩,
   fun d => ⟨Release.NBody.cdf.keeps d, Release.NBody.cdf.never d⟩,
   fun x0 => ⟨Release.LawData.emin.keeps x0, Release.LawData.emin.never x0⟩,
   fun x0 => ⟨Release.LawData.emax.keeps x0, Release.LawData.emax.never x0⟩,
   fun ps ds locb => ⟨Release.MultiData.mk'.keeps ps ds locb, Release.MultiData.mk'.never ps ds locb⟩,
   fun locb xs => ⟨Release.MultiData.ofRange.keeps locb xs, Release.MultiData.ofRange.never locb xs⟩,
   fun d index => ⟨Release.MultiData.probability.keeps d index, Release.MultiData.probability.never d index⟩,
   fun d index => ⟨Release.MultiData.distribution.keeps d index, Release.MultiData.distribution.never d index⟩⟩

/-- DLW and DLWH. -/
theorem C70_energy_blocks :
    (∀ (frames : List Frame) (multiplicities : List Nat),
      Compares (TYR.mk' frames multiplicities) (Release.TYR.mk' frames multiplicities)) ∧
    (∀ (frames : List Frame), Compares (TYR.ofFrames frames) (Release.TYR.ofFrames frames)) ∧
    (∀ (xs : Words) (ntr : Nat), Compares (TYR.ofRange xs ntr) (Release.TYR.ofRange xs ntr)) ∧
    (∀ (t : TYR) (index : Nat),
      Compares (TYR.referenceFrame t index) (Release.TYR.referenceFrame t index)) ∧
    (∀ (t : TYR) (index : Nat), Compares (TYR.multiplicity t index) (Release.TYR.multiplicity t index)) ∧
    (∀ (distributions : List EnergyData) (multiplicities : List Mult) (frames : List Frame),
      Compares (DLW.mk' distributions multiplicities frames) (Release.DLW.mk' distributions multiplicities frames)) ∧
    (∀ (xs : Words) (data : Nat) (tyr : TYR) (nr : Nat),
      Compares (DLW.ofRange xs data tyr nr) (Release.DLW.ofRange xs data tyr nr)) ∧
    (∀ (d : DLW) (index : Nat), Compares (DLW.LDLW d index) (Release.DLW.LDLW d index)) ∧
    (∀ (d : DLW) (index : Nat), Compares (DLW.distribution d index) (Release.DLW.distribution d index)) ∧
    (∀ (d : DLW) (index : Nat), Compares (DLW.multiplicity d index) (Release.DLW.multiplicity d index)) ∧
    (∀ (d : DLW) (index : Nat),
      Compares (DLW.referenceFrame d index) (Release.DLW.referenceFrame d index)) ∧
    (∀ (distributions : List EnergyData) (frames : Option (List Frame)),
      Compares (DLWH.mk' distributions frames) (Release.DLWH.mk' distributions frames)) ∧
    (∀ (xs : Words) (iter : Nat) (tyrh : Option TYR) (nr : Nat),
      Compares (DLWH.ofRange xs iter tyrh nr) (Release.DLWH.ofRange xs iter tyrh nr)) ∧
    (∀ (d : DLWH) (index : Nat), Compares (DLWH.distribution d index) (Release.DLWH.distribution d index)) ∧
    (∀ (d : DLWH) (index : Nat), Compares (DLWH.LDLW d index) (Release.DLWH.LDLW d index)) ∧
    (∀ (d : DLWH) (index : Nat),
      Compares (DLWH.referenceFrame d index) (Release.DLWH.referenceFrame d index)) :=
  ⟨fun frames multiplicities => ⟨Release.TYR.mk'.keeps frames multiplicities, Release.TYR.mk'.never frames multiplicities⟩,
   fun frames => ⟨Release.TYR.ofFrames.keeps frames, Release.TYR.ofFrames.never frames⟩,
   fun xs ntr => ⟨Release.TYR.ofRange.keeps xs ntr, Release.TYR.ofRange.never xs ntr⟩,
   fun t index => ⟨Release.TYR.referenceFrame.keeps t index, Release.TYR.referenceFrame.never t index⟩,
   fun t index => ⟨Release.TYR.multiplicity.keeps t index, Release.TYR.multiplicity.never t index⟩,
   fun distributions multiplicities frames => ⟨Release.DLW.mk'.keeps distributions multiplicities frames, Release.DLW.mk'.never distributions multiplicities frames⟩,
   fun xs data tyr nr => ⟨Release.DLW.ofRange.keeps xs data tyr nr, Release.DLW.ofRange.never xs data tyr nr⟩,
   fun d index => ⟨Release.DLW.LDLW.keeps d index, Release.DLW.LDLW.never d index⟩,
   fun d index => ⟨Release.DLW.distribution.keeps d index, Release.DLW.distribution.never d index⟩,
   fun d index => ⟨Release.DLW.multiplicity.keeps d index, Release.DLW.multiplicity.never d index⟩,
   fun d index => ⟨Release.DLW.referenceFrame.keeps d index, Release.DLW.referenceFrame.never d index⟩,
   fun distributions frames => ⟨Release.DLWH.mk'.keeps distributions frames, Release.DLWH.mk'.never distributions frames⟩,
   fun xs iter tyrh nr => ⟨Release.DLWH.ofRange.keeps xs iter tyrh nr, Release.DLWH.ofRange.never xs iter tyrh nr⟩,
   fun d index => ⟨Release.DLWH.distribution.keeps d index, Release.DLWH.distribution.never d index⟩,
   fun d index => ⟨Release.DLWH.LDLW.keeps d index, Release.DLWH.LDLW.never d index⟩,
   fun d index => ⟨Release.DLWH.referenceFrame.keeps d index, Release.DLWH.referenceFrame.never d index⟩⟩

/-- NU, BDD, UNR. -/
theorem C70_fission :
    (∀ (d : PolyNu), Compares (PolyNu.LNU d) (Release.PolyNu.LNU d)) ∧
    (∀ (d : PolyNu), Compares (PolyNu.NC d) (Release.PolyNu.NC d)) ∧
    (∀ (d : PolyNu), Compares (PolyNu.C d) (Release.PolyNu.C d)) ∧
    (∀ (xs : Words), Compares (PolyNu.ofRange xs) (Release.PolyNu.ofRange xs)) ∧
    (∀ (boundaries : List Int) (interpolants : List Int) (x : Words) (y : Words),
      Compares (TabNu.mk' boundaries interpolants x y) (Release.TabNu.mk' boundaries interpolants x y)) ∧
    (∀ (xs : Words), Compares (TabNu.ofRange xs) (Release.TabNu.ofRange xs)) ∧
    (∀ (d : TabNu), Compares (TabNu.LNU d) (Release.TabNu.LNU d)) ∧
    (∀ (d : TabNu), Compares (TabNu.NB d) (Release.TabNu.NB d)) ∧
    (∀ (d : TabNu), Compares (TabNu.NBT d) (Release.TabNu.NBT d)) ∧
    (∀ (d : TabNu), Compares (TabNu.INT d) (Release.TabNu.INT d)) ∧
    (∀ (d : TabNu), Compares (TabNu.NE d) (Release.TabNu.NE d)) ∧
    (∀ (d : TabNu), Compares (TabNu.E d) (Release.TabNu.E d)) ∧
    (∀ (d : TabNu), Compares (TabNu.NU d) (Release.TabNu.NU d)) ∧
    (∀ (prompt : NuData), Compares (NU.mk1 prompt) (Release.NU.mk1 prompt)) ∧
    (∀ (prompt : NuData) (total : NuData), Compares (NU.mk2 prompt total) (Release.NU.mk2 prompt total)) ∧
    (∀ (xs : Words), Compares (NU.ofRange xs) (Release.NU.ofRange xs)) ∧
    (∀ (xs : Words) (number : Nat),
      Compares (Precursor.ofRange xs number) (Release.Precursor.ofRange xs number)) ∧
    (∀ (number : Nat) (constant : Dbl) (boundaries : List Int) (interpolants : List Int) (energies : Words) (probabilities : Words),
      Compares (Precursor.mk' number constant boundaries interpolants energies probabilities) (Release.Precursor.mk' number constant boundaries interpolants energies probabilities)) ∧
    (∀ (d : Precursor), Compares (Precursor.DEC d) (Release.Precursor.DEC d)) ∧
    (∀ (d : Precursor), Compares (Precursor.NB d) (Release.Precursor.NB d)) ∧
    (∀ (d : Precursor), Compares (Precursor.NBT d) (Release.Precursor.NBT d)) ∧
    (∀ (d : Precursor), Compares (Precursor.INT d) (Release.Precursor.INT d)) ∧
    (∀ (d : Precursor), Compares (Precursor.NE d) (Release.Precursor.NE d)) ∧
    (∀ (d : Precursor), Compares (Precursor.E d) (Release.Precursor.E d)) ∧
    (∀ (d : Precursor), Compares (Precursor.P d) (Release.Precursor.P d)) ∧
    (∀ (xs : Words) (npcr : Nat), Compares (BDD.ofRange xs npcr) (Release.BDD.ofRange xs npcr)) ∧
    (∀ (gs : List Precursor), Compares (BDD.mk' gs) (Release.BDD.mk' gs)) ∧
    (∀ (d : BDD) (index : Nat), Compares (BDD.group d index) (Release.BDD.group d index)) ∧
    (∀ (xs : Words), Compares (UNR.N xs) (Release.UNR.N xs)) ∧
    (∀ (xs : Words), Compares (UNR.M xs) (Release.UNR.M xs)) ∧
    (∀ (xs : Words), Compares (UNR.INT xs) (Release.UNR.INT xs)) ∧
    (∀ (xs : Words), Compares (UNR.ILF xs) (Release.UNR.ILF xs)) ∧
    (∀ (xs : Words), Compares (UNR.IOA xs) (Release.UNR.IOA xs)) ∧
    (∀ (xs : Words), Compares (UNR.IFF xs) (Release.UNR.IFF xs)) ∧
    (∀ (xs : Words), Compares (UNR.energies xs) (Release.UNR.energies xs)) ∧
    (∀ (xs : Words), Compares (UNR.ofRange xs) (Release.UNR.ofRange xs)) ∧
    (∀ (interpolation : Nat) (inelastic : Int) (absorption : Int) (type : Nat) (x4 : List ProbabilityTable),
      Compares (UNR.mk' interpolation inelastic absorption type x4) (Release.UNR.mk' interpolation inelastic absorption type x4)) ∧
    (∀ (d : UNR) (index : Nat), Compares (UNR.table d index) (Release.UNR.table d index)) :=
  ⟨fun d => ⟨Release.PolyNu.LNU.keeps d, Release.PolyNu.LNU.never d⟩,
   fun d => ⟨Release.PolyNu.NC.keeps d, Release.PolyNu.NC.never d⟩,
   fun d => ⟨Release.PolyNu.C.keeps d, Release.PolyNu.C.never d⟩,
   fun xs => ⟨Release.PolyNu.ofRange.keeps xs, Release.PolyNu.ofRange.never xs⟩,
   fun boundaries interpolants x y => ⟨Release.TabNu.mk'.keeps boundaries interpolants x y, Release.TabNu.mk'.never boundaries interpolants x y⟩,
   fun xs => ⟨Release.TabNu.ofRange.keeps xs, Release.TabNu.ofRange.never xs⟩,
   fun d => ⟨Release.TabNu.LNU.keeps d, Release.TabNu.LNU.never d⟩,
   fun d => ⟨Release.TabNu.NB.keeps d, Release.TabNu.NB.never d⟩,
   fun d => ⟨Release.TabNu.NBT.keeps d, Release.TabNu.NBT.never d⟩,
   fun d => ⟨Release.TabNu.INT.keeps d, Release.TabNu.INT.never d⟩,
   fun d => ⟨Release.TabNu.NE.keeps d, Release.TabNu.NE.never d⟩,
   fun d => ⟨Release.TabNu.E.keeps d, Release.TabNu.E.never d⟩,
   fun d => ⟨Release.TabNu.NU.keeps d, Release.TabNu.NU.never d⟩,
   fun prompt => ⟨Release.NU.mk1.keeps prompt, Release.NU.mk1.never prompt⟩,
   fun prompt total => ⟨Release.NU.mk2.keeps prompt total, Release.NU.mk2.never prompt total⟩,
   fun xs => ⟨Release.NU.ofRange.keeps xs, Release.NU.ofRange.never xs⟩,
   fun xs number => ⟨Release.Precursor.ofRange.keeps xs number, Release.Precursor.ofRange.never xs number⟩,
   fun number constant boundaries interpolants energies probabilities => ⟨Release.Precursor.mk'.keeps number constant boundaries interpolants energies probabilities, Release.Precursor.mk'.never number constant boundaries interpolants energies probabilities⟩,
   fun d => ⟨Release.Precursor.DEC.keeps d, Release.Precursor.DEC.never d⟩,
   fun d => ⟨Release.Precursor.NB.keeps d, Release.Precursor.NB.never d⟩,
   fun d => ⟨Release.Precursor.NBT.keeps d, Release.Precursor.NBT.never d⟩,
   fun d => ⟨Release.Precursor.INT.keeps d, Release.Precursor.INT.never d⟩,
   fun d => ⟨Release.Precursor.NE.keeps d, Release.Precursor.NE.never d⟩,
   fun d => ⟨Release.Precursor.E.keeps d, Release.Precursor.E.never d⟩,
   fun d => ⟨Release.Precursor.P.keeps d, Release.Precursor.P.never d⟩,
   fun xs npcr => ⟨Release.BDD.ofRange.keeps xs npcr, Release.BDD.ofRange.never xs npcr⟩,
   fun gs => ⟨Release.BDD.mk'.keeps gs, Release.BDD.mk'.never gs⟩,
   fun d index => ⟨Release.BDD.group.keeps d index, Release.BDD.group.never d index⟩,
   fun xs => ⟨Release.UNR.N.keeps xs, Release.UNR.N.never xs⟩,
   fun xs => ⟨Release.UNR.M.keeps xs, Release.UNR.M.never xs⟩,
   fun xs => ⟨Release.UNR.INT.keeps xs, Release.UNR.INT.never xs⟩,
   fun xs => ⟨Release.UNR.ILF.keeps xs, Release.UNR.ILF.never xs⟩,
   fun xs => ⟨Release.UNR.IOA.keeps xs, Release.UNR.IOA.never xs⟩,
   fun xs => ⟨Release.UNR.IFF.keeps xs, Release.UNR.IFF.never xs⟩,
   fun xs => ⟨Release.UNR.energies.keeps xs, Release.UNR.energies.never xs⟩,
   fun xs => ⟨Release.UNR.ofRange.keeps xs, Release.UNR.ofRange.never xs⟩,
   fun interpolation inelastic absorption type x4 => ⟨Release.UNR.mk'.keeps interpolation inelastic absorption type x4, Release.UNR.mk'.never interpolation inelastic absorption type x4⟩,
   fun d index => ⟨Release.UNR.table.keeps d index, Release.UNR.table.never d index⟩⟩

/-- Thermal scattering blocks. -/
theorem C70_thermal :
    (∀ (d : DCos), Compares (DCos.energy d) (Release.DCos.energy d)) ∧
    (∀ (d : DCos), Compares (DCos.cosines d) (Release.DCos.cosines d)) ∧
    (∀ (d : PCos), Compares (PCos.energy d) (Release.PCos.energy d)) ∧
    (∀ (d : PCos), Compares (PCos.pdf d) (Release.PCos.pdf d)) ∧
    (∀ (d : PCos), Compares (PCos.cdf d) (Release.PCos.cdf d)) ∧
    (∀ (d : PCos), Compares (PCos.cosines d) (Release.PCos.cosines d)) ∧
    (∀ (cosines : List (List DCos)) (skewed : Bool) (locb : Nat),
      Compares (ITXE.mkPlain cosines skewed locb) (Release.ITXE.mkPlain cosines skewed locb)) ∧
    (∀ (cosines : List (List PCos)) (locb : Nat),
      Compares (ITXE.mkProb cosines locb) (Release.ITXE.mkProb cosines locb)) ∧
    (∀ (ifeng : Nat) (nieb : Nat) (nc : Nat) (ne : Nat) (locb : Nat) (xs : Words),
      Compares (ITXE.ofRange ifeng nieb nc ne locb xs) (Release.ITXE.ofRange ifeng nieb nc ne locb xs)) ∧
    (∀ (d : ITXE) (index : Nat), Compares (ITXE.NIEB d index) (Release.ITXE.NIEB d index)) ∧
    (∀ (d : ITXE) (incident : Nat) (outgoing : Nat),
      Compares (ITXE.get d incident outgoing) (Release.ITXE.get d incident outgoing)) :=
  ⟨fun d => ⟨Release.DCos.energy.keeps d, Release.DCos.energy.never d⟩,
   fun d => ⟨Release.DCos.cosines.keeps d, Release.DCos.cosines.never d⟩,
   fun d => ⟨Release.PCos.energy.keeps d, Release.PCos.energy.never d⟩,
   fun d => ⟨Release.PCos.pdf.keeps d, Release.PCos.pdf.never d⟩,
   fun d => ⟨Release.PCos.cdf.keeps d, Release.PCos.cdf.never d⟩,
   fun d => ⟨Release.PCos.cosines.keeps d, Release.PCos.cosines.never d⟩,
   fun cosines skewed locb => ⟨Release.ITXE.mkPlain.keeps cosines skewed locb, Release.ITXE.mkPlain.never cosines skewed locb⟩,
   fun cosines locb => ⟨Release.ITXE.mkProb.keeps cosines locb, Release.ITXE.mkProb.never cosines locb⟩,
   fun ifeng nieb nc ne locb xs => ⟨Release.ITXE.ofRange.keeps ifeng nieb nc ne locb xs, Release.ITXE.ofRange.never ifeng nieb nc ne locb xs⟩,
   fun d index => ⟨Release.ITXE.NIEB.keeps d index, Release.ITXE.NIEB.never d index⟩,
   fun d incident outgoing => ⟨Release.ITXE.get.keeps d incident outgoing, Release.ITXE.get.never d incident outgoing⟩⟩

/-- Secondary particles. -/
theorem C70_secondary :
    (∀ (d : HPD), Compares (HPD.energyIndex d) (Release.HPD.energyIndex d)) ∧
    (∀ (d : HPD), Compares (HPD.numberValues d) (Release.HPD.numberValues d)) ∧
    (∀ (d : HPD), Compares (HPD.totalProduction d) (Release.HPD.totalProduction d)) ∧
    (∀ (d : HPD), Compares (HPD.heating d) (Release.HPD.heating d)) ∧
    (∀ (xs : Words), Compares (HPD.ofRange xs) (Release.HPD.ofRange xs)) ∧
    (∀ (d : NTRO) (index : Nat), Compares (NTRO.NP d index) (Release.NTRO.NP d index)) ∧
    (∀ (d : NTRO), Compares (NTRO.NPs d) (Release.NTRO.NPs d)) :=
  ⟨fun d => ⟨Release.HPD.energyIndex.keeps d, Release.HPD.energyIndex.never d⟩,
   fun d => ⟨Release.HPD.numberValues.keeps d, Release.HPD.numberValues.never d⟩,
   fun d => ⟨Release.HPD.totalProduction.keeps d, Release.HPD.totalProduction.never d⟩,
   fun d => ⟨Release.HPD.heating.keeps d, Release.HPD.heating.never d⟩,
   fun xs => ⟨Release.HPD.ofRange.keeps xs, Release.HPD.ofRange.never xs⟩,
   fun d index => ⟨Release.NTRO.NP.keeps d index, Release.NTRO.NP.never d index⟩,
   fun d => ⟨Release.NTRO.NPs.keeps d, Release.NTRO.NPs.never d⟩⟩

/-- ContinuousEnergyTable. -/
theorem C70_continuous :
    (∀ (d : TableData) (index : Nat),
      Compares (TableData.locator d index) (Release.TableData.locator d index)) ∧
    (∀ (d : TableData) (index : Nat), Compares (CE.block d index) (Release.CE.block d index)) ∧
    (∀ (zaid : List Char) (d : TableData), Compares (CE.ofTable zaid d) (Release.CE.ofTable zaid d)) ∧
    (∀ (b : CE.Input) (jxs7 : Int),
      Compares (CE.fissionLocator b jxs7) (Release.CE.fissionLocator b jxs7)) ∧
    (∀ (zaid : List Char) (z : Nat) (x2 : Nat) (s : Nat) (b : CE.Input),
      Compares (CE.mk' zaid z x2 s b) (Release.CE.mk' zaid z x2 s b)) :=
  ⟨fun d index => ⟨Release.TableData.locator.keeps d index, Release.TableData.locator.never d index⟩,
   fun d index => ⟨Release.CE.block.keeps d index, Release.CE.block.never d index⟩,
   fun zaid d => ⟨Release.CE.ofTable.keeps zaid d, Release.CE.ofTable.never zaid d⟩,
   fun b jxs7 => ⟨Release.CE.fissionLocator.keeps b jxs7, Release.CE.fissionLocator.never b jxs7⟩,
   fun zaid z x2 s b => ⟨Release.CE.mk'.keeps zaid z x2 s b, Release.CE.mk'.never zaid z x2 s b⟩⟩

/-- DosimetryTable. -/
theorem C70_dosimetry :
    (∀ (t : Dosimetry), Compares (Dosimetry.ZA t) (Release.Dosimetry.ZA t)) ∧
    (∀ (t : Dosimetry), Compares (Dosimetry.NTR t) (Release.Dosimetry.NTR t)) ∧
    (∀ (zaid : List Char) (d : TableData),
      Compares (Dosimetry.ofTable zaid d) (Release.Dosimetry.ofTable zaid d)) ∧
    (∀ (zaid : List Char) (z : Nat) (x2 : Nat) (mtr : MTR) (sigd : SIGD),
      Compares (Dosimetry.mk' zaid z x2 mtr sigd) (Release.Dosimetry.mk' zaid z x2 mtr sigd)) :=
  ⟨fun t => ⟨Release.Dosimetry.ZA.keeps t, Release.Dosimetry.ZA.never t⟩,
   fun t => ⟨Release.Dosimetry.NTR.keeps t, Release.Dosimetry.NTR.never t⟩,
   fun zaid d => ⟨Release.Dosimetry.ofTable.keeps zaid d, Release.Dosimetry.ofTable.never zaid d⟩,
   fun zaid z x2 mtr sigd => ⟨Release.Dosimetry.mk'.keeps zaid z x2 mtr sigd, Release.Dosimetry.mk'.never zaid z x2 mtr sigd⟩⟩

/-- ThermalScatteringTable. -/
theorem C70_thermal_table :
    (∀ (t : TS), Compares (TS.IDPNI t) (Release.TS.IDPNI t)) ∧
    (∀ (t : TS), Compares (TS.NIL t) (Release.TS.NIL t)) ∧
    (∀ (t : TS), Compares (TS.NIEB t) (Release.TS.NIEB t)) ∧
    (∀ (t : TS), Compares (TS.IDPNC t) (Release.TS.IDPNC t)) ∧
    (∀ (t : TS), Compares (TS.NCL t) (Release.TS.NCL t)) ∧
    (∀ (t : TS), Compares (TS.IFENG t) (Release.TS.IFENG t)) ∧
    (∀ (t : TS), Compares (TS.NCLI t) (Release.TS.NCLI t)) ∧
    (∀ (d : TableData) (index : Nat), Compares (TS.block d index) (Release.TS.block d index)) ∧
    (∀ (zaid : List Char) (d : TableData), Compares (TS.ofTable zaid d) (Release.TS.ofTable zaid d)) ∧
    (∀ (zaid : List Char) (b : TS.Input), Compares (TS.mk' zaid b) (Release.TS.mk' zaid b)) :=
  ⟨fun t => ⟨Release.TS.IDPNI.keeps t, Release.TS.IDPNI.never t⟩,
   fun t => ⟨Release.TS.NIL.keeps t, Release.TS.NIL.never t⟩,
   fun t => ⟨Release.TS.NIEB.keeps t, Release.TS.NIEB.never t⟩,
   fun t => ⟨Release.TS.IDPNC.keeps t, Release.TS.IDPNC.never t⟩,
   fun t => ⟨Release.TS.NCL.keeps t, Release.TS.NCL.never t⟩,
   fun t => ⟨Release.TS.IFENG.keeps t, Release.TS.IFENG.never t⟩,
   fun t => ⟨Release.TS.NCLI.keeps t, Release.TS.NCLI.never t⟩,
   fun d index => ⟨Release.TS.block.keeps d index, Release.TS.block.never d index⟩,
   fun zaid d => ⟨Release.TS.ofTable.keeps zaid d, Release.TS.ofTable.never zaid d⟩,
   fun zaid b => ⟨Release.TS.mk'.keeps zaid b, Release.TS.mk'.never zaid b⟩⟩

/-- PhotoatomicTable. -/
theorem C70_photoatomic :
    (∀ (t : PA), Compares (PA.Z t) (Release.PA.Z t)) ∧
    (∀ (t : PA), Compares (PA.NES t) (Release.PA.NES t)) ∧
    (∀ (t : PA), Compares (PA.NFLO t) (Release.PA.NFLO t)) ∧
    (∀ (t : PA), Compares (PA.NSH t) (Release.PA.NSH t)) ∧
    (∀ (t : PA), Compares (PA.NEPR t) (Release.PA.NEPR t)) ∧
    (∀ (t : PA), Compares (PA.NSSH t) (Release.PA.NSSH t)) ∧
    (∀ (t : PA), Compares (PA.NE t) (Release.PA.NE t)) ∧
    (∀ (t : PA), Compares (PA.NXL t) (Release.PA.NXL t)) ∧
    (∀ (t : PA), Compares (PA.NA t) (Release.PA.NA t)) ∧
    (∀ (t : PA), Compares (PA.NB t) (Release.PA.NB t)) ∧
    (∀ (t : PA), Compares (PA.NBL t) (Release.PA.NBL t)) ∧
    (∀ (t : PA), Compares (PA.NINC t) (Release.PA.NINC t)) ∧
    (∀ (t : PA), Compares (PA.NCOH t) (Release.PA.NCOH t)) ∧
    (∀ (t : PA) (index : Nat), Compares (PA.EION t index) (Release.PA.EION t index)) ∧
    (∀ (d : TableData) (index : Nat), Compares (PA.block d index) (Release.PA.block d index)) ∧
    (∀ (zaid : List Char) (d : TableData), Compares (PA.ofTable zaid d) (Release.PA.ofTable zaid d)) ∧
    (∀ (zaid : List Char) (b : PA.Input), Compares (PA.mk' zaid b) (Release.PA.mk' zaid b)) :=
  ⟨fun t => ⟨Release.PA.Z.keeps t, Release.PA.Z.never t⟩,
   fun t => ⟨Release.PA.NES.keeps t, Release.PA.NES.never t⟩,
   fun t => ⟨Release.PA.NFLO.keeps t, Release.PA.NFLO.never t⟩,
   fun t => ⟨Release.PA.NSH.keeps t, Release.PA.NSH.never t⟩,
   fun t => ⟨Release.PA.NEPR.keeps t, Release.PA.NEPR.never t⟩,
   fun t => ⟨Release.PA.NSSH.keeps t, Release.PA.NSSH.never t⟩,
   fun t => ⟨Release.PA.NE.keeps t, Release.PA.NE.never t⟩,
   fun t => ⟨Release.PA.NXL.keeps t, Release.PA.NXL.never t⟩,
   fun t => ⟨Release.PA.NA.keeps t, Release.PA.NA.never t⟩,
   fun t => ⟨Release.PA.NB.keeps t, Release.PA.NB.never t⟩,
   fun t => ⟨Release.PA.NBL.keeps t, Release.PA.NBL.never t⟩,
   fun t => ⟨Release.PA.NINC.keeps t, Release.PA.NINC.never t⟩,
   fun t => ⟨Release.PA.NCOH.keeps t, Release.PA.NCOH.never t⟩,
   fun t index => ⟨Release.PA.EION.keeps t index, Release.PA.EION.never t index⟩,
   fun d index => ⟨Release.PA.block.keeps d index, Release.PA.block.never d index⟩,
   fun zaid d => ⟨Release.PA.ofTable.keeps zaid d, Release.PA.ofTable.never zaid d⟩,
   fun zaid b => ⟨Release.PA.mk'.keeps zaid b, Release.PA.mk'.never zaid b⟩⟩

/-- PhotonuclearTable. -/
theorem C70_photonuclear :
    (∀ (t : PN), Compares (PN.length t) (Release.PN.length t)) ∧
    (∀ (t : PN), Compares (PN.ZA t) (Release.PN.ZA t)) ∧
    (∀ (t : PN), Compares (PN.NES t) (Release.PN.NES t)) ∧
    (∀ (t : PN), Compares (PN.NTR t) (Release.PN.NTR t)) ∧
    (∀ (t : PN), Compares (PN.NTYPE t) (Release.PN.NTYPE t)) ∧
    (∀ (t : PN), Compares (PN.S t) (Release.PN.S t)) ∧
    (∀ (t : PN), Compares (PN.Z t) (Release.PN.Z t)) ∧
    (∀ (t : PN), Compares (PN.A t) (Release.PN.A t)) ∧
    (∀ (d : TableData) (index : Nat), Compares (PN.block d index) (Release.PN.block d index)) ∧
    (∀ (zaid : List Char) (d : TableData), Compares (PN.ofTable zaid d) (Release.PN.ofTable zaid d)) ∧
    (∀ (zaid : List Char) (z : Nat) (x2 : Nat) (s : Nat) (b : PN.Input),
      Compares (PN.mk' zaid z x2 s b) (Release.PN.mk' zaid z x2 s b)) :=
  ⟨fun t => ⟨Release.PN.length.keeps t, Release.PN.length.never t⟩,
   fun t => ⟨Release.PN.ZA.keeps t, Release.PN.ZA.never t⟩,
   fun t => ⟨Release.PN.NES.keeps t, Release.PN.NES.never t⟩,
   fun t => ⟨Release.PN.NTR.keeps t, Release.PN.NTR.never t⟩,
   fun t => ⟨Release.PN.NTYPE.keeps t, Release.PN.NTYPE.never t⟩,
   fun t => ⟨Release.PN.S.keeps t, Release.PN.S.never t⟩,
   fun t => ⟨Release.PN.Z.keeps t, Release.PN.Z.never t⟩,
   fun t => ⟨Release.PN.A.keeps t, Release.PN.A.never t⟩,
   fun d index => ⟨Release.PN.block.keeps d index, Release.PN.block.never d index⟩,
   fun zaid d => ⟨Release.PN.ofTable.keeps zaid d, Release.PN.ofTable.never zaid d⟩,
   fun zaid z x2 s b => ⟨Release.PN.mk'.keeps zaid z x2 s b, Release.PN.mk'.never zaid z x2 s b⟩⟩

/-- Further members of the table classes. -/
theorem C70_members :
    (∀ (t : CE), Compares (CE.length t) (Release.CE.length t)) ∧
    (∀ (t : CE), Compares (CE.ZA t) (Release.CE.ZA t)) ∧
    (∀ (t : CE), Compares (CE.NES t) (Release.CE.NES t)) ∧
    (∀ (t : CE), Compares (CE.NTR t) (Release.CE.NTR t)) ∧
    (∀ (t : CE), Compares (CE.totalNumberReactions t) (Release.CE.totalNumberReactions t)) ∧
    (∀ (t : CE), Compares (CE.NR t) (Release.CE.NR t)) ∧
    (∀ (t : CE), Compares (CE.NTRP t) (Release.CE.NTRP t)) ∧
    (∀ (t : CE), Compares (CE.NTYPE t) (Release.CE.NTYPE t)) ∧
    (∀ (t : CE), Compares (CE.NPCR t) (Release.CE.NPCR t)) ∧
    (∀ (t : CE), Compares (CE.S t) (Release.CE.S t)) ∧
    (∀ (t : CE), Compares (CE.Z t) (Release.CE.Z t)) ∧
    (∀ (t : CE), Compares (CE.A t) (Release.CE.A t)) :=
  ⟨fun t => ⟨Release.CE.length.keeps t, Release.CE.length.never t⟩,
   fun t => ⟨Release.CE.ZA.keeps t, Release.CE.ZA.never t⟩,
   fun t => ⟨Release.CE.NES.keeps t, Release.CE.NES.never t⟩,
   fun t => ⟨Release.CE.NTR.keeps t, Release.CE.NTR.never t⟩,
   fun t => ⟨Release.CE.totalNumberReactions.keeps t, Release.CE.totalNumberReactions.never t⟩,
   fun t => ⟨Release.CE.NR.keeps t, Release.CE.NR.never t⟩,
   fun t => ⟨Release.CE.NTRP.keeps t, Release.CE.NTRP.never t⟩,
   fun t => ⟨Release.CE.NTYPE.keeps t, Release.CE.NTYPE.never t⟩,
   fun t => ⟨Release.CE.NPCR.keeps t, Release.CE.NPCR.never t⟩,
   fun t => ⟨Release.CE.S.keeps t, Release.CE.S.never t⟩,
   fun t => ⟨Release.CE.Z.keeps t, Release.CE.Z.never t⟩,
   fun t => ⟨Release.CE.A.keeps t, Release.CE.A.never t⟩⟩

/-- Tables of any type. -/
theorem C70_typed :
    (∀ (x0 : TableType) (x1 : Str) (x2 : TableData),
      Compares (Content.ofTable x0 x1 x2) (Release.Content.ofTable x0 x1 x2)) ∧
    (∀ (F : Text.Formats) (t : Typed), Compares (Typed.print F t) (Release.Typed.print F t)) ∧
    (∀ (k : TableType) (s : Table), Compares (Typed.ofTable k s) (Release.Typed.ofTable k s)) ∧
    (∀ (t : Typed), Compares (Typed.copy t) (Release.Typed.copy t)) :=
  ⟨fun x0 x1 x2 => ⟨Release.Content.ofTable.keeps x0 x1 x2, Release.Content.ofTable.never x0 x1 x2⟩,
   fun F t => ⟨Release.Typed.print.keeps F t, Release.Typed.print.never F t⟩,
   fun k s => ⟨Release.Typed.ofTable.keeps k s, Release.Typed.ofTable.never k s⟩,
   fun t => ⟨Release.Typed.copy.keeps t, Release.Typed.copy.never t⟩⟩

/-- Identifiers. -/
theorem C70_ident :
    (∀ (d : TableData) (zaid : List Char),
      Compares (TableData.setSZA d zaid) (Release.TableData.setSZA d zaid)) :=
  fun d zaid => ⟨Release.TableData.setSZA.keeps d zaid, Release.TableData.setSZA.never d zaid⟩

end ACE.Props

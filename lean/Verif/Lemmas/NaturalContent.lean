import Verif.Lemmas.NaturalTables

/-! # Reading commutes with replacing words: dosimetry, thermal, photoatomic and photonuclear tables -/

set_option linter.unusedSectionVars false

namespace ACE

section
variable {r : Dbl → Dbl} [Keeps r]

theorem TableData.setNXS_mapw (d : TableData) (i : Nat) (v : Nat) :
    (d.mapw r).setNXS i v = Except.map (TableData.mapw r) (d.setNXS i v) := by
  simp only [TableData.setNXS, natural]
  rfl
@[natural] theorem TableData.setSZA_mapw (d : TableData) (z : List Char) :
    (d.mapw r).setSZA z = Except.map (TableData.mapw r) (d.setSZA z) := by
  simp only [TableData.setSZA, natural, TableData.setNXS_mapw]

theorem Dosimetry.generateBlocks_mapw (z : List Char) (d : TableData) :
    Dosimetry.generateBlocks z (d.mapw r) = Except.map (Dosimetry.mapw r) (Dosimetry.generateBlocks z d) := by
  simp only [Dosimetry.generateBlocks, MTR.ofRange, natural, Dosimetry.mapw]

namespace TS
@[natural] theorem block_mapw (d : TableData) (i : Nat) : block (d.mapw r) i = block d i := by
  simp only [block, natural]
@[natural] theorem readITIE_mapw (d : TableData) (b : Bool) :
    readITIE (d.mapw r) b = Except.map (ColumnData.mapw r) (readITIE d b) := by
  have h : ColumnData.ofRange [] 2 = Except.map (ColumnData.mapw r) (ColumnData.ofRange [] 2) :=
    ColumnData.ofRange_mapw (r := r) [] 2
  simp only [readITIE, ITIE.ofRange, natural]
  split
  · rfl
  · exact h
@[natural] theorem readITXE_mapw (d : TableData) (b : Bool) (t : ITIE) :
    readITXE (d.mapw r) b (ColumnData.mapw r t) = Except.map (ITXE.mapw r) (readITXE d b t) := by
  have h : ITXE.ofRange 0 0 0 0 1 [] = Except.map (ITXE.mapw r) (ITXE.ofRange 0 0 0 0 1 []) :=
    ITXE.ofRange_mapw (r := r) 0 0 0 0 1 []
  simp only [readITXE, ITIE.NE, natural]
  split
  · rfl
  · exact h
@[natural] theorem readCoherent_mapw (d : TableData) :
    readCoherent (d.mapw r) =
      Except.map (fun p => (ColumnData.mapw r p.1, p.2.map (ArrayData.mapw r))) (readCoherent d) := by
  simp only [readCoherent, ITIE.ofRange, ITCA.ofRange, ITIE.NE, natural, Option.map_some, Option.map_none]
@[natural] theorem readIncoherent_mapw (d : TableData) (n : Nat) :
    readIncoherent (d.mapw r) n =
      Except.map (fun p => (ColumnData.mapw r p.1, ArrayData.mapw r p.2)) (readIncoherent d n) := by
  simp only [readIncoherent, ITIE.ofRange, ITCA.ofRange, ITIE.NE, natural]
theorem generateBlocks_mapw (z : List Char) (d : TableData) :
    generateBlocks z (d.mapw r) = Except.map (TS.mapw r) (generateBlocks z d) := by
  simp only [generateBlocks, natural, TS.mapw]
  repeat refine congrArg _ (funext fun _ => ?_)
  rename_i c i
  rcases c with - | ⟨c, - | o⟩ <;> cases i <;> rfl
end TS

namespace PA
@[natural] theorem block_mapw (d : TableData) (i : Nat) : block (d.mapw r) i = block d i := by
  simp only [block, natural]
@[natural] theorem wordOffset_mapw (d : TableData) (i : Nat) : wordOffset (d.mapw r) i = wordOffset d i := by
  simp only [wordOffset, natural]
@[natural] theorem readEION_mapw (d : TableData) (n i : Nat) :
    readEION (d.mapw r) n i = Except.map (ElectronBlock.mapw r) (readEION d n i) := by
  simp only [readEION, natural]
@[natural] theorem readShells_mapw (d : TableData) (n : Nat) :
    readShells (d.mapw r) n =
      Except.map (fun p => (ArrayData.mapw r p.1, LocBlock.mapw (TabProb.mapw r) r p.2)) (readShells d n) := by
  simp only [readShells, EPS.ofRange, natural]
/-- Every word replaced. -/
def Electrons.mapw (r : Dbl → Dbl) (t : Electrons) : Electrons :=
  { subsh := ArrayData.mapw r t.subsh, sphel := ArrayData.mapw r t.sphel
    xprob := LocBlock.mapw (ArrayData.mapw r) r t.xprob, esze := ArrayData.mapw r t.esze
    excit := ArrayData.mapw r t.excit, elas := t.elas.mapw r, eion := t.eion.map (ElectronBlock.mapw r)
    breme := t.breme.mapw r, breml := ArrayData.mapw r t.breml
    selas := t.selas.map (ArrayData.mapw r) }
@[natural] theorem readElectrons_mapw (d : TableData) (n : Nat) :
    readElectrons (d.mapw r) n = Except.map (Electrons.mapw r) (readElectrons d n) := by
  have h : ∀ n, readEION (d.mapw r) n = fun i => Except.map (ElectronBlock.mapw r) (readEION d n i) :=
    fun n => funext fun i => readEION_mapw d n i
  simp only [readElectrons, SUBSH.ofRange, SPHEL.ofRange, ESZE.ofRange, EXCIT.ofRange, BREML.ofRange,
    SELAS.ofRange, h, natural, Electrons.mapw]
theorem generateBlocks_mapw (z : List Char) (d : TableData) :
    generateBlocks z (d.mapw r) = Except.map (PA.mapw r) (generateBlocks z d) := by
  simp only [generateBlocks, ESZG.ofRange, JFLO.ofRange, LHNM.ofRange, natural, PA.mapw]
  repeat refine congrArg _ (funext fun _ => ?_)
  rename_i s _ e
  cases s <;> rcases e with - | e <;> rfl
end PA

@[natural] theorem IXSU.NP_mapw (d : IXSU) (p : Nat) : (d.mapw r).NP p = d.NP p := by
  simp only [IXSU.NP, natural]

namespace PN
@[natural] theorem block_mapw (d : TableData) (i : Nat) : block (d.mapw r) i = block d i := PA.block_mapw d i
@[natural] theorem particleEnd_mapw (x : IXSU) (p i s : Nat) :
    particleEnd (x.mapw r) p i s = particleEnd x p i s := by
  simp only [particleEnd, IXSU.mapw, natural]
  refine congrArg _ (funext fun ws => ?_)
  rw [CE.find_mapw]
  cases ws.find? (fun v => v.geNat s) <;> simp only [Option.map_some, Option.map_none, Keeps.trunc]
@[natural] theorem particleBlock_mapw (d : TableData) (x : IXSU) (p i : Nat) :
    particleBlock (d.mapw r) (x.mapw r) p i = particleBlock d x p i := by
  simp only [particleBlock, natural]
@[natural] theorem readParticle_mapw (d : TableData) (x : IXSU) (i : Nat) :
    readParticle (d.mapw r) (x.mapw r) i = Except.map (PN.Particle.mapw r) (readParticle d x i) := by
  simp only [readParticle, MTR.ofRange, natural, PN.Particle.mapw]
@[natural] theorem readSecondaries_mapw (d : TableData) (n : Nat) :
    readSecondaries (d.mapw r) n =
      Except.map (fun p => (p.1.mapw r, p.2.map (PN.Particle.mapw r))) (readSecondaries d n) := by
  have h : ∀ x, readParticle (d.mapw r) (x.mapw r) =
      fun i => Except.map (PN.Particle.mapw r) (readParticle d x i) :=
    fun x => funext fun i => readParticle_mapw d x i
  simp only [readSecondaries, natural, h]
theorem generateBlocks_mapw (z : List Char) (d : TableData) :
    generateBlocks z (d.mapw r) = Except.map (PN.mapw r) (generateBlocks z d) := by
  simp only [generateBlocks, ESZU.ofRange, MTR.ofRange, LQR.ofRange, natural, PN.mapw]
  repeat refine congrArg _ (funext fun _ => ?_)
  rename_i s
  cases s <;> rfl
end PN

end
end ACE

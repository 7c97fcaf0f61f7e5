import Verif.Lemmas.NaturalEnergy

/-! # Reading commutes with replacing words: remaining blocks -/

set_option linter.unusedSectionVars false

namespace ACE

section
variable {r : Dbl → Dbl} [Keeps r]

@[natural] theorem PolyNu.ofRange_mapw (xs : Words) :
    PolyNu.ofRange (xs.map r) = Except.map (PolyNu.mapw r) (PolyNu.ofRange xs) := by
  simp only [PolyNu.ofRange, PolyNu.NC, PolyNu.LNU, natural, PolyNu.mapw]
@[natural] theorem TabNu.ofRange_mapw (xs : Words) :
    TabNu.ofRange (xs.map r) = Except.map (TabNu.mapw r) (TabNu.ofRange xs) := by
  simp only [TabNu.ofRange, TabNu.generateBlocks, natural, TabNu.mapw]
@[natural] theorem NuData.generateData_mapw (xs : Words) :
    NuData.generateData (xs.map r) = Except.map (NuData.mapw r) (NuData.generateData xs) := by
  simp only [NuData.generateData, natural, NuData.mapw]
@[natural] theorem NU.ofRange_mapw (xs : Words) :
    NU.ofRange (xs.map r) = Except.map (NU.mapw r) (NU.ofRange xs) := by
  simp only [NU.ofRange, NU.generateBlocks, NU.generateBoth, natural, NU.mapw, Option.map_some,
    Option.map_none]
@[natural] theorem Precursor.ofRange_mapw (xs : Words) (n : Nat) :
    Precursor.ofRange (xs.map r) n = Except.map (Precursor.mapw r) (Precursor.ofRange xs n) := by
  simp only [Precursor.ofRange, natural, Precursor.mapw]
@[natural] theorem BDD.groups_mapw (xs : Words) : ∀ todo i l,
    BDD.groups (xs.map r) todo i l = Except.map (List.map (Precursor.mapw r)) (BDD.groups xs todo i l)
  | 0, _, _ => rfl
  | todo + 1, i, l => by
      simp only [BDD.groups, natural, BDD.groups_mapw xs todo, List.map_cons]
@[natural] theorem BDD.ofRange_mapw (xs : Words) (n : Nat) :
    BDD.ofRange (xs.map r) n = Except.map (BDD.mapw r) (BDD.ofRange xs n) := by
  simp only [BDD.ofRange, natural, BDD.mapw]
@[natural] theorem UNR.flag_mapw (xs : Words) (i : Nat) :
    UNR.flag (xs.map r) i = UNR.flag xs i := by
  simp only [UNR.flag, natural, List.map_eq_nil_iff]
@[natural] theorem UNR.N_mapw (xs : Words) : UNR.N (xs.map r) = UNR.N xs := by
  simp only [UNR.N, natural]
@[natural] theorem UNR.M_mapw (xs : Words) : UNR.M (xs.map r) = UNR.M xs := by
  simp only [UNR.M, natural]
@[natural] theorem UNR.tables_mapw (xs : Words) (m : Nat) : ∀ todo i l,
    UNR.tables (xs.map r) m todo i l =
      Except.map (List.map (ProbabilityTable.mapw r)) (UNR.tables xs m todo i l)
  | 0, _, _ => rfl
  | todo + 1, i, l => by
      simp only [UNR.tables, natural, UNR.tables_mapw xs m todo, List.map_cons]
@[natural] theorem UNR.ofRange_mapw (xs : Words) :
    UNR.ofRange (xs.map r) = Except.map (UNR.mapw r) (UNR.ofRange xs) := by
  simp only [UNR.ofRange, natural, UNR.mapw]

/-! ## Thermal -/

@[natural] theorem DCos.ofRange_mapw (n : Nat) (xs : Words) :
    DCos.ofRange n (xs.map r) = Except.map (DCos.mapw r) (DCos.ofRange n xs) := by
  simp only [DCos.ofRange, natural, DCos.mapw]
@[natural] theorem PCos.ofRange_mapw (n : Nat) (xs : Words) :
    PCos.ofRange n (xs.map r) = Except.map (PCos.mapw r) (PCos.ofRange n xs) := by
  simp only [PCos.ofRange, natural, PCos.mapw]
@[natural] theorem ITXE.relLocator_mapw (xs : Words) (l i : Nat) :
    ITXE.relLocator (xs.map r) l i = ITXE.relLocator xs l i := by
  simp only [ITXE.relLocator, natural]
@[natural] theorem ITXE.NIEBof_mapw (xs : Words) (o : Option Nat) (n i : Nat) :
    ITXE.NIEBof (xs.map r) o n i = ITXE.NIEBof xs o n i := by
  cases o <;> simp only [ITXE.NIEBof, natural]
@[natural] theorem ITXE.plainLoop_mapw (xs : Words) (nc : Nat) : ∀ todo cur,
    ITXE.plainLoop (xs.map r) nc todo cur =
      Except.map (fun p => (p.1.map (CosData.mapw r), p.2)) (ITXE.plainLoop xs nc todo cur)
  | 0, _ => rfl
  | todo + 1, cur => by
      simp only [ITXE.plainLoop, natural, ITXE.plainLoop_mapw xs nc todo, List.map_cons,
        CosData.mapw]
@[natural] theorem ITXE.plainBlocks_mapw (xs : Words) (nc n : Nat) : ∀ todo cur,
    ITXE.plainBlocks (xs.map r) nc n todo cur =
      Except.map (List.map (List.map (CosData.mapw r))) (ITXE.plainBlocks xs nc n todo cur)
  | 0, _ => rfl
  | todo + 1, cur => by
      simp only [ITXE.plainBlocks, natural, ITXE.plainBlocks_mapw xs nc n todo, List.map_cons]
@[natural] theorem ITXE.probLoop_mapw (xs : Words) (nc next : Nat) : ∀ todo cur,
    ITXE.probLoop (xs.map r) nc next todo cur =
      Except.map (fun p => (p.1.map (CosData.mapw r), p.2)) (ITXE.probLoop xs nc next todo cur)
  | 0, _ => rfl
  | todo + 1, cur => by
      simp only [ITXE.probLoop, natural, ITXE.probLoop_mapw xs nc next todo, List.map_cons,
        CosData.mapw]
@[natural] theorem ITXE.nextOf_mapw (xs : Words) (n i l : Nat) :
    ITXE.nextOf (xs.map r) n i l = ITXE.nextOf xs n i l := by
  simp only [ITXE.nextOf, natural]
@[natural] theorem ITXE.probBlocks_mapw (xs : Words) (nc ne locb : Nat) : ∀ todo i cur,
    ITXE.probBlocks (xs.map r) nc ne locb todo i cur =
      Except.map (List.map (List.map (CosData.mapw r))) (ITXE.probBlocks xs nc ne locb todo i cur)
  | 0, _, _ => rfl
  | todo + 1, i, cur => by
      simp only [ITXE.probBlocks, natural, ITXE.probBlocks_mapw xs nc ne locb todo, List.map_cons]
@[natural] theorem ITXE.generateBlocks_mapw (xs : Words) (ifeng nc : Nat) (nieb : Option Nat)
    (ne locb : Nat) : ITXE.generateBlocks (xs.map r) ifeng nc nieb ne locb =
      Except.map (List.map (List.map (CosData.mapw r)))
        (ITXE.generateBlocks xs ifeng nc nieb ne locb) := by
  simp only [ITXE.generateBlocks, natural]
@[natural] theorem ITXE.ofRange_mapw (ifeng nieb nc ne locb : Nat) (xs : Words) :
    ITXE.ofRange ifeng nieb nc ne locb (xs.map r) =
      Except.map (ITXE.mapw r) (ITXE.ofRange ifeng nieb nc ne locb xs) := by
  simp only [ITXE.ofRange, ITXE.verifySize, natural, ITXE.mapw]

/-! ## Locators and numbers -/

theorem findRounded_mapw (key : Nat) : ∀ xs : Words, findRounded key (xs.map r) = findRounded key xs
  | [] => rfl
  | x :: xs => by
      simp only [List.map_cons, findRounded, natural, findRounded_mapw key xs]
@[natural] theorem YP.ofRange_mapw (xs : Words) :
    YP.ofRange (xs.map r) = Except.map (YP.mapw r) (YP.ofRange xs) := by
  simp only [YP.ofRange, YP.NYP, natural, YP.mapw, List.isEmpty_map]
@[natural] theorem IXS.ofRange_mapw (xs : Words) (n : Nat) :
    IXS.ofRange (xs.map r) n = Except.map (IXS.mapw r) (IXS.ofRange xs n) := by
  simp only [IXS.ofRange, natural, IXS.mapw]
@[natural] theorem IXS.LLOC_mapw (d : IXS) (p i : Nat) : (d.mapw r).LLOC p i = d.LLOC p i := by
  simp only [IXS.LLOC, IXS.mapw, natural]
@[natural] theorem IXSU.ofRange_mapw (xs : Words) (n : Nat) :
    IXSU.ofRange (xs.map r) n = Except.map (IXSU.mapw r) (IXSU.ofRange xs n) := by
  simp only [IXSU.ofRange, natural, IXSU.mapw]
@[natural] theorem IXSU.LLOC_mapw (d : IXSU) (p i : Nat) : (d.mapw r).LLOC p i = d.LLOC p i := by
  simp only [IXSU.LLOC, IXSU.mapw, natural]

end
end ACE

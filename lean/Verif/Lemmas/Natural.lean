import Verif.Props.MapSpec
import Verif.Lemmas.Core
import Verif.Lemmas.NaturalAttr

/-! # Reading commutes with replacing words -/

namespace ACE

@[natural] theorem emap_bind {α β γ : Type} (f : β → γ) (x : Res α) (g : α → Res β) :
    Except.map f (x >>= g) = x >>= fun a => Except.map f (g a) := by cases x <;> rfl
@[natural] theorem bind_bind {α β γ : Type} (x : Res α) (f : α → Res β) (g : β → Res γ) :
    ((x >>= f) >>= g) = x >>= fun a => f a >>= g := by cases x <;> rfl
@[natural] theorem bind_emap {α β γ : Type} (f : α → β) (x : Res α) (g : β → Res γ) :
    (Except.map f x >>= g) = x >>= fun a => g (f a) := by cases x <;> rfl
@[natural] theorem emap_ok {α β : Type} (f : α → β) (a : α) :
    Except.map f (Except.ok a : Res α) = .ok (f a) := id rfl
@[natural] theorem emap_pure {α β : Type} (f : α → β) (a : α) :
    Except.map f (pure a : Res α) = .ok (f a) := id rfl
@[natural] theorem emap_error {α β : Type} (f : α → β) (e : Err) :
    Except.map f (Except.error e : Res α) = .error e := id rfl
@[natural] theorem emap_ite {α β : Type} (f : α → β) (c : Prop) [Decidable c] (x y : Res α) :
    Except.map f (if c then x else y) = if c then Except.map f x else Except.map f y := by
  split <;> rfl
@[natural] theorem emap_emap {α β γ : Type} (f : α → β) (g : β → γ) (x : Res α) :
    Except.map g (Except.map f x) = Except.map (fun a => g (f a)) x := by cases x <;> rfl
@[natural] theorem emap_id {α : Type} (x : Res α) : Except.map (fun a : α => a) x = x := by cases x <;> rfl

@[natural] theorem mapM_emap {α β γ : Type} (h : β → γ) (f : α → Res β) (l : List α) :
    List.mapM (fun a => Except.map h (f a)) l = Except.map (List.map h) (List.mapM f l) := by
  induction l with
  | nil => rfl
  | cons a l ih =>
      rw [List.mapM_cons, List.mapM_cons, ih]
      cases f a with
      | error => rfl
      | ok b => cases List.mapM f l <;> rfl

theorem mapM_congr' {α β : Type} {f g : α → Res β} {l : List α} (h : ∀ a, f a = g a) :
    List.mapM f l = List.mapM g l := by rw [funext h]

set_option linter.unusedSectionVars false

section
variable {r : Dbl → Dbl} [Keeps r]

@[natural] theorem sub_mapw (xs : Words) (a b : Nat) :
    sub (xs.map r) a b = Except.map (List.map r) (sub xs a b) := by
  unfold sub
  rw [List.length_map]
  split <;> simp [Except.map, List.map_drop, List.map_take]

@[natural] theorem deref_mapw (xs : Words) (i : Nat) : deref (xs.map r) i = Except.map r (deref xs i) := by
  unfold deref
  rw [List.getElem?_map]
  cases xs[i]? <;> rfl

@[natural] theorem iterator_mapw (xs : Words) (i : Nat) :
    Base.iterator (xs.map r) i = Base.iterator xs i := by
  unfold Base.iterator; rw [List.length_map]

@[natural] theorem XSS_mapw (xs : Words) (i : Nat) : Base.XSS (xs.map r) i = Except.map r (Base.XSS xs i) := by
  simp only [Base.XSS, List.length_map, deref_mapw, emap_bind]

@[natural] theorem IXSS_mapw (xs : Words) (i : Nat) : Base.IXSS (xs.map r) i = Base.IXSS xs i := by
  simp only [Base.IXSS, XSS_mapw, bind_emap, Keeps.round]

@[natural] theorem XSSr_mapw (xs : Words) (i n : Nat) :
    Base.XSSr (xs.map r) i n = Except.map (List.map r) (Base.XSSr xs i n) := by
  simp only [Base.XSSr, natural]

@[natural] theorem IXSSr_mapw (xs : Words) (i n : Nat) : Base.IXSSr (xs.map r) i n = Base.IXSSr xs i n := by
  simp only [Base.IXSSr, XSSr_mapw, bind_emap]
  congr 1; funext ws
  induction ws with
  | nil => rfl
  | cons a l ih => rw [List.map_cons, List.mapM_cons, List.mapM_cons, ih, Keeps.round]

attribute [natural] List.length_map Keeps.round Keeps.trunc Keeps.neg Keeps.ge List.map_map
  ok_bind pure_eq_ok

/-! ## Arrays and columns -/

@[natural] theorem ArrayData.ofRange_mapw (xs : Words) (n m : Nat) :
    ArrayData.ofRange (xs.map r) n m = Except.map (ArrayData.mapw r) (ArrayData.ofRange xs n m) := by
  simp only [ArrayData.ofRange, natural, ArrayData.mapw]

@[natural] theorem ArrayData.ivalue_mapw (d : ArrayData) (a i : Nat) :
    (d.mapw r).ivalue a i = d.ivalue a i := by
  simp only [ArrayData.ivalue, natural, ArrayData.mapw, ArrayData.verifyIndex, ArrayData.verifyArray]
  rfl
@[natural] theorem ArrayData.dvalue_mapw (d : ArrayData) (a i : Nat) :
    (d.mapw r).dvalue a i = Except.map r (d.dvalue a i) := by
  simp only [ArrayData.dvalue, natural, ArrayData.mapw, ArrayData.verifyIndex, ArrayData.verifyArray]
  rfl
@[natural] theorem ArrayData.darray_mapw (d : ArrayData) (a : Nat) :
    (d.mapw r).darray a = Except.map (List.map r) (d.darray a) := by
  simp only [ArrayData.darray, natural, ArrayData.mapw, ArrayData.verifyArray]
  rfl
@[natural] theorem ArrayData.iarray_mapw (d : ArrayData) (a : Nat) :
    (d.mapw r).iarray a = d.iarray a := by
  simp only [ArrayData.iarray, natural, ArrayData.mapw, ArrayData.verifyArray]
  rfl

@[natural] theorem ColumnData.ofRange_mapw (xs : Words) (nc : Nat) :
    ColumnData.ofRange (xs.map r) nc = Except.map (ColumnData.mapw r) (ColumnData.ofRange xs nc) := by
  cases xs <;>
    simp only [ColumnData.ofRange, natural, ColumnData.mapw, List.map_cons, List.map_nil, List.length_cons]
@[natural] theorem ColumnData.N_mapw (d : ColumnData) : (d.mapw r).N = d.N := by
  simp only [ColumnData.N, ColumnData.mapw, natural, List.isEmpty_map]
@[natural] theorem ColumnData.column_mapw (d : ColumnData) (c : Nat) :
    (d.mapw r).column c = Except.map (List.map r) (d.column c) := by
  simp only [ColumnData.column, natural]; simp only [ColumnData.mapw, natural]
@[natural] theorem ColumnData.value_mapw (d : ColumnData) (c i : Nat) :
    (d.mapw r).value c i = Except.map r (d.value c i) := by
  simp only [ColumnData.value, natural]; simp only [ColumnData.mapw, natural]

@[natural] theorem TabulatedData.ofRange_mapw (xs : Words) :
    TabulatedData.ofRange (xs.map r) = Except.map (TabulatedData.mapw r) (TabulatedData.ofRange xs) := by
  simp only [TabulatedData.ofRange, TabulatedData.generateBlocks, InterpolationData.ofRange, natural,
    TabulatedData.mapw]
@[natural] theorem TabProb.ofRange_mapw (xs : Words) :
    TabProb.ofRange (xs.map r) = Except.map (TabProb.mapw r) (TabProb.ofRange xs) := by
  simp only [TabProb.ofRange, TabProb.numberValues, natural, TabProb.mapw]
@[natural] theorem TabDist.ofRange_mapw (v : Dbl) (xs : Words) :
    TabDist.ofRange (r v) (xs.map r) = Except.map (TabDist.mapw r) (TabDist.ofRange v xs) := by
  simp only [TabDist.ofRange, natural, TabDist.mapw]
@[natural] theorem TwoParam.ofRange_mapw (xs : Words) (a b : Dbl) :
    TwoParam.ofRange (xs.map r) (r a) (r b) = Except.map (TwoParam.mapw r) (TwoParam.ofRange xs a b) := by
  simp only [TwoParam.ofRange, natural, TwoParam.mapw]
@[natural] theorem Evaporation.ofRange_mapw (xs : Words) :
    Evaporation.ofRange (xs.map r) = Except.map (Evaporation.mapw r) (Evaporation.ofRange xs) := by
  simp only [Evaporation.ofRange, Evaporation.generateBlocks, natural, Evaporation.mapw]
@[natural] theorem ProbabilityTable.ofRange_mapw (xs : Words) (v : Dbl) (n : Nat) :
    ProbabilityTable.ofRange (xs.map r) (r v) n =
      Except.map (ProbabilityTable.mapw r) (ProbabilityTable.ofRange xs v n) := by
  simp only [ProbabilityTable.ofRange, natural, ProbabilityTable.mapw]
@[natural] theorem TRAN.ofRange_mapw (xs : Words) :
    TRAN.ofRange (xs.map r) = Except.map (ArrayData.mapw r) (TRAN.ofRange xs) := by
  simp only [TRAN.ofRange, natural]
@[natural] theorem JINC.ofRange_mapw (xs : Words) :
    JINC.ofRange (xs.map r) = Except.map (JINC.mapw r) (JINC.ofRange xs) := by
  simp only [JINC.ofRange, natural, JINC.mapw]
@[natural] theorem JCOH.ofRange_mapw (xs : Words) :
    JCOH.ofRange (xs.map r) = Except.map (JCOH.mapw r) (JCOH.ofRange xs) := by
  simp only [JCOH.ofRange, natural, JCOH.mapw]

/-! ## Blocks with locators -/

theorem LocBlock.ofRange_mapw {D : Type} {f : D → D} {gen : Nat → Words → Res D}
    (hg : ∀ l xs, gen l (List.map r xs) = Except.map f (gen l xs)) (xs : Words) (iter n : Nat) (b : Bool) :
    LocBlock.ofRange gen (xs.map r) iter n b =
      Except.map (LocBlock.mapw f r) (LocBlock.ofRange gen xs iter n b) := by
  have h : LocBlock.generateBlock gen (xs.map r) n b iter =
      fun i => Except.map f (LocBlock.generateBlock gen xs n b iter i) := by
    funext i
    simp only [LocBlock.generateBlock, LocBlock.LLOCof, natural, hg]
  simp only [LocBlock.ofRange, LocBlock.generateBlocks, h, natural, LocBlock.mapw]

@[natural] theorem CrossSectionData.ofRange_mapw (xs : Words) :
    CrossSectionData.ofRange (xs.map r) =
      Except.map (CrossSectionData.mapw r) (CrossSectionData.ofRange xs) := by
  simp only [CrossSectionData.ofRange, CrossSectionData.numberValues, natural, CrossSectionData.mapw]
@[natural] theorem PhotonXS.ofRange_mapw (xs : Words) :
    PhotonXS.ofRange (xs.map r) = Except.map (PhotonXS.mapw r) (PhotonXS.ofRange xs) := by
  simp only [PhotonXS.ofRange, PhotonXS.numberValues, natural, PhotonXS.mapw]
@[natural] theorem TabMult.ofRange_mapw (xs : Words) :
    TabMult.ofRange (xs.map r) = Except.map (TabMult.mapw r) (TabMult.ofRange xs) := by
  simp only [TabMult.ofRange, TabMult.generateBlocks, natural, TabMult.mapw]
@[natural] theorem SIG.ofRange_mapw (xs : Words) (s n : Nat) :
    SIG.ofRange (xs.map r) s n =
      Except.map (LocBlock.mapw (CrossSectionData.mapw r) r) (SIG.ofRange xs s n) :=
  LocBlock.ofRange_mapw (fun _ _ => CrossSectionData.ofRange_mapw _) ..
@[natural] theorem SIGD.ofRange_mapw (xs : Words) (s n : Nat) :
    SIGD.ofRange (xs.map r) s n =
      Except.map (LocBlock.mapw (TabulatedData.mapw r) r) (SIGD.ofRange xs s n) :=
  LocBlock.ofRange_mapw (fun _ _ => TabulatedData.ofRange_mapw _) ..
theorem SIGP.gen_mapw (l : Nat) (xs : Words) :
    SIGP.gen l (xs.map r) = Except.map (PhotonData.mapw r) (SIGP.gen l xs) := by
  simp only [SIGP.gen, natural, PhotonData.mapw]
@[natural] theorem SIGP.ofRange_mapw (xs : Words) (s n : Nat) :
    SIGP.ofRange (xs.map r) s n =
      Except.map (LocBlock.mapw (PhotonData.mapw r) r) (SIGP.ofRange xs s n) :=
  LocBlock.ofRange_mapw SIGP.gen_mapw ..
@[natural] theorem SIGH.ofRange_mapw (xs : Words) (s n : Nat) :
    SIGH.ofRange (xs.map r) s n =
      Except.map (LocBlock.mapw (TabMult.mapw r) r) (SIGH.ofRange xs s n) :=
  LocBlock.ofRange_mapw (fun _ _ => TabMult.ofRange_mapw _) ..
@[natural] theorem SWD.ofRange_mapw (xs : Words) (s n : Nat) :
    SWD.ofRange (xs.map r) s n =
      Except.map (LocBlock.mapw (TabProb.mapw r) r) (SWD.ofRange xs s n) :=
  LocBlock.ofRange_mapw (fun _ _ => TabProb.ofRange_mapw _) ..
@[natural] theorem XPROB.ofRange_mapw (xs : Words) (s n : Nat) :
    XPROB.ofRange (xs.map r) s n =
      Except.map (LocBlock.mapw (ArrayData.mapw r) r) (XPROB.ofRange xs s n) :=
  LocBlock.ofRange_mapw (fun _ _ => TRAN.ofRange_mapw _) ..
@[natural] theorem ElectronDist.ofRange_mapw (e : Dbl) (xs : Words) (n : Nat) :
    ElectronDist.ofRange (r e) (xs.map r) n =
      Except.map (ElectronDist.mapw r) (ElectronDist.ofRange e xs n) := by
  simp only [ElectronDist.ofRange, natural, ElectronDist.mapw]
@[natural] theorem ElectronBlock.ofRange_mapw (xs : Words) (n : Nat) :
    ElectronBlock.ofRange (xs.map r) n =
      Except.map (ElectronBlock.mapw r) (ElectronBlock.ofRange xs n) := by
  have h : ∀ d : ArrayData, ElectronBlock.generateBlock (xs.map r) n (d.mapw r) =
      fun i => Except.map (ElectronDist.mapw r) (ElectronBlock.generateBlock xs n d i) := by
    intro d; funext i
    simp only [ElectronBlock.generateBlock, ElectronBlock.LLOCof, ElectronBlock.lengthOf,
      ElectronBlock.energyOf, natural]
  simp only [ElectronBlock.ofRange, ElectronBlock.generateBlocks, natural, h, ElectronBlock.mapw]

end
end ACE

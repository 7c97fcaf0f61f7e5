import Verif.Lemmas.AgreeBlocks

/-!
# Words behind the last word: blocks with locators and distributions
-/

namespace ACE

namespace Longer

/-- An element of a list of data. -/
theorem element {D : Type} {R : D → D → Prop} {l l' : List D} (h : List.Forall₂ R l l') (i : Nat)
    {f f' : Res D} (hf : f = match l[i]? with | some d => .ok d | none => .error .ub)
    (hf' : f' = match l'[i]? with | some d => .ok d | none => .error .ub) : Up R f f' := by
  rw [hf, hf']
  exact Up.get (f := fun o => match o with | some d => .ok d | none => .error .ub) h i
    (fun _ => rfl) (fun _ h => nomatch h)

variable (xs ys : Words)

/-- A part that ends with the words. -/
theorem partEnd {D : Type} {R : D → D → Prop} {g : Words → Res D} (left : Nat)
    (hg : ∀ v, Up R (g v) (g (v ++ ys))) :
    Up R (pure xs.length >>= fun r => ACE.sub xs left r >>= g)
      (pure (xs ++ ys).length >>= fun r => ACE.sub (xs ++ ys) left r >>= g) :=
  Up.step (A := fun a b => a = xs.length ∧ b = (xs ++ ys).length) (Up.pure' ⟨rfl, rfl⟩)
    fun a b _ _ e => by
      rw [e.1, e.2]
      exact Up.step (rest xs ys left) fun v v' _ _ e => e ▸ hg v

section LocBlock

variable {D : Type} [Gives D] [GivesSelf D] {gen : Nat → Words → Res D}

theorem lloc (n : Nat) (locator : Bool) (i : Nat) :
    Up Eq (LocBlock.LLOCof xs n locator i) (LocBlock.LLOCof (xs ++ ys) n locator i) :=
  Up.bind (Up.same _) fun _ _ => Up.ite (Up.bind (IXSS xs ys i) fun _ _ => Up.same _)
    (Up.bind (IXSS xs ys i) fun _ _ => Up.same _)

theorem locPart (hgen : ∀ loc ws, gen loc ws ≼ gen loc (ws ++ ys)) (n : Nat) (locator : Bool)
    (iter i : Nat) : LocBlock.generateBlock gen xs n locator iter i ≼
      LocBlock.generateBlock gen (xs ++ ys) n locator iter i := by
  unfold LocBlock.generateBlock
  refine Up.bind (lloc xs ys _ _ _) fun loc _ => Up.bind (iterator xs ys _) fun left _ => ?_
  dsimp only
  by_cases h : i + 1 = n
  · rw [if_pos h, if_pos h]
    exact partEnd xs ys left (hgen loc)
  · rw [if_neg h, if_neg h]
    exact Up.bind (lloc xs ys _ _ _) fun _ _ => Up.bind (iterator xs ys _) fun _ _ =>
      Up.bind (sub xs ys _ _) fun _ _ => GivesSelf.self (α := Res D) _

theorem locBlocks (hgen : ∀ loc ws, gen loc ws ≼ gen loc (ws ++ ys)) (n : Nat) (locator : Bool)
    (iter : Nat) : LocBlock.generateBlocks gen xs n locator iter ≼
      LocBlock.generateBlocks gen (xs ++ ys) n locator iter :=
  Up.step (Up.mapM _ fun i _ => locPart xs ys hgen n locator iter i) fun _ _ _ _ h =>
    Up.pure' ⟨rfl, lloc xs ys n locator, fun i => Up.bind (Up.same _) fun _ _ =>
      element h (i - 1) rfl rfl⟩

theorem locBlock (hgen : ∀ loc ws, gen loc ws ≼ gen loc (ws ++ ys)) (iter n : Nat) (locator : Bool) :
    LocBlock.ofRange gen xs iter n locator ≼ LocBlock.ofRange gen (xs ++ ys) iter n locator :=
  Up.bind (Up.same _) fun _ _ => locBlocks xs ys hgen n locator iter

end LocBlock

theorem crossSection : CrossSectionData.ofRange xs ≼ CrossSectionData.ofRange (xs ++ ys) :=
  have n : CrossSectionData.numberValues ⟨xs⟩ ≼ CrossSectionData.numberValues ⟨xs ++ ys⟩ :=
    Up.bind (IXSS xs ys 2) fun _ _ => Up.same _
  Up.bind n fun _ _ => Up.bind (size xs ys _) fun _ _ => Up.pure' ⟨Up.bind (IXSS xs ys 1) fun _ _ =>
    Up.same _, n, Up.bind n fun _ _ => XSSr xs ys _ _⟩

theorem photonXS : PhotonXS.ofRange xs ≼ PhotonXS.ofRange (xs ++ ys) :=
  have n : PhotonXS.numberValues ⟨xs⟩ ≼ PhotonXS.numberValues ⟨xs ++ ys⟩ :=
    Up.bind (XSS xs ys 3) fun _ _ => Up.same _
  Up.bind n fun _ _ => Up.bind (size xs ys _) fun _ _ => Up.pure' ⟨Up.bind (IXSS xs ys 1) fun _ _ =>
    Up.same _, Up.bind (IXSS xs ys 2) fun _ _ => Up.same _, n, Up.bind n fun _ _ => XSSr xs ys _ _⟩

theorem tabMult : TabMult.ofRange xs ≼ TabMult.ofRange (xs ++ ys) :=
  Up.step (rest xs ys 2) fun v _ _ _ e => e ▸ Up.step (tabulated v ys) fun _ _ _ _ h =>
    Up.pure' ⟨Up.bind (IXSS xs ys 1) fun _ _ => Up.same _, Up.bind (IXSS xs ys 2) fun _ _ => Up.same _,
      h.1, h.2.1, h.2.2.1, h.2.2.2.1, h.2.2.2.2.1, h.2.2.2.2.2⟩

theorem photonData (loc : Nat) : SIGP.gen loc xs ≼ SIGP.gen loc (xs ++ ys) :=
  Up.bind (deref xs ys 0) fun _ _ => Up.bind (Up.same _) fun _ _ =>
    Up.ite (Up.step (photonXS xs ys) fun _ _ _ _ h => Up.pure' h)
      (Up.step (tabMult xs ys) fun _ _ _ _ h => Up.pure' h)

theorem electronDist (e : Dbl) (n : Nat) :
    ElectronDist.ofRange e xs n ≼ ElectronDist.ofRange e (xs ++ ys) n :=
  Up.step (array xs ys n 2) fun _ _ _ _ h =>
    Up.pure' ⟨rfl, h.1, h.2.2.2.2.1 1, h.2.2.2.2.1 2⟩

theorem electronBlock (n : Nat) : ElectronBlock.ofRange xs n ≼ ElectronBlock.ofRange (xs ++ ys) n := by
  unfold ElectronBlock.ofRange ElectronBlock.generateBlocks
  refine Up.bind (sub xs ys _ _) fun ws _ => Up.bind (Up.same _) fun info _ => ?_
  have hb (i : Nat) : ElectronBlock.generateBlock xs n info i ≼
      ElectronBlock.generateBlock (xs ++ ys) n info i := by
    unfold ElectronBlock.generateBlock
    longer
    exact GivesSelf.self (α := Res ElectronDist) _
  refine Up.step (Up.mapM _ fun i _ => hb i) fun l l' _ _ h => Up.pure' ?_
  exact ⟨rfl, GivesSelf.self (α := Nat → Res Nat) _, GivesSelf.self (α := Nat → Res Dbl) _,
    GivesSelf.self (α := Nat → Res Nat) _, Up.same _, Up.same _, fun i =>
      Up.bind (Up.same _) fun _ _ => element h (i - 1) (by cases l[i - 1]? <;> rfl)
        (by cases l'[i - 1]? <;> rfl)⟩

/-! ## Distributions -/

section Dist

variable {D : Type} [Gives D] [GivesSelf D]

theorem distPart {gen : Dbl → Nat → Words → Res D}
    (hgen : ∀ v locb ws, gen v locb ws ≼ gen v locb (ws ++ ys)) (rel : Nat → Res Int)
    (values : ColumnData) (n i : Nat) : Dist.generateBlock gen rel xs values n i ≼
      Dist.generateBlock gen rel (xs ++ ys) values n i := by
  unfold Dist.generateBlock
  refine Up.bind (Up.same _) fun v _ => Up.bind (Up.same _) fun locb _ =>
    Up.bind (Up.same _) fun locator _ => Up.bind (iterator xs ys _) fun left _ =>
    Up.bind (Up.same _) fun o _ => ?_
  cases o with
  | none => exact partEnd xs ys left (hgen v _)
  | some next => exact Up.bind (iterator xs ys _) fun _ _ => Up.bind (sub xs ys _ _) fun _ _ =>
      GivesSelf.self (α := Res D) _

theorem distData {gen : Dbl → Nat → Words → Res D}
    (hgen : ∀ v locb ws, gen v locb ws ≼ gen v locb (ws ++ ys)) (locb : Nat) :
    DistData.ofRange gen locb xs ≼ DistData.ofRange gen locb (xs ++ ys) := by
  have hb : DistData.generateBlocks gen xs locb ≼ DistData.generateBlocks gen (xs ++ ys) locb := by
    unfold DistData.generateBlocks
    refine Up.bind (IXSS xs ys _) fun nr _ => Up.bind (IXSS xs ys _) fun ne _ =>
      Up.bind (iterator xs ys _) fun data _ => Up.bind (iterator xs ys _) fun fin _ =>
      Up.bind (sub xs ys _ _) fun wi _ => Up.bind (Up.same _) fun interp _ =>
      Up.bind (sub xs ys _ _) fun wv _ => Up.bind (Up.same _) fun values _ =>
      Up.bind (Up.same _) fun n _ => ?_
    refine Up.step (Up.mapM _ fun i _ => distPart xs ys hgen _ values n i) fun l l' _ _ h =>
      Up.pure' ?_
    exact ⟨Up.same _, Up.same _, Up.same _, Up.same _, Up.same _, fun _ => Up.same _, Up.same _,
      Up.same _, fun _ => Up.same _, fun _ => Up.same _, fun i => Up.bind (Up.same _) fun _ _ =>
        element h (i - 1) (by cases l[i - 1]? <;> rfl) (by cases l'[i - 1]? <;> rfl)⟩
  unfold DistData.ofRange
  longer
  exact hb

end Dist

theorem law4 (locb : Nat) : Law4.ofRange locb xs ≼ Law4.ofRange locb (xs ++ ys) :=
  distData xs ys (fun v _ ws => tabDist ws ys v) locb

theorem verifySizeI : Up Eq (DistDataI.verifySize xs) (DistDataI.verifySize (xs ++ ys)) := by
  unfold DistDataI.verifySize
  longer

theorem angleEnergy (e : Dbl) (locb : Nat) :
    AngleEnergy.ofRange e locb xs ≼ AngleEnergy.ofRange e locb (xs ++ ys) := by
  refine Up.bind (verifySizeI xs ys) fun _ _ => ?_
  unfold AngleEnergy.generateBlocks
  refine Up.bind (IXSS xs ys _) fun ne _ =>
    Up.bind (iterator xs ys _) fun data _ => Up.bind (iterator xs ys _) fun fin _ =>
    Up.bind (sub xs ys _ _) fun wv _ => Up.bind (Up.same _) fun values _ =>
    Up.bind (Up.same _) fun n _ => ?_
  refine Up.step (Up.mapM _ fun i _ => distPart xs ys (gen := Law4.gen)
    (fun v _ ws => tabDist ws ys v) _ values n i) fun l l' _ _ h => Up.pure' ?_
  exact ⟨rfl, IXSS xs ys 1, Up.same _, fun _ => Up.same _, fun _ _ => Up.same _, fun _ => Up.same _,
    fun _ => Up.same _, fun i => Up.bind (Up.same _) fun _ _ =>
      element h (i - 1) (by cases l[i - 1]? <;> rfl) (by cases l'[i - 1]? <;> rfl)⟩

theorem law67 (locb : Nat) : Law67.ofRange locb xs ≼ Law67.ofRange locb (xs ++ ys) :=
  distData xs ys (fun v l ws => angleEnergy ws ys v l) locb

theorem angularProb (e p c : Dbl) : AngularProb.ofRange e p c xs ≼ AngularProb.ofRange e p c (xs ++ ys) :=
  Up.step (tabDist xs ys e) fun _ _ _ _ h => Up.pure' ⟨h, rfl, rfl⟩

theorem energyAnglePart (values : ColumnData) (locb n i : Nat) :
    EnergyAngle.generateBlock xs values locb n i ≼
      EnergyAngle.generateBlock (xs ++ ys) values locb n i := by
  unfold EnergyAngle.generateBlock
  refine Up.bind (Up.same _) fun e _ => Up.bind (Up.same _) fun p _ => Up.bind (Up.same _) fun c _ =>
    Up.bind (Up.same _) fun locator _ => ?_
  dsimp only
  by_cases h : i + 1 = n
  · rw [if_pos h, if_pos h]
    exact partEnd xs ys _ fun v => angularProb v ys e p c
  · rw [if_neg h, if_neg h]
    exact Up.bind (Up.same _) fun _ _ => Up.bind (Up.same _) fun _ _ =>
      Up.bind (sub xs ys _ _) fun _ _ => GivesSelf.self (α := Res AngularProb) _

theorem energyAngle (e : Dbl) (locb : Nat) :
    EnergyAngle.ofRange e locb xs ≼ EnergyAngle.ofRange e locb (xs ++ ys) := by
  refine Up.bind (verifySizeI xs ys) fun _ _ => ?_
  unfold EnergyAngle.generateBlocks
  refine Up.bind (IXSS xs ys _) fun ne _ =>
    Up.bind (sub xs ys _ _) fun wv _ => Up.bind (Up.same _) fun values _ =>
    Up.bind (Up.same _) fun n _ => ?_
  refine Up.step (Up.mapM _ fun i _ => energyAnglePart xs ys values locb n i) fun l l' _ _ h =>
    Up.pure' ?_
  exact ⟨rfl, IXSS xs ys 1, Up.same _, fun _ => Up.same _, fun _ _ => Up.same _, fun _ => Up.same _,
    fun _ => Up.same _, fun i => Up.bind (Up.same _) fun _ _ =>
      element h (i - 1) (by cases l[i - 1]? <;> rfl) (by cases l'[i - 1]? <;> rfl)⟩

theorem law61 (locb : Nat) : Law61.ofRange locb xs ≼ Law61.ofRange locb (xs ++ ys) :=
  distData xs ys (fun v l ws => energyAngle ws ys v l) locb

/-! ## Angular distributions -/

theorem equiAngular (e : Dbl) : EquiAngular.mk' e xs ≼ EquiAngular.mk' e (xs ++ ys) :=
  Up.bind (size xs ys _) fun _ _ => Up.pure' ⟨rfl, XSSr xs ys 1 33⟩

/-- The end of a part with a locator. -/
theorem partTo {D : Type} [Gives D] [GivesSelf D] {g : Words → Res D} (left : Nat) (o : Option Int)
    (hg : ∀ v, Up Gives.rel (g v) (g (v ++ ys))) :
    Up Gives.rel (rangeEnd xs o >>= fun r => ACE.sub xs left r >>= g)
      (rangeEnd (xs ++ ys) o >>= fun r => ACE.sub (xs ++ ys) left r >>= g) := by
  cases o with
  | none => exact partEnd xs ys left hg
  | some next => exact Up.bind (iterator xs ys _) fun _ _ => Up.bind (sub xs ys _ _) fun _ _ =>
      GivesSelf.self (α := Res D) _

theorem angularPart (values : ColumnData) (locb n i : Nat) :
    AngularData.generateBlock xs values locb n i ≼
      AngularData.generateBlock (xs ++ ys) values locb n i := by
  unfold AngularData.generateBlock
  refine Up.bind (Up.same _) fun t _ => Up.bind (Up.same _) fun e _ =>
    Up.ite (GivesSelf.self (α := Res AngDist) _) (Up.bind (Up.same _) fun locator _ =>
      Up.bind (iterator xs ys _) fun left _ => Up.bind (Up.same _) fun o _ => ?_)
  by_cases h : t = .tabulated
  · simp only [if_pos h]
    exact partTo xs ys left o fun v => Up.step (tabDist v ys e) fun _ _ _ _ h => Up.pure' h
  · simp only [if_neg h]
    exact partTo xs ys left o fun v => Up.step (equiAngular v ys e) fun _ _ _ _ h => Up.pure' h

theorem angularData (locb : Nat) : AngularData.ofRange locb xs ≼ AngularData.ofRange locb (xs ++ ys) := by
  have hb : Up (fun b b' => b ≼ b' ∧ b.values = b'.values) (AngularData.generateBlocks xs locb)
      (AngularData.generateBlocks (xs ++ ys) locb) := by
    unfold AngularData.generateBlocks
    refine Up.bind (IXSS xs ys _) fun ne _ => Up.bind (iterator xs ys _) fun fin _ =>
      Up.bind (sub xs ys _ _) fun wv _ => Up.bind (Up.same _) fun values _ =>
      Up.bind (Up.same _) fun n _ => ?_
    refine Up.step (Up.mapM _ fun i _ => angularPart xs ys values locb n i) fun l l' _ _ h =>
      Up.pure' ⟨?_, rfl⟩
    exact ⟨Up.same _, Up.same _, fun _ => Up.same _, fun _ => Up.same _, fun _ => Up.same _,
      fun _ => Up.same _, fun i => Up.bind (Up.same _) fun _ _ =>
        element h (i - 1) (by cases l[i - 1]? <;> rfl) (by cases l'[i - 1]? <;> rfl)⟩
  unfold AngularData.ofRange
  refine Up.step hb fun b b' _ _ h => ?_
  rw [h.2]
  exact Up.bind (Up.same _) fun _ _ => Up.bind (size xs ys _) fun _ _ => Up.pure' h.1

theorem land (nr : Nat) (zero : Bool) (i : Nat) :
    Up Eq (AngularBlock.LANDof xs nr zero i) (AngularBlock.LANDof (xs ++ ys) nr zero i) :=
  Up.ite (Up.error _ _) (IXSS xs ys _)

theorem findNext {rel rel' : Nat → Res Int} (h : ∀ j, Up Eq (rel j) (rel' j)) (locator : Int) :
    ∀ l : List Nat, Up Eq (Dist.findNext rel locator l) (Dist.findNext rel' locator l)
  | [] => Up.same _
  | j :: js => Up.bind (h j) fun _ _ => Up.ite (Up.same _) (findNext h locator js)

theorem angularEntry (nr : Nat) (zero : Bool) (iter i : Nat) :
    AngularBlock.generateBlock xs nr zero iter i ≼
      AngularBlock.generateBlock (xs ++ ys) nr zero iter i := by
  unfold AngularBlock.generateBlock
  refine Up.bind (land xs ys nr zero i) fun l _ => Up.ite (Up.ite (GivesSelf.self (α := Res AngEntry) _)
    ?_) (GivesSelf.self (α := Res AngEntry) _)
  dsimp only
  exact Up.bind (iterator xs ys _) fun left _ => Up.bind (findNext (fun j => Up.bind (land xs ys nr zero j)
    fun _ _ => Up.same _) _ _) fun o _ => partTo xs ys left o fun v =>
      Up.step (angularData v ys _) fun _ _ _ _ h => Up.pure' h

theorem angularBlock (iter nr : Nat) (zero : Bool) :
    AngularBlock.ofRange xs iter nr zero ≼ AngularBlock.ofRange (xs ++ ys) iter nr zero := by
  refine Up.bind (Up.same _) fun _ _ => ?_
  unfold AngularBlock.generateBlocks
  refine Up.step (Up.mapM _ fun i _ => angularEntry xs ys nr zero iter i) fun l l' _ _ h => Up.pure' ?_
  have hl := land xs ys nr zero
  exact ⟨rfl, rfl, hl, fun i => Up.bind (hl i) fun _ _ => Up.same _,
    fun i => Up.bind (hl i) fun _ _ => Up.same _, fun i => Up.ite (Up.error _ _)
      (element h (i - if zero then 0 else 1) (by cases l[i - if zero then 0 else 1]? <;> rfl)
        (by cases l'[i - if zero then 0 else 1]? <;> rfl))⟩

end Longer

end ACE

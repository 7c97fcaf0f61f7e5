import Verif.Lemmas.AgreeDist

/-!
# Words behind the last word: energy distributions, fission, thermal scattering
-/

namespace ACE

namespace Longer

variable (xs ys : Words)

theorem equiBins : EquiBinData.ofRange xs ≼ EquiBinData.ofRange (xs ++ ys) := by
  have net (interp : InterpolationData) (energies : ColumnData) :
      Up Eq (EquiBinData.NETof xs interp energies) (EquiBinData.NETof (xs ++ ys) interp energies) := by
    unfold EquiBinData.NETof
    longer
  have hb : EquiBinData.generateBlocks xs ≼ EquiBinData.generateBlocks (xs ++ ys) := by
    unfold EquiBinData.generateBlocks
    refine Up.bind (IXSS xs ys _) fun nr _ => Up.bind (IXSS xs ys _) fun ne _ => ?_
    dsimp only
    refine Up.bind (sub xs ys _ _) fun wi _ => Up.bind (Up.same _) fun interp _ =>
      Up.bind (sub xs ys _ _) fun wv _ => Up.bind (Up.same _) fun energies _ => ?_
    refine Up.step (A := List.Forall₂ Gives.rel) (Up.mapM _ fun i _ => ?_) fun l l' _ _ h =>
      Up.pure' ?_
    · unfold EquiBinData.generateBlock
      exact Up.bind (Up.same _) fun _ _ => Up.bind (net _ _) fun _ _ =>
        Up.bind (sub xs ys _ _) fun _ _ => GivesSelf.self (α := Res EquiEnergy) _
    · exact ⟨Up.same _, Up.same _, Up.same _, Up.same _, Up.same _, fun _ => Up.same _, net _ _,
        Up.same _, Up.same _, fun i => Up.bind (Up.same _) fun _ _ => Up.ite (Up.error _ _)
          (element h (i - 1) (by cases l[i - 1]? <;> rfl) (by cases l'[i - 1]? <;> rfl))⟩
  unfold EquiBinData.ofRange
  longer
  exact hb

theorem general : GenEvap.ofRange xs ≼ GenEvap.ofRange (xs ++ ys) := by
  unfold GenEvap.ofRange
  refine Up.bind (IXSS xs ys _) fun nr h1 => Up.bind (IXSS xs ys _) fun ne h2 =>
    Up.bind (IXSS xs ys _) fun nb h3 => Up.bind (size xs ys _) fun _ _ => ?_
  unfold GenEvap.generateBlocks
  refine Up.bind (IXSS xs ys _) fun nr' h1' => Up.bind (IXSS xs ys _) fun ne' h2' =>
    Up.bind (sub xs ys _ _) fun wt _ => Up.bind (Up.same _) fun t _ => ?_
  refine Up.step (rest xs ys _) fun v v' hv _ e => ?_
  subst e
  have e1 : nr' = nr := Except.ok.inj (h1'.symm.trans h1)
  subst e1
  have e2 : ne' = ne := Except.ok.inj (h2'.symm.trans h2)
  subst e2
  have hne : v ≠ [] := by
    intro hv0
    obtain ⟨w, hw, _⟩ := bind_eq_ok.mp h3
    have hlen := (Base.XSS_eq_ok_iff.mp hw)
    unfold ACE.sub at hv
    split at hv
    · have := Except.ok.inj hv
      rw [hv0] at this
      have hl := congrArg List.length this
      simp only [List.length_take, List.length_drop, List.length_nil] at hl
      have := hlen.1
      have := (List.getElem?_eq_some_iff.mp hlen.2).1
      omega
    · cases hv
  exact Up.step (column ys hne 1) fun b b' _ _ h => Up.pure' ⟨GivesSelf.self t, h.2.1, h.2.2.1 1,
    Up.same _, Up.same _⟩

theorem watt : Watt.ofRange xs ≼ Watt.ofRange (xs ++ ys) := by
  unfold Watt.ofRange Watt.generateBlocks
  longer
  rename_i a _ _ _ b _
  exact ⟨GivesSelf.self a, GivesSelf.self b, Up.same _, Up.same _, deref xs ys _⟩

theorem nbody (emin emax : Dbl) : NBody.ofRange xs emin emax ≼ NBody.ofRange (xs ++ ys) emin emax :=
  have n : NBody.numberValues ⟨xs, emin, emax⟩ ≼ NBody.numberValues ⟨xs ++ ys, emin, emax⟩ :=
    Up.bind (IXSS xs ys 4) fun _ _ => Up.same _
  Up.bind (size xs ys _) fun _ _ => Up.pure' ⟨rfl, rfl, Up.bind (IXSS xs ys 1) fun _ _ => Up.same _,
    XSS xs ys 2, IXSS xs ys 3, n, Up.bind n fun _ _ => XSSr xs ys _ _,
    Up.bind n fun _ _ => XSSr xs ys _ _, Up.bind n fun _ _ => XSSr xs ys _ _⟩

theorem law (law : Int) (idat : Nat) (emin emax : Dbl) :
    LawData.read law idat xs emin emax ≼ LawData.read law idat (xs ++ ys) emin emax := by
  unfold LawData.read
  refine Up.ite (Up.step (twoParam xs ys _ _) fun _ _ _ _ h => Up.pure' h) ?_
  refine Up.ite (Up.step (twoParam xs ys _ _) fun _ _ _ _ h => Up.pure' h) ?_
  refine Up.ite (Up.step (twoParam xs ys _ _) fun _ _ _ _ h => Up.pure' h) ?_
  refine Up.ite (Up.step (nbody xs ys _ _) fun _ _ _ _ h => Up.pure' h) ?_
  refine Up.ite (Up.step (law4 xs ys _) fun _ _ _ _ h => Up.pure' h) ?_
  refine Up.ite (Up.step (law4 xs ys _) fun _ _ _ _ h => Up.pure' h) ?_
  refine Up.ite (Up.step (law61 xs ys _) fun _ _ _ _ h => Up.pure' h) ?_
  refine Up.ite (Up.step (law67 xs ys _) fun _ _ _ _ h => Up.pure' h) ?_
  refine Up.ite (Up.step (equiBins xs ys) fun _ _ _ _ h => Up.pure' h) ?_
  refine Up.ite (Up.step (general xs ys) fun _ _ _ _ h => Up.pure' h) ?_
  refine Up.ite (Up.step (evaporation xs ys) fun _ _ _ _ h => Up.pure' h) ?_
  refine Up.ite (Up.step (evaporation xs ys) fun _ _ _ _ h => Up.pure' h) ?_
  exact Up.ite (Up.step (watt xs ys) fun _ _ _ _ h => Up.pure' h) (Up.error _ _)

theorem laws (law' : Int) (idat : Nat) (emin emax : Dbl) :
    Up (List.Forall₂ Gives.rel) (LawData.readMulti law' idat xs emin emax)
      (LawData.readMulti law' idat (xs ++ ys) emin emax) := by
  unfold LawData.readMulti
  refine Up.ite ?_ ?_
  · exact Up.step (law67 xs ys idat) fun _ _ _ _ h1 => Up.step (equiBins xs ys) fun _ _ _ _ h2 =>
      Up.pure' (.cons h1 (.cons h2 .nil))
  · exact Up.step (law xs ys law' idat emin emax) fun _ _ _ _ h => Up.pure' (.cons h .nil)

theorem multiBlocks (locb : Nat) : ∀ (fuel fuel' : Nat), fuel ≤ fuel' → ∀ locator : Nat,
    Up (fun r r' => List.Forall₂ Gives.rel r.1 r'.1 ∧ List.Forall₂ Gives.rel r.2 r'.2)
      (MultiData.blocks xs locb fuel locator) (MultiData.blocks (xs ++ ys) locb fuel' locator)
  | 0, _, _, _ => Up.error _ _
  | fuel + 1, 0, h, _ => absurd h (by omega)
  | fuel + 1, fuel' + 1, h, locator => by
      have ih := multiBlocks locb fuel fuel' (by omega)
      unfold MultiData.blocks
      refine Up.bind (IXSS xs ys _) fun lnw _ => Up.bind (IXSS xs ys _) fun lw _ =>
        Up.bind (IXSS xs ys _) fun idat _ => ?_
      dsimp only
      refine Up.ite (Up.error .ub _) (Up.bind (Up.same _) fun dbegin _ => ?_)
      by_cases hz : sizeOfInt lnw = 0
      · unfold MultiData.endOf
        simp only [if_pos hz]
        refine Up.step (A := fun a b => a = xs.length ∧ b = (xs ++ ys).length) (Up.ok ⟨rfl, rfl⟩)
          fun a b _ _ e => ?_
        rw [e.1, e.2]
        refine Up.bind (sub xs ys _ _) fun wp _ => Up.bind (Up.same _) fun p _ =>
          Up.bind (Up.same _) fun x _ => Up.bind (Up.same _) fun emin _ =>
          Up.bind (Up.same _) fun x' _ => Up.bind (Up.same _) fun emax _ => ?_
        exact Up.step (rest xs ys dbegin) fun v v' _ _ e => e ▸
          Up.step (laws v ys _ _ _ _) fun _ _ _ _ h =>
            Up.pure' ⟨.cons (GivesSelf.self p) .nil, h⟩
      · unfold MultiData.endOf
        simp only [if_neg hz]
        refine Up.bind (Up.same _) fun fin _ => ?_
        refine Up.bind (sub xs ys _ _) fun wp _ => Up.bind (Up.same _) fun p _ =>
          Up.bind (Up.same _) fun x _ => Up.bind (Up.same _) fun emin _ =>
          Up.bind (Up.same _) fun x' _ => Up.bind (Up.same _) fun emax _ => ?_
        refine Up.bind (sub xs ys _ _) fun wd _ => Up.bind (Up.same _) fun ds _ => ?_
        exact Up.step (ih _) fun r r' _ _ h => Up.pure' ⟨.cons (GivesSelf.self p) h.1,
          List.rel_append (forall₂_refl GivesSelf.self ds) h.2⟩

theorem multi (locb : Nat) : MultiData.ofRange locb xs ≼ MultiData.ofRange locb (xs ++ ys) :=
  Up.step (multiBlocks xs ys locb _ _ (by rw [List.length_append]; omega) 1) fun r r' _ _ h =>
    have e : r.2.length = r'.2.length := h.2.length_eq
    Up.pure' ⟨e, fun i => by
        unfold MultiData.probability MultiData.numberDistributions
        rw [e]
        exact Up.ite (Up.error _ _) (element h.1 (i - 1) (by cases r.1[i - 1]? <;> rfl)
          (by cases r'.1[i - 1]? <;> rfl)),
      fun i => by
        unfold MultiData.distribution MultiData.numberDistributions
        rw [e]
        exact Up.ite (Up.error _ _) (element h.2 (i - 1) (by cases r.2[i - 1]? <;> rfl)
          (by cases r'.2[i - 1]? <;> rfl))⟩

theorem energyData (locator : Nat) : EnergyData.read locator xs ≼ EnergyData.read locator (xs ++ ys) := by
  unfold EnergyData.read
  refine Up.bind (deref xs ys _) fun _ _ => Up.bind (Up.same _) fun _ _ => Up.ite ?_
    (Up.step (multi xs ys locator) fun _ _ _ _ h => Up.pure' h)
  unfold EnergyData.readLaw
  refine Up.bind (deref xs ys _) fun _ _ => Up.bind (Up.same _) fun type _ =>
    Up.bind (deref xs ys _) fun _ _ => Up.bind (Up.same _) fun idat _ =>
    Up.bind (deref xs ys _) fun _ _ => Up.bind (Up.same _) fun nr _ =>
    Up.bind (deref xs ys _) fun _ _ => Up.bind (Up.same _) fun ne _ =>
    Up.bind (deref xs ys _) fun emin _ => Up.bind (deref xs ys _) fun emax _ => ?_
  dsimp only
  exact Up.ite (Up.error .ub _) (Up.bind (Up.same _) fun start _ => Up.step (rest xs ys _)
    fun v v' _ _ e => e ▸ Up.step (law v ys _ _ _ _) fun _ _ _ _ h => Up.pure' h)

theorem secondaryData (locator : Nat) :
    EnergyData.readSecondary locator xs ≼ EnergyData.readSecondary locator (xs ++ ys) :=
  Up.ite (GivesSelf.self (α := Res EnergyData) _) (energyData xs ys locator)

end Longer

end ACE

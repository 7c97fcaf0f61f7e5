import Verif.Lemmas.Agree

/-!
# Words behind the last word: arrays, columns, lists of numbers
-/

namespace ACE

/-- Every object gives what it gives. -/
class GivesSelf (α : Type) [Gives α] : Prop where
  self : ∀ v : α, v ≼ v

instance : GivesSelf Nat := ⟨fun _ => rfl⟩
instance : GivesSelf Int := ⟨fun _ => rfl⟩
instance : GivesSelf Bool := ⟨fun _ => rfl⟩
instance : GivesSelf Dbl := ⟨fun _ => rfl⟩
instance : GivesSelf Words := ⟨fun _ => rfl⟩
instance : GivesSelf (List Int) := ⟨fun _ => rfl⟩
instance : GivesSelf Frame := ⟨fun _ => rfl⟩
instance : GivesSelf (Option Frame) := ⟨fun _ => rfl⟩
instance : GivesSelf AngType := ⟨fun _ => rfl⟩
instance {α : Type} [Gives α] [GivesSelf α] : GivesSelf (Res α) := ⟨Up.refl GivesSelf.self⟩
instance {α β : Type} [Gives β] [GivesSelf β] : GivesSelf (α → β) :=
  ⟨fun f i => GivesSelf.self (f i)⟩

/-- Members of one and the same object. -/
macro "selves" : tactic => `(tactic| (intro b; repeat' first
  | exact rfl | exact trivial | exact GivesSelf.self _ | refine And.intro ?_ ?_))

instance : GivesSelf ArrayData := ⟨by selves⟩
instance : GivesSelf ColumnData := ⟨by selves⟩
instance : GivesSelf TabulatedData := ⟨by selves⟩
instance : GivesSelf TabProb := ⟨by selves⟩
instance : GivesSelf TwoParam := ⟨by selves⟩
instance : GivesSelf Evaporation := ⟨by selves⟩
instance : GivesSelf ProbabilityTable := ⟨by selves⟩
instance : GivesSelf TabDist := ⟨by selves⟩
instance : GivesSelf CrossSectionData := ⟨by selves⟩
instance : GivesSelf PhotonXS := ⟨by selves⟩
instance : GivesSelf TabMult := ⟨by selves⟩
instance : GivesSelf PhotonData := ⟨fun b => by
  cases b <;> exact GivesSelf.self (α := _) ‹_›⟩
instance : GivesSelf ElectronDist := ⟨by selves⟩
instance {D : Type} [Gives D] [GivesSelf D] : GivesSelf (DistData D) := ⟨by selves⟩
instance {D : Type} [Gives D] [GivesSelf D] : GivesSelf (DistDataI D) := ⟨by selves⟩
instance : GivesSelf AngularProb := ⟨by selves⟩
instance : GivesSelf EquiAngular := ⟨by selves⟩
instance : GivesSelf AngDist := ⟨fun b => by
  cases b
  · exact rfl
  all_goals exact GivesSelf.self (α := _) ‹_›⟩
instance : GivesSelf AngularData := ⟨by selves⟩
instance : GivesSelf AngEntry := ⟨fun b => by
  cases b
  · exact trivial
  · exact trivial
  · exact GivesSelf.self (α := AngularData) _⟩
instance : GivesSelf EquiEnergy := ⟨by selves⟩
instance : GivesSelf EquiBinData := ⟨by selves⟩
instance : GivesSelf GenEvap := ⟨by selves⟩
instance : GivesSelf Watt := ⟨by selves⟩
instance : GivesSelf NBody := ⟨by selves⟩
instance : GivesSelf LawData := ⟨fun b => by cases b <;> exact GivesSelf.self (α := _) ‹_›⟩
instance : GivesSelf MultiData := ⟨by selves⟩
instance : GivesSelf EnergyData := ⟨fun b => by
  cases b
  · exact GivesSelf.self (α := LawData) _
  · exact GivesSelf.self (α := MultiData) _
  · exact trivial⟩
instance : GivesSelf Mult := ⟨fun b => by
  cases b
  · exact rfl
  · exact GivesSelf.self (α := TabulatedData) _⟩
instance : GivesSelf PolyNu := ⟨by selves⟩
instance : GivesSelf TabNu := ⟨by selves⟩
instance : GivesSelf NuData := ⟨fun b => by cases b <;> exact GivesSelf.self (α := _) ‹_›⟩
instance : GivesSelf Precursor := ⟨by selves⟩
instance : GivesSelf DCos := ⟨by selves⟩
instance : GivesSelf PCos := ⟨by selves⟩
instance : GivesSelf CosData := ⟨fun b => by cases b <;> exact GivesSelf.self (α := _) ‹_›⟩

namespace Longer

variable (xs ys : Words)

/-! ## Arrays and columns -/

theorem arrayWords (n m : Nat) : (⟨xs, n, m⟩ : ArrayData) ≼ ⟨xs ++ ys, n, m⟩ := by
  refine ⟨rfl, rfl, fun a i => ?_, fun a i => ?_, fun a => ?_, fun a => ?_, ?_⟩
  · exact Up.bind (Up.same _) fun _ _ => XSS xs ys _
  · exact Up.bind (Up.same _) fun _ _ => IXSS xs ys _
  · exact Up.bind (Up.same _) fun _ _ => XSSr xs ys _ _
  · exact Up.bind (Up.same _) fun _ _ => IXSSr xs ys _ _
  · exact XSSr xs ys _ _

theorem array (n m : Nat) : ArrayData.ofRange xs n m ≼ ArrayData.ofRange (xs ++ ys) n m :=
  Up.bind (size xs ys _) fun _ _ => Up.pure' (arrayWords xs ys n m)

variable {xs} in
theorem columnN (h : xs ≠ []) (nc : Nat) :
    ColumnData.N ⟨xs, nc⟩ ≼ ColumnData.N ⟨xs ++ ys, nc⟩ := by
  unfold ColumnData.N
  rw [if_neg (by simpa using h), if_neg (by simp [h])]
  exact Up.bind (IXSS xs ys 1) fun _ _ => Up.same _

variable {xs} in
theorem columnWords (h : xs ≠ []) (nc : Nat) : (⟨xs, nc⟩ : ColumnData) ≼ ⟨xs ++ ys, nc⟩ :=
  ⟨rfl, columnN ys h nc, fun _ => Up.bind (columnN ys h nc) fun _ _ => XSSr xs ys _ _,
    fun _ _ => Up.bind (columnN ys h nc) fun _ _ => XSS xs ys _⟩

variable {xs} in
theorem column (h : xs ≠ []) (nc : Nat) :
    ColumnData.ofRange xs nc ≼ ColumnData.ofRange (xs ++ ys) nc := by
  obtain ⟨x, l, rfl⟩ := List.exists_cons_of_ne_nil h
  refine Up.bind (Up.same _) fun ne _ => Up.bind ?_ fun _ _ => Up.pure' (columnWords ys h nc)
  intro v hv
  refine ⟨v, ?_, rfl⟩
  have h := guardThrow_eq_ok.mp hv
  refine guardThrow_ok ?_
  simp only [Bool.or_eq_true, beq_iff_eq, Bool.not_eq_true', decide_eq_false_iff_not,
    List.length_append, List.length_cons] at h ⊢
  omega

theorem tabulatedBlocks : TabulatedData.generateBlocks xs ≼ TabulatedData.generateBlocks (xs ++ ys) := by
  unfold TabulatedData.generateBlocks
  longer
  exact GivesSelf.self (α := TabulatedData) ⟨xs, _, _⟩

theorem tabulated : TabulatedData.ofRange xs ≼ TabulatedData.ofRange (xs ++ ys) := by
  unfold TabulatedData.ofRange TabulatedData.verifySize
  longer
  exact tabulatedBlocks xs ys

theorem probWords : (⟨xs⟩ : TabProb) ≼ ⟨xs ++ ys⟩ :=
  have n : TabProb.numberValues ⟨xs⟩ ≼ TabProb.numberValues ⟨xs ++ ys⟩ :=
    Up.bind (IXSS xs ys 2) fun _ _ => Up.same _
  ⟨IXSS xs ys 1, n, Up.bind n fun _ _ => XSSr xs ys _ _, Up.bind n fun _ _ => XSSr xs ys _ _,
    Up.bind n fun _ _ => XSSr xs ys _ _, fun _ => Up.bind n fun _ _ => XSSr xs ys _ _⟩

theorem prob : TabProb.ofRange xs ≼ TabProb.ofRange (xs ++ ys) :=
  Up.bind (probWords xs ys).2.1 fun _ _ => Up.bind (size xs ys _) fun _ _ =>
    Up.pure' (probWords xs ys)

theorem twoParam (emin emax : Dbl) : TwoParam.ofRange xs emin emax ≼ TwoParam.ofRange (xs ++ ys) emin emax :=
  have lp : TwoParam.LP ⟨xs, emin, emax⟩ ≼ TwoParam.LP ⟨xs ++ ys, emin, emax⟩ :=
    Up.bind (XSS xs ys 1) fun _ _ => Up.same _
  Up.bind (size xs ys _) fun _ _ => Up.pure' ⟨rfl, rfl, XSS xs ys 1, XSS xs ys 2, lp,
    Up.bind lp fun _ _ => Up.same _, XSS xs ys 2⟩

theorem evaporation : Evaporation.ofRange xs ≼ Evaporation.ofRange (xs ++ ys) := by
  unfold Evaporation.ofRange Evaporation.generateBlocks
  longer
  rename_i t _
  exact ⟨GivesSelf.self t, GivesSelf.self t.x, GivesSelf.self t.y, Up.same _, Up.same _,
    deref xs ys _⟩

theorem probabilityTable (e : Dbl) (n : Nat) :
    ProbabilityTable.ofRange xs e n ≼ ProbabilityTable.ofRange (xs ++ ys) e n :=
  Up.step (array xs ys n 6) fun _ _ _ _ h => Up.pure' ⟨rfl, h⟩

theorem tabDist (v : Dbl) : TabDist.ofRange v xs ≼ TabDist.ofRange v (xs ++ ys) :=
  Up.step (prob xs ys) fun b b' _ _ h =>
    have i : TabDist.interpolation ⟨v, b⟩ ≼ TabDist.interpolation ⟨v, b'⟩ :=
      Up.bind h.1 fun _ _ => Up.same _
    Up.pure' ⟨rfl, h, i, Up.bind h.1 fun _ _ => Up.bind i fun _ _ => Up.same _, h.2.2.2.2.2 0,
      h.2.2.2.2.2 1⟩

/-! ## Lists of numbers -/

variable {xs} in
theorem yp (h : xs ≠ []) : YP.ofRange xs ≼ YP.ofRange (xs ++ ys) := by
  have n : YP.NYP ⟨xs⟩ ≼ YP.NYP ⟨xs ++ ys⟩ := by
    unfold YP.NYP
    rw [if_neg (by simpa using h), if_neg (by simp [h])]
    exact Up.bind (IXSS xs ys 1) fun _ _ => Up.same _
  refine Up.bind n fun m _ => Up.bind ?_ fun _ _ => Up.pure' ⟨n, fun i => ?_, ?_⟩
  · intro v hv
    refine ⟨v, ?_, rfl⟩
    have h := guardThrow_eq_ok.mp hv
    refine guardThrow_ok ?_
    simp only [Bool.or_eq_true, beq_iff_eq, Bool.not_eq_true', decide_eq_false_iff_not,
      List.length_append] at h ⊢
    omega
  · exact Up.bind n fun _ _ => Up.ite (Up.error _ _) (Up.bind (IXSS xs ys _) fun _ _ => Up.same _)
  · exact Up.bind n fun _ _ => XSSr xs ys _ _

theorem ixs (n : Nat) : IXS.ofRange xs n ≼ IXS.ofRange (xs ++ ys) n :=
  Up.bind (size xs ys _) fun _ _ =>
    Up.pure' ⟨rfl, fun _ _ => Up.bind (IXSS xs ys _) fun _ _ => Up.same _⟩

theorem ixsuSearch (n type : Nat) : ∀ count start : Nat,
    Up Eq (IXSU.search ⟨xs, n⟩ type start count) (IXSU.search ⟨xs ++ ys, n⟩ type start count)
  | 0, _ => Up.same _
  | count + 1, start => by
      unfold IXSU.search
      refine Up.bind (Up.bind (Up.bind (IXSS xs ys _) fun _ _ => Up.same _) fun _ _ => Up.same _)
        fun _ _ => Up.ite (Up.same _) (ixsuSearch n type count (start + 1))

theorem ixsu (n : Nat) : IXSU.ofRange xs n ≼ IXSU.ofRange (xs ++ ys) n :=
  have l : IXSU.LLOC ⟨xs, n⟩ ≼ IXSU.LLOC ⟨xs ++ ys, n⟩ := fun _ _ =>
    Up.bind (IXSS xs ys _) fun _ _ => Up.same _
  Up.bind (size xs ys _) fun _ _ => Up.pure' ⟨rfl, l, fun p => Up.bind (l p 1) fun _ _ => Up.same _,
    fun p => Up.bind (l p 2) fun _ _ => Up.same _,
    fun t => Up.bind (ixsuSearch xs ys n t n 1) fun _ _ => Up.same _,
    fun t => Up.bind (ixsuSearch xs ys n t n 1) fun _ _ => Up.same _⟩

theorem hpd : HPD.ofRange xs ≼ HPD.ofRange (xs ++ ys) :=
  have n : HPD.numberValues ⟨xs⟩ ≼ HPD.numberValues ⟨xs ++ ys⟩ :=
    Up.bind (XSS xs ys 2) fun _ _ => Up.same _
  Up.bind n fun _ _ => Up.bind (size xs ys _) fun _ _ => Up.pure' ⟨Up.bind (XSS xs ys 1) fun _ _ =>
    Up.same _, n, Up.bind n fun _ _ => XSSr xs ys _ _,
    Up.bind n fun _ _ => Up.bind n fun _ _ => XSSr xs ys _ _⟩

theorem ntro (n : Nat) : NTRO.ofRange xs n ≼ NTRO.ofRange (xs ++ ys) n :=
  Up.bind (size xs ys _) fun _ _ => Up.pure' ⟨rfl, fun _ => Up.bind (IXSS xs ys _) fun _ _ =>
    Up.same _, XSSr xs ys _ _⟩

end Longer

end ACE

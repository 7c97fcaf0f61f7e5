import Verif.Props.C63
import Verif.Props.C18
import Verif.Props.C48
import Verif.Props.C56
import Verif.Model.FormatBlocks

/-!
# C67: a member function of an index accepts exactly the indices there are

Whatever words a block is made from: when the constructor accepts them, each member function of an
index refuses exactly the indices outside of 1, …, count with `std::out_of_range`, and has a value
for the others unless a word that is to be an integer is none.
-/

namespace ACE.Props

/-- A member function of an index that refuses exactly the indices outside of `first`, …, `last`
with `std::out_of_range`. -/
def Refuses {α : Type} (f : Nat → Res α) (first last : Nat) : Prop :=
  ∀ i, f i = .error .range ↔ i < first ∨ last < i

namespace C67

theorem refuses {α : Type} {f : Nat → Res α} {a b : Nat} (h : Indexed f a b) : Refuses f a b := by
  intro i
  refine ⟨fun hi => ?_, h.2 i⟩
  by_cases hc : i < a ∨ b < i
  · exact hc
  · obtain ⟨x, hx⟩ := h.1 i (by omega) (by omega)
    rw [hx] at hi; cases hi

/-- A function of the value of a member function. -/
theorem Indexed.map {α β : Type} {f : Nat → Res α} {a b : Nat} (g : α → Res β) (h : Indexed f a b)
    (hg : ∀ i x, f i = .ok x → ∃ y, g x = .ok y) : Indexed (fun i => f i >>= g) a b := by
  refine ⟨fun i h1 h2 => ?_, fun i hi => ?_⟩
  · obtain ⟨x, hx⟩ := h.1 i h1 h2
    obtain ⟨y, hy⟩ := hg i x hx
    exact ⟨y, by show f i >>= g = _; rw [hx]; exact hy⟩
  · show f i >>= g = _; rw [h.2 i hi]; rfl

theorem Refuses.map {α β : Type} {f : Nat → Res α} {a b : Nat} (g : α → Res β) (h : Refuses f a b)
    (hg : ∀ i x, f i = .ok x → g x ≠ .error .range) : Refuses (fun i => f i >>= g) a b := by
  intro i
  rw [← h i]
  show f i >>= g = _ ↔ _
  cases e : f i with
  | error x => rw [error_bind]; simp only [Except.error.injEq]
  | ok x =>
    rw [ok_bind]
    exact ⟨fun h' => absurd h' (hg i x e), fun h' => by cases h'⟩

theorem toInt32_range (o : Option Int) : toInt32 o ≠ .error .range := by
  unfold toInt32; split
  · split <;> intro h <;> cases h
  · intro h; cases h

theorem toSize_range (o : Option Int) : toSize o ≠ .error .range := by
  unfold toSize; split
  · split <;> intro h <;> cases h
  · intro h; cases h

/-! ### Arrays -/

theorem made {xs : Words} {n m : Nat} {b : ArrayData} (h : ArrayData.ofRange xs n m = .ok b) :
    b = ⟨xs, n, m⟩ ∧ n * m % 4294967296 ≤ xs.length := by
  unfold ArrayData.ofRange ArrayData.verifySize at h
  obtain ⟨_, hv, h⟩ := bind_eq_ok.mp h
  exact ⟨(Except.ok.inj h).symm, by simpa using guardThrow_eq_ok.mp hv⟩

theorem before {n m a i : Nat} (h1 : 1 ≤ a) (h2 : a ≤ m) (h3 : i ≤ n) : (a - 1) * n + i ≤ n * m := by
  have h : (a - 1) * n + n = n * a := by
    obtain ⟨k, rfl⟩ : ∃ k, a = k + 1 := ⟨a - 1, by omega⟩
    rw [Nat.add_sub_cancel, Nat.mul_succ, Nat.mul_comm]
  have := Nat.mul_le_mul_left n h2
  omega

theorem dvalue {xs : Words} {n m a : Nat} (hl : n * m ≤ xs.length) (h1 : 1 ≤ a) (h2 : a ≤ m) :
    Indexed (ArrayData.dvalue ⟨xs, n, m⟩ a) 1 n := by
  constructor
  · intro i ha hb
    have := before h1 h2 hb
    simp only [ArrayData.dvalue, ArrayData.verifyIndex, ArrayData.verifyArray,
      if_neg (show ¬ (a < 1 ∨ a > m) by omega), if_neg (show ¬ (i < 1 ∨ i > n) by omega), ok_bind]
    exact C48.XSS_in (by omega) (by omega)
  · intro i hi
    simp only [ArrayData.dvalue, ArrayData.verifyIndex, ArrayData.verifyArray,
      if_neg (show ¬ (a < 1 ∨ a > m) by omega), if_pos hi, ok_bind, error_bind]

theorem ivalue_eq (d : ArrayData) (a i : Nat) :
    d.ivalue a i = d.dvalue a i >>= fun x => toInt32 x.round? := by
  unfold ArrayData.ivalue ArrayData.dvalue Base.IXSS
  cases d.verifyIndex a i <;> rfl

theorem ivalue {xs : Words} {n m a : Nat} (hl : n * m ≤ xs.length) (h1 : 1 ≤ a) (h2 : a ≤ m) :
    Refuses (ArrayData.ivalue ⟨xs, n, m⟩ a) 1 n := by
  have h := Refuses.map (fun x : Dbl => toInt32 x.round?) (refuses (dvalue hl h1 h2))
    (fun _ _ _ => toInt32_range _)
  intro i
  rw [ivalue_eq]; exact h i

theorem darray {xs : Words} {n m : Nat} (hl : n * m ≤ xs.length) :
    Indexed (ArrayData.darray ⟨xs, n, m⟩) 1 m := by
  constructor
  · intro a ha hb
    have := before (i := n) ha hb (Nat.le_refl n)
    simp only [ArrayData.darray, ArrayData.verifyArray, if_neg (show ¬ (a < 1 ∨ a > m) by omega), ok_bind]
    obtain ⟨w, hw, _⟩ := C48.XSSr_in (xs := xs) (i := 1 + (a - 1) * n) (n := n) (by omega) (by omega)
    exact ⟨w, hw⟩
  · intro a ha
    simp only [ArrayData.darray, ArrayData.verifyArray, if_pos ha, error_bind]

/-- The member function of an index whose value is word `i` of each array. -/
theorem across {xs : Words} {n m i : Nat} (hl : n * m ≤ xs.length) (h1 : 1 ≤ i) (h2 : i ≤ n) :
    Indexed (fun a => ArrayData.dvalue ⟨xs, n, m⟩ a i) 1 m := by
  constructor
  · intro a ha hb
    exact (dvalue hl ha hb).1 i h1 h2
  · intro a ha
    simp only [ArrayData.dvalue, ArrayData.verifyIndex, ArrayData.verifyArray, if_pos ha, error_bind]

theorem iacross {xs : Words} {n m i : Nat} (hl : n * m ≤ xs.length) (h1 : 1 ≤ i) (h2 : i ≤ n) :
    Refuses (fun a => ArrayData.ivalue ⟨xs, n, m⟩ a i) 1 m := by
  have h := Refuses.map (fun x : Dbl => toInt32 x.round?) (refuses (across hl h1 h2))
    (fun _ _ _ => toInt32_range _)
  intro a
  show ArrayData.ivalue _ _ _ = _ ↔ _
  rw [ivalue_eq]; exact h a

end C67

open C67 in
/-- Blocks of arrays (`n` elements in each of `m` arrays): an array that is asked for by number, and
an element of an array. -/
theorem C67_arrays (xs : Words) (n m : Nat) (b : ArrayData) (hs : n * m < 4294967296)
    (h : ArrayData.ofRange xs n m = .ok b) :
    Indexed b.darray 1 m ∧
    (∀ a, 1 ≤ a → a ≤ m → Indexed (b.dvalue a) 1 n ∧ Refuses (b.ivalue a) 1 n) ∧
    (∀ i, 1 ≤ i → i ≤ n → Indexed (fun a => b.dvalue a i) 1 m ∧ Refuses (fun a => b.ivalue a i) 1 m) := by
  obtain ⟨rfl, hl⟩ := C67.made h
  rw [Nat.mod_eq_of_lt hs] at hl
  exact ⟨darray hl, fun a h1 h2 => ⟨dvalue hl h1 h2, ivalue hl h1 h2⟩,
    fun i h1 h2 => ⟨across hl h1 h2, iacross hl h1 h2⟩⟩

open C67 in
/-- Reaction numbers (MTR, MTRP, MTRH), particle types (PTYPE) and Q values (LQR). -/
theorem C67_reaction_numbers (xs : Words) (n : Nat) (hs : n < 4294967296) :
    (∀ b, MTR.ofRange xs n = .ok b → MTR.NTR b = n ∧ Refuses (MTR.MT b) 1 (MTR.NTR b)) ∧
    (∀ b, PTYPE.ofRange xs n = .ok b → PTYPE.NTYPE b = n ∧ Refuses (PTYPE.IP b) 1 (PTYPE.NTYPE b)) ∧
    (∀ b, LQR.ofRange xs n = .ok b → Indexed (LQR.qvalue b) 1 n) := by
  refine ⟨fun b h => ?_, fun b h => ?_, fun b h => C63.qvalue hs h⟩
  all_goals
    have h' := (C67_arrays xs n 1 b (by omega) h).2.1 1 (by omega) (by omega)
    have hn : b.n = n := C63.array_n h
    refine ⟨hn, ?_⟩
  · rw [show MTR.NTR b = n from hn]
    exact Refuses.map (f := ArrayData.ivalue b 1) _ h'.2 (fun i x _ => by intro h; cases h)
  · rw [show PTYPE.NTYPE b = n from hn]
    exact Refuses.map (f := ArrayData.ivalue b 1) _ h'.2 (fun i x _ => by intro h; cases h)

/-- Electron shells (EPS) and subshells (SUBSH). -/
theorem C67_shells (xs : Words) (n : Nat) (hs : n < 858993459) :
    (∀ b, EPS.ofRange xs n = .ok b → Refuses (EPS.numberElectrons b) 1 n ∧
      Indexed (EPS.bindingEnergy b) 1 n ∧ Indexed (EPS.interactionProbability b) 1 n) ∧
    (∀ b, SUBSH.ofRange xs n = .ok b → Refuses (SUBSH.designator b) 1 n ∧
      Indexed (SUBSH.population b) 1 n ∧ Indexed (SUBSH.bindingEnergy b) 1 n ∧
      Indexed (SUBSH.vacancyProbability b) 1 n ∧ Refuses (SUBSH.numberTransitions b) 1 n) := by
  refine ⟨fun b h => ?_, fun b h => ?_⟩
  · have h' := (C67_arrays xs n 3 b (by omega) h).2.1
    exact ⟨(h' 1 (by omega) (by omega)).2, (h' 2 (by omega) (by omega)).1, (h' 3 (by omega) (by omega)).1⟩
  · have h' := (C67_arrays xs n 5 b (by omega) h).2.1
    exact ⟨(h' 1 (by omega) (by omega)).2, (h' 2 (by omega) (by omega)).1, (h' 3 (by omega) (by omega)).1,
      (h' 4 (by omega) (by omega)).1, (h' 5 (by omega) (by omega)).2⟩

/-- The photoelectric cross sections of the subshells (SPHEL) and the cosines of thermal elastic
scattering (ITCA). -/
theorem C67_by_array (xs : Words) (n m : Nat) (hs : n * m < 4294967296) :
    (∀ b, SPHEL.ofRange xs m n = .ok b → Indexed (SPHEL.photoelectric b) 1 m) ∧
    (∀ b, ITCA.ofRange xs m n = .ok b → ITCA.NE b = m ∧ Indexed (ITCA.cosines b) 1 m) := by
  refine ⟨fun b h => (C67_arrays xs n m b hs h).1, fun b h => ⟨?_, (C67_arrays xs n m b hs h).1⟩⟩
  obtain ⟨rfl, _⟩ := C67.made h
  rfl

open C67 in
/-- The transitions of a subshell (XPROB). -/
theorem C67_transitions (xs : Words) (hs : xs.length < 4294967296) (b : TRAN) (h : TRAN.ofRange xs = .ok b) :
    TRAN.NT b = xs.length / 4 ∧ Indexed (TRAN.transition b) 1 (TRAN.NT b) ∧
    Refuses (TRAN.primaryDesignator b) 1 (TRAN.NT b) ∧ Refuses (TRAN.secondaryDesignator b) 1 (TRAN.NT b) ∧
    Indexed (TRAN.energy b) 1 (TRAN.NT b) ∧ Indexed (TRAN.probability b) 1 (TRAN.NT b) ∧
    Refuses (TRAN.isRadiativeTransition b) 1 (TRAN.NT b) := by
  unfold TRAN.ofRange at h
  obtain ⟨_, _, h⟩ := bind_eq_ok.mp h
  have hn : TRAN.NT b = xs.length / 4 := by
    obtain ⟨rfl, _⟩ := C67.made h
    rfl
  have h' := C67_arrays xs 4 (xs.length / 4) b (by omega) h
  rw [hn]
  have h2 := (h'.2.2 2 (by omega) (by omega)).2
  exact ⟨rfl, h'.1, (h'.2.2 1 (by omega) (by omega)).2, h2, (h'.2.2 3 (by omega) (by omega)).1,
    (h'.2.2 4 (by omega) (by omega)).1,
    Refuses.map (f := TRAN.secondaryDesignator b) _ h2 (fun i x _ => by intro h; cases h)⟩

/-- The electroionisation cross sections of the subshells (ESZE). -/
theorem C67_electroionisation (xs : Words) (nssh ne : Nat) (hs : ne * (6 + nssh) < 4294967296) (b : ESZE)
    (h : ESZE.ofRange xs nssh ne = .ok b) :
    ESZE.NSSH b = nssh ∧ Indexed (ESZE.electroionisation b) 1 (ESZE.NSSH b) := by
  have hd := (C67_arrays xs ne (6 + nssh) b hs h).1
  have hn : ESZE.NSSH b = nssh := by
    obtain ⟨rfl, _⟩ := C67.made h
    show 6 + nssh - 6 = nssh
    omega
  refine ⟨hn, ?_, ?_⟩
  · intro i h1 h2
    rw [hn] at h2
    simp only [ESZE.electroionisation, hn, if_neg (show ¬ (i < 1 ∨ i > nssh) by omega)]
    exact hd.1 (6 + i) (by omega) (by omega)
  · intro i hi
    simp only [ESZE.electroionisation]
    exact if_pos hi

namespace C67

theorem ixss_range {xs : Words} {i : Nat} (h1 : 1 ≤ i) (h2 : i ≤ xs.length) :
    Base.IXSS xs i ≠ .error .range := by
  obtain ⟨w, hw⟩ := C48.XSS_in h1 h2
  unfold Base.IXSS
  rw [hw, ok_bind]
  exact toInt32_range _

theorem bind_range {α β : Type} {x : Res α} {f : α → Res β} (h1 : x ≠ .error .range)
    (h2 : ∀ a, x = .ok a → f a ≠ .error .range) : (x >>= f) ≠ .error .range := by
  cases e : x with
  | ok a => rw [ok_bind]; exact h2 a e
  | error y => rw [error_bind]; intro h; cases h; exact h1 e

/-- A member function that checks its index first. -/
theorem guarded {α : Type} (f : Nat → Res α) (first last : Nat)
    (h : ∀ i, first ≤ i → i ≤ last → f i ≠ .error .range) :
    Refuses (fun i => if i < first ∨ i > last then .error .range else f i) first last := by
  intro i
  show (if _ then _ else _) = _ ↔ _
  by_cases hc : i < first ∨ i > last
  · rw [if_pos hc]; exact ⟨fun _ => hc, fun _ => rfl⟩
  · rw [if_neg hc]
    exact ⟨fun h' => absurd h' (h i (by omega) (by omega)), fun h' => absurd h' hc⟩

end C67

open C67 in
/-- The reactions of a photon or secondary particle yield block (YP, YH). Missing: blocks whose
count is 4294967295 (a first word -1). -/
theorem C67_yields_partial (xs : Words) (b : YP) (h : YP.ofRange xs = .ok b) :
    ∃ n, b.NYP = .ok n ∧ (n ≠ 4294967295 → Refuses b.MT 1 n) := by
  unfold YP.ofRange at h
  obtain ⟨n, hn, h⟩ := bind_eq_ok.mp h
  obtain ⟨_, hg, h⟩ := bind_eq_ok.mp h
  have := Except.ok.inj h; subst this
  refine ⟨n, hn, fun hx => ?_⟩
  have e : YP.MT ⟨xs⟩ = fun i => if i < 1 ∨ i > n then .error .range
      else do return u32OfInt (← Base.IXSS xs (i + 1)) := by
    funext i
    simp only [YP.MT, hn, ok_bind]
  rw [e]
  refine guarded _ 1 n fun i h1 h2 => ?_
  have hlt : n < 4294967296 := by
    unfold YP.NYP at hn
    split at hn
    · have := Except.ok.inj hn; omega
    · obtain ⟨v, _, hv⟩ := bind_eq_ok.mp hn
      have := Except.ok.inj hv; subst this
      unfold u32OfInt; omega
  have hl : n + 1 ≤ xs.length := by
    have h1 := guardThrow_eq_ok.mp hg
    rw [Nat.mod_eq_of_lt (show n + 1 < 4294967296 by omega)] at h1
    simp at h1
    omega
  exact bind_range (ixss_range (by omega) (by omega)) (fun _ _ => by intro h; cases h)

/-- A yield block that consists of the word -1 is accepted, has 4294967295 reactions and refuses the
first one. -/
theorem C67_yields_minus_one : ∃ b, YP.ofRange [Dbl.ofInt (-1)] = .ok b ∧ b.NYP = .ok 4294967295 ∧
    b.MT 1 = .error .range := ⟨⟨[Dbl.ofInt (-1)]⟩, by decide +kernel, by decide +kernel, by decide +kernel⟩

namespace C67

/-- The locators were all read when the block was made. -/
theorem lloc {D : Type} {gen : Nat → Words → Res D} {xs : Words} {iter n : Nat} {l : Bool}
    {b : LocBlock D} (h : LocBlock.ofRange gen xs iter n l = .ok b) : Indexed b.LLOC 1 n := by
  unfold LocBlock.ofRange LocBlock.generateBlocks at h
  obtain ⟨_, _, h⟩ := bind_eq_ok.mp h
  obtain ⟨r, hr, h⟩ := bind_eq_ok.mp h
  have := Except.ok.inj h; subst this
  have hn : r.length = n := by simpa using C63.mapM_length _ _ _ hr
  constructor
  · intro i h1 h2
    obtain ⟨a, ha, hb⟩ := C63.mapM_get _ _ _ hr (i - 1) (r[i - 1]'(by omega)) (List.getElem?_eq_getElem _)
    rw [List.getElem?_range (by omega)] at ha
    have := Option.some.inj ha; subst this
    unfold LocBlock.generateBlock at hb
    obtain ⟨v, hv, _⟩ := bind_eq_ok.mp hb
    rw [Nat.sub_add_cancel h1] at hv
    exact ⟨v, hv⟩
  · intro i hi
    simp only [LocBlock.LLOC, LocBlock.LLOCof, LocBlock.verifyDataIndex, if_pos hi, error_bind]

end C67

/-- Blocks with locators (SIG, SIGD, SIGP, SIGH, SWD, XPROB): the locators and the data. -/
theorem C67_locators {D : Type} (gen : Nat → Words → Res D) (xs : Words) (iter n : Nat) (l : Bool)
    (b : LocBlock D) (h : LocBlock.ofRange gen xs iter n l = .ok b) :
    Indexed b.LLOC 1 n ∧ Indexed b.get 1 n := ⟨C67.lloc h, C63.located h⟩

namespace C67

/-- The data of a block with locators were all read from words. -/
theorem gotten {D : Type} {gen : Nat → Words → Res D} {xs : Words} {iter n : Nat} {l : Bool}
    {b : LocBlock D} (h : LocBlock.ofRange gen xs iter n l = .ok b) (i : Nat) (d : D) (hd : b.get i = .ok d) :
    ∃ loc ws, gen loc ws = .ok d := by
  unfold LocBlock.ofRange LocBlock.generateBlocks at h
  obtain ⟨_, _, h⟩ := bind_eq_ok.mp h
  obtain ⟨r, hr, h⟩ := bind_eq_ok.mp h
  have := Except.ok.inj h; subst this
  unfold LocBlock.get at hd
  obtain ⟨_, _, hd⟩ := bind_eq_ok.mp hd
  split at hd
  · rename_i x hx
    have := Except.ok.inj hd; subst this
    obtain ⟨a, ha, hb⟩ := C63.mapM_get _ _ _ hr (i - 1) x hx
    unfold LocBlock.generateBlock at hb
    obtain ⟨loc, _, hb⟩ := bind_eq_ok.mp hb
    obtain ⟨_, _, hb⟩ := bind_eq_ok.mp hb
    dsimp only at hb
    split at hb
    · obtain ⟨_, _, hb⟩ := bind_eq_ok.mp hb
      obtain ⟨ws, _, hb⟩ := bind_eq_ok.mp hb
      exact ⟨loc, ws, hb⟩
    · obtain ⟨_, _, hb⟩ := bind_eq_ok.mp hb
      obtain ⟨_, _, hb⟩ := bind_eq_ok.mp hb
      obtain ⟨ws, _, hb⟩ := bind_eq_ok.mp hb
      exact ⟨loc, ws, hb⟩
  · cases hd

end C67

open C67 in
/-- The cross sections of the reactions of a block SIG. -/
theorem C67_cross_sections (xs : Words) (sig n : Nat) (b : SIG) (h : SIG.ofRange xs sig n = .ok b) :
    Indexed (SIG.crossSectionData b) 1 n ∧ Refuses (SIG.energyIndex b) 1 n ∧
    Indexed (SIG.numberValues b) 1 n := by
  have hg : Indexed (SIG.crossSectionData b) 1 n := C63.located h
  have hd : ∀ i d, SIG.crossSectionData b i = .ok d → ∃ v, d.numberValues = .ok v := by
    intro i d hd
    obtain ⟨_, ws, hw⟩ := gotten h i d hd
    unfold SIG.gen CrossSectionData.ofRange at hw
    obtain ⟨v, hv, hw⟩ := bind_eq_ok.mp hw
    obtain ⟨_, _, hw⟩ := bind_eq_ok.mp hw
    have := Except.ok.inj hw; subst this
    exact ⟨v, hv⟩
  refine ⟨hg, Refuses.map (f := SIG.crossSectionData b) _ (refuses hg) (fun i d h1 => ?_),
    Indexed.map (f := SIG.crossSectionData b) _ hg hd⟩
  obtain ⟨v, hv⟩ := hd i d h1
  unfold CrossSectionData.numberValues at hv
  obtain ⟨x, hx, _⟩ := bind_eq_ok.mp hv
  unfold Base.IXSS at hx
  obtain ⟨y, hy, _⟩ := bind_eq_ok.mp hx
  have hl := (List.getElem?_eq_some_iff.mp (Base.XSS_eq_ok_iff.mp hy).2).1
  refine bind_range (ixss_range (by omega) (by omega)) (fun _ _ => by intro h; cases h)

open C67 in
/-- Angular distributions (AND, ANDP, ANDH): the reactions count from 0 when there is elastic
scattering. -/
theorem C67_angular_block (xs : Words) (iter nr : Nat) (z : Bool) (b : AngularBlock)
    (h : AngularBlock.ofRange xs iter nr z = .ok b) :
    Indexed b.LAND (if z then 0 else 1) nr ∧ Indexed b.isFullyIsotropic (if z then 0 else 1) nr ∧
    Indexed b.isGiven (if z then 0 else 1) nr ∧ Indexed b.get (if z then 0 else 1) nr := by
  have hland : Indexed b.LAND (if z then 0 else 1) nr := by
    unfold AngularBlock.ofRange AngularBlock.generateBlocks at h
    obtain ⟨_, _, h⟩ := bind_eq_ok.mp h
    obtain ⟨r, hr, h⟩ := bind_eq_ok.mp h
    have := Except.ok.inj h; subst this
    have hn := C63.mapM_length _ _ _ hr
    rw [List.length_range'] at hn
    constructor
    · intro i h1 h2
      have hlt : i - (if z then 0 else 1) < r.length := by omega
      obtain ⟨a, ha, hb⟩ := C63.mapM_get _ _ _ hr (i - (if z then 0 else 1)) (r[i - (if z then 0 else 1)])
        (List.getElem?_eq_getElem _)
      rw [List.getElem?_range' (by omega)] at ha
      have := Option.some.inj ha
      have hai : a = i := by omega
      subst hai
      unfold AngularBlock.generateBlock at hb
      obtain ⟨v, hv, _⟩ := bind_eq_ok.mp hb
      exact ⟨v, hv⟩
    · intro i hi
      unfold AngularBlock.LAND AngularBlock.LANDof
      exact if_pos hi
  exact ⟨hland, Indexed.map (f := b.LAND) _ hland (fun _ _ _ => ⟨_, rfl⟩),
    Indexed.map (f := b.LAND) _ hland (fun _ _ _ => ⟨_, rfl⟩), C63.angular h⟩

namespace C67

/-- A member function that was evaluated for each of the values while the data were made. -/
theorem evaluated {α β : Type} {f : Nat → Res α} {g : Nat → Res β} {n : Nat} {r : List β}
    (hr : (List.range n).mapM g = .ok r) (h1 : ∀ i x, g i = .ok x → ∃ y, f (i + 1) = .ok y)
    (h2 : ∀ i, i < 1 ∨ n < i → f i = .error .range) : Indexed f 1 n := by
  have hn : r.length = n := by simpa using C63.mapM_length _ _ _ hr
  refine ⟨fun i ha hb => ?_, h2⟩
  obtain ⟨a, ha', hb'⟩ := C63.mapM_get _ _ _ hr (i - 1) (r[i - 1]'(by omega)) (List.getElem?_eq_getElem _)
  rw [List.getElem?_range (by omega)] at ha'
  have := Option.some.inj ha'; subst this
  obtain ⟨y, hy⟩ := h1 _ _ hb'
  rw [Nat.sub_add_cancel ha] at hy
  exact ⟨y, hy⟩

/-- The distributions of a table of distributions. -/
theorem stored {α : Type} {f : Nat → Res α} {g : Nat → Res α} {n : Nat} {r : List α}
    (hr : (List.range n).mapM g = .ok r)
    (hf : f = fun i => if i < 1 ∨ i > n then .error .range else (match r[i - 1]? with
      | some x => .ok x
      | none => .error .ub)) : Indexed f 1 n := by
  have hn : r.length = n := by simpa using C63.mapM_length _ _ _ hr
  subst hf
  exact C63.checked _ r n hn (fun i hi => if_pos hi) (fun i x ha hb hx => by
    show (if _ then _ else _) = _
    rw [if_neg (by omega), hx])

theorem value_of {values : ColumnData} {n : Nat} (hn : values.N = .ok n) (c : Nat) :
    Dist.value values c = fun i => if i < 1 ∨ i > n then .error .range else values.value c i := by
  funext i
  simp only [Dist.value, Dist.verifyValueIndex, hn, ok_bind]
  split
  · rfl
  · rfl

theorem value_out {values : ColumnData} {n : Nat} (hn : values.N = .ok n) (c i : Nat) (hi : i < 1 ∨ n < i) :
    Dist.value values c i = .error .range := by
  rw [value_of hn]; exact if_pos hi

theorem LOCC_out {values : ColumnData} {n : Nat} (hn : values.N = .ok n) (i : Nat) (hi : i < 1 ∨ n < i) :
    Dist.LOCC values i = .error .range := by
  unfold Dist.LOCC
  rw [value_out hn _ i hi]; rfl

theorem distribution_of {α : Type} {values : ColumnData} {n : Nat} (hn : values.N = .ok n) (r : List α) :
    (fun i => (do
      Dist.verifyValueIndex values i
      match r[i - 1]? with
      | some x => return x
      | none => .error .ub : Res α)) = fun i => if i < 1 ∨ i > n then .error .range
        else (match r[i - 1]? with
          | some x => .ok x
          | none => .error .ub) := by
  funext i
  simp only [Dist.verifyValueIndex, hn, ok_bind]
  split <;> rfl

end C67

open C67 in
/-- Tables of distributions (laws 4, 44, 61 and 67): the incident energies, the locators and the
distributions. -/
theorem C67_distributions {D : Type} (gen : Dbl → Nat → Words → Res D) (locb : Nat) (xs : Words)
    (d : DistData D) (h : DistData.ofRange gen locb xs = .ok d) :
    ∃ n, d.NE = .ok n ∧ Indexed d.incidentEnergy 1 n ∧ Indexed d.LOCC 1 n ∧
      Indexed d.relativeDistributionLocator 1 n ∧ Indexed d.distribution 1 n := by
  unfold DistData.ofRange DistData.generateBlocks at h
  obtain ⟨_, _, h⟩ := bind_eq_ok.mp h
  obtain ⟨_, _, h⟩ := bind_eq_ok.mp h
  obtain ⟨_, _, h⟩ := bind_eq_ok.mp h
  obtain ⟨_, _, h⟩ := bind_eq_ok.mp h
  obtain ⟨_, _, h⟩ := bind_eq_ok.mp h
  obtain ⟨_, _, h⟩ := bind_eq_ok.mp h
  obtain ⟨_, _, h⟩ := bind_eq_ok.mp h
  obtain ⟨_, _, h⟩ := bind_eq_ok.mp h
  obtain ⟨_, _, h⟩ := bind_eq_ok.mp h
  obtain ⟨_, _, h⟩ := bind_eq_ok.mp h
  obtain ⟨interp, _, h⟩ := bind_eq_ok.mp h
  obtain ⟨_, _, h⟩ := bind_eq_ok.mp h
  obtain ⟨values, _, h⟩ := bind_eq_ok.mp h
  obtain ⟨n, hn, h⟩ := bind_eq_ok.mp h
  obtain ⟨r, hr, h⟩ := bind_eq_ok.mp h
  have := Except.ok.inj h; subst this
  have hlocc : Indexed (Dist.LOCC values) 1 n := by
    refine evaluated hr (fun i x hx => ?_) (fun i hi => LOCC_out hn i hi)
    unfold Dist.generateBlock at hx
    obtain ⟨_, _, hx⟩ := bind_eq_ok.mp hx
    obtain ⟨y, hy, hx⟩ := bind_eq_ok.mp hx
    exact ⟨y, hy⟩
  refine ⟨n, hn, ?_, hlocc, ?_, stored hr (distribution_of hn r)⟩
  · refine evaluated (f := Dist.value values 1) hr (fun i x hx => ?_) (fun i hi => value_out hn 1 i hi)
    unfold Dist.generateBlock at hx
    obtain ⟨y, hy, hx⟩ := bind_eq_ok.mp hx
    exact ⟨y, hy⟩
  · have h1 := Indexed.map (fun x => (.ok (wrap32 (x - locb + 1)) : Res Int)) hlocc (fun _ _ _ => ⟨_, rfl⟩)
    exact Indexed.map (fun x => (.ok (sizeOfInt x) : Res Nat)) h1 (fun _ _ _ => ⟨_, rfl⟩)

open C67 in
/-- The tables inside of a distribution of law 67 (cosines with their outgoing energies). -/
theorem C67_angle_energy (incident : Dbl) (locb : Nat) (xs : Words) (d : AngleEnergy)
    (h : AngleEnergy.ofRange incident locb xs = .ok d) :
    ∃ n, d.N = .ok n ∧ Indexed (d.value 1) 1 n ∧ Indexed d.LOCC 1 n ∧
      Indexed d.relativeDistributionLocator 1 n ∧ Indexed d.distribution 1 n := by
  unfold AngleEnergy.ofRange AngleEnergy.generateBlocks at h
  obtain ⟨_, _, h⟩ := bind_eq_ok.mp h
  obtain ⟨_, _, h⟩ := bind_eq_ok.mp h
  obtain ⟨_, _, h⟩ := bind_eq_ok.mp h
  obtain ⟨_, _, h⟩ := bind_eq_ok.mp h
  obtain ⟨_, _, h⟩ := bind_eq_ok.mp h
  obtain ⟨values, _, h⟩ := bind_eq_ok.mp h
  obtain ⟨n, hn, h⟩ := bind_eq_ok.mp h
  obtain ⟨r, hr, h⟩ := bind_eq_ok.mp h
  have := Except.ok.inj h; subst this
  have hlocc : Indexed (Dist.LOCC values) 1 n := by
    refine evaluated hr (fun i x hx => ?_) (fun i hi => LOCC_out hn i hi)
    unfold Dist.generateBlock at hx
    obtain ⟨_, _, hx⟩ := bind_eq_ok.mp hx
    obtain ⟨y, hy, hx⟩ := bind_eq_ok.mp hx
    exact ⟨y, hy⟩
  refine ⟨n, hn, ?_, hlocc, ?_, stored hr (distribution_of hn r)⟩
  · refine evaluated (f := Dist.value values 1) hr (fun i x hx => ?_) (fun i hi => value_out hn 1 i hi)
    unfold Dist.generateBlock at hx
    obtain ⟨y, hy, hx⟩ := bind_eq_ok.mp hx
    exact ⟨y, hy⟩
  · exact Indexed.map (fun x => (.ok (sizeOfInt (x - locb + 1)) : Res Nat)) hlocc (fun _ _ _ => ⟨_, rfl⟩)

open C67 in
/-- The tables inside of a distribution of law 61 (outgoing energies, probabilities and cumulative
probabilities, with their cosines). -/
theorem C67_energy_angle (incident : Dbl) (locb : Nat) (xs : Words) (d : EnergyAngle)
    (h : EnergyAngle.ofRange incident locb xs = .ok d) :
    ∃ n, d.N = .ok n ∧ Indexed (d.value 1) 1 n ∧ Indexed (d.value 2) 1 n ∧ Indexed (d.value 3) 1 n ∧
      Indexed d.LOCC 1 n ∧ Indexed d.relativeDistributionLocator 1 n ∧ Indexed d.distribution 1 n := by
  unfold EnergyAngle.ofRange EnergyAngle.generateBlocks at h
  obtain ⟨_, _, h⟩ := bind_eq_ok.mp h
  obtain ⟨_, _, h⟩ := bind_eq_ok.mp h
  obtain ⟨_, _, h⟩ := bind_eq_ok.mp h
  obtain ⟨values, _, h⟩ := bind_eq_ok.mp h
  obtain ⟨n, hn, h⟩ := bind_eq_ok.mp h
  obtain ⟨r, hr, h⟩ := bind_eq_ok.mp h
  have := Except.ok.inj h; subst this
  have hlen : r.length = n := by simpa using C63.mapM_length _ _ _ hr
  have hcol : ∀ c, (∀ i x, EnergyAngle.generateBlock xs values locb n i = .ok x →
      ∃ y, values.value c (i + 1) = .ok y) → Indexed (Dist.value values c) 1 n := by
    intro c hc
    refine ⟨fun i h1 h2 => ?_, fun i hi => value_out hn c i hi⟩
    obtain ⟨a, ha', hb'⟩ := C63.mapM_get _ _ _ hr (i - 1) (r[i - 1]'(by omega)) (List.getElem?_eq_getElem _)
    rw [List.getElem?_range (by omega)] at ha'
    have := Option.some.inj ha'; subst this
    obtain ⟨y, hy⟩ := hc _ _ hb'
    rw [Nat.sub_add_cancel h1] at hy
    refine ⟨y, ?_⟩
    rw [value_of hn]
    show (if _ then _ else _) = _
    rw [if_neg (by omega)]
    exact hy
  have hrel : Indexed (Dist.relSize values locb) 1 n := by
    refine evaluated hr (fun i x hx => ?_) (fun i hi => by unfold Dist.relSize; rw [LOCC_out hn i hi]; rfl)
    unfold EnergyAngle.generateBlock at hx
    obtain ⟨_, _, hx⟩ := bind_eq_ok.mp hx
    obtain ⟨_, _, hx⟩ := bind_eq_ok.mp hx
    obtain ⟨_, _, hx⟩ := bind_eq_ok.mp hx
    obtain ⟨y, hy, hx⟩ := bind_eq_ok.mp hx
    exact ⟨y, hy⟩
  refine ⟨n, hn, hcol 1 ?_, hcol 2 ?_, hcol 3 ?_, ⟨fun i h1 h2 => ?_, fun i hi => LOCC_out hn i hi⟩, hrel,
    stored hr (distribution_of hn r)⟩
  · intro i x hx
    unfold EnergyAngle.generateBlock at hx
    obtain ⟨y, hy, hx⟩ := bind_eq_ok.mp hx
    exact ⟨y, hy⟩
  · intro i x hx
    unfold EnergyAngle.generateBlock at hx
    obtain ⟨_, _, hx⟩ := bind_eq_ok.mp hx
    obtain ⟨y, hy, hx⟩ := bind_eq_ok.mp hx
    exact ⟨y, hy⟩
  · intro i x hx
    unfold EnergyAngle.generateBlock at hx
    obtain ⟨_, _, hx⟩ := bind_eq_ok.mp hx
    obtain ⟨_, _, hx⟩ := bind_eq_ok.mp hx
    obtain ⟨y, hy, hx⟩ := bind_eq_ok.mp hx
    exact ⟨y, hy⟩
  · obtain ⟨y, hy⟩ := hrel.1 i h1 h2
    unfold Dist.relSize at hy
    obtain ⟨z, hz, _⟩ := bind_eq_ok.mp hy
    exact ⟨z, hz⟩

open C67 in
/-- The angular distributions of a reaction: incident energies, locators, types and distributions. -/
theorem C67_angular_data (locb : Nat) (xs : Words) (d : AngularData) (h : AngularData.ofRange locb xs = .ok d) :
    ∃ n, d.NE = .ok n ∧ Indexed d.incidentEnergy 1 n ∧ Indexed d.LOCC 1 n ∧
      Refuses d.relativeDistributionLocator 1 n ∧
      Indexed d.distributionType 1 n ∧ Indexed d.distribution 1 n := by
  unfold AngularData.ofRange AngularData.generateBlocks at h
  obtain ⟨_, hb, h⟩ := bind_eq_ok.mp h
  obtain ⟨_, _, h⟩ := bind_eq_ok.mp h
  obtain ⟨_, _, h⟩ := bind_eq_ok.mp h
  have := Except.ok.inj h; subst this
  obtain ⟨_, _, h⟩ := bind_eq_ok.mp hb
  obtain ⟨_, _, h⟩ := bind_eq_ok.mp h
  obtain ⟨_, _, h⟩ := bind_eq_ok.mp h
  obtain ⟨values, _, h⟩ := bind_eq_ok.mp h
  obtain ⟨n, hn, h⟩ := bind_eq_ok.mp h
  obtain ⟨r, hr, h⟩ := bind_eq_ok.mp h
  have := Except.ok.inj h; subst this
  have hout : ∀ i, i < 1 ∨ n < i → AngularData.verifyIndexOf values i = .error .range := by
    intro i hi
    simp only [AngularData.verifyIndexOf, hn, ok_bind]
    exact if_pos hi
  have htype : Indexed (AngularData.typeOf values) 1 n := by
    refine evaluated hr (fun i x hx => ?_) (fun i hi => ?_)
    · unfold AngularData.generateBlock at hx
      obtain ⟨y, hy, hx⟩ := bind_eq_ok.mp hx
      exact ⟨y, hy⟩
    · unfold AngularData.typeOf AngularData.LOCCof
      rw [hout i hi]; rfl
  have hlocc : Indexed (AngularData.LOCCof values) 1 n := by
    refine ⟨fun i h1 h2 => ?_, fun i hi => by unfold AngularData.LOCCof; rw [hout i hi]; rfl⟩
    obtain ⟨y, hy⟩ := htype.1 i h1 h2
    unfold AngularData.typeOf at hy
    obtain ⟨z, hz, _⟩ := bind_eq_ok.mp hy
    exact ⟨z, hz⟩
  refine ⟨n, hn, ?_, hlocc, ?_, htype, ?_⟩
  · refine evaluated (f := AngularData.incidentEnergyOf values) hr (fun i x hx => ?_) (fun i hi => ?_)
    · unfold AngularData.generateBlock at hx
      obtain ⟨_, _, hx⟩ := bind_eq_ok.mp hx
      obtain ⟨y, hy, hx⟩ := bind_eq_ok.mp hx
      exact ⟨y, hy⟩
    · unfold AngularData.incidentEnergyOf
      rw [hout i hi]; rfl
  · refine Refuses.map (f := AngularData.LOCCof values) _ (refuses hlocc) (fun i x _ => ?_)
    split
    · intro h; cases h
    · split <;> intro h <;> cases h
  · refine stored hr ?_
    funext i
    simp only [AngularData.distribution, AngularData.verifyIndexOf, hn, ok_bind]
    by_cases hc : i < 1 ∨ i > n
    · rw [if_pos hc, if_pos hc, error_bind]
    · rw [if_neg hc, if_neg hc, ok_bind]
      cases r[i - 1]? <;> rfl

open C67 in
/-- Equiprobable outgoing energy bins (law 1). -/
theorem C67_bins (xs : Words) (d : EquiBinData) (h : EquiBinData.ofRange xs = .ok d) :
    ∃ n, d.NE = .ok n ∧ Indexed d.incidentEnergy 1 n ∧ Indexed d.distribution 1 n := by
  unfold EquiBinData.ofRange EquiBinData.generateBlocks at h
  obtain ⟨_, _, h⟩ := bind_eq_ok.mp h
  obtain ⟨_, _, h⟩ := bind_eq_ok.mp h
  obtain ⟨_, _, h⟩ := bind_eq_ok.mp h
  obtain ⟨_, _, h⟩ := bind_eq_ok.mp h
  obtain ⟨nr, hnr, h⟩ := bind_eq_ok.mp h
  obtain ⟨ne, hne, h⟩ := bind_eq_ok.mp h
  obtain ⟨_, _, h⟩ := bind_eq_ok.mp h
  obtain ⟨interp, _, h⟩ := bind_eq_ok.mp h
  obtain ⟨ws, hws, h⟩ := bind_eq_ok.mp h
  obtain ⟨energies, hen, h⟩ := bind_eq_ok.mp h
  obtain ⟨r, hr, h⟩ := bind_eq_ok.mp h
  have := Except.ok.inj h; subst this
  have hint := C56.sub_int hws (i := 1) (by omega) (by omega)
  have hn : energies.N = .ok (sizeOfInt ne) := by
    have he : energies = ⟨ws, 1⟩ := by
      unfold ColumnData.ofRange at hen
      dsimp only at hen
      split at hen
      · obtain ⟨_, _, hen⟩ := bind_eq_ok.mp hen
        obtain ⟨_, _, hen⟩ := bind_eq_ok.mp hen
        exact (Except.ok.inj hen).symm
      · obtain ⟨_, _, hen⟩ := bind_eq_ok.mp hen
        obtain ⟨_, _, hen⟩ := bind_eq_ok.mp hen
        exact (Except.ok.inj hen).symm
    subst he
    have hpos := (C48.sub_first hws (by omega)).2
    unfold ColumnData.N
    rw [if_neg (by rw [hpos]; exact Bool.false_ne_true), hint, show 2 * sizeOfInt nr + 1 + 1 = 1 + 2 * sizeOfInt nr + 1 by omega, hne]
    rfl
  refine ⟨sizeOfInt ne, hn, ?_, stored hr ?_⟩
  · refine evaluated (f := EquiBinData.incidentOf energies) hr (fun i x hx => ?_) (fun i hi => ?_)
    · unfold EquiBinData.generateBlock at hx
      obtain ⟨y, hy, hx⟩ := bind_eq_ok.mp hx
      exact ⟨y, hy⟩
    · unfold EquiBinData.incidentOf
      rw [hn, ok_bind]
      exact if_pos hi
  · funext i
    simp only [EquiBinData.distribution, EquiBinData.NE, hn, ok_bind]
    by_cases hc : i < 1 ∨ i > sizeOfInt ne
    · rw [if_pos hc, if_pos hc]
    · rw [if_neg hc, if_neg hc]
      cases r[i - 1]? <;> rfl

/-- Frames and multiplicities (TYR, TYRH). -/
theorem C67_frames (xs : Words) (n : Nat) (b : TYR) (h : TYR.ofRange xs n = .ok b) :
    Indexed b.referenceFrame 1 n ∧ Indexed b.multiplicity 1 n := C63.tyr h

open C67 in
/-- Energy distributions of neutrons (DLW). -/
theorem C67_energy_block (xs : Words) (data nr : Nat) (t : TYR) (b : DLW)
    (h : DLW.ofRange xs data t nr = .ok b) :
    Indexed b.LDLW 1 nr ∧ Indexed b.distribution 1 nr ∧ Indexed b.multiplicity 1 nr ∧
    Indexed b.referenceFrame 1 nr := by
  refine ⟨?_, C63.dlw h⟩
  unfold DLW.ofRange DLW.generateBlocks at h
  obtain ⟨_, _, h⟩ := bind_eq_ok.mp h
  obtain ⟨r, hr, h⟩ := bind_eq_ok.mp h
  obtain ⟨_, _, h⟩ := bind_eq_ok.mp h
  have := Except.ok.inj h; subst this
  refine evaluated (f := DLW.LDLWof xs nr) hr (fun i x hx => ?_) (fun i hi => if_pos hi)
  unfold DLW.generateBlock at hx
  obtain ⟨y, hy, _⟩ := bind_eq_ok.mp hx
  exact ⟨y, hy⟩

/-- Energy distributions of photons, delayed neutrons and secondary particles (DLWP, DNED, DLWH). -/
theorem C67_secondary_block (xs : Words) (iter nr : Nat) (t : Option TYR) (b : DLWH)
    (h : DLWH.ofRange xs iter t nr = .ok b) :
    Indexed b.block.LLOC 1 nr ∧ Indexed b.distribution 1 nr ∧ Indexed b.referenceFrame 1 nr := by
  refine ⟨?_, C63.dlwh h⟩
  unfold DLWH.ofRange at h
  obtain ⟨k, hk, h⟩ := bind_eq_ok.mp h
  obtain ⟨_, _, h⟩ := bind_eq_ok.mp h
  have := Except.ok.inj h; subst this
  exact C67.lloc hk

namespace C67

theorem groups_length {xs : Words} (todo : Nat) : ∀ (index left : Nat) (r : List Precursor),
    BDD.groups xs todo index left = .ok r → r.length = todo := by
  induction todo with
  | zero => intro _ _ r h; have := Except.ok.inj h; subst this; rfl
  | succ k ih =>
    intro index left r h
    unfold BDD.groups at h
    obtain ⟨_, _, h⟩ := bind_eq_ok.mp h
    obtain ⟨_, _, h⟩ := bind_eq_ok.mp h
    obtain ⟨_, _, h⟩ := bind_eq_ok.mp h
    obtain ⟨_, _, h⟩ := bind_eq_ok.mp h
    obtain ⟨r', hr, h⟩ := bind_eq_ok.mp h
    have := Except.ok.inj h; subst this
    rw [List.length_cons, ih _ _ r' hr]

theorem tables_length {xs : Words} {m : Nat} (todo : Nat) : ∀ (index left : Nat) (r : List ProbabilityTable),
    UNR.tables xs m todo index left = .ok r → r.length = todo := by
  induction todo with
  | zero => intro _ _ r h; have := Except.ok.inj h; subst this; rfl
  | succ k ih =>
    intro index left r h
    unfold UNR.tables at h
    obtain ⟨_, _, h⟩ := bind_eq_ok.mp h
    obtain ⟨_, _, h⟩ := bind_eq_ok.mp h
    obtain ⟨_, _, h⟩ := bind_eq_ok.mp h
    obtain ⟨r', hr, h⟩ := bind_eq_ok.mp h
    have := Except.ok.inj h; subst this
    rw [List.length_cons, ih _ _ r' hr]

end C67

/-- The precursor groups of delayed neutrons (BDD). -/
theorem C67_groups (xs : Words) (n : Nat) (b : BDD) (h : BDD.ofRange xs n = .ok b) :
    b.NPCR = n ∧ Indexed b.group 1 b.NPCR := by
  unfold BDD.ofRange at h
  obtain ⟨r, hr, h⟩ := bind_eq_ok.mp h
  have := Except.ok.inj h; subst this
  refine ⟨rfl, C63.checked _ r n (C67.groups_length _ _ _ _ hr) (fun i hi => ?_) (fun i x ha hb hx => ?_)⟩
  · unfold BDD.group
    rw [if_pos hi]; rfl
  · unfold BDD.group
    rw [if_neg (show ¬ (i < 1 ∨ i > n) by omega)]
    simp only [pure_eq_ok, hx]

/-- The probability tables of the unresolved resonances (UNR). -/
theorem C67_tables (xs : Words) (b : UNR) (h : UNR.ofRange xs = .ok b) :
    ∃ n, UNR.N b.xss = .ok n ∧ Indexed b.table 1 n := by
  unfold UNR.ofRange at h
  obtain ⟨m, hm, h⟩ := bind_eq_ok.mp h
  obtain ⟨n, hn, h⟩ := bind_eq_ok.mp h
  obtain ⟨r, hr, h⟩ := bind_eq_ok.mp h
  have := Except.ok.inj h; subst this
  refine ⟨n, hn, C63.checked _ r n (C67.tables_length _ _ _ _ hr) (fun i hi => ?_) (fun i x ha hb hx => ?_)⟩
  · simp only [UNR.table, hn, ok_bind]
    rw [if_pos hi]; rfl
  · simp only [UNR.table, hn, ok_bind]
    rw [if_neg (show ¬ (i < 1 ∨ i > n) by omega)]
    simp only [pure_eq_ok, hx]

open C67 in
/-- The distributions of electrons (ELAS, BREME, EION). -/
theorem C67_electron_block (xs : Words) (n : Nat) (b : ElectronBlock) (h : ElectronBlock.ofRange xs n = .ok b) :
    Indexed b.LLOC 1 n ∧ Indexed b.energy 1 n ∧ Indexed b.length 1 n ∧ Indexed b.get 1 n := by
  unfold ElectronBlock.ofRange ElectronBlock.generateBlocks at h
  obtain ⟨_, _, h⟩ := bind_eq_ok.mp h
  obtain ⟨inf, _, h⟩ := bind_eq_ok.mp h
  obtain ⟨r, hr, h⟩ := bind_eq_ok.mp h
  have := Except.ok.inj h; subst this
  have hout : ∀ i, i < 1 ∨ n < i → LocBlock.verifyDataIndex n i = .error .range := fun i hi => if_pos hi
  refine ⟨?_, ?_, ?_, ?_⟩
  · refine evaluated (f := ElectronBlock.LLOCof inf n) hr (fun i x hx => ?_) (fun i hi => ?_)
    · unfold ElectronBlock.generateBlock at hx
      obtain ⟨y, hy, hx⟩ := bind_eq_ok.mp hx
      exact ⟨y, hy⟩
    · unfold ElectronBlock.LLOCof; rw [hout i hi]; rfl
  · refine evaluated (f := ElectronBlock.energyOf inf n) hr (fun i x hx => ?_) (fun i hi => ?_)
    · unfold ElectronBlock.generateBlock at hx
      obtain ⟨_, _, hx⟩ := bind_eq_ok.mp hx
      obtain ⟨_, _, hx⟩ := bind_eq_ok.mp hx
      obtain ⟨_, _, hx⟩ := bind_eq_ok.mp hx
      obtain ⟨y, hy, hx⟩ := bind_eq_ok.mp hx
      exact ⟨y, hy⟩
    · unfold ElectronBlock.energyOf; rw [hout i hi]; rfl
  · refine evaluated (f := ElectronBlock.lengthOf inf n) hr (fun i x hx => ?_) (fun i hi => ?_)
    · unfold ElectronBlock.generateBlock at hx
      obtain ⟨_, _, hx⟩ := bind_eq_ok.mp hx
      obtain ⟨_, _, hx⟩ := bind_eq_ok.mp hx
      obtain ⟨y, hy, hx⟩ := bind_eq_ok.mp hx
      exact ⟨y, hy⟩
    · unfold ElectronBlock.lengthOf; rw [hout i hi]; rfl
  · refine stored hr ?_
    funext i
    simp only [ElectronBlock.get, LocBlock.verifyDataIndex]
    by_cases hc : i < 1 ∨ i > n
    · rw [if_pos hc, if_pos hc, error_bind]
    · rw [if_neg hc, if_neg hc, ok_bind]
      cases r[i - 1]? <;> rfl

/-- Several laws: the distributions. The index of a probability is checked against the number of
distributions; that is the number of probabilities unless law 67 is among them (see
`C67_laws_probability`). -/
theorem C67_laws_partial (locb : Nat) (xs : Words) (d : MultiData) (_h : MultiData.ofRange locb xs = .ok d) :
    Indexed d.distribution 1 d.numberDistributions ∧ Refuses d.probability 1 d.numberDistributions ∧
    (d.numberDistributions ≤ d.probabilities.length → Indexed d.probability 1 d.numberDistributions) := by
  have hd : Indexed d.distribution 1 d.numberDistributions :=
    C63.checked _ d.distributions _ rfl (fun i hi => if_pos hi) (fun i x ha hb hx => by
      unfold MultiData.distribution
      rw [if_neg (by omega), hx])
  refine ⟨hd, ?_, fun hp => ⟨fun i h1 h2 => ?_, fun i hi => if_pos hi⟩⟩
  · refine C67.guarded (fun i => match d.probabilities[i - 1]? with
      | some x => .ok x
      | none => .error .ub) 1 _ (fun i _ _ => ?_)
    show (match d.probabilities[i - 1]? with
      | some x => .ok x
      | none => .error .ub : Res TabulatedData) ≠ _
    cases d.probabilities[i - 1]? <;> intro h <;> cases h
  · refine ⟨d.probabilities[i - 1]'(by omega), ?_⟩
    unfold MultiData.probability
    rw [if_neg (by omega), List.getElem?_eq_getElem (by omega)]

namespace C67
/-- One law, 67. -/
def law67 : Words :=
  ([0, 67, 8, 0, 1, 20, 1, 0, 1, 20, 12, 2, 1, 1, 16, 2, 1, 5, 1, 1, 0, 0, 0, 0] : List Nat).map Dbl.ofNat
end C67

/-- One law with number 67 and its probability are read as two distributions, and asking for the
probability of the second one, an index that passes the check, reads behind the end of the list of
probabilities. -/
theorem C67_laws_probability : ∃ d, MultiData.ofRange 1 C67.law67 = .ok d ∧ d.numberDistributions = 2 ∧
    d.probability 2 = .error .ub := by
  have h : (MultiData.ofRange 1 C67.law67 >>= fun d =>
      .ok (d.numberDistributions, decide (d.probability 2 = .error .ub))) = .ok (2, true) := by decide +kernel
  obtain ⟨d, hd, h⟩ := bind_eq_ok.mp h
  have h := Except.ok.inj h
  exact ⟨d, hd, congrArg Prod.fst h, of_decide_eq_true (congrArg Prod.snd h)⟩

/-! ### Cosines of thermal inelastic scattering -/

namespace C67

theorem plainLoop_length {xs : Words} {nc : Nat} (todo : Nat) : ∀ (cur : Nat) (r : List CosData × Nat),
    ITXE.plainLoop xs nc todo cur = .ok r → r.1.length = todo := by
  induction todo with
  | zero => intro _ r h; have := Except.ok.inj h; subst this; rfl
  | succ k ih =>
    intro cur r h
    unfold ITXE.plainLoop at h
    obtain ⟨_, _, h⟩ := bind_eq_ok.mp h
    obtain ⟨_, _, h⟩ := bind_eq_ok.mp h
    obtain ⟨r', hr, h⟩ := bind_eq_ok.mp h
    have := Except.ok.inj h; subst this
    rw [List.length_cons, ih _ r' hr]

theorem probLoop_length {xs : Words} {nc next : Nat} (todo : Nat) : ∀ (cur : Nat) (r : List CosData × Nat),
    ITXE.probLoop xs nc next todo cur = .ok r → r.1.length = todo := by
  induction todo with
  | zero => intro _ r h; have := Except.ok.inj h; subst this; rfl
  | succ k ih =>
    intro cur r h
    unfold ITXE.probLoop at h
    obtain ⟨_, _, h⟩ := bind_eq_ok.mp h
    obtain ⟨_, _, h⟩ := bind_eq_ok.mp h
    obtain ⟨r', hr, h⟩ := bind_eq_ok.mp h
    have := Except.ok.inj h; subst this
    rw [List.length_cons, ih _ r' hr]

theorem plainBlocks_get {xs : Words} {nc nieb : Nat} (todo : Nat) : ∀ (cur : Nat) (r : List (List CosData)),
    ITXE.plainBlocks xs nc nieb todo cur = .ok r → r.length = todo ∧ ∀ l ∈ r, l.length = nieb := by
  induction todo with
  | zero => intro _ r h; have := Except.ok.inj h; subst this; exact ⟨rfl, by simp⟩
  | succ k ih =>
    intro cur r h
    unfold ITXE.plainBlocks at h
    obtain ⟨ds, hd, h⟩ := bind_eq_ok.mp h
    obtain ⟨r', hr, h⟩ := bind_eq_ok.mp h
    have := Except.ok.inj h; subst this
    obtain ⟨h1, h2⟩ := ih _ r' hr
    exact ⟨by rw [List.length_cons, h1], List.forall_mem_cons.mpr ⟨plainLoop_length _ _ _ hd, h2⟩⟩

theorem probBlocks_get {xs : Words} {nc ne locb : Nat} (todo : Nat) :
    ∀ (incident cur : Nat) (r : List (List CosData)),
    ITXE.probBlocks xs nc ne locb todo incident cur = .ok r → r.length = todo ∧
      ∀ k l, r[k]? = some l → ITXE.NIEBof xs none ne (incident + k) = .ok l.length := by
  induction todo with
  | zero => intro _ _ r h; have := Except.ok.inj h; subst this; exact ⟨rfl, by simp⟩
  | succ k ih =>
    intro incident cur r h
    unfold ITXE.probBlocks at h
    obtain ⟨_, _, h⟩ := bind_eq_ok.mp h
    obtain ⟨nieb, hn, h⟩ := bind_eq_ok.mp h
    obtain ⟨_, _, h⟩ := bind_eq_ok.mp h
    obtain ⟨ds, hd, h⟩ := bind_eq_ok.mp h
    obtain ⟨r', hr, h⟩ := bind_eq_ok.mp h
    have := Except.ok.inj h; subst this
    obtain ⟨h1, h2⟩ := ih _ _ r' hr
    refine ⟨by rw [List.length_cons, h1], fun j l hl => ?_⟩
    cases j with
    | zero =>
      have := Option.some.inj hl; subst this
      rw [probLoop_length _ _ _ hd]; exact hn
    | succ j =>
      rw [show incident + (j + 1) = incident + 1 + j by omega]
      exact h2 j l hl

/-- The cosines of a pair of indices, given the numbers of outgoing energies. -/
theorem cosines {d : ITXE} (hl : d.data.length = d.ne)
    (hk : ∀ i l, 1 ≤ i → d.data[i - 1]? = some l → d.NIEB i = .ok l.length) (i : Nat) (h1 : 1 ≤ i)
    (h2 : i ≤ d.ne) : ∃ n, d.NIEB i = .ok n ∧ Indexed (d.get i) 1 n := by
  have hx : d.data[i - 1]? = some (d.data[i - 1]'(by omega)) := List.getElem?_eq_getElem _
  have hn := hk i _ h1 hx
  refine ⟨_, hn, C63.checked _ _ _ rfl (fun j hj => ?_) (fun j x ha hb hj => ?_)⟩
  · simp only [ITXE.get, ITXE.verifyIndices, if_neg (show ¬ (i < 1 ∨ i > d.ne) by omega), hn]
    simp only [pure_eq_ok, ok_bind]
    rw [if_pos hj]; rfl
  · simp only [ITXE.get, ITXE.verifyIndices, if_neg (show ¬ (i < 1 ∨ i > d.ne) by omega), hn]
    simp only [pure_eq_ok, ok_bind]
    rw [if_neg (by omega)]
    simp only [ok_bind, hx, hj]

end C67

/-- Cosines of thermal inelastic scattering (ITXE): the pairs of an incident and an outgoing energy.
Missing: the number of outgoing energies `NIEB( index )` of an incident energy that is not there is
only refused when the cosines have probabilities (see `C67_NIEB`). -/
theorem C67_cosines_partial (ifeng nieb nc ne locb : Nat) (xs : Words) (d : ITXE)
    (h : ITXE.ofRange ifeng nieb nc ne locb xs = .ok d) :
    (∀ i, 1 ≤ i → i ≤ d.NE → ∃ n, d.NIEB i = .ok n ∧ Indexed (d.get i) 1 n) ∧
    (∀ i j, i < 1 ∨ d.NE < i → d.get i j = .error .range) ∧ d.NE = ne ∧
    (2 ≤ ifeng → Indexed d.NIEB 1 d.NE) := by
  unfold ITXE.ofRange at h
  obtain ⟨_, _, h⟩ := bind_eq_ok.mp h
  obtain ⟨r, hr, h⟩ := bind_eq_ok.mp h
  have := Except.ok.inj h; subst this
  have hg : ∀ i, 1 ≤ i → i ≤ ne → ∃ n, ITXE.NIEB ⟨xs, ifeng, nc, if ifeng < 2 then some nieb else none, ne, locb, r⟩ i
      = .ok n ∧ Indexed (ITXE.get ⟨xs, ifeng, nc, if ifeng < 2 then some nieb else none, ne, locb, r⟩ i) 1 n := by
    intro i h1 h2
    by_cases hi : ifeng < 2
    · unfold ITXE.generateBlocks at hr
      rw [if_pos hi] at hr
      have hr' : ∃ n, ITXE.plainBlocks xs nc n ne 0 = .ok r ∧ (ne = 0 ∨ n = nieb) := by
        rw [if_pos hi] at hr
        by_cases h0 : ne = 0
        · rw [if_pos h0] at hr
          exact ⟨0, hr, Or.inl h0⟩
        · rw [if_neg h0] at hr
          exact ⟨nieb, hr, Or.inr rfl⟩
      obtain ⟨n, hr', hn⟩ := hr'
      have hn : n = nieb := by omega
      rw [hn] at hr'
      obtain ⟨a, b⟩ := C67.plainBlocks_get _ _ _ hr'
      refine C67.cosines (d := ⟨xs, ifeng, nc, if ifeng < 2 then some nieb else none, ne, locb, r⟩) a
        (fun i l h1 hl => ?_) i h1 h2
      simp only [ITXE.NIEB, if_pos hi, ITXE.NIEBof]
      rw [b l (List.mem_of_getElem? hl)]
    · unfold ITXE.generateBlocks at hr
      rw [if_neg hi] at hr
      obtain ⟨_, _, hr⟩ := bind_eq_ok.mp hr
      obtain ⟨_, _, hr⟩ := bind_eq_ok.mp hr
      obtain ⟨a, b⟩ := C67.probBlocks_get _ _ _ _ hr
      refine C67.cosines (d := ⟨xs, ifeng, nc, if ifeng < 2 then some nieb else none, ne, locb, r⟩) a
        (fun i l h1 hl => ?_) i h1 h2
      simp only [ITXE.NIEB, if_neg hi]
      have := b _ l hl
      rwa [show 1 + (i - 1) = i by omega] at this
  refine ⟨hg, fun i j hi => ?_, rfl, fun hi => ⟨fun i h1 h2 => ?_, fun i hx => ?_⟩⟩
  · unfold ITXE.get ITXE.verifyIndices
    rw [if_pos (show i < 1 ∨ i > ne from hi)]; rfl
  · obtain ⟨n, hn, _⟩ := hg i h1 h2
    exact ⟨n, hn⟩
  · simp only [ITXE.NIEB, if_neg (show ¬ ifeng < 2 by omega), ITXE.NIEBof]
    rw [if_pos (show i < 1 ∨ i > ne from hx)]; rfl

/-- Without probabilities every incident energy, of those there are or not, has the same number of
outgoing energies. -/
theorem C67_NIEB (ifeng nieb nc ne locb : Nat) (xs : Words) (d : ITXE) (hi : ifeng < 2)
    (h : ITXE.ofRange ifeng nieb nc ne locb xs = .ok d) (i : Nat) : d.NIEB i = .ok nieb := by
  unfold ITXE.ofRange at h
  obtain ⟨_, _, h⟩ := bind_eq_ok.mp h
  obtain ⟨r, hr, h⟩ := bind_eq_ok.mp h
  have := Except.ok.inj h; subst this
  simp only [ITXE.NIEB, if_pos hi, ITXE.NIEBof]

/-! ### Members that check nothing -/

/-- The locators of the secondary particles: neither the particle nor the block is checked. What is
asked for as locator 11 of a particle is locator 1 of the next one, and locator 11 of the particle
with number 0 (which there is not) is locator 1 of the first particle. -/
theorem C67_particle_locators (p : Nat) (hp : 1 ≤ p) (d : IXS) :
    d.LLOC p 11 = d.LLOC (p + 1) 1 ∧ d.LLOC 0 11 = d.LLOC 1 1 := by
  obtain ⟨k, rfl⟩ : ∃ k, p = k + 1 := ⟨p - 1, by omega⟩
  unfold IXS.LLOC
  rw [position_succ, position_succ]
  refine ⟨by rw [show k * 10 + 11 = (k + 1) * 10 + 1 by omega], ?_⟩
  rfl

/-- The same for photonuclear tables, where there are twelve words for each particle. -/
theorem C67_photonuclear_locators (p : Nat) (hp : 1 ≤ p) (d : IXSU) :
    d.LLOC p 13 = d.LLOC (p + 1) 1 ∧ d.LLOC 0 13 = d.LLOC 1 1 := by
  obtain ⟨k, rfl⟩ : ∃ k, p = k + 1 := ⟨p - 1, by omega⟩
  unfold IXSU.LLOC
  rw [position_succ, position_succ]
  refine ⟨by rw [show k * 12 + 13 = (k + 1) * 12 + 1 by omega], ?_⟩
  rfl

open C67 in
/-- The numbers of reactions of the secondary particles (NTRO): the index is checked against the
number of words, not against the number of particles. -/
theorem C67_particle_reactions (xs : Words) (n : Nat) (d : NTRO) (h : NTRO.ofRange xs n = .ok d) :
    d.NTYPE = n ∧ n ≤ xs.length ∧ Refuses d.NP 1 xs.length := by
  unfold NTRO.ofRange at h
  obtain ⟨_, hg, h⟩ := bind_eq_ok.mp h
  have := Except.ok.inj h; subst this
  refine ⟨rfl, by simpa using guardThrow_eq_ok.mp hg, fun i => ⟨fun hi => ?_, fun hi => ?_⟩⟩
  · by_cases hc : i < 1 ∨ xs.length < i
    · exact hc
    · exact absurd hi (bind_range (ixss_range (xs := xs) (by omega) (by omega)) (fun _ _ => by intro h; cases h))
  · simp only [NTRO.NP, Base.IXSS, Base.XSS, Base.verifyIndex, if_pos hi, error_bind]

/-! ### Cases that meet the hypotheses -/

namespace C67

/-- Words that are whole numbers. -/
def nats (l : List Nat) : Words := l.map Dbl.ofNat

/-- The constructor accepts the words, and `p` holds for what it makes. -/
def accepts {α : Type} (x : Res α) (p : α → Bool) : Bool :=
  match x with
  | .ok a => p a
  | .error _ => false

end C67

open C67

example : accepts (SUBSH.ofRange (nats [1, 2, 2, 4, 10, 20, 1, 1, 0, 3]) 2) (fun b =>
    SUBSH.population b 2 == .ok (Dbl.ofNat 4) && SUBSH.numberTransitions b 2 == .ok 3 &&
    SUBSH.population b 3 == .error .range && SUBSH.population b 0 == .error .range) = true := by decide +kernel
example : accepts (EPS.ofRange (nats [2, 4, 10, 20, 1, 1]) 2) (fun b =>
    EPS.bindingEnergy b 2 == .ok (Dbl.ofNat 20) && EPS.bindingEnergy b 3 == .error .range) = true := by
  decide +kernel
example : accepts (MTR.ofRange (nats [2, 102]) 2) (fun b => MTR.MT b 2 == .ok 102 && MTR.MT b 3 == .error .range)
    = true := by decide +kernel
example : accepts (SPHEL.ofRange (nats [2, 102, 3, 4]) 2 2) (fun b =>
    SPHEL.photoelectric b 2 == .ok (nats [3, 4]) && SPHEL.photoelectric b 3 == .error .range) = true := by
  decide +kernel
example : accepts (TRAN.ofRange (nats [1, 2, 3, 4, 5, 0, 7, 8])) (fun b =>
    TRAN.isRadiativeTransition b 2 == .ok true && TRAN.energy b 2 == .ok (Dbl.ofNat 7) &&
    TRAN.energy b 3 == .error .range) = true := by decide +kernel
example : accepts (ESZE.ofRange (nats [1, 2, 3, 4, 5, 6, 7, 8]) 2 1) (fun b =>
    ESZE.electroionisation b 2 == .ok (nats [8]) && ESZE.electroionisation b 3 == .error .range) = true := by
  decide +kernel
example : accepts (YP.ofRange (nats [2, 18, 102])) (fun b => b.MT 2 == .ok 102 && b.MT 3 == .error .range)
    = true := by decide +kernel
example : accepts (SIG.ofRange (nats [1, 4, 1, 1, 7, 5, 2, 8, 9]) 2 2) (fun b =>
    SIG.energyIndex b 2 == .ok 5 && SIG.crossSections b 2 == .ok (nats [8, 9]) && b.LLOC 2 == .ok 4 &&
    SIG.energyIndex b 3 == .error .range) = true := by decide +kernel
example : accepts (AngularBlock.ofRange (nats [0, 0]) 2 1 true) (fun b =>
    b.isFullyIsotropic 0 == .ok true && b.get 1 == .ok .fullyIsotropic && b.LAND 2 == .error .range) = true := by
  decide +kernel
example : accepts (AngularData.ofRange 1 (nats [2, 1, 20, 0, 0])) (fun d =>
    d.NE == .ok 2 && d.incidentEnergy 2 == .ok (Dbl.ofNat 20) && d.distribution 3 == .error .range) = true := by
  decide +kernel
example : accepts (Law67.ofRange 8 (nats [0, 1, 20, 12, 2, 1, 1, 16, 2, 1, 5, 1, 1])) (fun d =>
    d.NE == .ok 1 && d.LOCC 1 == .ok 12 && d.LOCC 2 == .error .range) = true := by decide +kernel
example : accepts (AngleEnergy.ofRange (Dbl.ofNat 20) 12 (nats [2, 1, 1, 16, 2, 1, 5, 1, 1])) (fun d =>
    d.N == .ok 1 && d.LOCC 1 == .ok 16 && d.LOCC 2 == .error .range) = true := by decide +kernel
example : accepts (EnergyAngle.ofRange (Dbl.ofNat 20) 12 (nats [2, 1, 3, 4, 5, 18, 2, 1, 5, 1, 1])) (fun d =>
    d.N == .ok 1 && d.value 3 1 == .ok (Dbl.ofNat 5) && d.value 3 2 == .error .range) = true := by decide +kernel
example : accepts (EquiBinData.ofRange (nats [0, 2, 1, 20, 2, 3, 4, 5, 6])) (fun d =>
    d.NE == .ok 2 && d.distribution 2 == .ok ⟨Dbl.ofNat 20, nats [5, 6]⟩ && d.distribution 3 == .error .range)
    = true := by decide +kernel
example : accepts (TYR.ofRange (nats [1, 19]) 2) (fun b =>
    b.multiplicity 2 == .ok 19 && b.multiplicity 3 == .error .range) = true := by decide +kernel
example : accepts (DLW.ofRange (nats [1, 0, 3, 8, 0, 1, 20, 1, 5, 6]) 1 (TYR.mk (nats [1]) 1 [.laboratory] [1]) 1) (fun b =>
    b.LDLW 1 == .ok 1 && b.LDLW 2 == .error .range) = true := by decide +kernel
example : accepts (DLWH.ofRange (nats [1, 0, 3, 8, 0, 1, 20, 1, 5, 6]) 1 (some (TYR.mk (nats [1]) 1 [.laboratory] [1])) 1)
    (fun b => b.block.LLOC 1 == .ok 1 && b.referenceFrame 1 == .ok (some .laboratory) &&
      b.distribution 2 == .error .range) = true := by decide +kernel
example : accepts (BDD.ofRange (nats [1, 0, 1, 20, 1, 2, 0, 1, 20, 1]) 2) (fun b =>
    b.NPCR == 2 && b.group 3 == .error .range) = true := by decide +kernel
example : accepts (UNR.ofRange (nats [1, 1, 2, 0, 0, 0, 20, 1, 2, 3, 4, 5, 6])) (fun b =>
    (b.table 1).isOk && b.table 2 == .error .range) = true := by decide +kernel
example : accepts (ElectronBlock.ofRange (nats [20, 30, 1, 1, 0, 2, 5, 1, 6, 1]) 2) (fun b =>
    b.energy 2 == .ok (Dbl.ofNat 30) && b.length 2 == .ok 1 && b.LLOC 2 == .ok 3 && b.get 3 == .error .range)
    = true := by decide +kernel
example : accepts (MultiData.ofRange 1 (wrongNumber 3)) (fun d =>
    d.numberDistributions == 2 && (d.probability 2).isOk && d.probability 3 == .error .range) = true := by
  decide +kernel
example : accepts (ITXE.ofRange 1 2 1 2 1 (nats [1, 2, 3, 4, 5, 6, 7, 8])) (fun d =>
    (d.get 2 2).isOk && d.get 2 3 == .error .range && d.get 3 1 == .error .range && d.NIEB 3 == .ok 2) = true := by
  decide +kernel
example : accepts (IXS.ofRange (nats [1, 2, 3, 4, 5, 6, 7, 8, 9, 10, 11, 12, 13, 14, 15, 16, 17, 18, 19, 20]) 2) (fun d =>
    d.LLOC 1 11 == .ok 11 && d.LLOC 0 11 == .ok 1) = true := by decide +kernel
example : accepts (IXSU.ofRange (nats [1, 2, 3, 4, 5, 6, 7, 8, 9, 10, 11, 12]) 1) (fun d =>
    d.LLOC 0 13 == .ok 1) = true := by decide +kernel
example : accepts (NTRO.ofRange (nats [1, 2]) 1) (fun d => d.NTYPE == 1 && d.NP 2 == .ok 2) = true := by
  decide +kernel

end ACE.Props

import Verif.Props.C56

/-!
# C56, energy laws: reading the energy distribution data of a reaction from any words

The words are arbitrary again. Words without negative numbers, below 2^30, make every count and locator a
natural number; the laws that take their counts and locators from such words are read or refused.
-/

namespace ACE.Props
open ACE

/-- Words whose nearest integers are natural numbers below 2^30, and less than 2^30 of them. -/
structure NonNegative (xs : Words) : Prop where
  length : xs.length < 1073741824
  words : ∀ x ∈ xs, ∃ n : Nat, x.round? = some (n : Int) ∧ n < 1073741824

namespace C56

theorem NonNegative.moderate {xs : Words} (h : NonNegative xs) : Moderate xs :=
  ⟨h.length, fun x hx => by
    obtain ⟨n, h1, h2⟩ := h.words x hx
    exact ⟨n, h1, by omega, by omega⟩⟩

theorem NonNegative.sub {xs ws : Words} {l r : Nat} (hp : NonNegative xs) (h : ACE.sub xs l r = .ok ws) :
    NonNegative ws := by
  obtain ⟨_, h2, h3⟩ := sub_mem h
  exact ⟨Nat.lt_of_le_of_lt h2 hp.length, fun x hx => hp.words x (h3 x hx)⟩

theorem IXSS_nat {xs : Words} (hp : NonNegative xs) {i : Nat} {v : Int} (h : Base.IXSS xs i = .ok v) :
    ∃ n : Nat, v = n ∧ sizeOfInt v = n ∧ n < 1073741824 ∧ 1 ≤ i ∧ i ≤ xs.length := by
  obtain ⟨x, h1, h2⟩ := IXSS_round h
  obtain ⟨h3, h4, h5⟩ := XSS_mem h1
  obtain ⟨n, h6, h7⟩ := hp.words x h5
  rw [h2] at h6
  injection h6 with h6
  subst h6
  exact ⟨n, rfl, size_nat h7, h7, h3, h4⟩

theorem NonNegative.counted {xs : Words} (h : NonNegative xs) : Counted xs :=
  ⟨NonNegative.moderate h, fun v hv => by
    obtain ⟨n, rfl, _⟩ := IXSS_nat h hv
    exact Int.natCast_nonneg n, fun _ _ v hv => by
    obtain ⟨n, rfl, _⟩ := IXSS_nat h hv
    exact Int.natCast_nonneg n⟩

theorem ncolumn {xs : Words} (h : NonNegative xs) (nc : Nat) : EndsChecked (ColumnData.ofRange xs nc) :=
  .of_ends (column xs nc (NonNegative.moderate h) (NonNegative.counted h).boundaries)

theorem ntable {xs : Words} (h : NonNegative xs) : EndsChecked (TabulatedData.ofRange xs) :=
  tabulated (NonNegative.counted h)

/-- A part of the words and what is made of it. -/
theorem npart {α : Type} {xs : Words} (h : NonNegative xs) {l r : Nat} (h1 : l ≤ r) (h2 : r ≤ xs.length)
    {f : Words → Res α} (hf : ∀ ws, NonNegative ws → ACE.sub xs l r = .ok ws → EndsChecked (f ws)) :
    EndsChecked (ACE.sub xs l r >>= f) := by
  obtain ⟨ws, hw⟩ := sub_ok h1 h2
  rw [hw]
  exact hf ws (NonNegative.sub h hw) hw

/-- A word that is used as a count. -/
theorem ncount {α : Type} {xs : Words} (h : NonNegative xs) {i : Nat} {f : Int → Res α}
    (hf : ∀ v (n : Nat), Base.IXSS xs i = .ok v → v = n → sizeOfInt v = n → n < 1073741824 → i ≤ xs.length →
      EndsChecked (f v)) : EndsChecked (Base.IXSS xs i >>= f) := by
  refine (IXSS_checked (NonNegative.moderate h) i).bind fun v hv => ?_
  obtain ⟨n, h1, h2, h3, _, h4⟩ := IXSS_nat h hv
  exact hf v n hv h1 h2 h3 h4

/-- The number of rows of the columns in a part of the words. -/
theorem rows {xs ws : Words} {l r nc n : Nat} {d : ColumnData} (hw : ACE.sub xs l r = .ok ws)
    (hd : ColumnData.ofRange ws nc = .ok d) (hl : l < r) {v : Int} (hv : Base.IXSS xs (l + 1) = .ok v)
    (hn : sizeOfInt v = n) : d.N = .ok n := by
  unfold ColumnData.N
  have := (sub_mem hw).1
  rw [column_xss hd, if_neg (by rw [List.isEmpty_iff]; rintro rfl; simp at this; omega), sub_int hw (by omega) (by omega),
    hv, ok_bind, hn]
  rfl

theorem general {xs : Words} (h : NonNegative xs) : EndsChecked (GenEvap.ofRange xs) := by
  have hl := h.length
  unfold GenEvap.ofRange
  refine ncount h fun v1 nr e1 _ s1 b1 l1 => ?_
  simp only [s1]
  refine ncount h fun v2 ne e2 _ s2 b2 l2 => ?_
  simp only [s2]
  refine ncount h fun v3 nb e3 _ s3 b3 l3 => ?_
  refine (EndsChecked.guard _).bind fun _ _ => ?_
  unfold GenEvap.generateBlocks
  rw [e1]
  show EndsChecked (Base.IXSS xs (1 + 2 * sizeOfInt v1 + 1) >>= _)
  rw [s1, e2]
  show EndsChecked (ACE.sub xs 0 (2 * nr + 2 * sizeOfInt v2 + 2) >>= fun a => TabulatedData.ofRange a >>= fun _ =>
    ACE.sub xs (2 * nr + 2 * sizeOfInt v2 + 2) xs.length >>= _)
  rw [s2]
  refine npart h (by omega) (by omega) fun a ha _ => (ntable ha).bind fun _ _ => ?_
  exact npart h (by omega) (by omega) fun b hb _ => (ncolumn hb 1).bind fun _ _ => .ok _

theorem watt {xs : Words} (h : NonNegative xs) : EndsChecked (Watt.ofRange xs) := by
  have hl := h.length
  unfold Watt.ofRange
  refine ncount h fun v1 nra e1 _ s1 b1 l1 => ?_
  simp only [s1]
  refine ncount h fun v2 nea e2 _ s2 b2 l2 => ?_
  simp only [s2]
  refine ncount h fun v3 nrb e3 _ s3 b3 l3 => ?_
  simp only [s3]
  refine ncount h fun v4 neb e4 _ s4 b4 l4 => ?_
  simp only [s4]
  refine (EndsChecked.guard _).bind fun _ hg => ?_
  have hg := guard_length hg
  unfold Watt.generateBlocks
  rw [e1, ok_bind]
  simp only [s1]
  rw [e2, ok_bind]
  simp only [s2]
  rw [show 2 * nra + 2 * nea + 2 = 2 + 2 * nra + 2 * nea by omega, e3, ok_bind]
  simp only [s3]
  rw [e4, ok_bind]
  simp only [s4]
  refine npart h (by omega) (by omega) fun a ha _ => (ntable ha).bind fun _ _ => ?_
  exact npart h (by omega) (by omega) fun b hb _ => (ntable hb).bind fun _ _ => .ok _

end C56

/-- What law 1 needs besides: the number of values of all the bins is below 2^31. -/
def SmallBins (xs : Words) : Prop :=
  ∀ nr ne net : Nat, Base.IXSS xs 1 = .ok (nr : Int) → Base.IXSS xs (2 + 2 * nr) = .ok (ne : Int) →
    Base.IXSS xs (3 + 2 * nr + ne) = .ok (net : Int) → ne * net < 2147483648

namespace C56

theorem equiprobable {xs : Words} (h : NonNegative xs) (hs : SmallBins xs) : EndsChecked (EquiBinData.ofRange xs) := by
  have hl := h.length
  unfold EquiBinData.ofRange
  refine ncount h fun v1 nr e1 q1 s1 b1 l1 => ?_
  simp only [s1]
  refine ncount h fun v2 ne e2 q2 s2 b2 l2 => ?_
  simp only [s2]
  refine ncount h fun v3 net e3 q3 s3 b3 l3 => ?_
  simp only [s3]
  refine (EndsChecked.guard _).bind fun _ hg => ?_
  have hg := guard_length hg
  have hp := hs nr ne net (q1 ▸ e1) (by rw [show 2 + 2 * nr = 1 + 2 * nr + 1 by omega, e2, q2])
    (by rw [show 3 + 2 * nr + ne = 1 + 2 * nr + 1 + ne + 1 by omega, e3, q3])
  have hg : 1 + 2 * nr + 1 + ne + 1 + ne * net ≤ xs.length := by
    rwa [Nat.mod_eq_of_lt (by omega)] at hg
  unfold EquiBinData.generateBlocks
  rw [e1, ok_bind]
  simp only [s1]
  rw [e2, ok_bind]
  simp only [s2]
  refine npart h (by omega) (by omega) fun a ha wa => (ncolumn ha 2).bind fun interpolation hi => ?_
  refine npart h (by omega) (by omega) fun b hb wb => (ncolumn hb 1).bind fun energies hv => ?_
  have mi : Moderate interpolation.xss := column_xss hi ▸ NonNegative.moderate ha
  have mv : Moderate energies.xss := column_xss hv ▸ NonNegative.moderate hb
  refine (EndsChecked.mapM _ fun i hi' => ?_).bind fun _ _ => .ok _
  have hi' := List.mem_range.mp hi'
  unfold EquiBinData.generateBlock EquiBinData.incidentOf
  refine EndsChecked.bind ((values_N mv).bind fun n _ => ?_) fun e _ => ?_
  · split
    · exact .range
    · exact value_checked mv ..
  have ni : ColumnData.N interpolation = .ok nr := rows wa hi (by omega) e1 s1
  have nv : energies.N = .ok ne := rows wb hv (by omega)
    (by rw [show 2 * nr + 1 + 1 = 1 + 2 * nr + 1 by omega, e2]) s2
  unfold EquiBinData.NETof
  rw [ni, ok_bind, nv, ok_bind, e3]
  simp only [ok_bind, pure_eq_ok, s3]
  have : net * (i + 1) ≤ ne * net := by
    rw [Nat.mul_comm]; exact Nat.mul_le_mul_right _ hi'
  exact npart h (by rw [Nat.mul_succ]; omega) (by omega) fun _ _ _ => .ok _

/-- The data of law 67 at one incident energy. -/
theorem angleEnergy {xs : Words} (hm : Moderate xs) (h0 : ∀ v, Base.IXSS xs 2 = .ok v → 0 ≤ v) (incident : Dbl)
    (locb : Nat) : EndsChecked (AngleEnergy.ofRange incident locb xs) := by
  have hl := hm.length
  unfold AngleEnergy.ofRange DistDataI.verifySize
  refine EndsChecked.bind ((XSS_checked xs 2).bind fun x hx => ?_) fun _ hs => ?_
  · obtain ⟨n, h1, _⟩ := toSize_checked hm 2 h0 hx
    rw [h1]
    exact .guard _
  · obtain ⟨x, hx, hs⟩ := bind_eq_ok.mp hs
    obtain ⟨ne, h1, h2, h3⟩ := toSize_checked hm 2 h0 hx
    rw [h1] at hs
    have hg := guard_length (show guardThrow (!decide (xs.length < (2 + 2 * ne) % 4294967296)) = .ok _ from hs)
    unfold AngleEnergy.generateBlocks
    rw [h2, ok_bind]
    simp only [size_nat h3]
    refine (iterator_checked xs _).bind fun data hd => (iterator_checked xs _).bind fun fin hf => ?_
    have d1 := iterator_ok hd
    have d2 := iterator_ok hf
    obtain ⟨b, hb⟩ := sub_ok (xs := xs) (l := data) (r := fin) (by omega) (by omega)
    rw [hb, ok_bind]
    have mb := Moderate.sub hm hb
    refine (EndsChecked.of_ends (column b 2 mb fun v hv => ?_)).bind fun values hv => ?_
    · rw [sub_int hb (by omega) (by omega), show data + 1 = 2 by omega, h2] at hv
      injection hv with hv
      omega
    · have mv : Moderate values.xss := column_xss hv ▸ mb
      refine (values_N mv).bind fun n _ => (EndsChecked.mapM _ fun i _ => ?_).bind fun _ _ => .ok _
      refine generateBlock_checked hm mv (fun i => ?_) (fun i v h => ?_) ?_
      · exact ((LOCC_checked mv i).bind fun _ _ => .ok _).bind fun _ _ => .ok _
      · obtain ⟨w, hw, h⟩ := bind_eq_ok.mp h
        obtain ⟨w', _, hw⟩ := bind_eq_ok.mp hw
        injection h with h
        injection hw with hw
        subst h
        subst hw
        unfold sizeOfInt
        omega
      · intro v _ _ right ws _ _ _ hw
        exact (C56_counted_partial ws (Moderate.sub hm hw)).2.2.1 v

/-- The data of law 61 at one incident energy. -/
theorem energyAngle {xs : Words} (hm : Moderate xs) (h0 : ∀ v, Base.IXSS xs 2 = .ok v → 0 ≤ v) (incident : Dbl)
    {locb : Nat}
    (hi : ∀ (ne i : Nat) a, Base.IXSS xs 2 = .ok (ne : Int) → 1 ≤ i → i ≤ ne → Base.IXSS xs (2 + 3 * ne + i) = .ok a →
      (locb : Int) ≤ a ∧ a - locb ≤ xs.length ∧ (i < ne → ∀ b, Base.IXSS xs (2 + 3 * ne + i + 1) = .ok b → a ≤ b))
    (hs : ∀ ne : Nat, Base.IXSS xs 2 = .ok (ne : Int) → 2 + 4 * ne ≤ xs.length) :
    EndsChecked (EnergyAngle.ofRange incident locb xs) := by
  have hl := hm.length
  unfold EnergyAngle.ofRange DistDataI.verifySize
  refine EndsChecked.bind ((XSS_checked xs 2).bind fun x hx => ?_) fun _ hs' => ?_
  · obtain ⟨n, h1, _⟩ := toSize_checked hm 2 h0 hx
    rw [h1]
    exact .guard _
  · obtain ⟨x, hx, _⟩ := bind_eq_ok.mp hs'
    obtain ⟨ne, h1, h2, h3⟩ := toSize_checked hm 2 h0 hx
    have hg := hs ne h2
    unfold EnergyAngle.generateBlocks
    rw [h2, ok_bind]
    simp only [size_nat h3]
    obtain ⟨b, hb⟩ := sub_ok (xs := xs) (l := 1) (r := 1 + 4 * ne + 1) (by omega) (by omega)
    rw [hb, ok_bind]
    have mb := Moderate.sub hm hb
    refine (EndsChecked.of_ends (column b 4 mb fun v hv => ?_)).bind fun values hv => ?_
    · rw [sub_int hb (by omega) (by omega), h2] at hv
      injection hv with hv
      omega
    · have mv : Moderate values.xss := column_xss hv ▸ mb
      have hn : values.N = .ok ne := rows hb hv (by omega) h2 (size_nat h3)
      rw [hn, ok_bind]
      refine (EndsChecked.mapM _ fun i hi' => ?_).bind fun _ _ => .ok _
      have hi' := List.mem_range.mp hi'
      have locc : ∀ j, 1 ≤ j → j ≤ ne → ∃ a, Dist.LOCC values j = .ok a ∧ Base.IXSS xs (2 + 3 * ne + j) = .ok a := by
        intro j j1 j2
        have e : Dist.LOCC values j = Base.IXSS xs (2 + 3 * ne + j) := by
          unfold Dist.LOCC Dist.value Dist.verifyValueIndex ColumnData.value
          rw [hn]
          simp only [ok_bind]
          rw [if_neg (by omega), ok_bind, column_xss hv, column_nc hv, position_pos (by omega), sub_word hb (by omega) (by omega)]
          unfold Base.IXSS
          rw [show 1 + ((4 - 1) * ne + (2 + j - 1)) = 2 + 3 * ne + j by omega]
        have : ∃ a, Base.IXSS xs (2 + 3 * ne + j) = .ok a := by
          obtain ⟨v, h1, h2, h3⟩ := hm.words xs[2 + 3 * ne + j - 1] (List.getElem_mem _)
          refine ⟨v, ?_⟩
          unfold Base.IXSS
          rw [(Base.XSS_eq_ok_iff (x := xs[2 + 3 * ne + j - 1])).mpr ?_]
          · exact int_of h1 h2 h3
          · exact ⟨by omega, List.getElem?_eq_getElem _⟩
        obtain ⟨a, ha⟩ := this
        exact ⟨a, e.trans ha, ha⟩
      unfold EnergyAngle.generateBlock
      refine (value_checked mv _ _).bind fun _ _ => (value_checked mv _ _).bind fun _ _ =>
        (value_checked mv _ _).bind fun _ _ => ?_
      obtain ⟨a, a1, a2⟩ := locc (i + 1) (by omega) (by omega)
      have ia := IXSS_moderate hm a2
      obtain ⟨p1, p2, p3⟩ := hi ne (i + 1) a h2 (by omega) (by omega) a2
      have sa : sizeOfInt (a - locb + 1) = (a - locb + 1).toNat := by
        unfold sizeOfInt
        omega
      unfold Dist.relSize
      rw [a1]
      simp only [ok_bind, pure_eq_ok, sa]
      have hgo : ∀ right, (a - locb).toNat ≤ right → right ≤ xs.length → ∀ e p c,
          EndsChecked (ACE.sub xs ((a - locb + 1).toNat - 1) right >>= AngularProb.ofRange e p c) := by
        intro right r1 r2 e p c
        obtain ⟨ws, hw⟩ := sub_ok (xs := xs) (l := (a - locb + 1).toNat - 1) (r := right) (by omega) (by omega)
        rw [hw]
        exact ((C56_counted_partial ws (Moderate.sub hm hw)).2.2.1 _).bind fun _ _ => .ok _
      by_cases hin : i + 1 = ne
      · rw [if_pos hin]
        exact hgo _ (by omega) (by omega) _ _ _
      · rw [if_neg hin]
        obtain ⟨c, c1, c2⟩ := locc (i + 1 + 1) (by omega) (by omega)
        have ic := IXSS_moderate hm c2
        have := p3 (by omega) c c2
        obtain ⟨q1, q2, _⟩ := hi ne (i + 1 + 1) c h2 (by omega) (by omega) c2
        have sc : sizeOfInt (c - locb + 1) = (c - locb + 1).toNat := by
          unfold sizeOfInt
          omega
        rw [c1]
        simp only [ok_bind, sc]
        exact hgo _ (by omega) (by omega) _ _ _

end C56

/-- The parts of energy distribution data that begin at one of their locators and end at the end of the data or at a
greater locator that comes later: the data begin with interpolation data, then come the incident energies and the
locators, which are relative to `locb`. -/
def AtLocators (xs : Words) (locb : Nat) (P : Int → Words → Prop) : Prop :=
  ∀ (nr ne j : Nat) locator right ws, Base.IXSS xs 1 = .ok (nr : Int) → Base.IXSS xs (2 + 2 * nr) = .ok (ne : Int) →
    1 ≤ j → j ≤ ne → Base.IXSS xs (2 + 2 * nr + ne + j) = .ok locator →
    (right = xs.length ∨ ∃ k next, j < k ∧ k ≤ ne ∧ Base.IXSS xs (2 + 2 * nr + ne + k) = .ok next ∧ locator < next ∧
      right = (next - locb).toNat) →
    sub xs (locator - locb).toNat right = .ok ws → P locator ws

/-- The count of the cosines or outgoing energies at one incident energy, when it is there, is not negative. -/
def CountKnown (ws : Words) : Prop := ∀ v, Base.IXSS ws 2 = .ok v → 0 ≤ v

/-- The four columns of law 61 at one incident energy are there, and its locators are in order and lead to words of
the data. -/
def CosinesInside (locator : Int) (ws : Words) : Prop :=
  ∀ ne : Nat, Base.IXSS ws 2 = .ok (ne : Int) → 2 + 4 * ne ≤ ws.length ∧
    ∀ (i : Nat) a, 1 ≤ i → i ≤ ne → Base.IXSS ws (2 + 3 * ne + i) = .ok a →
      locator ≤ a ∧ a - locator ≤ ws.length ∧ (i < ne → ∀ b, Base.IXSS ws (2 + 3 * ne + i + 1) = .ok b → a ≤ b)

namespace C56

theorem ite_checked {α : Type} {c : Prop} [Decidable c] {a b : Res α} (ha : c → EndsChecked a)
    (hb : ¬ c → EndsChecked b) : EndsChecked (if c then a else b) := by
  by_cases h : c
  · rw [if_pos h]
    exact ha h
  · rw [if_neg h]
    exact hb h

theorem left_eq {locc : Int} {locb : Nat} {xs ws : Words} {right : Nat} (hl : xs.length < 1073741824)
    (h1 : -1073741824 < locc) (h2 : locc < 1073741824) (h3 : locb < 1073741824)
    (h : ACE.sub xs (sizeOfInt (wrap32 (locc - locb + 1)) - 1) right = .ok ws) :
    ACE.sub xs (locc - locb).toNat right = .ok ws ∧ (locb : Int) ≤ locc + 1 := by
  have hw : wrap32 (locc - locb + 1) = locc - locb + 1 := by
    unfold wrap32
    split <;> omega
  have hb : sizeOfInt (locc - locb + 1) - 1 ≤ xs.length := by
    rw [hw] at h
    unfold sub at h
    split at h
    · omega
    · cases h
  rw [hw] at h
  have : (locb : Int) ≤ locc + 1 := by
    unfold sizeOfInt at hb
    omega
  have e : sizeOfInt (locc - locb + 1) - 1 = (locc - locb).toNat := by
    unfold sizeOfInt at hb ⊢
    omega
  exact ⟨e ▸ h, this⟩

theorem locators {xs : Words} (hm : Moderate xs) {locb : Nat} (hlocb : locb < 1073741824) {P : Int → Words → Prop}
    (hp : AtLocators xs locb P) {nr ne j : Nat} {locc : Int} {right : Nat} {ws : Words}
    (h1 : Base.IXSS xs 1 = .ok (nr : Int)) (h2 : Base.IXSS xs (2 + 2 * nr) = .ok (ne : Int)) (h3 : 1 ≤ j) (h4 : j ≤ ne)
    (h5 : Base.IXSS xs (2 + 2 * nr + ne + j) = .ok locc)
    (hr : right = xs.length ∨ ∃ k next, j < k ∧ k ≤ ne ∧ Base.IXSS xs (2 + 2 * nr + ne + k) = .ok next ∧
        wrap32 (locc - locb + 1) < wrap32 (next - locb + 1) ∧ right = sizeOfInt (wrap32 (next - locb + 1)) - 1)
    (h6 : ACE.sub xs (sizeOfInt (wrap32 (locc - locb + 1)) - 1) right = .ok ws) : P locc ws := by
  obtain ⟨_, _, h7, h8⟩ := IXSS_moderate hm h5
  obtain ⟨l1, l2⟩ := left_eq hm.length h7 h8 hlocb h6
  refine hp nr ne j locc right ws h1 h2 h3 h4 h5 (hr.imp_right ?_) l1
  rintro ⟨k, next, k1, k2, k3, k4, k5⟩
  obtain ⟨_, _, k7, k8⟩ := IXSS_moderate hm k3
  have w : ∀ v : Int, -1073741824 < v → v < 1073741824 → wrap32 (v - locb + 1) = v - locb + 1 := by
    intro v v1 v2
    unfold wrap32
    split <;> omega
  rw [w _ h7 h8, w _ k7 k8] at k4
  rw [w _ k7 k8] at k5
  refine ⟨k, next, k1, k2, k3, by omega, ?_⟩
  rw [k5]
  unfold sizeOfInt
  omega

end C56

/-- Laws 67 and 61, cosines and outgoing energies together, are read or refused when the counts are not negative;
law 61, which computes iterators without a check, when its locators are in order and lead inside. -/
theorem C56_cosines_partial (xs : Words) (hc : Counted xs) (locb : Nat) (h0 : 1 ≤ locb) (hl : locb < 1073741824) :
    (AtLocators xs locb (fun _ ws => CountKnown ws) → EndsChecked (Law67.ofRange locb xs)) ∧
    (AtLocators xs locb (fun locator ws => CountKnown ws ∧ CosinesInside locator ws) →
      EndsChecked (Law61.ofRange locb xs)) := by
  refine ⟨fun hp => C56.DistData_checked hc ?_, fun hp => C56.DistData_checked hc ?_⟩
  · intro v nr ne j locc right ws h1 h2 h3 h4 h5 hr h6
    exact C56.angleEnergy (C56.Moderate.sub hc.moderate h6) (C56.locators hc.moderate hl hp h1 h2 h3 h4 h5 hr h6) _ _
  · intro v nr ne j locc right ws h1 h2 h3 h4 h5 hr h6
    obtain ⟨p1, p2⟩ := C56.locators hc.moderate hl hp h1 h2 h3 h4 h5 hr h6
    obtain ⟨_, _, h7, h8⟩ := C56.IXSS_moderate hc.moderate h5
    have := (C56.left_eq hc.moderate.length h7 h8 hl h6).2
    have e : ((sizeOfInt locc : Nat) : Int) = locc := by
      unfold sizeOfInt
      omega
    refine C56.energyAngle (C56.Moderate.sub hc.moderate h6) p1 _ ?_ fun ne h => (p2 ne h).1
    rw [e]
    exact fun ne i a h j1 j2 ha => (p2 ne h).2 i a j1 j2 ha

/-- Laws 1, 5, 7, 9, 11 and 66 and the laws with two parameters are read or refused. -/
theorem C56_laws_partial (xs : Words) (h : NonNegative xs) :
    EndsChecked (GenEvap.ofRange xs) ∧ EndsChecked (Watt.ofRange xs) ∧
    (SmallBins xs → EndsChecked (EquiBinData.ofRange xs)) :=
  ⟨C56.general h, C56.watt h, C56.equiprobable h⟩

/-! ## The data of a reaction -/

/-- What the words of the data of a law have to be: the words are natural numbers, except for laws 61 and 67, whose
cosines may be negative. -/
structure LawReady (law : Int) (idat : Nat) (ws : Words) : Prop where
  natural : law ≠ 61 → law ≠ 67 → NonNegative ws
  bins : law = 1 → SmallBins ws
  cosines : law = 61 ∨ law = 67 → Counted ws ∧ 1 ≤ idat ∧ AtLocators ws idat (fun locator part => CountKnown part ∧
    (law = 61 → CosinesInside locator part))

/-- The data of a law. -/
theorem C56_law_partial (law : Int) (idat : Nat) (ws : Words) (emin emax : Dbl) (h : LawReady law idat ws)
    (hi : idat < 1073741824) : EndsChecked (LawData.read law idat ws emin emax) := by
  have two := (C56_arrays ws).2.2.2.2.1 emin emax
  have n : law ≠ 61 → law ≠ 67 → Counted ws := fun a b => C56.NonNegative.counted (h.natural a b)
  unfold LawData.read
  refine C56.ite_checked (fun _ => (EndsChecked.of_ends two.1).bind fun _ _ => .ok _) fun _ => ?_
  refine C56.ite_checked (fun _ => (EndsChecked.of_ends two.1).bind fun _ _ => .ok _) fun _ => ?_
  refine C56.ite_checked (fun _ => (EndsChecked.of_ends two.1).bind fun _ _ => .ok _) fun _ => ?_
  refine C56.ite_checked (fun _ => (EndsChecked.of_ends two.2).bind fun _ _ => .ok _) fun _ => ?_
  refine C56.ite_checked (fun e => (C56_distributions_partial ws (n (by omega) (by omega)) idat).bind fun _ _ => .ok _)
    fun _ => ?_
  refine C56.ite_checked (fun e => (C56_distributions_partial ws (n (by omega) (by omega)) idat).bind fun _ _ => .ok _)
    fun _ => ?_
  refine C56.ite_checked (fun h61 => ?_) fun _ => ?_
  · obtain ⟨hc, h0, hp⟩ := h.cosines (.inl h61)
    exact ((C56_cosines_partial ws hc idat h0 hi).2 fun nr ne j l r p a b c d e q f =>
      (hp nr ne j l r p a b c d e q f).imp_right (· h61)).bind fun _ _ => .ok _
  refine C56.ite_checked (fun h67 => ?_) fun _ => ?_
  · obtain ⟨hc, h0, hp⟩ := h.cosines (.inr h67)
    exact ((C56_cosines_partial ws hc idat h0 hi).1 fun nr ne j l r p a b c d e q f =>
      (hp nr ne j l r p a b c d e q f).1).bind fun _ _ => .ok _
  refine C56.ite_checked (fun e => (C56.equiprobable (h.natural (by omega) (by omega)) (h.bins e)).bind fun _ _ => .ok _)
    fun _ => ?_
  refine C56.ite_checked (fun e => (C56.general (h.natural (by omega) (by omega))).bind fun _ _ => .ok _) fun _ => ?_
  refine C56.ite_checked (fun e => (((C56_tabulated_partial ws).1 (n (by omega) (by omega))).2).bind fun _ _ => .ok _)
    fun _ => ?_
  refine C56.ite_checked (fun e => (((C56_tabulated_partial ws).1 (n (by omega) (by omega))).2).bind fun _ _ => .ok _)
    fun _ => ?_
  exact C56.ite_checked (fun e => (C56.watt (h.natural (by omega) (by omega))).bind fun _ _ => .ok _) fun _ => .thrown

/-- The header of a law at a position of the words of a reaction (`locator`, from 1), followed by the data of the law
up to the position `fin`: the probability table of at least one point comes before the data, which are as `P` says. -/
structure HeaderAt (xs : Words) (locb locator fin : Nat) (P : Int → Nat → Words → Prop) : Prop where
  header : ∃ law idat nr ne : Nat, Base.IXSS xs (locator + 1) = .ok (law : Int) ∧ law < 32768 ∧
    Base.IXSS xs (locator + 2) = .ok (idat : Int) ∧ Base.IXSS xs (locator + 3) = .ok (nr : Int) ∧
    Base.IXSS xs (locator + 4 + 2 * nr) = .ok (ne : Int) ∧ 1 ≤ ne ∧
    locb + locator + 4 + 2 * nr + 2 * ne ≤ idat ∧ idat ≤ locb + fin ∧ fin ≤ xs.length ∧
    ∀ ws, sub xs (idat - locb) fin = .ok ws → P law idat ws

namespace C56

theorem deref_of {xs : Words} {i : Nat} {v : Int} (h : Base.IXSS xs (i + 1) = .ok v) :
    ∃ x, deref xs i = .ok x ∧ x.round? = some v := by
  obtain ⟨x, h1, h2⟩ := IXSS_round h
  refine ⟨x, ?_, h2⟩
  unfold Base.XSS at h1
  obtain ⟨_, _, h1⟩ := bind_eq_ok.mp h1
  exact h1

/-- The table of a header. -/
theorem header_table {xs : Words} (hm : Moderate xs) {locator nr ne fin : Nat}
    (h1 : Base.IXSS xs (locator + 3) = .ok (nr : Int)) (h2 : Base.IXSS xs (locator + 4 + 2 * nr) = .ok (ne : Int))
    (h3 : locator + 4 + 2 * nr + 2 * ne ≤ fin) (h4 : fin ≤ xs.length) :
    ∃ ws, ACE.sub xs (locator + 2) fin = .ok ws ∧ Counted ws ∧ Base.IXSS ws 1 = .ok (nr : Int) ∧
      Base.IXSS ws (2 + 2 * nr) = .ok (ne : Int) := by
  obtain ⟨ws, hw⟩ := sub_ok (xs := xs) (l := locator + 2) (r := fin) (by omega) (by omega)
  have e1 : Base.IXSS ws 1 = .ok (nr : Int) := (sub_int hw (by omega) (by omega)).trans h1
  have e2 : Base.IXSS ws (2 + 2 * nr) = .ok (ne : Int) := by
    rw [sub_int hw (by omega) (by omega), show locator + 2 + (2 + 2 * nr) = locator + 4 + 2 * nr by omega, h2]
  refine ⟨ws, hw, ⟨Moderate.sub hm hw, fun v hv => ?_, fun n hn v hv => ?_⟩, e1, e2⟩
  · have := Except.ok.inj (e1.symm.trans hv)
    omega
  · obtain rfl : nr = n := by
      have := Except.ok.inj (e1.symm.trans hn)
      omega
    have := Except.ok.inj (e2.symm.trans hv)
    omega

end C56

/-- The words of a reaction whose header is followed by one law are read or refused. -/
theorem C56_reaction_partial (xs : Words) (hm : Moderate xs) (locb : Nat) (h1 : Base.IXSS xs 1 = .ok 0)
    (h : HeaderAt xs locb 1 xs.length LawReady) : EndsChecked (EnergyData.read locb xs) := by
  obtain ⟨law, idat, nr, ne, e1, l1, e2, e3, e4, n1, b1, b2, b3, hr⟩ := h.header
  obtain ⟨x0, d0, r0⟩ := C56.deref_of h1
  obtain ⟨x1, d1, r1⟩ := C56.deref_of e1
  obtain ⟨x2, d2, r2⟩ := C56.deref_of e2
  obtain ⟨x3, d3, r3⟩ := C56.deref_of e3
  obtain ⟨x4, d4, r4⟩ := C56.deref_of (i := 3 + 2 * nr + 1) (by rw [← e4]; congr 1; omega)
  have m2 := C56.IXSS_moderate hm e2
  have m3 := C56.IXSS_moderate hm e3
  have m4 := C56.IXSS_moderate hm e4
  have size : ∀ n : Nat, (n : Int) < 1073741824 → toSize (some (n : Int)) = .ok n := by
    intro n hn
    unfold toSize
    simp only
    rw [if_pos (by omega), Int.toNat_natCast]
  have short : toShort (some (law : Int)) = .ok (law : Int) := by
    unfold toShort
    simp only
    rw [if_pos (by omega)]
  have zero : toU32 (some (0 : Int)) = .ok 0 := rfl
  unfold EnergyData.read
  rw [d0, ok_bind, r0, zero, ok_bind, if_pos rfl]
  unfold EnergyData.readLaw
  rw [d1, ok_bind, r1, short, ok_bind, d2, ok_bind, r2, size _ (by omega), ok_bind, d3, ok_bind, r3, size _ (by omega),
    ok_bind, d4, ok_bind, r4, size _ (by omega), ok_bind, C56.deref_ok (by omega), ok_bind, C56.deref_ok (by omega),
    ok_bind, if_neg (by omega), ok_bind]
  obtain ⟨ws, hw⟩ := C56.sub_ok (xs := xs) (l := idat - locb) (r := xs.length) (by omega) (by omega)
  simp only [hw, ok_bind]
  exact (C56_law_partial _ _ _ _ _ (hr ws hw) (by omega)).bind fun _ _ => .ok _

/-- Several laws: each has a header, and says where the next one begins, further on. With several laws the data of
law 67 are read as the data of law 1 too. -/
inductive LawsReady (xs : Words) (locb : Nat) : Nat → Prop
  | last {locator : Nat} : 1 ≤ locator → Base.IXSS xs locator = .ok 0 →
      HeaderAt xs locb locator xs.length (fun law idat ws => LawReady law idat ws ∧ (law = 67 → NonNegative ws ∧ SmallBins ws)) →
      LawsReady xs locb locator
  | next {locator next : Nat} : 1 ≤ locator → Base.IXSS xs locator = .ok (next : Int) → 1 ≤ next →
      HeaderAt xs locb locator (next - locb)
        (fun law idat ws => LawReady law idat ws ∧ (law = 67 → NonNegative ws ∧ SmallBins ws)) →
      LawsReady xs locb (next - locb + 1) → LawsReady xs locb locator

namespace C56

theorem readMulti {law : Int} {idat : Nat} {ws : Words} (emin emax : Dbl) (h : LawReady law idat ws)
    (h67 : law = 67 → NonNegative ws ∧ SmallBins ws) (hi : idat < 1073741824) :
    EndsChecked (LawData.readMulti law idat ws emin emax) := by
  unfold LawData.readMulti
  refine ite_checked (fun e => ?_) fun _ => (C56_law_partial law idat ws emin emax h hi).bind fun _ _ => .ok _
  obtain ⟨hc, h0, hp⟩ := h.cosines (.inr e)
  obtain ⟨hn, hs⟩ := h67 e
  exact ((C56_cosines_partial ws hc idat h0 hi).1 fun nr ne j l r p a b c d e q f =>
      (hp nr ne j l r p a b c d e q f).1).bind fun _ _ => (equiprobable hn hs).bind fun _ _ => .ok _

/-- The first column of a table that has been read, when it has a point. -/
theorem table_x {ws : Words} (hc : Counted ws) {nr ne : Nat} (h1 : Base.IXSS ws 1 = .ok (nr : Int))
    (h2 : Base.IXSS ws (2 + 2 * nr) = .ok (ne : Int)) (h3 : 1 ≤ ne)
    {p : TabulatedData} (hp : TabulatedData.ofRange ws = .ok p) :
    ∃ a l, p.x = .ok (a :: l) := by
  have m1 := IXSS_moderate hc.moderate h1
  have m2 := IXSS_moderate hc.moderate h2
  unfold TabulatedData.ofRange at hp
  obtain ⟨_, _, hp⟩ := bind_eq_ok.mp hp
  obtain ⟨_, _, hp⟩ := bind_eq_ok.mp hp
  obtain ⟨_, _, hp⟩ := bind_eq_ok.mp hp
  obtain ⟨_, _, hp⟩ := bind_eq_ok.mp hp
  obtain ⟨_, _, hp⟩ := bind_eq_ok.mp hp
  unfold TabulatedData.generateBlocks at hp
  rw [h1, ok_bind] at hp
  simp only [size_nat (n := nr) (by omega)] at hp
  rw [show 1 + 2 * nr + 1 = 2 + 2 * nr by omega, h2, ok_bind] at hp
  simp only [size_nat (n := ne) (by omega)] at hp
  obtain ⟨a, ha, hp⟩ := bind_eq_ok.mp hp
  obtain ⟨t, ht, hp⟩ := bind_eq_ok.mp hp
  obtain ⟨b, hb, hp⟩ := bind_eq_ok.mp hp
  obtain ⟨d, hd, hp⟩ := bind_eq_ok.mp hp
  injection hp with hp
  subst hp
  show ∃ a l, ColumnData.column d 1 = .ok (a :: l)
  have hn : d.N = .ok ne := rows hb hd (by omega) (v := (ne : Int))
    (by rw [show 2 * nr + 1 + 1 = 2 + 2 * nr by omega, h2]) (size_nat (by omega))
  have lb := (sub_mem hb).1
  unfold ColumnData.column
  rw [hn, ok_bind, position_pos (by omega), column_xss hd]
  have it : ∀ i, 1 ≤ i → i ≤ b.length + 1 → Base.iterator b i = .ok (i - 1) := by
    intro i i1 i2
    unfold Base.iterator Base.verifyIndex
    rw [if_neg (by omega)]
    rfl
  unfold Base.XSSr
  rw [it _ (by omega) (by omega), ok_bind, if_pos (by omega), it _ (by omega) (by omega)]
  simp only [ok_bind, pure_eq_ok]
  obtain ⟨c, hc'⟩ := sub_ok (xs := b) (l := (1 - 1) * ne + 2 - 1) (r := (1 - 1) * ne + 2 + ne - 1 - 1 + 1)
    (by omega) (by omega)
  rw [hc']
  have lc := (sub_mem hc').1
  cases c with
  | nil => simp at lc; omega
  | cons a l => exact ⟨a, l, rfl⟩

/-- The body of the loop over the laws, up to the next law. -/
theorem law_step {α : Type} {xs : Words} (hm : Moderate xs) {locb locator fin : Nat} {v : Int}
    (hf : MultiData.endOf xs locb (sizeOfInt v) = .ok fin)
    (h : HeaderAt xs locb locator fin (fun law idat ws => LawReady law idat ws ∧ (law = 67 → NonNegative ws ∧ SmallBins ws)))
    (k : TabulatedData → List LawData → Res α) (hk : ∀ p ds, EndsChecked (k p ds)) :
    EndsChecked (do
      let law := wrap16 (← Base.IXSS xs (locator + 1))
      let idat := sizeOfInt (← Base.IXSS xs (locator + 2))
      let pbegin := locator + 2
      let dbegin ← if idat < locb then .error .ub else .ok (idat - locb)
      let fin ← MultiData.endOf xs locb (sizeOfInt v)
      let p ← TabulatedData.ofRange (← ACE.sub xs pbegin dbegin)
      let emin ← deref (← p.x) 0
      let emax ← last (← p.x)
      let ds ← LawData.readMulti law idat (← ACE.sub xs dbegin fin) emin emax
      k p ds) := by
  obtain ⟨law, idat, nr, ne, e1, l1, e2, e3, e4, n1, b1, b2, b3, hr⟩ := h.header
  have m2 := IXSS_moderate hm e2
  have m4 := IXSS_moderate hm e4
  have hw16 : wrap16 (law : Int) = law := by
    unfold wrap16
    rw [if_pos (by omega)]
    omega
  rw [e1, ok_bind, e2, ok_bind, hw16]
  simp only [size_nat (n := idat) (by omega)]
  rw [if_neg (by omega), ok_bind, hf, ok_bind]
  obtain ⟨ws, hw, hc, i1, i2⟩ := header_table hm e3 e4 (fin := idat - locb) (by omega) (by omega)
  simp only [hw, ok_bind]
  refine (tabulated hc).bind fun p hp => ?_
  obtain ⟨a, l, hx⟩ := table_x hc i1 i2 n1 hp
  have hlast : ∃ y, last (a :: l) = .ok y := by
    unfold last
    cases hq : (a :: l).getLast? with
    | none => simp at hq
    | some y => exact ⟨y, rfl⟩
  obtain ⟨y, hy⟩ := hlast
  have hfirst : deref (a :: l) 0 = .ok a := rfl
  simp only [hx, ok_bind, hfirst, hy]
  obtain ⟨part, hpart⟩ := sub_ok (xs := xs) (l := idat - locb) (r := fin) (by omega) (by omega)
  simp only [hpart, ok_bind]
  obtain ⟨q1, q2⟩ := hr part hpart
  exact (readMulti _ _ q1 q2 (by omega)).bind fun ds _ => hk p ds

theorem laws {xs : Words} (hm : Moderate xs) {locb : Nat} : ∀ fuel locator, LawsReady xs locb locator →
    xs.length < fuel + locator → EndsChecked (MultiData.blocks xs locb fuel locator)
  | 0, locator, h, hf => by
    cases h with
    | last _ h => have := IXSS_moderate hm h; omega
    | next _ h => have := IXSS_moderate hm h; omega
  | fuel + 1, locator, h, hf => by
    unfold MultiData.blocks
    cases h with
    | last h1 h2 h3 =>
      rw [h2, ok_bind]
      refine law_step hm rfl h3 (fun p ds => _) fun p ds => ?_
      exact .ok _
    | @next _ next h1 h2 h3 h4 h5 =>
      have m := IXSS_moderate hm h2
      have hs : sizeOfInt (next : Int) = next := size_nat (by omega)
      obtain ⟨law, idat, nr, ne, e1, l1, e2, e3, e4, n1, b1, b2, b3, hr⟩ := h4.header
      have hlt : locator < next - locb + 1 ∧ locb ≤ next := by omega
      rw [h2, ok_bind]
      refine law_step hm (fin := next - locb) ?_ h4 (fun p ds => _) fun p ds => ?_
      · unfold MultiData.endOf
        rw [hs, if_neg (by omega), if_neg (by omega)]
      · rw [if_neg (by rw [hs]; omega), hs]
        exact (laws hm fuel _ h5 (by omega)).bind fun _ _ => .ok _

end C56

/-- Several laws are read or refused. -/
theorem C56_several_laws_partial (xs : Words) (hm : Moderate xs) (locb : Nat) (h : LawsReady xs locb 1) :
    EndsChecked (MultiData.ofRange locb xs) :=
  (C56.laws hm (xs.length + 1) 1 h (by omega)).bind fun _ _ => .ok _

/-- The words of a reaction: one law or several laws, with headers. -/
def DataReady (locator : Nat) (ws : Words) : Prop :=
  (Base.IXSS ws 1 = .ok 0 ∧ HeaderAt ws locator 1 ws.length LawReady) ∨
  (∃ next : Nat, Base.IXSS ws 1 = .ok (next : Int) ∧ 1 ≤ next ∧ LawsReady ws locator 1)

/-- Energy distribution data with headers are read or refused. -/
theorem C56_energy_data_partial (ws : Words) (hm : Moderate ws) (locator : Nat) (h : DataReady locator ws) :
    EndsChecked (EnergyData.read locator ws) ∧ EndsChecked (EnergyData.readSecondary locator ws) := by
  have : EndsChecked (EnergyData.read locator ws) := by
    rcases h with ⟨h1, h2⟩ | ⟨next, h1, h2, h3⟩
    · exact C56_reaction_partial ws hm locator h1 h2
    · obtain ⟨x, d, r⟩ := C56.deref_of h1
      have m := C56.IXSS_moderate hm h1
      have e : toU32 (some (next : Int)) = .ok next := by
        unfold toU32
        simp only
        rw [if_pos (by omega), Int.toNat_natCast]
      unfold EnergyData.read
      rw [d, ok_bind, r, e, ok_bind, if_neg (by omega)]
      exact (C56_several_laws_partial ws hm locator h3).bind fun _ _ => .ok _
  exact ⟨this, C56.ite_checked (fun _ => .ok _) fun _ => this⟩

/-! ## The blocks of energy distributions -/

/-- A reaction of a DLW block: its locator is not negative, the data it leads to end after they begin and have
headers, and so does its table of multiplicities, when there is one, whose counts are not negative. -/
structure ReactionReady (xs : Words) (nr : Nat) (tyr : TYR) (i : Nat) : Prop where
  natural : ∀ v, DLW.LDLWof xs nr (i + 1) = .ok v → 0 ≤ v
  data : ∀ locator right : Nat, DLW.LDLWof xs nr (i + 1) = .ok (locator : Int) → 1 ≤ locator →
    DLW.rightOf xs nr tyr (i + 1) = .ok right →
    nr + locator - 1 ≤ right ∧ ∀ ws, sub xs (nr + locator - 1) right = .ok ws → DataReady locator ws
  multiplicity : ∀ m locator : Nat, tyr.multiplicity (i + 1) = .ok m → 100 < m →
    DLW.LDLWof xs nr (i + 1) = .ok (locator : Int) →
    m - 100 ≤ locator ∧ ∀ ws, sub xs (nr + m - 101) (nr + locator - 1) = .ok ws → Counted ws

namespace C56

theorem mapM_length {α β : Type} (f : α → Res β) : ∀ (l : List α) {vs : List β}, l.mapM f = .ok vs →
    vs.length = l.length
  | [], vs, h => by
    injection h with h
    subst h
    rfl
  | a :: l, vs, h => by
    rw [List.mapM_cons] at h
    obtain ⟨x, _, h⟩ := bind_eq_ok.mp h
    obtain ⟨ys, hy, h⟩ := bind_eq_ok.mp h
    injection h with h
    subst h
    simp [mapM_length f l hy]

theorem tyr_lengths {ys : Words} {ntr : Nat} {tyr : TYR} (h : TYR.ofRange ys ntr = .ok tyr) :
    tyr.ntr = ntr ∧ tyr.frames.length = ntr ∧ tyr.multiplicities.length = ntr := by
  unfold TYR.ofRange at h
  obtain ⟨_, _, h⟩ := bind_eq_ok.mp h
  unfold TYR.generateBlocks at h
  obtain ⟨l, hl, h⟩ := bind_eq_ok.mp h
  injection h with h
  subst h
  have := mapM_length _ _ hl
  simp only [List.length_range] at this
  simp [this]

theorem tyr_checked {ys : Words} {ntr : Nat} {tyr : TYR} (h : TYR.ofRange ys ntr = .ok tyr) (i : Nat) :
    EndsChecked (tyr.multiplicity i) := by
  obtain ⟨h1, _, h2⟩ := tyr_lengths h
  unfold TYR.multiplicity
  refine ite_checked (fun _ => .range) fun hi => ?_
  rw [List.getElem?_eq_getElem (by omega)]
  exact .ok _

theorem LDLW_checked {xs : Words} (hm : Moderate xs) (nr i : Nat) : EndsChecked (DLW.LDLWof xs nr i) :=
  ite_checked (fun _ => .range) fun _ => IXSS_checked hm i

end C56

/-- DLW blocks are read or refused. -/
theorem C56_DLW_partial (xs : Words) (hm : Moderate xs) (data nr : Nat) (hnr : nr < 1073741824) (ys : Words) (ntr : Nat) (tyr : TYR)
    (ht : TYR.ofRange ys ntr = .ok tyr) (hn : nr ≤ ntr) (h : ∀ i, i < nr → ReactionReady xs nr tyr i) :
    EndsChecked (DLW.ofRange xs data tyr nr) := by
  obtain ⟨t1, t2, t3⟩ := C56.tyr_lengths ht
  unfold DLW.ofRange DLW.generateBlocks DLW.firstFrames
  refine (EndsChecked.guard _).bind fun _ _ => EndsChecked.bind (EndsChecked.mapM _ fun i hi => ?_) fun _ _ => ?_
  · have hr := h i (List.mem_range.mp hi)
    unfold DLW.generateBlock
    refine (C56.LDLW_checked hm _ _).bind fun v hv => (EndsChecked.guard _).bind fun _ hg => ?_
    have h0 := hr.natural v hv
    obtain ⟨locator, rfl⟩ := Int.eq_ofNat_of_zero_le h0
    have hpos : 1 ≤ locator := by
      have := guardThrow_eq_ok.mp hg
      cases locator with
      | zero => cases this
      | succ n => omega
    have hb : locator < 1073741824 := by
      unfold DLW.LDLWof at hv
      split at hv
      · cases hv
      · have := C56.IXSS_moderate hm hv
        omega
    refine (C56.iterator_checked xs _).bind fun left hl => ?_
    have hl := C56.iterator_ok hl
    have hs : sizeOfInt ((nr : Int) + 1 + (locator : Int) - 1) = nr + locator := by
      unfold sizeOfInt
      omega
    rw [hs] at hl
    refine EndsChecked.bind ?_ fun right hright => ?_
    · unfold DLW.rightOf
      refine C56.ite_checked (fun _ => .ok _) fun _ => (C56.tyr_checked ht _).bind fun _ _ => ?_
      exact C56.ite_checked (fun _ => (C56.LDLW_checked hm _ _).bind fun _ _ => C56.iterator_checked ..)
        fun _ => C56.iterator_checked ..
    · have hrl : right ≤ xs.length := by
        unfold DLW.rightOf at hright
        split at hright
        · injection hright with hright
          omega
        · obtain ⟨m, _, hright⟩ := bind_eq_ok.mp hright
          split at hright
          · obtain ⟨_, _, hright⟩ := bind_eq_ok.mp hright
            exact (C56.iterator_ok hright).2.2
          · exact (C56.iterator_ok hright).2.2
      obtain ⟨o1, o2⟩ := hr.data locator right hv hpos hright
      obtain ⟨ws, hw⟩ := C56.sub_ok (xs := xs) (l := nr + locator - 1) (r := right) o1 hrl
      rw [show left = nr + locator - 1 by omega, hw, ok_bind, C56.size_nat hb]
      refine (C56_energy_data_partial ws (C56.Moderate.sub hm hw) locator (o2 ws hw)).1.bind fun _ _ =>
        EndsChecked.bind ?_ fun _ _ => .ok _
      unfold DLW.multOf
      refine (C56.tyr_checked ht _).bind fun m hmu => C56.ite_checked (fun hm100 => ?_) fun _ => .ok _
      refine (C56.iterator_checked xs _).bind fun mleft hml => ?_
      have hml := C56.iterator_ok hml
      obtain ⟨q1, q2⟩ := hr.multiplicity m locator hmu hm100 hv
      obtain ⟨us, hu⟩ := C56.sub_ok (xs := xs) (l := nr + m - 101) (r := nr + locator - 1) (by omega) (by omega)
      rw [show mleft = nr + m - 101 by omega, hu, ok_bind]
      exact (C56.tabulated (q2 us hu)).bind fun _ _ => .ok _
  · rw [if_pos (by omega)]
    exact .ok _

/-- The parts of a block with locators: from a locator to the next one, or to the end of the block. -/
def Located (xs : Words) (iter n : Nat) (P : Nat → Words → Prop) : Prop :=
  ∀ i locator right ws, i < n → LocBlock.LLOCof xs n true (i + 1) = .ok locator →
    ((i + 1 = n ∧ right = xs.length) ∨ ∃ next, LocBlock.LLOCof xs n true (i + 2) = .ok next ∧ right = iter + next - 1) →
    sub xs (iter + locator - 1) right = .ok ws → P locator ws

/-- DLWH, DLWP and DNED blocks are read or refused. -/
theorem C56_DLWH_partial (xs : Words) (hm : Moderate xs) (iter nr : Nat) (tyrh : Option TYR)
    (ht : ∀ t, tyrh = some t → ∃ ys ntr, TYR.ofRange ys ntr = .ok t ∧ nr ≤ ntr) (ho : LocatorsInOrder xs nr true)
    (h : Located xs iter nr fun locator ws => 1 ≤ locator → DataReady locator ws) :
    EndsChecked (DLWH.ofRange xs iter tyrh nr) := by
  unfold DLWH.ofRange
  refine (C56.LocBlock_checked hm ho fun i l right ws hi hl hr hw => ?_).bind fun _ _ =>
    EndsChecked.bind ?_ fun _ _ => .ok _
  · cases l with
    | zero => exact .ok _
    | succ l => exact (C56_energy_data_partial ws (C56.Moderate.sub hm hw) _ (h i _ right ws hi hl hr hw (by omega))).2
  · unfold DLWH.generateFrames
    cases tyrh with
    | none => exact .ok _
    | some t =>
      obtain ⟨ys, ntr, h1, h2⟩ := ht t rfl
      have := (C56.tyr_lengths h1).2.1
      simp only
      rw [if_pos (by omega)]
      exact .ok _

/-- SIGD, SIGH and SIGP blocks whose locators are in order and lead to words that are natural numbers are read or
refused; those of SIGH and SIGP lead to two words at least. -/
theorem C56_tables_partial (xs : Words) (h : NonNegative xs) (iter n : Nat) (ho : LocatorsInOrder xs n true) :
    EndsChecked (SIGD.ofRange xs iter n) ∧
    (Located xs iter n (fun _ ws => 2 ≤ ws.length) →
      EndsChecked (SIGH.ofRange xs iter n) ∧ EndsChecked (SIGP.ofRange xs iter n)) := by
  have hm := C56.NonNegative.moderate h
  have tab : ∀ ws, NonNegative ws → 2 ≤ ws.length → EndsChecked (TabMult.ofRange ws) := by
    intro ws hw hl
    refine (C56_tabulated_partial ws).2.2 hl (C56.NonNegative.counted ⟨?_, fun x hx => hw.words x (List.mem_of_mem_drop hx)⟩)
    have := hw.length
    simp only [List.length_drop]
    omega
  refine ⟨C56.LocBlock_checked hm ho fun _ _ _ ws _ _ _ hw => C56.ntable (C56.NonNegative.sub h hw), fun h2 => ⟨?_, ?_⟩⟩
  · exact C56.LocBlock_checked hm ho fun i l right ws hi hl hr hw => tab ws (C56.NonNegative.sub h hw) (h2 i l right ws hi hl hr hw)
  · refine C56.LocBlock_checked hm ho fun i l right ws hi hl hr hw => ?_
    have hn := C56.NonNegative.sub h hw
    have hl := h2 i l right ws hi hl hr hw
    unfold SIGP.gen
    rw [C56.deref_ok (by omega), ok_bind]
    obtain ⟨v, v1, v2⟩ := hn.words ws[0] (List.getElem_mem _)
    rw [C56.int_of v1 (by omega) (by omega), ok_bind]
    refine C56.ite_checked (fun _ => EndsChecked.bind ?_ fun _ _ => .ok _) fun _ => (tab ws hn hl).bind fun _ _ => .ok _
    unfold PhotonXS.ofRange PhotonXS.numberValues
    refine EndsChecked.bind ((C56.XSS_checked ws 3).bind fun x hx => ?_) fun _ _ =>
      (EndsChecked.guard _).bind fun _ _ => .ok _
    obtain ⟨n, n1, n2⟩ := hn.words x (C56.XSS_mem hx).2.2
    obtain ⟨j, j1, j2, j3⟩ := C56.trunc_of_round n1
    have := j3 (by omega)
    rw [j1]
    unfold toSize
    simp only
    rw [if_pos (by omega)]
    exact .ok _

/-! ## What happens otherwise -/

/-- The full statement for the data of a reaction. -/
def C56ReactionStatement : Prop := ∀ (locator : Nat) (xs : Words), EndsChecked (EnergyData.read locator xs)

/-- A law that leads to itself as the next law. -/
def cyclic : Words := [Dbl.ofNat 1, Dbl.ofNat 3, Dbl.ofNat 8, Dbl.ofNat 0, Dbl.ofNat 1, Dbl.ofNat 1, Dbl.ofNat 1,
  Dbl.ofNat 5, Dbl.ofNat 6]

/-- Without the hypotheses: data of law 1 whose number of values wraps around the size check, data of law 61 with a
locator that leads outside, an incomplete header, a header with a locator before the data, a law number that is no
`short`, a law that leads to itself as the next law, and locators of a DLW block in reverse order are undefined. -/
theorem C56_laws_false : ¬ C56ReactionStatement ∧
    EquiBinData.ofRange [Dbl.ofNat 0, Dbl.ofNat 2, Dbl.ofNat 1, Dbl.ofNat 2, Dbl.ofNat 2147483647] = .error .ub ∧
    EnergyAngle.ofRange (Dbl.ofNat 1) 1 [Dbl.ofNat 2, Dbl.ofNat 1, Dbl.ofNat 1, Dbl.ofNat 1, Dbl.ofNat 1, Dbl.ofNat 9] =
      .error .ub ∧
    EnergyData.read 1 [Dbl.ofNat 0, Dbl.ofNat 3] = .error .ub ∧
    EnergyData.read 12 [Dbl.ofNat 0, Dbl.ofNat 3, Dbl.ofNat 10, Dbl.ofNat 0, Dbl.ofNat 1, Dbl.ofNat 1, Dbl.ofNat 1,
      Dbl.ofNat 5, Dbl.ofNat 6] = .error .ub ∧
    EnergyData.read 1 [Dbl.ofNat 0, Dbl.ofNat 40000] = .error .ub ∧
    EnergyData.read 1 [] = .error .ub ∧
    MultiData.ofRange 1 cyclic = .error .ub ∧
    DLW.ofRange [Dbl.ofNat 3, Dbl.ofNat 1, Dbl.ofNat 0, Dbl.ofNat 0, Dbl.ofNat 0, Dbl.ofNat 0] 2
      ⟨[Dbl.ofNat 1, Dbl.ofNat 1], 2, [.laboratory, .laboratory], [1, 1]⟩ 2 = .error .ub := by
  have h : EnergyData.read 1 [] = .error .ub := by decide +kernel
  exact ⟨fun h' => (h' 1 []).not_ub.1 h, by decide +kernel, by decide +kernel, by decide +kernel, by decide +kernel,
    by decide +kernel, h, by decide +kernel, by decide +kernel⟩

/-! ## The hypotheses can be met -/

theorem C56.nonNegative_of {xs : Words} (h : decide (xs.length < 1073741824) = true)
    (hw : xs.all (fun x => x.round?.any fun i => decide (0 ≤ i ∧ i < 1073741824)) = true) : NonNegative xs := by
  refine ⟨of_decide_eq_true h, fun x hx => ?_⟩
  have := List.all_eq_true.mp hw x hx
  obtain ⟨i, h1, h2⟩ := (Option.any_eq_true _ _).mp this
  have := of_decide_eq_true h2
  exact ⟨i.toNat, by rw [h1]; congr 1; omega, by omega⟩

/-- Data of law 9 that end too early: refused. -/
def shortLaw : Words := [Dbl.ofNat 0, Dbl.ofNat 9, Dbl.ofNat 10, Dbl.ofNat 0, Dbl.ofNat 2, Dbl.ofNat 1, Dbl.ofNat 20,
  Dbl.ofNat 1, Dbl.ofNat 1, Dbl.ofNat 0, Dbl.ofNat 3, Dbl.ofNat 1, Dbl.ofNat 2]

theorem C56.simple {law : Int} (h : law ≠ 1) (h' : law ≠ 61) (h'' : law ≠ 67) (idat : Nat) {ws : Words}
    (hn : NonNegative ws) : LawReady law idat ws :=
  ⟨fun _ _ => hn, fun e => absurd e h, fun e => (e.elim h' h'').elim⟩

theorem shortLaw_ready : DataReady 1 shortLaw := by
  refine .inl ⟨by decide +kernel, ⟨9, 10, 0, 2, by decide +kernel, by decide, by decide +kernel, by decide +kernel,
    by decide +kernel, by decide, by decide, by decide, by decide, fun ws hw => ?_⟩⟩
  refine C56.simple (by decide) (by decide) (by decide) _ (C56.NonNegative.sub (xs := shortLaw) ?_ hw)
  exact C56.nonNegative_of (by decide +kernel) (by decide +kernel)

example : EnergyData.read 1 shortLaw = .error .thrown ∧ EndsChecked (EnergyData.read 1 shortLaw) :=
  ⟨by decide +kernel, (C56_energy_data_partial _ (C56.moderate_of (by decide +kernel) (by decide +kernel)) 1
    shortLaw_ready).1⟩

/-- Two laws, the second of which has no second parameter: refused. -/
def twoLaws : Words := [Dbl.ofNat 10, Dbl.ofNat 3, Dbl.ofNat 8, Dbl.ofNat 0, Dbl.ofNat 1, Dbl.ofNat 20, Dbl.ofNat 1,
  Dbl.ofNat 5, Dbl.ofNat 6, Dbl.ofNat 0, Dbl.ofNat 3, Dbl.ofNat 17, Dbl.ofNat 0, Dbl.ofNat 1, Dbl.ofNat 20, Dbl.ofNat 1,
  Dbl.ofNat 5]

theorem twoLaws_ready : LawsReady twoLaws 1 1 := by
  have hn : NonNegative twoLaws := C56.nonNegative_of (by decide +kernel) (by decide +kernel)
  refine .next (next := 10) (by decide) (by decide +kernel) (by decide) ?_ (.last (by decide) (by decide +kernel) ?_)
  · exact ⟨3, 8, 0, 1, by decide +kernel, by decide, by decide +kernel, by decide +kernel, by decide +kernel, by decide,
      by decide, by decide, by decide, fun ws hw =>
      ⟨C56.simple (by decide) (by decide) (by decide) _ (C56.NonNegative.sub hn hw), fun h => absurd h (by decide)⟩⟩
  · exact ⟨3, 17, 0, 1, by decide +kernel, by decide, by decide +kernel, by decide +kernel, by decide +kernel, by decide,
      by decide, by decide, by decide, fun ws hw =>
      ⟨C56.simple (by decide) (by decide) (by decide) _ (C56.NonNegative.sub hn hw), fun h => absurd h (by decide)⟩⟩

example : MultiData.ofRange 1 twoLaws = .error .thrown ∧ EndsChecked (MultiData.ofRange 1 twoLaws) :=
  ⟨by decide +kernel, C56_several_laws_partial _ (C56.moderate_of (by decide +kernel) (by decide +kernel)) 1
    twoLaws_ready⟩

/-- A DLW block with one reaction whose data end too early. -/
def shortDLW : Words := Dbl.ofNat 1 :: shortLaw
/-- Its TYR block. -/
def oneTYR : TYR := ⟨[Dbl.ofNat 1], 1, [.laboratory], [1]⟩

example : DLW.ofRange shortDLW 1 oneTYR 1 = .error .thrown ∧ EndsChecked (DLW.ofRange shortDLW 1 oneTYR 1) := by
  refine ⟨by decide +kernel, C56_DLW_partial shortDLW (C56.moderate_of (by decide +kernel) (by decide +kernel)) 1 1
    (by decide) [Dbl.ofNat 1] 1 oneTYR (by decide +kernel) (by decide) fun i hi => ?_⟩
  obtain rfl : i = 0 := by omega
  have e : DLW.LDLWof shortDLW 1 1 = .ok 1 := by decide +kernel
  have r : DLW.rightOf shortDLW 1 oneTYR 1 = .ok 14 := by decide +kernel
  have m : oneTYR.multiplicity 1 = .ok 1 := by decide +kernel
  refine ⟨fun v hv => ?_, fun locator right hl _ hr => ?_, fun k locator hk h100 _ => ?_⟩
  · have := Except.ok.inj (e.symm.trans hv)
    omega
  · obtain rfl : locator = 1 := by
      have := Except.ok.inj (e.symm.trans hl)
      omega
    obtain rfl := Except.ok.inj (r.symm.trans hr)
    refine ⟨by decide, fun ws hw => ?_⟩
    have e : sub shortDLW 1 14 = .ok shortLaw := by decide +kernel
    obtain rfl := Except.ok.inj (e.symm.trans hw)
    exact shortLaw_ready
  · have := Except.ok.inj (m.symm.trans hk)
    omega

/-- The block of a secondary particle with these data. -/
example : EndsChecked (DLWH.ofRange shortDLW 1 none 1) := by
  refine C56_DLWH_partial shortDLW (C56.moderate_of (by decide +kernel) (by decide +kernel)) 1 1 none
    (fun _ h => nomatch h) (fun i a b hi ha _ => ?_) fun i locator right ws hi hl hr hw _ => ?_
  · obtain rfl : i = 0 := by omega
    have e0 : LocBlock.LLOCof shortDLW 1 true 0 = .error .range := by decide +kernel
    rw [e0] at ha
    cases ha
  · obtain rfl : i = 0 := by omega
    have e1 : LocBlock.LLOCof shortDLW 1 true 1 = .ok 1 := by decide +kernel
    obtain rfl := Except.ok.inj (e1.symm.trans hl)
    obtain rfl : right = 14 := hr.elim (·.2) fun ⟨next, h, _⟩ => by
      have e2 : LocBlock.LLOCof shortDLW 1 true 2 = .error .range := by decide +kernel
      rw [e2] at h
      cases h
    have e : sub shortDLW 1 14 = .ok shortLaw := by decide +kernel
    obtain rfl := Except.ok.inj (e.symm.trans hw)
    exact shortLaw_ready

/-- Data of law 61 with one incident energy and one outgoing energy, whose cosines begin at -1 and are cut off. -/
def cosines61 : Words := [Dbl.ofNat 0, Dbl.ofNat 1, Dbl.ofNat 20, Dbl.ofNat 5, Dbl.ofNat 2, Dbl.ofNat 1, Dbl.ofNat 3,
  Dbl.ofNat 1, Dbl.ofNat 1, Dbl.ofNat 11, Dbl.ofNat 2, Dbl.ofNat 2, Dbl.ofInt (-1), Dbl.ofNat 1, Dbl.ofNat 1]

theorem cosines61_ready : Counted cosines61 ∧
    AtLocators cosines61 1 (fun locator ws => CountKnown ws ∧ CosinesInside locator ws) := by
  have hm : Moderate cosines61 := C56.moderate_of (by decide +kernel) (by decide +kernel)
  have e1 : Base.IXSS cosines61 1 = .ok 0 := by decide +kernel
  have e2 : Base.IXSS cosines61 2 = .ok 1 := by decide +kernel
  have e4 : Base.IXSS cosines61 4 = .ok 5 := by decide +kernel
  have part : sub cosines61 4 15 = .ok (cosines61.drop 4) := by decide +kernel
  have p2 : Base.IXSS (cosines61.drop 4) 2 = .ok 1 := by decide +kernel
  have p6 : Base.IXSS (cosines61.drop 4) 6 = .ok 11 := by decide +kernel
  refine ⟨⟨hm, fun v h => ?_, fun nr h v h' => ?_⟩, fun nr ne j locator right ws h1 h2 h3 h4 h5 hr hw => ?_⟩
  · have := Except.ok.inj (e1.symm.trans h)
    omega
  · obtain rfl : nr = 0 := by
      have := Except.ok.inj (e1.symm.trans h)
      omega
    have := Except.ok.inj (e2.symm.trans h')
    omega
  · obtain rfl : nr = 0 := by
      have := Except.ok.inj (e1.symm.trans h1)
      omega
    obtain rfl : ne = 1 := by
      have := Except.ok.inj (e2.symm.trans h2)
      omega
    obtain rfl : j = 1 := by omega
    obtain rfl : locator = 5 := (Except.ok.inj (e4.symm.trans h5)).symm
    obtain rfl : right = 15 := hr.elim id fun ⟨k, _, h, h', _⟩ => by omega
    obtain rfl := Except.ok.inj (part.symm.trans hw)
    refine ⟨fun v h => ?_, fun ne h => ?_⟩
    · have := Except.ok.inj (p2.symm.trans h)
      omega
    · obtain rfl : ne = 1 := by
        have := Except.ok.inj (p2.symm.trans h)
        omega
      refine ⟨by decide, fun i a i1 i2 ha => ?_⟩
      obtain rfl : i = 1 := by omega
      obtain rfl : a = 11 := (Except.ok.inj (p6.symm.trans ha)).symm
      exact ⟨by decide, by decide, fun h => absurd h (by decide)⟩

example : Law61.ofRange 1 cosines61 = .error .thrown ∧ EndsChecked (Law61.ofRange 1 cosines61) ∧
    EndsChecked (Law67.ofRange 1 cosines61) :=
  ⟨by decide +kernel, (C56_cosines_partial _ cosines61_ready.1 1 (by decide) (by decide)).2 cosines61_ready.2,
    (C56_cosines_partial _ cosines61_ready.1 1 (by decide) (by decide)).1 fun a b c d e f g h i j k l m =>
      (cosines61_ready.2 a b c d e f g h i j k l m).1⟩

/-- Data of law 1 that end too early. -/
def shortBins : Words := [Dbl.ofNat 0, Dbl.ofNat 2, Dbl.ofNat 1, Dbl.ofNat 20, Dbl.ofNat 3, Dbl.ofNat 0, Dbl.ofNat 1]

example : EquiBinData.ofRange shortBins = .error .thrown ∧ EndsChecked (EquiBinData.ofRange shortBins) := by
  refine ⟨by decide +kernel, (C56_laws_partial _ (C56.nonNegative_of (by decide +kernel) (by decide +kernel))).2.2
    fun nr ne net h1 h2 h3 => ?_⟩
  have e1 : Base.IXSS shortBins 1 = .ok 0 := by decide +kernel
  have e2 : Base.IXSS shortBins 2 = .ok 2 := by decide +kernel
  have e5 : Base.IXSS shortBins 5 = .ok 3 := by decide +kernel
  obtain rfl : nr = 0 := by
    have := Except.ok.inj (e1.symm.trans h1)
    omega
  obtain rfl : ne = 2 := by
    have := Except.ok.inj (e2.symm.trans h2)
    omega
  have := Except.ok.inj (e5.symm.trans h3)
  omega

/-- A production cross section whose locator is followed by too few words. -/
def shortSigp : Words := [Dbl.ofNat 1, Dbl.ofNat 13, Dbl.ofNat 1, Dbl.ofNat 2, Dbl.ofNat 1]

example : SIGP.ofRange shortSigp 1 1 = .error .thrown ∧ EndsChecked (SIGP.ofRange shortSigp 1 1) := by
  have e0 : LocBlock.LLOCof shortSigp 1 true 0 = .error .range := by decide +kernel
  have e1 : LocBlock.LLOCof shortSigp 1 true 1 = .ok 1 := by decide +kernel
  have e2 : LocBlock.LLOCof shortSigp 1 true 2 = .error .range := by decide +kernel
  refine ⟨by decide +kernel, ((C56_tables_partial _ (C56.nonNegative_of (by decide +kernel) (by decide +kernel)) 1 1
    fun i a b hi ha _ => ?_).2 fun i locator right ws hi hl hr hw => ?_).2⟩
  · obtain rfl : i = 0 := by omega
    rw [e0] at ha
    cases ha
  · obtain rfl : i = 0 := by omega
    obtain rfl := Except.ok.inj (e1.symm.trans hl)
    obtain rfl : right = 5 := hr.elim (·.2) fun ⟨next, h, _⟩ => by
      rw [e2] at h
      cases h
    have := (C56.sub_mem hw).1
    omega

end ACE.Props

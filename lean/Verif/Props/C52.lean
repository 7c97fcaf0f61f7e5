import Verif.Props.C48
import Verif.Props.C11
import Verif.Props.C16

/-!
# C52: where each element is read from

For every range of words that a reading constructor accepts (also one that was not written by ACEtk: elements
may share a locator, and there may be unused words between them) element `k` is made from the words from its
own locator up to the next locator behind it, or up to the end of the range.
-/

namespace ACE.Props
open ACE

/-- The words `[a, e)`, zero based. -/
def between (xs : Words) (a e : Nat) : Words := (xs.drop a).take (e - a)

/-- The (zero based) end of element `k` of `n` whose one based starts are `s`, in `len` words: the first
start behind it that is greater than its own, or the end of the words. -/
inductive NextStart (s : Nat → Nat) (k n len : Nat) : Nat → Prop where
  | next (j : Nat) (h1 : k < j) (h2 : j ≤ n) (h3 : s k < s j) (h4 : ∀ i, k < i → i < j → s i ≤ s k) :
      NextStart s k n len (s j - 1)
  | last (h : ∀ i, k < i → i ≤ n → s i ≤ s k) : NextStart s k n len len

/-- The same when only the start of the next element is looked at. -/
def FollowingStart (s : Nat → Nat) (k n len e : Nat) : Prop := if k = n then e = len else e = s (k + 1) - 1

namespace C52
open C48

/-- The loop over the following locators. -/
theorem findNext_spec (rel : Nat → Res Int) (s : Nat → Nat) (v : Nat) :
    ∀ (m a : Nat) (r : Option Int), (∀ i, a ≤ i → i < a + m → rel i = .ok (s i : Int)) →
      Dist.findNext rel (v : Int) (List.range' a m) = .ok r →
      (r = none ∧ ∀ i, a ≤ i → i < a + m → s i ≤ v) ∨
        ∃ j, r = some (s j : Int) ∧ a ≤ j ∧ j < a + m ∧ v < s j ∧ ∀ i, a ≤ i → i < j → s i ≤ v
  | 0, a, r, _, h => by
      simp only [List.range'_zero, Dist.findNext] at h
      injection h with h
      exact .inl ⟨h.symm, fun i h1 h2 => absurd h2 (by omega)⟩
  | m + 1, a, r, hs, h => by
      rw [List.range'_succ, Dist.findNext, hs a (by omega) (by omega)] at h
      simp only [ok_bind] at h
      split at h
      · next hc =>
        injection h with h
        exact .inr ⟨a, h.symm, by omega, by omega, by omega, fun i h1 h2 => absurd h2 (by omega)⟩
      · next hc =>
        rcases findNext_spec rel s v m (a + 1) r (fun i h1 h2 => hs i (by omega) (by omega)) h with
          ⟨h1, h2⟩ | ⟨j, h1, h2, h3, h4, h5⟩
        · refine .inl ⟨h1, fun i hi1 hi2 => ?_⟩
          by_cases e : i = a
          · subst e; omega
          · exact h2 i (by omega) (by omega)
        · refine .inr ⟨j, h1, by omega, by omega, h4, fun i hi1 hi2 => ?_⟩
          by_cases e : i = a
          · subst e; omega
          · exact h5 i (by omega) hi2

theorem sizeOfInt_nat {v : Int} {len : Nat} (hlen : FitsN len) (h0 : -9000000000000000000 ≤ v)
    (h1 : v ≤ 9000000000000000000) (h : sizeOfInt v ≤ len + 1) : v = (sizeOfInt v : Int) := by
  unfold sizeOfInt at h ⊢
  unfold FitsN at hlen
  omega

theorem wrap32_bounds (i : Int) : -2147483648 ≤ wrap32 i ∧ wrap32 i ≤ 2147483647 := by
  unfold wrap32; split <;> omega

theorem wrap32_back {i : Int} {n : Nat} (h1 : Fits i) (h2 : FitsN n) (m : Nat) (hm : FitsN (n + m))
    (h : wrap32 (i - m + 1) = (n + 1 : Nat)) : i = m + n := by
  unfold wrap32 at h
  unfold Fits at h1
  unfold FitsN at h2 hm
  split at h <;> omega

theorem toInt32_fits {o : Option Int} {v : Int} (h : toInt32 o = .ok v) : Fits v := by
  unfold toInt32 at h
  split at h
  · split at h
    · next hc => injection h with h; subst h; exact hc
    · cases h
  · cases h

theorem IXSS_fits {xs : Words} {i : Nat} {v : Int} (h : Base.IXSS xs i = .ok v) : Fits v := by
  unfold Base.IXSS at h
  obtain ⟨x, _, h⟩ := bind_eq_ok.mp h
  exact toInt32_fits h

theorem LOCC_fits {values : ColumnData} {k : Nat} {v : Int} (h : Dist.LOCC values k = .ok v) : Fits v := by
  unfold Dist.LOCC at h
  obtain ⟨x, _, h⟩ := bind_eq_ok.mp h
  unfold toInt32 at h
  split at h
  · split at h
    · next hc => injection h with h; subst h; exact hc
    · cases h
  · cases h

/-- The value a start has as a number. -/
def startOf' (rel : Nat → Res Int) (k : Nat) : Nat :=
  match rel k with
  | .ok v => v.toNat
  | .error _ => 0

/-- The elements made by the loop over the distributions. -/
theorem generateBlock_spec {D : Type} (gen : Dbl → Nat → Words → Res D) (rel : Nat → Res Int) (xs : Words)
    (values : ColumnData) (n : Nat) (ds : List D) (hx : FitsN xs.length)
    (hrel : ∀ k v, rel k = .ok v → -9000000000000000000 ≤ v ∧ v ≤ 18446744073709551615)
    (hrel2 : ∀ k v, rel k = .ok v → 9000000000000000000 < v → sizeOfInt v = v.toNat)
    (h : (List.range n).mapM (Dist.generateBlock gen rel xs values n) = .ok ds) :
    ∃ s : Nat → Nat, ∀ k, 1 ≤ k → k ≤ n → ∃ (energy : Dbl) (locc : Int) (x : D) (e : Nat),
      Dist.value values 1 k = .ok energy ∧ Dist.LOCC values k = .ok locc ∧ rel k = .ok (s k : Int) ∧ 1 ≤ s k ∧
        NextStart s k n xs.length e ∧ s k - 1 ≤ e ∧ e ≤ xs.length ∧ ds[k - 1]? = some x ∧
          gen energy (sizeOfInt locc) (between xs (s k - 1) e) = .ok x := by
  refine ⟨startOf' rel, ?_⟩
  have each : ∀ k, 1 ≤ k → k ≤ n → ∃ x, ds[k - 1]? = some x ∧
      Dist.generateBlock gen rel xs values n (k - 1) = .ok x := by
    intro k h1 h2
    exact mapM_get _ _ _ h (k - 1) (k - 1) (List.getElem?_range (by omega))
  have starts : ∀ k, 1 ≤ k → k ≤ n → rel k = .ok (startOf' rel k : Int) ∧ 1 ≤ startOf' rel k ∧
      sizeOfInt (startOf' rel k : Int) = startOf' rel k := by
    intro k h1 h2
    obtain ⟨x, -, hx'⟩ := each k h1 h2
    unfold Dist.generateBlock at hx'
    simp only [show k - 1 + 1 = k by omega] at hx'
    obtain ⟨v, hv, hx'⟩ := bind_eq_ok.mp hx'
    obtain ⟨l, hl, hx'⟩ := bind_eq_ok.mp hx'
    obtain ⟨r, hr, hx'⟩ := bind_eq_ok.mp hx'
    obtain ⟨left, hleft, hx'⟩ := bind_eq_ok.mp hx'
    obtain ⟨i1, i2, i3⟩ := iterator_in hleft
    obtain ⟨b1, b2⟩ := hrel k r hr
    have e : r = (sizeOfInt r : Int) := by
      by_cases hb : r ≤ 9000000000000000000
      · exact sizeOfInt_nat hx b1 hb i2
      · have := hrel2 k r hr (by omega)
        rw [this]; omega
    have es : startOf' rel k = sizeOfInt r := by
      simp only [startOf', hr]
      omega
    rw [es, ← e]
    exact ⟨hr, i1, rfl⟩
  intro k h1 h2
  obtain ⟨x, hx1, hx2⟩ := each k h1 h2
  unfold Dist.generateBlock at hx2
  simp only [show k - 1 + 1 = k by omega] at hx2
  obtain ⟨v, hv, hx2⟩ := bind_eq_ok.mp hx2
  obtain ⟨l, hl, hx2⟩ := bind_eq_ok.mp hx2
  obtain ⟨r, hr, hx2⟩ := bind_eq_ok.mp hx2
  obtain ⟨left, hleft, hx2⟩ := bind_eq_ok.mp hx2
  obtain ⟨o, ho, hx2⟩ := bind_eq_ok.mp hx2
  obtain ⟨s1, s2, s3⟩ := starts k h1 h2
  rw [s1] at hr
  injection hr with hr
  subst hr
  rw [s3] at hleft
  obtain ⟨i1, i2, rfl⟩ := iterator_in hleft
  have hf := findNext_spec rel (startOf' rel) (startOf' rel k) (n - k) (k + 1) o
    (fun i a b => (starts i (by omega) (by omega)).1) ho
  rcases hf with ⟨rfl, hf⟩ | ⟨j, rfl, j1, j2, j3, j4⟩
  · simp only [pure_eq_ok, ok_bind] at hx2
    obtain ⟨w, hw, hx2⟩ := bind_eq_ok.mp hx2
    obtain ⟨w1, w2, w3, -⟩ := sub_in hw
    subst w3
    exact ⟨v, l, x, _, hv, hl, s1, s2, .last fun i a b => hf i (by omega) (by omega), w1, w2, hx1, hx2⟩
  · simp only at hx2
    obtain ⟨right, hright, hx2⟩ := bind_eq_ok.mp hx2
    obtain ⟨w, hw, hx2⟩ := bind_eq_ok.mp hx2
    rw [(starts j (by omega) (by omega)).2.2] at hright
    obtain ⟨-, -, rfl⟩ := iterator_in hright
    obtain ⟨w1, w2, w3, -⟩ := sub_in hw
    subst w3
    exact ⟨v, l, x, _, hv, hl, s1, s2,
      .next j (by omega) (by omega) j3 fun i a b => j4 i (by omega) b, w1, w2, hx1, hx2⟩

end C52

/-- Distributions by incident energy (laws 4, 44, 61, 67, whatever reads one distribution): distribution `k`
is read from the words between its locator and the next one, with its energy and its locator. -/
theorem C52_by_energy {D : Type} (gen : Dbl → Nat → Words → Res D) (locb : Nat) (xs : Words)
    (d : DistData D) (h : DistData.ofRange gen locb xs = .ok d) (hx : FitsN (xs.length + locb + 1)) :
    ∃ (n : Nat) (s : Nat → Nat), d.NE = .ok n ∧ ∀ k, 1 ≤ k → k ≤ n → ∃ (energy : Dbl) (x : D) (e : Nat),
      d.incidentEnergy k = .ok energy ∧ d.relativeDistributionLocator k = .ok (s k) ∧
        d.LOCC k = .ok ((locb + (s k - 1) : Nat) : Int) ∧ 1 ≤ s k ∧ NextStart s k n xs.length e ∧
          s k - 1 ≤ e ∧ e ≤ xs.length ∧ d.distribution k = .ok x ∧
            gen energy (locb + (s k - 1)) (between xs (s k - 1) e) = .ok x := by
  unfold DistData.ofRange at h
  obtain ⟨_, _, h⟩ := bind_eq_ok.mp h
  obtain ⟨_, _, h⟩ := bind_eq_ok.mp h
  obtain ⟨_, _, h⟩ := bind_eq_ok.mp h
  obtain ⟨_, _, h⟩ := bind_eq_ok.mp h
  obtain ⟨_, _, h⟩ := bind_eq_ok.mp h
  unfold DistData.generateBlocks at h
  obtain ⟨i, hi, h⟩ := bind_eq_ok.mp h
  obtain ⟨j, hj, h⟩ := bind_eq_ok.mp h
  obtain ⟨data, hdata, h⟩ := bind_eq_ok.mp h
  obtain ⟨fin, hfin, h⟩ := bind_eq_ok.mp h
  obtain ⟨v, hv, h⟩ := bind_eq_ok.mp h
  obtain ⟨a, ha, h⟩ := bind_eq_ok.mp h
  obtain ⟨w, hw, h⟩ := bind_eq_ok.mp h
  obtain ⟨b, hb, h⟩ := bind_eq_ok.mp h
  obtain ⟨n, hn, h⟩ := bind_eq_ok.mp h
  obtain ⟨ds, hds, h⟩ := bind_eq_ok.mp h
  injection h with h; subst h
  have wr : ∀ k v, Dist.relInt b locb k = .ok v → -2147483648 ≤ v ∧ v ≤ 2147483647 := by
    intro k v hv
    unfold Dist.relInt at hv
    obtain ⟨l, _, hv⟩ := bind_eq_ok.mp hv
    injection hv with hv; subst hv
    exact C52.wrap32_bounds _
  obtain ⟨s, hs⟩ := C52.generateBlock_spec gen (Dist.relInt b locb) xs b n ds (by unfold FitsN at *; omega)
    (fun k v hv => by have := wr k v hv; omega) (fun k v hv hb => by have := wr k v hv; omega) hds
  refine ⟨n, s, hn, ?_⟩
  intro k h1 h2
  obtain ⟨energy, locc, x, e, e1, e2, e3, e4, e5, e6, e7, e8, e9⟩ := hs k h1 h2
  have e2' := e2
  have e3' := e3
  unfold Dist.relInt at e3'
  rw [e2, ok_bind, pure_eq_ok] at e3'
  injection e3' with e3'
  have hl := C52.wrap32_back (i := locc) (n := s k - 1) (m := locb) (C52.LOCC_fits e2)
    (by unfold FitsN at *; omega) (by unfold FitsN at *; omega) (by rw [e3']; congr 1; omega)
  have hl' : locc = ((locb + (s k - 1) : Nat) : Int) := by rw [hl]; omega
  subst hl'
  rw [sizeOfInt_natCast (by unfold FitsN at *; omega)] at e9
  refine ⟨energy, x, e, e1, ?_, e2, e4, e5, e6, e7, ?_, e9⟩
  · unfold DistData.relativeDistributionLocator
    simp only [e3, ok_bind, pure_eq_ok]
    rw [sizeOfInt_natCast (by unfold FitsN at *; omega)]
  · unfold DistData.distribution Dist.verifyValueIndex
    simp only [hn, ok_bind]
    rw [if_neg (by omega), ok_bind, e8]
    rfl

/-- The outgoing energy distributions by cosine of law 67. -/
theorem C52_angle_energy (incident : Dbl) (locb : Nat) (xs : Words) (d : AngleEnergy)
    (h : AngleEnergy.ofRange incident locb xs = .ok d) (hx : FitsN (xs.length + locb + 1)) :
    ∃ (n : Nat) (s : Nat → Nat), d.N = .ok n ∧ ∀ k, 1 ≤ k → k ≤ n → ∃ (cosine : Dbl) (x : TabDist) (e : Nat),
      d.value 1 k = .ok cosine ∧ d.relativeDistributionLocator k = .ok (s k) ∧
        d.LOCC k = .ok ((locb + (s k - 1) : Nat) : Int) ∧ 1 ≤ s k ∧ NextStart s k n xs.length e ∧
          s k - 1 ≤ e ∧ e ≤ xs.length ∧ d.distribution k = .ok x ∧
            TabDist.ofRange cosine (between xs (s k - 1) e) = .ok x := by
  unfold AngleEnergy.ofRange at h
  obtain ⟨_, _, h⟩ := bind_eq_ok.mp h
  unfold AngleEnergy.generateBlocks at h
  obtain ⟨j, hj, h⟩ := bind_eq_ok.mp h
  obtain ⟨data, hdata, h⟩ := bind_eq_ok.mp h
  obtain ⟨fin, hfin, h⟩ := bind_eq_ok.mp h
  obtain ⟨w, hw, h⟩ := bind_eq_ok.mp h
  obtain ⟨b, hb, h⟩ := bind_eq_ok.mp h
  obtain ⟨n, hn, h⟩ := bind_eq_ok.mp h
  obtain ⟨ds, hds, h⟩ := bind_eq_ok.mp h
  injection h with h; subst h
  have wr : ∀ k v, (do return ((← Dist.relSize b locb k : Nat) : Int) : Res Int) = .ok v →
      0 ≤ v ∧ v ≤ 18446744073709551615 := by
    intro k v hv
    obtain ⟨r, hr, hv⟩ := bind_eq_ok.mp hv
    injection hv with hv; subst hv
    unfold Dist.relSize at hr
    obtain ⟨l, _, hr⟩ := bind_eq_ok.mp hr
    injection hr with hr; subst hr
    unfold sizeOfInt
    omega
  obtain ⟨s, hs⟩ := C52.generateBlock_spec Law4.gen _ xs b n ds (by unfold FitsN at *; omega)
    (fun k v hv => by have := wr k v hv; omega) (fun k v hv hb => by
      have := wr k v hv
      unfold sizeOfInt
      omega) hds
  refine ⟨n, s, hn, ?_⟩
  intro k h1 h2
  obtain ⟨energy, locc, x, e, e1, e2, e3, e4, e5, e6, e7, e8, e9⟩ := hs k h1 h2
  obtain ⟨r, hr, e3⟩ := bind_eq_ok.mp e3
  injection e3 with e3
  obtain rfl : r = s k := by exact_mod_cast e3
  have hr' := hr
  unfold Dist.relSize at hr'
  rw [e2, ok_bind, pure_eq_ok] at hr'
  injection hr' with hr'
  have hl := C52.LOCC_fits e2
  have hl' : locc = ((locb + (s k - 1) : Nat) : Int) := by
    unfold sizeOfInt at hr'
    unfold Fits at hl
    unfold FitsN at hx
    omega
  subst hl'
  refine ⟨energy, x, e, e1, hr, e2, e4, e5, e6, e7, ?_, e9⟩
  unfold DistDataI.distribution Dist.verifyValueIndex
  simp only [hn, ok_bind]
  rw [if_neg (by omega), ok_bind, e8]
  rfl

/-- The angular distributions by outgoing energy of law 61: only the next locator is looked at. -/
theorem C52_energy_angle (incident : Dbl) (locb : Nat) (xs : Words) (d : EnergyAngle)
    (h : EnergyAngle.ofRange incident locb xs = .ok d) :
    ∃ n, d.N = .ok n ∧ ∀ k, 1 ≤ k → k ≤ n → ∃ (energy pdf cdf : Dbl) (x : TabDist) (a e : Nat),
      d.value 1 k = .ok energy ∧ d.value 2 k = .ok pdf ∧ d.value 3 k = .ok cdf ∧
        d.relativeDistributionLocator k = .ok a ∧
          (if k = n then e = xs.length
            else ∃ b, d.relativeDistributionLocator (k + 1) = .ok b ∧ e = b - 1) ∧
            a - 1 ≤ e ∧ e ≤ xs.length ∧ TabDist.ofRange energy (between xs (a - 1) e) = .ok x ∧
              d.distribution k = .ok ⟨x, pdf, cdf⟩ := by
  unfold EnergyAngle.ofRange at h
  obtain ⟨_, _, h⟩ := bind_eq_ok.mp h
  unfold EnergyAngle.generateBlocks at h
  obtain ⟨j, hj, h⟩ := bind_eq_ok.mp h
  obtain ⟨w, hw, h⟩ := bind_eq_ok.mp h
  obtain ⟨b, hb, h⟩ := bind_eq_ok.mp h
  obtain ⟨n, hn, h⟩ := bind_eq_ok.mp h
  obtain ⟨ds, hds, h⟩ := bind_eq_ok.mp h
  injection h with h; subst h
  refine ⟨n, hn, ?_⟩
  intro k h1 h2
  obtain ⟨x, hx1, hx2⟩ := C48.mapM_get _ _ _ hds (k - 1) (k - 1) (List.getElem?_range (by omega))
  have hv : ∀ c y, b.value c k = .ok y → Dist.value b c k = .ok y := by
    intro c y hy
    unfold Dist.value Dist.verifyValueIndex
    simp only [hn, ok_bind]
    rw [if_neg (by omega), ok_bind, hy]
  have hd : ∀ r, ds[k - 1]? = some r → DistDataI.distribution (⟨incident, xs, locb, b, ds⟩ : EnergyAngle) k = .ok r := by
    intro r hr
    unfold DistDataI.distribution Dist.verifyValueIndex
    simp only [hn, ok_bind]
    rw [if_neg (by omega), ok_bind, hr]
    rfl
  unfold EnergyAngle.generateBlock at hx2
  simp only [show k - 1 + 1 = k by omega] at hx2
  obtain ⟨en, hen, hx2⟩ := bind_eq_ok.mp hx2
  obtain ⟨pr, hpr, hx2⟩ := bind_eq_ok.mp hx2
  obtain ⟨cu, hcu, hx2⟩ := bind_eq_ok.mp hx2
  obtain ⟨lo, hlo, hx2⟩ := bind_eq_ok.mp hx2
  by_cases hk : k = n
  · simp only [if_pos hk, pure_eq_ok, ok_bind] at hx2
    obtain ⟨ws, hws, hx2⟩ := bind_eq_ok.mp hx2
    obtain ⟨w1, w2, w3, -⟩ := C48.sub_in hws
    subst w3
    unfold AngularProb.ofRange at hx2
    obtain ⟨t, ht, hx2⟩ := bind_eq_ok.mp hx2
    injection hx2 with hx2; subst hx2
    exact ⟨en, pr, cu, t, lo, xs.length, hv _ _ hen, hv _ _ hpr, hv _ _ hcu, hlo, by rw [if_pos hk], w1, w2, ht,
      hd _ hx1⟩
  · simp only [if_neg hk] at hx2
    obtain ⟨nx, hnx, hx2⟩ := bind_eq_ok.mp hx2
    obtain ⟨r, hr, hx2⟩ := bind_eq_ok.mp hx2
    injection hr with hr; subst hr
    obtain ⟨ws, hws, hx2⟩ := bind_eq_ok.mp hx2
    obtain ⟨w1, w2, w3, -⟩ := C48.sub_in hws
    subst w3
    unfold AngularProb.ofRange at hx2
    obtain ⟨t, ht, hx2⟩ := bind_eq_ok.mp hx2
    injection hx2 with hx2; subst hx2
    exact ⟨en, pr, cu, t, lo, nx - 1, hv _ _ hen, hv _ _ hpr, hv _ _ hcu, hlo, by rw [if_neg hk]; exact ⟨nx, hnx, rfl⟩,
      w1, w2, ht, hd _ hx1⟩

/-- Blocks with locators (SIG, SIGD, SIGP, SIGH, SWD, XPROB, ...): only the next locator is looked at, and
`iter` words come before the data. -/
theorem C52_located {D : Type} (gen : Nat → Words → Res D) (xs : Words) (iter n : Nat) (locator : Bool)
    (b : LocBlock D) (h : LocBlock.ofRange gen xs iter n locator = .ok b) :
    ∃ s : Nat → Nat, ∀ k, 1 ≤ k → k ≤ n → ∃ (x : D) (e : Nat), b.LLOC k = .ok (s k) ∧
      FollowingStart (fun j => iter + s j) k n xs.length e ∧ iter + s k - 1 ≤ e ∧ e ≤ xs.length ∧
        b.get k = .ok x ∧ gen (s k) (between xs (iter + s k - 1) e) = .ok x := by
  unfold LocBlock.ofRange at h
  obtain ⟨_, _, h⟩ := bind_eq_ok.mp h
  unfold LocBlock.generateBlocks at h
  obtain ⟨ds, hds, h⟩ := bind_eq_ok.mp h
  injection h with h; subst h
  let s : Nat → Nat := fun k => match LocBlock.LLOCof xs n locator k with
    | .ok v => v
    | .error _ => 0
  refine ⟨s, ?_⟩
  intro k h1 h2
  obtain ⟨x, hx1, hx2⟩ := C48.mapM_get _ _ _ hds (k - 1) (k - 1) (List.getElem?_range (by omega))
  unfold LocBlock.generateBlock at hx2
  simp only [show k - 1 + 1 = k by omega] at hx2
  obtain ⟨lo, hlo, hx2⟩ := bind_eq_ok.mp hx2
  obtain ⟨left, hleft, hx2⟩ := bind_eq_ok.mp hx2
  obtain ⟨i1, i2, rfl⟩ := C48.iterator_in hleft
  have sk : s k = lo := by simp only [s, hlo]
  have hg : LocBlock.get (⟨xs, n, locator, iter, ds⟩ : LocBlock D) k = .ok x := by
    unfold LocBlock.get LocBlock.verifyDataIndex
    simp only
    rw [if_neg (by omega), ok_bind, hx1]
    rfl
  by_cases hk : k = n
  · simp only [if_pos hk, pure_eq_ok, ok_bind] at hx2
    obtain ⟨ws, hws, hx2⟩ := bind_eq_ok.mp hx2
    obtain ⟨w1, w2, w3, -⟩ := C48.sub_in hws
    subst w3
    refine ⟨x, xs.length, by rw [sk]; exact hlo, by unfold FollowingStart; rw [if_pos hk], by omega, w2, hg, ?_⟩
    rw [sk]
    rw [show iter + 1 + lo - 1 - 1 = iter + lo - 1 by omega] at hx2
    exact hx2
  · simp only [if_neg hk] at hx2
    obtain ⟨nx, hnx, hx2⟩ := bind_eq_ok.mp hx2
    obtain ⟨r, hr, hx2⟩ := bind_eq_ok.mp hx2
    obtain ⟨j1, j2, rfl⟩ := C48.iterator_in hr
    have sk1 : s (k + 1) = nx := by simp only [s, hnx]
    obtain ⟨ws, hws, hx2⟩ := bind_eq_ok.mp hx2
    obtain ⟨w1, w2, w3, -⟩ := C48.sub_in hws
    subst w3
    refine ⟨x, iter + nx - 1, by rw [sk]; exact hlo, by unfold FollowingStart; rw [if_neg hk]; simp only [sk1], by omega, by omega,
      hg, ?_⟩
    rw [sk]
    rw [show iter + 1 + lo - 1 - 1 = iter + lo - 1 by omega, show iter + 1 + nx - 1 - 1 = iter + nx - 1 by omega] at hx2
    exact hx2

namespace C52

theorem rangeEnd_spec {xs : Words} (s : Nat → Nat) (k n : Nat) (rel : Nat → Res Int) (o : Option Int) (r : Nat)
    (hs : ∀ i, k < i → i ≤ n → rel i = .ok (s i : Int)) (hk : k ≤ n)
    (ho : Dist.findNext rel (s k : Int) (List.range' (k + 1) (n - k)) = .ok o) (hr : rangeEnd xs o = .ok r) :
    NextStart s k n xs.length r := by
  rcases findNext_spec rel s (s k) (n - k) (k + 1) o (fun i a b => hs i (by omega) (by omega)) ho with
    ⟨rfl, hf⟩ | ⟨j, rfl, j1, j2, j3, j4⟩
  · injection hr with hr
    subst hr
    exact .last fun i a b => hf i (by omega) (by omega)
  · simp only [rangeEnd, Int.toNat_natCast] at hr
    obtain ⟨-, -, rfl⟩ := C48.iterator_in hr
    exact .next j (by omega) (by omega) j3 fun i a b => j4 i (by omega) b

theorem mapM_all {α β : Type} (f : α → Res β) (l : List α) (r : List β) (h : l.mapM f = .ok r) (a : α) (ha : a ∈ l) :
    ∃ b, f a = .ok b := C48.mapM_each f l r h a ha

end C52

/-- What an angular distribution is read as: isotropic, a table or 33 cosines. -/
inductive AngularFrom (energy : Dbl) (words : Words) : Int → AngDist → Prop where
  | iso : AngularFrom energy words 0 (.iso energy)
  | tab (locc : Int) (x : TabDist) (hl : locc < 0) (h : TabDist.ofRange energy words = .ok x) :
      AngularFrom energy words locc (.tab x)
  | equi (locc : Int) (x : EquiAngular) (hl : 0 < locc) (h : EquiAngular.mk' energy words = .ok x) :
      AngularFrom energy words locc (.equi x)

/-- The angular distributions of a reaction: the sign of the locator gives the type, an isotropic
distribution has no words, and the others are read from the words between their locator and the next one. -/
theorem C52_angular (locb : Nat) (xs : Words) (d : AngularData) (h : AngularData.ofRange locb xs = .ok d) :
    ∃ (n : Nat) (s : Nat → Nat), d.NE = .ok n ∧ ∀ k, 1 ≤ k → k ≤ n → ∃ (energy : Dbl) (locc : Int) (x : AngDist) (e : Nat),
      d.incidentEnergy k = .ok energy ∧ d.LOCC k = .ok locc ∧ d.distribution k = .ok x ∧
        AngularFrom energy (between xs (s k - 1) e) locc x ∧
          (locc ≠ 0 → d.relativeDistributionLocator k = .ok (s k) ∧ 1 ≤ s k ∧ NextStart s k n xs.length e ∧
            s k - 1 ≤ e ∧ e ≤ xs.length) := by
  unfold AngularData.ofRange at h
  obtain ⟨d', hg, h'⟩ := bind_eq_ok.mp h
  obtain ⟨_, _, h'⟩ := bind_eq_ok.mp h'
  obtain ⟨_, _, h'⟩ := bind_eq_ok.mp h'
  injection h' with h'; subst h'
  clear h
  have h := hg
  unfold AngularData.generateBlocks at h
  obtain ⟨j, hj, h⟩ := bind_eq_ok.mp h
  obtain ⟨fin, hfin, h⟩ := bind_eq_ok.mp h
  obtain ⟨w, hw, h⟩ := bind_eq_ok.mp h
  obtain ⟨b, hb, h⟩ := bind_eq_ok.mp h
  obtain ⟨n, hn, h⟩ := bind_eq_ok.mp h
  obtain ⟨ds, hds, h⟩ := bind_eq_ok.mp h
  injection h with h; subst h
  let s : Nat → Nat := fun k => match AngularData.relativeOf b locb k with
    | .ok v => v
    | .error _ => 0
  have each : ∀ k, 1 ≤ k → k ≤ n → ∃ x, ds[k - 1]? = some x ∧
      AngularData.generateBlock xs b locb n (k - 1) = .ok x := by
    intro k h1 h2
    exact C48.mapM_get _ _ _ hds (k - 1) (k - 1) (List.getElem?_range (by omega))
  -- every locator can be read
  have starts : ∀ k, 1 ≤ k → k ≤ n → AngularData.relativeOf b locb k = .ok (s k) := by
    intro k h1 h2
    obtain ⟨x, -, hx⟩ := each k h1 h2
    unfold AngularData.generateBlock at hx
    simp only [show k - 1 + 1 = k by omega] at hx
    obtain ⟨t, ht, hx⟩ := bind_eq_ok.mp hx
    obtain ⟨en, hen, hx⟩ := bind_eq_ok.mp hx
    have : ∃ v, AngularData.relativeOf b locb k = .ok v := by
      by_cases hiso : t = .isotropic
      · unfold AngularData.typeOf at ht
        obtain ⟨l, hl, ht⟩ := bind_eq_ok.mp ht
        injection ht with ht
        have l0 : l = 0 := by
          refine Decidable.byContradiction fun hne => ?_
          rw [if_neg hne, hiso] at ht
          split at ht <;> cases ht
        refine ⟨0, ?_⟩
        unfold AngularData.relativeOf
        simp only [hl, ok_bind]
        rw [if_pos l0]
        rfl
      · rw [if_neg hiso] at hx
        obtain ⟨v, hv, -⟩ := bind_eq_ok.mp hx
        exact ⟨v, hv⟩
    obtain ⟨v, hv⟩ := this
    simp only [s, hv]
  refine ⟨n, s, hn, ?_⟩
  intro k h1 h2
  obtain ⟨x, hx1, hx⟩ := each k h1 h2
  have hd : AngularData.distribution ⟨xs, locb, b, ds⟩ k = .ok x := by
    unfold AngularData.distribution AngularData.verifyIndexOf
    simp only [hn, ok_bind]
    rw [if_neg (by omega), ok_bind, hx1]
    rfl
  unfold AngularData.generateBlock at hx
  simp only [show k - 1 + 1 = k by omega] at hx
  obtain ⟨t, ht, hx⟩ := bind_eq_ok.mp hx
  obtain ⟨en, hen, hx⟩ := bind_eq_ok.mp hx
  unfold AngularData.typeOf at ht
  obtain ⟨l, hl, ht⟩ := bind_eq_ok.mp ht
  injection ht with ht
  by_cases l0 : l = 0
  · subst l0
    rw [if_pos rfl] at ht
    subst ht
    rw [if_pos rfl] at hx
    injection hx with hx; subst hx
    exact ⟨en, 0, _, 0, hen, hl, hd, .iso, fun h => absurd rfl h⟩
  · rw [if_neg l0] at ht
    have hiso : t ≠ .isotropic := by
      rw [← ht]; split <;> simp
    rw [if_neg hiso, starts k h1 h2, ok_bind] at hx
    obtain ⟨left, hleft, hx⟩ := bind_eq_ok.mp hx
    obtain ⟨i1, i2, rfl⟩ := C48.iterator_in hleft
    obtain ⟨o, ho, hx⟩ := bind_eq_ok.mp hx
    obtain ⟨r, hr, hx⟩ := bind_eq_ok.mp hx
    have hnext := C52.rangeEnd_spec s k n _ o r (fun i a b => by
      unfold AngularData.relIntOf
      rw [starts i (by omega) b]
      rfl) h2 ho hr
    by_cases hneg : l < 0
    · rw [if_pos hneg] at ht
      rw [if_pos ht.symm] at hx
      obtain ⟨ws, hws, hx⟩ := bind_eq_ok.mp hx
      obtain ⟨y, hy, hx⟩ := bind_eq_ok.mp hx
      injection hx with hx; subst hx
      obtain ⟨w1, w2, w3, -⟩ := C48.sub_in hws
      subst w3
      exact ⟨en, l, _, r, hen, hl, hd, .tab l y hneg hy, fun _ => ⟨starts k h1 h2, i1, hnext, w1, w2⟩⟩
    · rw [if_neg hneg] at ht
      rw [if_neg (by rw [← ht]; simp)] at hx
      obtain ⟨ws, hws, hx⟩ := bind_eq_ok.mp hx
      obtain ⟨y, hy, hx⟩ := bind_eq_ok.mp hx
      injection hx with hx; subst hx
      obtain ⟨w1, w2, w3, -⟩ := C48.sub_in hws
      subst w3
      exact ⟨en, l, _, r, hen, hl, hd, .equi l y (by omega) hy, fun _ => ⟨starts k h1 h2, i1, hnext, w1, w2⟩⟩

/-- The angular distribution blocks (AND, ANDP, ANDH): a locator 0 is isotropic, a negative one means the
distribution is given elsewhere, and the others are read from the words between their locator and the next
one, with `iter` words before the data. -/
theorem C52_angular_block (xs : Words) (iter nr : Nat) (zero : Bool) (b : AngularBlock)
    (h : AngularBlock.ofRange xs iter nr zero = .ok b) (hx : FitsN (xs.length + iter)) :
    ∃ s : Nat → Nat, ∀ k, (if zero then 0 else 1) ≤ k → k ≤ nr → ∃ (land : Int) (x : AngEntry),
      b.LAND k = .ok land ∧ b.get k = .ok x ∧
        (0 ≤ land → s k = iter + land.toNat) ∧ (land < 0 → -land ≤ iter → s k < iter) ∧
        (land = 0 → x = .fullyIsotropic) ∧ (land < 0 → x = .givenElsewhere) ∧
        (0 < land → ∃ (d : AngularData) (e : Nat), x = .data d ∧ NextStart s k nr xs.length e ∧
          s k - 1 ≤ e ∧ e ≤ xs.length ∧ AngularData.ofRange land.toNat (between xs (s k - 1) e) = .ok d) := by
  unfold AngularBlock.ofRange at h
  obtain ⟨_, _, h⟩ := bind_eq_ok.mp h
  unfold AngularBlock.generateBlocks at h
  obtain ⟨ds, hds, h⟩ := bind_eq_ok.mp h
  injection h with h; subst h
  let s : Nat → Nat := fun k => match AngularBlock.next xs nr zero iter k with
    | .ok v => v.toNat
    | .error _ => 0
  have each : ∀ k, (if zero then 0 else 1) ≤ k → k ≤ nr → ∃ x, ds[k - (if zero then 0 else 1)]? = some x ∧
      AngularBlock.generateBlock xs nr zero iter k = .ok x := by
    intro k h1 h2
    refine C48.mapM_get _ _ _ hds _ k ?_
    rw [List.getElem?_range' (by omega)]
    congr 1; omega
  have lands : ∀ k, (if zero then 0 else 1) ≤ k → k ≤ nr → ∃ land, AngularBlock.LANDof xs nr zero k = .ok land ∧
      Fits land ∧ AngularBlock.next xs nr zero iter k = .ok (s k : Int) ∧ s k = sizeOfInt ((iter : Int) + land) := by
    intro k h1 h2
    obtain ⟨x, -, hx⟩ := each k h1 h2
    unfold AngularBlock.generateBlock at hx
    obtain ⟨land, hland, -⟩ := bind_eq_ok.mp hx
    have hn : AngularBlock.next xs nr zero iter k = .ok (sizeOfInt ((iter : Int) + land) : Int) := by
      unfold AngularBlock.next
      rw [hland, ok_bind, pure_eq_ok]
      congr 3
      omega
    have hsk : s k = sizeOfInt ((iter : Int) + land) := by simp only [s, hn, Int.toNat_natCast]
    refine ⟨land, hland, ?_, by rw [hsk]; exact hn, hsk⟩
    by_cases hc : k < (if zero then 0 else 1) ∨ k > nr
    · unfold AngularBlock.LANDof at hland
      rw [if_pos hc] at hland
      cases hland
    · unfold AngularBlock.LANDof at hland
      rw [if_neg hc] at hland
      exact C52.IXSS_fits hland
  refine ⟨s, ?_⟩
  intro k h1 h2
  obtain ⟨x, hx1, hx2⟩ := each k h1 h2
  obtain ⟨land, hland, hfit, hnext, hs⟩ := lands k h1 h2
  have hg : AngularBlock.get ⟨xs, nr, zero, iter, ds⟩ k = .ok x := by
    unfold AngularBlock.get
    simp only
    rw [if_neg (by omega), hx1]
    rfl
  have hs0 : 0 ≤ land → s k = iter + land.toNat := by
    intro h0
    rw [hs]
    unfold sizeOfInt
    unfold Fits at hfit
    unfold FitsN at hx
    omega
  refine ⟨land, x, hland, hg, hs0, ?_, ?_, ?_, ?_⟩
  · intro h0 h3
    rw [hs]
    unfold sizeOfInt
    unfold Fits at hfit
    unfold FitsN at hx
    omega
  · intro h0
    unfold AngularBlock.generateBlock at hx2
    rw [hland, ok_bind, if_pos (by omega), if_pos h0] at hx2
    injection hx2 with hx2
    exact hx2.symm
  · intro h0
    unfold AngularBlock.generateBlock at hx2
    rw [hland, ok_bind, if_neg (by omega)] at hx2
    injection hx2 with hx2
    exact hx2.symm
  · intro h0
    unfold AngularBlock.generateBlock at hx2
    rw [hland, ok_bind, if_pos (by omega), if_neg (by omega)] at hx2
    have hz : sizeOfInt land = land.toNat := by
      unfold sizeOfInt
      unfold Fits at hfit
      omega
    have hloc : iter + 1 + land.toNat - 1 = s k := by
      rw [hs0 (by omega)]; omega
    simp only [hz] at hx2
    rw [hloc] at hx2
    obtain ⟨left, hleft, hx2⟩ := bind_eq_ok.mp hx2
    obtain ⟨i1, i2, rfl⟩ := C48.iterator_in hleft
    obtain ⟨o, ho, hx2⟩ := bind_eq_ok.mp hx2
    obtain ⟨r, hr, hx2⟩ := bind_eq_ok.mp hx2
    obtain ⟨ws, hws, hx2⟩ := bind_eq_ok.mp hx2
    obtain ⟨d, hd, hx3⟩ := bind_eq_ok.mp hx2
    injection hx3 with hx3
    obtain ⟨w1, w2, w3, -⟩ := C48.sub_in hws
    subst w3
    exact ⟨d, r, hx3.symm, C52.rangeEnd_spec s k nr _ o r (fun i a c => by
      obtain ⟨_, _, _, hn, _⟩ := lands i (by omega) c
      exact hn) h2 ho hr, w1, w2, hd⟩

/-- The energy distribution blocks (DLW, DLWP, DLWH, DNED): the data of a reaction are read from the words
from its locator to the locator of the next reaction, or to the multiplicity of the next reaction when that is
a table (its position is in TYR), with `nr` words before the data; a tabulated multiplicity is read from the
words between its own position and the data. -/
theorem C52_energy_block (xs : Words) (data nr : Nat) (tyr : TYR) (d : DLW)
    (h : DLW.ofRange xs data tyr nr = .ok d) (hx : FitsN (xs.length + nr)) :
    ∀ k, 1 ≤ k → k ≤ nr → ∃ (locator : Int) (p : Nat) (x : EnergyData) (m : Mult) (e mult : Nat),
      d.LDLW k = .ok locator ∧ locator ≠ 0 ∧ (p : Int) = nr + locator ∧ 1 ≤ p ∧
        d.distribution k = .ok x ∧ d.multiplicity k = .ok m ∧
        EnergyData.read (sizeOfInt locator) (between xs (p - 1) e) = .ok x ∧ p - 1 ≤ e ∧ e ≤ xs.length ∧
        (k = nr → e = xs.length) ∧
        (k < nr → ∃ next, tyr.multiplicity (k + 1) = .ok next ∧
          (100 ≤ next → e = nr + (next - 100) - 1) ∧
          (next < 100 → ∃ (l : Int) (q : Nat), d.LDLW (k + 1) = .ok l ∧ (q : Int) = nr + l ∧ e = q - 1)) ∧
        tyr.multiplicity k = .ok mult ∧ (mult ≤ 100 → m = .int mult) ∧
        (100 < mult → ∃ t, m = .tab t ∧
          TabulatedData.ofRange (between xs (nr + (mult - 100) - 1) (p - 1)) = .ok t) := by
  unfold DLW.ofRange at h
  obtain ⟨_, _, h⟩ := bind_eq_ok.mp h
  unfold DLW.generateBlocks at h
  obtain ⟨ds, hds, h⟩ := bind_eq_ok.mp h
  obtain ⟨fr, hfr, h⟩ := bind_eq_ok.mp h
  injection h with h; subst h
  have pos : ∀ (k : Nat) (l : Int) (left : Nat), DLW.LDLWof xs nr k = .ok l →
      Base.iterator xs (sizeOfInt ((nr : Int) + 1 + l - 1)) = .ok left →
        ∃ p : Nat, (p : Int) = nr + l ∧ 1 ≤ p ∧ left = p - 1 := by
    intro k l left hl hleft
    obtain ⟨i1, i2, rfl⟩ := C48.iterator_in hleft
    have hf : Fits l := by
      have := hl
      unfold DLW.LDLWof at this
      split at this
      · cases this
      · exact C52.IXSS_fits this
    have e := C52.sizeOfInt_nat (v := (nr : Int) + 1 + l - 1) (len := xs.length) (by unfold FitsN at *; omega)
      (by unfold Fits at hf; omega) (by unfold Fits at hf; unfold FitsN at hx; omega) i2
    exact ⟨sizeOfInt ((nr : Int) + 1 + l - 1), by rw [← e]; omega, i1, rfl⟩
  intro k h1 h2
  obtain ⟨⟨x, m⟩, hx1, hx2⟩ := C48.mapM_get _ _ _ hds (k - 1) (k - 1) (List.getElem?_range (by omega))
  unfold DLW.generateBlock at hx2
  simp only [show k - 1 + 1 = k by omega] at hx2
  obtain ⟨l, hl, hx2⟩ := bind_eq_ok.mp hx2
  obtain ⟨_, hgd, hx2⟩ := bind_eq_ok.mp hx2
  obtain ⟨left, hleft, hx2⟩ := bind_eq_ok.mp hx2
  obtain ⟨p, p1, p2, rfl⟩ := pos k l left hl hleft
  obtain ⟨r, hr, hx2⟩ := bind_eq_ok.mp hx2
  obtain ⟨ws, hws, hx2⟩ := bind_eq_ok.mp hx2
  obtain ⟨w1, w2, w3, -⟩ := C48.sub_in hws
  subst w3
  obtain ⟨y, hy, hx2⟩ := bind_eq_ok.mp hx2
  obtain ⟨mm, hm, hx2⟩ := bind_eq_ok.mp hx2
  injection hx2 with hx2
  injection hx2 with hy' hm'
  subst hy' hm'
  have hne : l ≠ 0 := by
    intro h0
    subst h0
    cases hgd
  have hpick : ∀ {α : Type} (q : List α) (v : α), q[k - 1]? = some v → DLW.pick nr q k = .ok v := by
    intro α q v hq
    unfold DLW.pick
    rw [if_neg (by omega), hq]
  unfold DLW.multOf at hm
  obtain ⟨mult, hmult, hm⟩ := bind_eq_ok.mp hm
  refine ⟨l, p, y, mm, r, mult, hl, hne, p1, p2, ?_, ?_, hy, w1, w2, ?_, ?_, hmult, ?_, ?_⟩
  · exact hpick _ _ (by simp [hx1])
  · exact hpick _ _ (by simp [hx1])
  · intro hk
    unfold DLW.rightOf at hr
    rw [if_pos hk] at hr
    injection hr with hr
    exact hr.symm
  · intro hk
    unfold DLW.rightOf at hr
    rw [if_neg (by omega)] at hr
    obtain ⟨next, hnext, hr⟩ := bind_eq_ok.mp hr
    refine ⟨next, hnext, ?_, ?_⟩
    · intro hn
      rw [if_neg (by omega)] at hr
      obtain ⟨_, _, rfl⟩ := C48.iterator_in hr
      omega
    · intro hn
      rw [if_pos hn] at hr
      obtain ⟨l', hl', hr⟩ := bind_eq_ok.mp hr
      obtain ⟨q, q1, q2, q3⟩ := pos (k + 1) l' r hl' hr
      exact ⟨l', q, hl', q1, q3⟩
  · intro hle
    rw [if_neg (by omega)] at hm
    injection hm with hm
    exact hm.symm
  · intro hgt
    rw [if_pos hgt] at hm
    obtain ⟨ml, hml, hm⟩ := bind_eq_ok.mp hm
    obtain ⟨_, _, rfl⟩ := C48.iterator_in hml
    obtain ⟨ws, hws, hm⟩ := bind_eq_ok.mp hm
    obtain ⟨_, _, rfl, -⟩ := C48.sub_in hws
    obtain ⟨t, ht, hm⟩ := bind_eq_ok.mp hm
    injection hm with hm
    refine ⟨t, hm.symm, ?_⟩
    rw [show nr + 1 + mult - 100 - 1 - 1 = nr + (mult - 100) - 1 by omega] at ht
    exact ht

/-! ## Shared locators -/

namespace C52

/-- Elements that share a start also share an end when the starts do not decrease. -/
theorem shared_end {s : Nat → Nat} {j k n len a b : Nat} (hj : 1 ≤ j) (hjk : j ≤ k) (hk : k ≤ n)
    (mono : ∀ i, 1 ≤ i → i < n → s i ≤ s (i + 1)) (hs : s j = s k) (ha : NextStart s j n len a)
    (hb : NextStart s k n len b) : a = b := by
  have le : ∀ m i, 1 ≤ i → i + m ≤ n → s i ≤ s (i + m) := by
    intro m
    induction m with
    | zero => intro i _ _; exact Nat.le_refl _
    | succ m ih =>
      intro i h1 h2
      exact Nat.le_trans (ih i h1 (by omega)) (mono (i + m) (by omega) (by omega))
  have le' : ∀ i i', 1 ≤ i → i ≤ i' → i' ≤ n → s i ≤ s i' := by
    intro i i' h1 h2 h3
    have := le (i' - i) i h1 (by omega)
    rwa [show i + (i' - i) = i' by omega] at this
  cases ha with
  | next p p1 p2 p3 p4 =>
    have hpk : k < p := by
      refine Decidable.byContradiction fun hc => ?_
      have := le' p k (by omega) (by omega) hk
      omega
    cases hb with
    | next q q1 q2 q3 q4 =>
      have : ¬ p < q := fun h => by have := q4 p hpk h; omega
      have : ¬ q < p := fun h => by have := p4 q (by omega) h; omega
      obtain rfl : p = q := by omega
      rfl
    | last hl => have := hl p hpk p2; omega
  | last hl =>
    cases hb with
    | next q q1 q2 q3 q4 => have := hl q (by omega) q2; omega
    | last _ => rfl

end C52

/-- Incident energies that share a locator have the same outgoing energy distribution (laws 4 and 44), and
reading it does not depend on the other distributions. -/
theorem C52_shared (locb : Nat) (xs : Words) (d : Law4) (h : Law4.ofRange locb xs = .ok d)
    (hx : FitsN (xs.length + locb + 1)) (n j k : Nat) (hn : d.NE = .ok n) (hj : 1 ≤ j) (hjk : j ≤ k) (hk : k ≤ n)
    (mono : ∀ i a b, 1 ≤ i → i < n → d.LOCC i = .ok a → d.LOCC (i + 1) = .ok b → a ≤ b)
    (hs : d.LOCC j = d.LOCC k) :
    ∃ (e1 e2 : Dbl) (words : Words), d.incidentEnergy j = .ok e1 ∧ d.incidentEnergy k = .ok e2 ∧
      d.distribution j = .ok ⟨e1, ⟨words⟩⟩ ∧ d.distribution k = .ok ⟨e2, ⟨words⟩⟩ := by
  obtain ⟨n', s, hn', hd⟩ := C52_by_energy Law4.gen locb xs d h hx
  obtain rfl : n' = n := Except.ok.inj (hn'.symm.trans hn)
  obtain ⟨e1, x1, a, a1, a2, a3, a4, a5, a6, a7, a8, a9⟩ := hd j hj (by omega)
  obtain ⟨e2, x2, b, b1, b2, b3, b4, b5, b6, b7, b8, b9⟩ := hd k (by omega) hk
  have sjk : s j = s k := by
    have : ((locb + (s j - 1) : Nat) : Int) = ((locb + (s k - 1) : Nat) : Int) :=
      Except.ok.inj ((a3.symm.trans hs).trans b3)
    omega
  have ab := C52.shared_end hj hjk hk (fun i i1 i2 => by
    obtain ⟨_, _, _, _, _, c3, c4, _⟩ := hd i i1 (by omega)
    obtain ⟨_, _, _, _, _, d3, d4, _⟩ := hd (i + 1) (by omega) (by omega)
    have := mono i _ _ i1 i2 c3 d3
    omega) sjk a5 b5
  subst ab
  have t1 := tabDist_ofRange_eq (v := e1) a9
  have t2 := tabDist_ofRange_eq (v := e2) b9
  subst t1 t2
  refine ⟨e1, e2, between xs (s k - 1) a, a1, b1, ?_, b8⟩
  rw [← sjk]
  exact a8

/-- Cross sections that share a locator are not accepted: the first one would have no words. -/
theorem C52_shared_sig (xs : Words) (iter n k : Nat) (b : SIG) (h : SIG.ofRange xs iter n = .ok b) (h1 : 1 ≤ k)
    (h2 : k < n) : b.LLOC k ≠ b.LLOC (k + 1) := by
  intro he
  obtain ⟨s, hs⟩ := C52_located SIG.gen xs iter n true b h
  obtain ⟨x, e, e1, e2, e3, e4, e5, e6⟩ := hs k h1 (by omega)
  obtain ⟨x', e', f1, -⟩ := hs (k + 1) (by omega) (by omega)
  have hss : s k = s (k + 1) := Except.ok.inj ((e1.symm.trans he).trans f1)
  unfold FollowingStart at e2
  rw [if_neg (by omega)] at e2
  simp only at e2
  rw [← hss] at e2
  have : between xs (iter + s k - 1) e = [] := by
    unfold between
    rw [e2, Nat.sub_self, List.take_zero]
  rw [this] at e6
  cases e6

/-! ## Examples -/

/-- Law 4 words as another program may write them: the first two of three incident energies share a
distribution, and there is an unused word between the two distributions. -/
def exShared : Words :=
  [Dbl.ofNat 0, Dbl.ofNat 3, Dbl.ofNat 1, Dbl.ofNat 2, Dbl.ofNat 3, Dbl.ofNat 9, Dbl.ofNat 9, Dbl.ofNat 18,
   -- the distribution at 9
   Dbl.ofNat 2, Dbl.ofNat 2, Dbl.ofNat 10, Dbl.ofNat 20, Dbl.ofNat 0, Dbl.ofNat 1, Dbl.ofNat 0, Dbl.ofNat 1,
   -- unused
   Dbl.ofNat 77,
   -- the distribution at 18
   Dbl.ofNat 2, Dbl.ofNat 1, Dbl.ofNat 30, Dbl.ofNat 0, Dbl.ofNat 1]

/-- What is read from it: the locators, and the outgoing energies of each distribution. -/
def exSharedSeen : Res (List Int × List Words) := do
  let d ← Law4.ofRange 1 exShared
  return (← [1, 2, 3].mapM d.LOCC, ← [1, 2, 3].mapM fun k => do (← d.distribution k).dist.values)

theorem exSharedSeen_eq : exSharedSeen =
    .ok ([9, 9, 18], [[Dbl.ofNat 10, Dbl.ofNat 20], [Dbl.ofNat 10, Dbl.ofNat 20], [Dbl.ofNat 30]]) := by
  decide +kernel

/-- The theorems apply to it. -/
example : ∃ d, Law4.ofRange 1 exShared = .ok d ∧ ∃ (e1 e2 : Dbl) (words : Words),
    d.distribution 1 = .ok ⟨e1, ⟨words⟩⟩ ∧ d.distribution 2 = .ok ⟨e2, ⟨words⟩⟩ := by
  have h := exSharedSeen_eq
  unfold exSharedSeen at h
  obtain ⟨d, hd, h⟩ := bind_eq_ok.mp h
  obtain ⟨l, hl, h⟩ := bind_eq_ok.mp h
  obtain ⟨w, hw, h⟩ := bind_eq_ok.mp h
  injection h with h
  injection h with hl' _
  subst hl'
  have g := fun i a ha => C48.mapM_get _ _ _ hl i a ha
  obtain ⟨v1, a1, b1⟩ := g 0 1 rfl
  obtain ⟨v2, a2, b2⟩ := g 1 2 rfl
  obtain ⟨v3, a3, b3⟩ := g 2 3 rfl
  injection a1 with a1
  injection a2 with a2
  injection a3 with a3
  subst a1 a2 a3
  have hn : DistData.NE d = .ok 3 := by
    have : (do (← Law4.ofRange 1 exShared).NE) = (.ok 3 : Res Nat) := by decide +kernel
    rwa [hd, ok_bind] at this
  obtain ⟨e1, e2, words, -, -, h3, h4⟩ := C52_shared 1 exShared d hd (by decide) 3 1 2 hn (by decide) (by decide)
    (by decide) (by
      intro i a b h1 h2 ha hb
      have : i = 1 ∨ i = 2 := by omega
      rcases this with rfl | rfl
      · rw [b1] at ha; rw [b2] at hb
        injection ha with ha; injection hb with hb; omega
      · rw [b2] at ha; rw [b3] at hb
        injection ha with ha; injection hb with hb; omega) (b1.trans b2.symm)
  exact ⟨d, hd, e1, e2, words, h3, h4⟩

/-- A SIG block with two different locators; with equal ones it is not accepted. -/
def exTwoSections (second : Nat) : Words :=
  [Dbl.ofNat 1, Dbl.ofNat second, Dbl.ofNat 1, Dbl.ofNat 1, Dbl.ofNat 5, Dbl.ofNat 1, Dbl.ofNat 1, Dbl.ofNat 6]

example : ((do (← SIG.ofRange (exTwoSections 4) 2 2).LLOC 2) : Res Nat) = .ok 4 := by decide +kernel
example : (do let _ ← SIG.ofRange (exTwoSections 1) 2 2; return ()) ≠ (.ok () : Res Unit) := by decide +kernel

/-- Angular data at two energies that share one table. -/
def exAngular : Words := [2, 1, 9, -6, -6, 2, 1, 0, 1, 1].map Dbl.ofInt

example : (do
    let d ← AngularData.ofRange 1 exAngular
    return ([← d.LOCC 1, ← d.LOCC 2], [← d.relativeDistributionLocator 1, ← d.relativeDistributionLocator 2],
      match ← d.distribution 1, ← d.distribution 2 with
        | .tab a, .tab b => [a.xss, b.xss]
        | _, _ => [])) =
    (.ok ([-6, -6], [6, 6], [[2, 1, 0, 1, 1].map Dbl.ofInt, [2, 1, 0, 1, 1].map Dbl.ofInt]) :
      Res (List Int × List Nat × List Words)) := by decide +kernel

/-- An angular block: isotropic, given elsewhere, and the data above. -/
example : (do
    let b ← AngularBlock.ofRange ([0, -1, 1].map Dbl.ofInt ++ exAngular) 3 3 false
    return ([← b.LAND 1, ← b.LAND 2, ← b.LAND 3], match ← b.get 1, ← b.get 2, ← b.get 3 with
      | .fullyIsotropic, .givenElsewhere, .data d => d.xss
      | _, _, _ => [])) = (.ok ([0, -1, 1], exAngular) : Res (List Int × Words)) := by decide +kernel

example : FitsN (([0, -1, 1].map Dbl.ofInt ++ exAngular).length + 3) := by decide

/-- Law 67 data at two cosines. -/
example : (do
    let d ← AngleEnergy.ofRange (Dbl.ofNat 5) 1 ([2, 2, -1, 1, 7, 12, 1, 1, 3, 4, 5, 2, 1, 6, 7, 8].map Dbl.ofInt)
    return ([← d.relativeDistributionLocator 1, ← d.relativeDistributionLocator 2],
      [(← d.distribution 1).xss, (← d.distribution 2).xss])) =
    (.ok ([7, 12], [[1, 1, 3, 4, 5].map Dbl.ofInt, [2, 1, 6, 7, 8].map Dbl.ofInt]) :
      Res (List Nat × List Words)) := by decide +kernel

/-- Law 61 data at two energies. -/
example : (do
    let d ← EnergyAngle.ofRange (Dbl.ofNat 5) 1 ([2, 2, 1, 9, 0, 1, 0, 1, 11, 16, 1, 1, 3, 4, 5, 2, 1, 6, 7, 8].map Dbl.ofInt)
    return ([← d.relativeDistributionLocator 1, ← d.relativeDistributionLocator 2],
      [(← d.distribution 1).angular.xss, (← d.distribution 2).angular.xss])) =
    (.ok ([11, 16], [[1, 1, 3, 4, 5].map Dbl.ofInt, [2, 1, 6, 7, 8].map Dbl.ofInt]) :
      Res (List Nat × List Words)) := by decide +kernel

/-- The energy distribution block of C16 read back: three reactions, one with a tabulated multiplicity. -/
example : (do
    let es ← dlwExample.mapM (fun r => r.dist.build (sortBy _))
    let ms ← dlwExample.mapM (fun r => r.mult.build)
    let w ← DLW.mk' es ms (dlwExample.map (·.frame))
    let d ← DLW.ofRange w.xss 4 w.tyr 3
    return ([← d.LDLW 1, ← d.LDLW 2, ← d.LDLW 3], match ← d.multiplicity 1, ← d.multiplicity 2 with
      | .int n, .tab t => (n, t.xss)
      | _, _ => (0, []))) =
    (.ok ([1, 18, 45], (2, [0, 2, 1, 20, 2, 3].map Dbl.ofInt)) :
      Res (List Int × Nat × Words)) := by decide +kernel

end ACE.Props

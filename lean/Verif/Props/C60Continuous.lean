import Verif.Props.C60
import Verif.Props.C56Unchecked

/-!
# C60, continued: continuous energy tables

A continuous energy table whose locators are in place and whose blocks are what their readers need (`NuReady`,
`LocatorsInOrder`, `ReactionReady`, `DataReady`, …; see C56) is read or refused with an exception.
-/

namespace ACE.Props
open ACE

/-- The words from the beginning of block `i` to the end of block `j`. -/
def Stretch (d : TableData) (i j : Nat) (ws : Words) : Prop :=
  ∃ a b : Nat × Nat, CE.block d i = .ok a ∧ CE.block d j = .ok b ∧ sub d.xss a.1 b.2 = .ok ws

/-- The words from the beginning of block `i` of a secondary particle to the end of its block `j`. -/
def ParticleStretch (d : TableData) (ixs : IXS) (p i j : Nat) (ws : Words) : Prop :=
  ∃ a b : Nat × Nat, CE.particleBlock d ixs p i = .ok a ∧ CE.particleBlock d ixs p j = .ok b ∧
    sub d.xss a.1 b.2 = .ok ws

/-- The locators of the blocks after the fission cross section and of the last word are in place. -/
structure EndsInPlace (d : TableData) : Prop where
  last : jxsAt d 22 ≤ (d.xss.length : Int)
  fission : jxsAt d 21 ≤ jxsAt d 22 + 1

/-- The blocks every table has, for `ntr` reactions, `nr` of which have secondary neutrons. -/
structure PrincipalReady (d : TableData) (ntr nr : Nat) : Prop where
  present : ∀ i ∈ [1, 3, 4, 5, 6, 7, 8, 9, 10, 11], 1 ≤ jxsAt d i
  order : jxsAt d 6 ≤ jxsAt d 7 ∧ jxsAt d 8 ≤ jxsAt d 9 ∧ jxsAt d 10 ≤ jxsAt d 11
  neutrons : nr ≤ ntr ∧ nr < 1073741824
  nu : ∀ ws, Stretch d 2 2 ws → NuReady ws
  sig : ∀ ws, Stretch d 6 7 ws → LocatorsInOrder ws ntr true
  dlw : ∀ ws ys tyr, Stretch d 10 11 ws → Stretch d 5 5 ys → TYR.ofRange ys ntr = .ok tyr →
    ∀ i, i < nr → ReactionReady ws nr tyr i

/-- The blocks of energy distributions of `n` reactions: the locators are in order and lead to headers. -/
def EnergiesReady (ws : Words) (iter n : Nat) : Prop :=
  LocatorsInOrder ws n true ∧ Located ws iter n fun locator part => 1 ≤ locator → DataReady locator part

/-- The blocks of production cross sections of `n` reactions: natural numbers, the locators are in order and lead to
two words at least. -/
def YieldsReady (ws : Words) (iter n : Nat) : Prop :=
  NonNegative ws ∧ LocatorsInOrder ws n true ∧ Located ws iter n fun _ part => 2 ≤ part.length

/-- The photon production blocks, for `n` reactions. -/
structure PhotonsReady (d : TableData) (n : Nat) : Prop where
  present : ∀ i ∈ [12, 13, 14, 15, 16, 17, 18, 19, 20], 1 ≤ jxsAt d i
  order : jxsAt d 14 ≤ jxsAt d 15 ∧ jxsAt d 16 ≤ jxsAt d 17 ∧ jxsAt d 18 ≤ jxsAt d 19
  sigp : ∀ ws, Stretch d 14 15 ws → YieldsReady ws (jxsAt d 15 - jxsAt d 14).toNat n
  dlwp : ∀ ws, Stretch d 18 19 ws → EnergiesReady ws (jxsAt d 19 - jxsAt d 18).toNat n

/-- The delayed neutron blocks, for `n` groups. -/
structure DelayedReady (d : TableData) (n : Nat) : Prop where
  present : ∀ i ∈ [25, 26, 27], 1 ≤ jxsAt d i
  order : jxsAt d 26 ≤ jxsAt d 27
  ending : jxsAt d 27 ≤ jxsAt d 22 + 1 ∧ (jxsAt d 12 = 0 ∨ jxsAt d 27 ≤ jxsAt d 12)
  bdd : ∀ ws, Stretch d 25 25 ws → GroupsReady ws n 0
  dned : ∀ ws, Stretch d 26 27 ws → EnergiesReady ws (jxsAt d 27 - jxsAt d 26).toNat n

/-- The blocks of secondary particle `p` with `n` reactions: its locators are in order in pairs. -/
structure ParticleReady (d : TableData) (ixs : IXS) (p n : Nat) : Prop where
  order : ∀ i ∈ [4, 6, 8], ∀ a b, ixs.LLOC p i = .ok a → ixs.LLOC p (i + 1) = .ok b → a ≤ b
  hpd : ∀ ws, ParticleStretch d ixs p 1 1 ws → ∀ v, Base.IXSS ws 2 = .ok v → 0 ≤ v
  sigh : ∀ ws a b, ixs.LLOC p 4 = .ok a → ixs.LLOC p 5 = .ok b → ParticleStretch d ixs p 4 5 ws → YieldsReady ws (b - a) n
  dlwh : ∀ ws a b, ixs.LLOC p 8 = .ok a → ixs.LLOC p 9 = .ok b → ParticleStretch d ixs p 8 9 ws →
    EnergiesReady ws (b - a) n

/-- The secondary particle blocks: the locators lead inside and the blocks of each particle are ready. -/
structure SecondariesReady (d : TableData) (ntype : Nat) : Prop where
  present : ∀ i ∈ [30, 31, 32], 1 ≤ jxsAt d i
  inside : jxsAt d 32 + 10 * ntype ≤ (d.xss.length : Int)
  locators : ∀ ws, Stretch d 32 32 ws → (∀ k, 1 ≤ k → k ≤ 10 * ntype → ∀ v, Base.IXSS ws k = .ok v → 1 ≤ v) ∧
    ∀ x ∈ ws, ∀ v, x.round? = some v → v ≤ (d.xss.length : Int) + 1
  particles : ∀ ws us ixs ntro p n, Stretch d 32 32 ws → IXS.ofRange ws ntype = .ok ixs → Stretch d 31 31 us →
    NTRO.ofRange us ntype = .ok ntro → 1 ≤ p → p ≤ ntype → ntro.NP p = .ok n → ParticleReady d ixs p n

namespace C60
variable {d : TableData}

/-- The end of a block found by the general rule: none, or behind its beginning and inside. -/
theorem generalEnd_of (h : InPlace d) (he : EndsInPlace d) {i : Nat} {start : Nat} (hs : 1 ≤ start) :
    ∃ stop, CE.generalEnd d i start = .ok stop ∧ (stop = 0 ∨ start ≤ stop ∧ stop ≤ d.xss.length + 1) := by
  have hn := h.moderate.length
  have h22 := h.locators _ (jxs_mem h.sized (show 1 ≤ 22 by decide) (by decide))
  have h21 := h.locators _ (jxs_mem h.sized (show 1 ≤ 21 by decide) (by decide))
  have e21 := size_eq hn h21
  have hl := he.last
  have hf := he.fission
  have e22 : sizeOfInt (jxsAt d 22 + 1) = (jxsAt d 22).toNat + 1 := by unfold sizeOfInt; omega
  unfold CE.generalEnd TableData.locator
  rw [JXS_at h.sized (show 1 ≤ 22 by decide) (by decide), JXS_at h.sized (show 1 ≤ 21 by decide) (by decide)]
  simp only [ok_bind, pure_eq_ok]
  cases hv : (d.jxs.drop i).find? (fun value => decide (start ≤ sizeOfInt value)) with
  | none => exact ⟨0, rfl, .inl rfl⟩
  | some v =>
    have hge : start ≤ sizeOfInt v := by simpa using List.find?_some hv
    have hm := h.locators v (List.mem_of_mem_drop (List.mem_of_find?_eq_some hv))
    have ev := size_eq hn hm
    simp only
    rw [e21]
    by_cases hlast : v ≠ jxsAt d 22
    · rw [if_pos hlast]
      by_cases hfi : sizeOfInt v = (jxsAt d 21).toNat
      · rw [if_pos hfi, e22]
        exact ⟨_, rfl, .inr (by omega)⟩
      · rw [if_neg hfi]
        exact ⟨_, rfl, .inr (by omega)⟩
    · rw [if_neg hlast]
      have hlast : v = jxsAt d 22 := Decidable.not_not.mp hlast
      subst hlast
      rw [e22]
      split
      · exact ⟨_, rfl, .inr (by omega)⟩
      · exact ⟨_, rfl, .inr (by omega)⟩

theorem range_ok {start stop : Nat} (h0 : 1 ≤ start) (h1 : start ≤ d.xss.length + 1)
    (h : stop = 0 ∨ start ≤ stop ∧ stop ≤ d.xss.length + 1) :
    ∃ r, d.range start stop = .ok r ∧ r.1 = start - 1 ∧ r.1 ≤ r.2 ∧ r.2 ≤ d.xss.length := by
  unfold TableData.range
  rw [if_neg (by omega)]
  rcases h with rfl | h
  · exact ⟨_, rfl, rfl, by simp only; omega, Nat.le_refl _⟩
  · rw [if_neg (by omega), if_neg (by omega)]
    exact ⟨_, rfl, rfl, by simp only; omega, by simp only; omega⟩

theorem CE_block (h : InPlace d) (he : EndsInPlace d) {i : Nat} (h1 : 1 ≤ i) (h2 : i ≤ 31) (hj : 1 ≤ jxsAt d i)
    (h27 : i = 27 → jxsAt d 27 ≤ jxsAt d 22 + 1 ∧ (jxsAt d 12 = 0 ∨ jxsAt d 27 ≤ jxsAt d 12)) :
    ∃ r, CE.block d i = .ok r ∧ r.1 = (jxsAt d i - 1).toNat ∧ r.1 ≤ r.2 ∧ r.2 ≤ d.xss.length := by
  have hn := h.moderate.length
  have hm := h.locators _ (jxs_mem h.sized h1 (show i ≤ 32 by omega))
  have e := size_eq hn hm
  have h22 := h.locators _ (jxs_mem h.sized (show 1 ≤ 22 by decide) (by decide))
  have h12 := h.locators _ (jxs_mem h.sized (show 1 ≤ 12 by decide) (by decide))
  have e12 := size_eq hn h12
  have e22 : sizeOfInt (jxsAt d 22 + 1) = (jxsAt d 22).toNat + 1 := by unfold sizeOfInt; have := he.last; omega
  obtain ⟨stop, g, hstop⟩ := generalEnd_of (i := i) h he (start := (jxsAt d i).toNat) (by omega)
  have key : ∃ stop', CE.blockEnd d i (jxsAt d i).toNat = .ok stop' ∧
      (stop' = 0 ∨ (jxsAt d i).toNat ≤ stop' ∧ stop' ≤ d.xss.length + 1) := by
    unfold CE.blockEnd
    rw [if_neg (by omega), if_pos (by omega), g, ok_bind]
    unfold CE.exceptions
    by_cases c11 : i = 11
    · rw [if_pos c11]
      cases hv : (d.jxs.drop 22).find? (fun value => decide ((jxsAt d i).toNat ≤ sizeOfInt value)) with
      | none => exact ⟨stop, rfl, hstop⟩
      | some v =>
        have hge : (jxsAt d i).toNat ≤ sizeOfInt v := by simpa using List.find?_some hv
        have hm' := h.locators v (List.mem_of_mem_drop (List.mem_of_find?_eq_some hv))
        have ev := size_eq hn hm'
        simp only
        split
        · exact ⟨_, rfl, .inr (by omega)⟩
        · exact ⟨stop, rfl, hstop⟩
    · rw [if_neg c11]
      by_cases c27 : i = 27
      · rw [if_pos c27]
        subst c27
        obtain ⟨q1, q2⟩ := h27 rfl
        unfold TableData.locator
        rw [JXS_at h.sized (show 1 ≤ 22 by decide) (by decide), JXS_at h.sized (show 1 ≤ 12 by decide) (by decide)]
        simp only [ok_bind, pure_eq_ok]
        rw [e12, e22]
        have hl := he.last
        by_cases z : stop = 0
        · rw [if_pos z]
          split
          · exact ⟨_, rfl, .inr (by omega)⟩
          · exact ⟨_, rfl, .inr (by omega)⟩
        · rw [if_neg z]
          split
          · exact ⟨_, rfl, .inr (by omega)⟩
          · exact ⟨_, rfl, .inr (by omega)⟩
      · rw [if_neg c27]
        exact ⟨stop, rfl, hstop⟩
  obtain ⟨stop', k1, k2⟩ := key
  unfold CE.block TableData.locator
  rw [JXS_at h.sized h1 (by omega)]
  simp only [ok_bind, pure_eq_ok]
  rw [e, k1, ok_bind]
  obtain ⟨r, r1, r2, r3, r4⟩ := range_ok (d := d) (start := (jxsAt d i).toNat) (by omega) (by omega) k2
  exact ⟨r, r1, by omega, r3, r4⟩

/-- The words of a block are read. -/
theorem one {α : Type} {f : Words → Res α} (h : InPlace d) (he : EndsInPlace d) {i : Nat} (h1 : 1 ≤ i) (h2 : i ≤ 31)
    (hj : 1 ≤ jxsAt d i) (h27 : i ≠ 27) (hf : ∀ ws, Stretch d i i ws → Moderate ws → EndsChecked (f ws)) :
    EndsChecked (CE.block d i >>= fun r => d.words r >>= f) := by
  obtain ⟨r, e, _, a, b⟩ := CE_block h he h1 h2 hj fun e => absurd e h27
  obtain ⟨ws, hw⟩ := C56.sub_ok a b
  rw [e, ok_bind]
  unfold TableData.words
  rw [hw, ok_bind]
  exact hf ws ⟨r, r, e, e, hw⟩ (C56.Moderate.sub h.moderate hw)

/-- The words of a block of locators and a block of data are read. -/
theorem two {α : Type} {f : Words × Nat → Res α} (h : InPlace d) (he : EndsInPlace d) {i j : Nat} (h1 : 1 ≤ i) (h2 : i ≤ 31)
    (h3 : 1 ≤ j) (h4 : j ≤ 31) (hj : 1 ≤ jxsAt d i) (ho : jxsAt d i ≤ jxsAt d j) (hi27 : i ≠ 27)
    (h27 : j = 27 → jxsAt d 27 ≤ jxsAt d 22 + 1 ∧ (jxsAt d 12 = 0 ∨ jxsAt d 27 ≤ jxsAt d 12))
    (hf : ∀ ws, Stretch d i j ws → Moderate ws → EndsChecked (f (ws, (jxsAt d j - jxsAt d i).toNat))) :
    EndsChecked (CE.block d i >>= fun a => CE.block d j >>= fun b => CE.located d a b >>= f) := by
  obtain ⟨r, e, a1, a2, a3⟩ := CE_block h he h1 h2 hj fun e => absurd e hi27
  obtain ⟨s, e', b1, b2, b3⟩ := CE_block h he h3 h4 (by omega) h27
  obtain ⟨ws, hw⟩ := C56.sub_ok (xs := d.xss) (l := r.1) (r := s.2) (by omega) b3
  rw [e, ok_bind, e', ok_bind]
  unfold CE.located
  rw [hw, ok_bind]
  have : s.1 - r.1 = (jxsAt d j - jxsAt d i).toNat := by omega
  rw [this]
  exact hf ws ⟨r, s, e, e', hw⟩ (C56.Moderate.sub h.moderate hw)

theorem energies {ws : Words} (hm : Moderate ws) {iter n : Nat} (h : EnergiesReady ws iter n) (tyrh : Option TYR)
    (ht : ∀ t, tyrh = some t → ∃ ys ntr, TYR.ofRange ys ntr = .ok t ∧ n ≤ ntr) :
    EndsChecked (DLWH.ofRange ws iter tyrh n) := C56_DLWH_partial ws hm iter n tyrh ht h.1 h.2

theorem yields {ws : Words} {iter n : Nat} (h : YieldsReady ws iter n) :
    EndsChecked (SIGH.ofRange ws iter n) ∧ EndsChecked (SIGP.ofRange ws iter n) :=
  (C56_tables_partial ws h.1 iter n h.2.1).2 h.2.2

theorem principal (h : InPlace d) (he : EndsInPlace d) {ntr nr : Nat} (hntr : d.count 4 = .ok ntr)
    (hnr : d.count 5 = .ok nr) (hp : PrincipalReady d ntr nr) : EndsChecked (CE.readPrincipal d) := by
  unfold CE.readPrincipal
  rw [hntr, hnr, ok_bind, ok_bind, count_at h.sized (show 1 ≤ 3 by decide) (by decide),
    JXS_at h.sized (show 1 ≤ 2 by decide) (by decide)]
  simp only [ok_bind]
  have pr : ∀ i, i ∈ [1, 3, 4, 5, 6, 7, 8, 9, 10, 11] → 1 ≤ jxsAt d i := hp.present
  obtain ⟨o1, o2, o3⟩ := hp.order
  refine one h he (i := 1) (by decide) (by decide) (pr 1 (by decide)) (by decide) fun ws _ _ => ?_
  refine (EndsChecked.of_ends ((C56_arrays ws).1 _).1).bind fun _ _ => ?_
  refine (onlyIf_checked fun hc => ?_).bind fun _ _ => ?_
  · exact one h he (i := 2) (by decide) (by decide) (of_decide_eq_true hc) (by decide) fun ws hs hm =>
      (C56_unchecked_partial ws hm).1 (hp.nu ws hs)
  refine one h he (i := 3) (by decide) (by decide) (pr 3 (by decide)) (by decide) fun ws _ _ => ?_
  refine (EndsChecked.of_ends ((C56_arrays ws).1 _).2.2.2.1).bind fun _ _ => ?_
  refine one h he (i := 4) (by decide) (by decide) (pr 4 (by decide)) (by decide) fun ws _ _ => ?_
  refine (EndsChecked.of_ends ((C56_arrays ws).1 _).2.1).bind fun _ _ => ?_
  refine one h he (i := 5) (by decide) (by decide) (pr 5 (by decide)) (by decide) fun ys hys hm => ?_
  refine ((C56_counted_partial ys hm).2.2.2.2.2 ntr).bind fun tyr ht => ?_
  refine two h he (i := 6) (j := 7) (by decide) (by decide) (by decide) (by decide) (pr 6 (by decide)) o1 (by decide)
    (fun e => absurd e (by decide)) fun ws hs hm => ?_
  refine (((C56_blocks_partial ws hm _ ntr).1 (hp.sig ws hs)).1).bind fun _ _ => ?_
  refine two h he (i := 8) (j := 9) (by decide) (by decide) (by decide) (by decide) (pr 8 (by decide)) o2 (by decide)
    (fun e => absurd e (by decide)) fun ws hs hm => ?_
  refine (C56_angular_block_partial ws hm _ nr true).bind fun _ _ => ?_
  refine two h he (i := 10) (j := 11) (by decide) (by decide) (by decide) (by decide) (pr 10 (by decide)) o3 (by decide)
    (fun e => absurd e (by decide)) fun ws hs hm => ?_
  exact (C56_DLW_partial ws hm _ nr hp.neutrons.2 ys ntr tyr ht hp.neutrons.1 (hp.dlw ws ys tyr hs hys ht)).bind
    fun _ _ => .ok _

theorem photons (h : InPlace d) (he : EndsInPlace d) {n : Nat} (hn : d.count 6 = .ok n) (hp : PhotonsReady d n) :
    EndsChecked (CE.readPhotons d) := by
  unfold CE.readPhotons
  rw [hn, count_at h.sized (show 1 ≤ 3 by decide) (by decide)]
  simp only [ok_bind]
  have pr : ∀ i, i ∈ [12, 13, 14, 15, 16, 17, 18, 19, 20] → 1 ≤ jxsAt d i := hp.present
  obtain ⟨o1, o2, o3⟩ := hp.order
  refine one h he (i := 12) (by decide) (by decide) (pr 12 (by decide)) (by decide) fun ws _ _ => ?_
  refine (EndsChecked.of_ends ((C56_arrays ws).1 _).2.2.1).bind fun _ _ => ?_
  refine one h he (i := 13) (by decide) (by decide) (pr 13 (by decide)) (by decide) fun ws _ _ => ?_
  refine (EndsChecked.of_ends ((C56_arrays ws).1 _).2.2.2.1).bind fun _ _ => ?_
  refine two h he (i := 14) (j := 15) (by decide) (by decide) (by decide) (by decide) (pr 14 (by decide)) o1 (by decide)
    (fun e => absurd e (by decide)) fun ws hs hm => ?_
  refine (yields (hp.sigp ws hs)).2.bind fun _ _ => ?_
  refine two h he (i := 16) (j := 17) (by decide) (by decide) (by decide) (by decide) (pr 16 (by decide)) o2 (by decide)
    (fun e => absurd e (by decide)) fun ws hs hm => ?_
  refine (C56_angular_block_partial ws hm _ n false).bind fun _ _ => ?_
  refine two h he (i := 18) (j := 19) (by decide) (by decide) (by decide) (by decide) (pr 18 (by decide)) o3 (by decide)
    (fun e => absurd e (by decide)) fun ws hs hm => ?_
  refine (energies hm (hp.dlwp ws hs) none nofun).bind fun _ _ => ?_
  refine one h he (i := 20) (by decide) (by decide) (pr 20 (by decide)) (by decide) fun ws _ hm => ?_
  exact ((C56_counted_partial ws hm).2.2.2.1).bind fun _ _ => .ok _

theorem delayed (h : InPlace d) (he : EndsInPlace d) {n : Nat} (hn : d.count 8 = .ok n) (hp : DelayedReady d n) :
    EndsChecked (CE.readDelayed d) := by
  unfold CE.readDelayed
  rw [hn]
  simp only [ok_bind]
  have pr : ∀ i, i ∈ [25, 26, 27] → 1 ≤ jxsAt d i := hp.present
  refine one h he (i := 25) (by decide) (by decide) (pr 25 (by decide)) (by decide) fun ws hs hm => ?_
  refine ((C56_unchecked_partial ws hm).2.1 n (hp.bdd ws hs)).bind fun _ _ => ?_
  refine two h he (i := 26) (j := 27) (by decide) (by decide) (by decide) (by decide) (pr 26 (by decide)) hp.order (by decide)
    (fun _ => hp.ending) fun ws hs hm => ?_
  exact (energies hm (hp.dned ws hs) none nofun).bind fun _ _ => .ok _

/-- A word that is not less than a natural number is not less after its fraction is dropped. -/
theorem trunc_ge {x : Dbl} {n : Nat} {j : Int} (hg : x.geNat n = true) (ht : x.trunc? = some j) : (n : Int) ≤ j := by
  cases x with
  | nan => cases hg
  | inf s => cases ht
  | fin s m e =>
    cases s with
    | true =>
      simp only [Dbl.geNat, Bool.and_eq_true, beq_iff_eq] at hg
      obtain ⟨rfl, rfl⟩ := hg
      have hz : Dbl.truncMag 0 e = 0 := by unfold Dbl.truncMag; split <;> simp
      simp only [Dbl.trunc?, hz, Dbl.signed] at ht
      have := Option.some.inj ht
      omega
    | false =>
      simp only [Dbl.geNat] at hg
      simp only [Dbl.trunc?, Dbl.signed] at ht
      have := Option.some.inj ht
      subst this
      unfold Dbl.truncMag
      by_cases c : 0 ≤ e
      · rw [if_pos c] at hg ⊢
        have := of_decide_eq_true hg
        show (n : Int) ≤ ((m * 2 ^ e.toNat : Nat) : Int)
        exact_mod_cast this
      · rw [if_neg c] at hg ⊢
        have := of_decide_eq_true hg
        have hpos : 0 < 2 ^ (-e).toNat := Nat.pow_pos (by decide)
        have := (Nat.le_div_iff_mul_le hpos).mpr this
        show (n : Int) ≤ ((m / 2 ^ (-e).toNat : Nat) : Int)
        exact_mod_cast this

/-- A word that is not less than a positive number rounds to no negative number. -/
theorem round_ge {x : Dbl} {n : Nat} {u : Int} (hn : 1 ≤ n) (hg : x.geNat n = true) (hu : x.round? = some u) : 0 ≤ u := by
  cases x with
  | nan => cases hg
  | inf s => cases hu
  | fin s m e =>
    cases s with
    | true =>
      simp only [Dbl.geNat, Bool.and_eq_true, beq_iff_eq] at hg
      omega
    | false =>
      have := Option.some.inj hu
      subst this
      exact Int.natCast_nonneg _

theorem IXSS_value {xs : Words} (hm : Moderate xs) {i : Nat} (h1 : 1 ≤ i) (h2 : i ≤ xs.length) :
    ∃ v, Base.IXSS xs i = .ok v := by
  obtain ⟨v, e, a, b⟩ := hm.words xs[i - 1] (List.getElem_mem (by omega))
  refine ⟨v, ?_⟩
  unfold Base.IXSS Base.XSS Base.verifyIndex
  rw [if_neg (by omega), ok_bind, C56.deref_ok (by omega), ok_bind, e]
  unfold toInt32
  simp only
  rw [if_pos (by omega)]

/-- A block of a secondary particle is in place. -/
theorem particle_block {ixs : IXS} {ntype : Nat} (hl : 10 * ntype ≤ ixs.xss.length)
    (hm : Moderate ixs.xss) (h1 : ∀ k, 1 ≤ k → k ≤ 10 * ntype → ∀ v, Base.IXSS ixs.xss k = .ok v → 1 ≤ v)
    (h2 : ∀ x ∈ ixs.xss, ∀ v, x.round? = some v → v ≤ (d.xss.length : Int) + 1) {p i : Nat} (hp : 1 ≤ p)
    (hp' : p ≤ ntype) (hi : 1 ≤ i) (hi' : i ≤ 10) :
    ∃ start r, ixs.LLOC p i = .ok start ∧ CE.particleBlock d ixs p i = .ok r ∧ r.1 = start - 1 ∧ 1 ≤ start ∧ r.1 ≤ r.2 ∧
      r.2 ≤ d.xss.length := by
  have hk : (p - 1) * 10 + i ≤ 10 * ntype := by omega
  obtain ⟨v, hv⟩ := IXSS_value hm (i := (p - 1) * 10 + i) (by omega) (by omega)
  have m := C56.IXSS_moderate hm hv
  have v1 := h1 _ (by omega) hk v hv
  obtain ⟨x, hx, hr⟩ := C56.IXSS_round hv
  have v2 := h2 x (C56.XSS_mem hx).2.2 v hr
  have es : sizeOfInt v = v.toNat := by unfold sizeOfInt; omega
  have hll : ixs.LLOC p i = .ok v.toNat := by
    unfold IXS.LLOC
    rw [position_pos (by omega), hv, ok_bind, es]
    rfl
  have key : ∃ stop, CE.particleEnd ixs p i v.toNat = .ok stop ∧ (stop = 0 ∨ v.toNat ≤ stop ∧ stop ≤ d.xss.length + 1) := by
    unfold CE.particleEnd
    obtain ⟨ws, hw⟩ := C56.sub_ok (xs := ixs.xss) (l := (p - 1) * 10 + i) (r := ixs.xss.length) (by omega) (Nat.le_refl _)
    rw [hw, ok_bind]
    cases hf : ws.find? (fun value => value.geNat v.toNat) with
    | none => exact ⟨0, rfl, .inl rfl⟩
    | some y =>
      have hy := (C56.sub_mem hw).2.2 y (List.mem_of_find?_eq_some hf)
      have hg : y.geNat v.toNat = true := List.find?_some (p := fun value : Dbl => value.geNat v.toNat) hf
      obtain ⟨u, u1, u2, u3⟩ := hm.words y hy
      obtain ⟨j, j1, j2, j3⟩ := C56.trunc_of_round u1
      have hge := trunc_ge hg j1
      have u4 := h2 y hy u u1
      have u5 := round_ge (by omega) hg u1
      refine ⟨j.toNat, ?_, .inr (by omega)⟩
      simp only [j1, toSize]
      rw [if_pos (by omega)]
  obtain ⟨stop, k1, k2⟩ := key
  obtain ⟨r, r1, r2, r3, r4⟩ := range_ok (d := d) (start := v.toNat) (by omega) (by omega) k2
  refine ⟨v.toNat, r, hll, ?_, r2, by omega, r3, r4⟩
  unfold CE.particleBlock
  rw [hll, ok_bind, k1, ok_bind, r1]

theorem particle (h : InPlace d) {ixs : IXS} {ntro : NTRO} {ntype : Nat} (hl : 10 * ntype ≤ ixs.xss.length)
    (hm : Moderate ixs.xss) (h1 : ∀ k, 1 ≤ k → k ≤ 10 * ntype → ∀ v, Base.IXSS ixs.xss k = .ok v → 1 ≤ v)
    (h2 : ∀ x ∈ ixs.xss, ∀ v, x.round? = some v → v ≤ (d.xss.length : Int) + 1) {p : Nat} (hp : 1 ≤ p)
    (hp' : p ≤ ntype) (hn : ∃ n, ntro.NP p = .ok n) (hr : ∀ n, ntro.NP p = .ok n → ParticleReady d ixs p n) :
    EndsChecked (CE.readParticle d ntro ixs p) := by
  have blk := fun i hi hi' => particle_block (i := i) hl hm h1 h2 hp hp' hi hi'
  have one : ∀ i, 1 ≤ i → i ≤ 10 → ∀ {α : Type} {f : Words → Res α},
      (∀ ws, ParticleStretch d ixs p i i ws → Moderate ws → EndsChecked (f ws)) →
      EndsChecked (CE.particleBlock d ixs p i >>= fun r => d.words r >>= f) := by
    intro i hi hi' α f hf
    obtain ⟨_, r, _, e, _, _, a, b⟩ := blk i hi hi'
    obtain ⟨ws, hw⟩ := C56.sub_ok a b
    rw [e, ok_bind]
    unfold TableData.words
    rw [hw, ok_bind]
    exact hf ws ⟨r, r, e, e, hw⟩ (C56.Moderate.sub h.moderate hw)
  have two : ∀ i, 1 ≤ i → i + 1 ≤ 10 → (∀ a b, ixs.LLOC p i = .ok a → ixs.LLOC p (i + 1) = .ok b → a ≤ b) →
      ∀ {α : Type} {f : Words × Nat → Res α},
      (∀ ws a b, ixs.LLOC p i = .ok a → ixs.LLOC p (i + 1) = .ok b → ParticleStretch d ixs p i (i + 1) ws →
        Moderate ws → EndsChecked (f (ws, b - a))) →
      EndsChecked (CE.particleBlock d ixs p i >>= fun a => CE.particleBlock d ixs p (i + 1) >>= fun b =>
        CE.located d a b >>= f) := by
    intro i hi hi' ho α f hf
    obtain ⟨s, r, l1, e1, a1, a2, a3, a4⟩ := blk i hi (by omega)
    obtain ⟨s', r', l2, e2, b1, b2, b3, b4⟩ := blk (i + 1) (by omega) hi'
    have o := ho s s' l1 l2
    obtain ⟨ws, hw⟩ := C56.sub_ok (xs := d.xss) (l := r.1) (r := r'.2) (by omega) b4
    rw [e1, ok_bind, e2, ok_bind]
    unfold CE.located
    rw [hw, ok_bind]
    have : r'.1 - r.1 = s' - s := by omega
    rw [this]
    exact hf ws s s' l1 l2 ⟨r, r', e1, e2, hw⟩ (C56.Moderate.sub h.moderate hw)
  unfold CE.readParticle
  obtain ⟨n, hn⟩ := hn
  have hr := hr n hn
  refine one 1 (by decide) (by decide) fun ws hs hw => ?_
  refine ((C56_unchecked_partial ws hw).2.2.2 (hr.hpd ws hs)).bind fun _ _ => ?_
  rw [hn, ok_bind]
  refine one 2 (by decide) (by decide) fun ws _ _ => ?_
  refine (EndsChecked.of_ends ((C56_arrays ws).1 n).2.2.2.1).bind fun _ _ => ?_
  refine one 3 (by decide) (by decide) fun ys _ hw => ?_
  refine ((C56_counted_partial ys hw).2.2.2.2.2 n).bind fun tyrh ht => ?_
  refine two 4 (by decide) (by decide) (hr.order 4 (by decide)) fun ws a b ha hb hs hw => ?_
  refine (yields (hr.sigh ws a b ha hb hs)).1.bind fun _ _ => ?_
  refine two 6 (by decide) (by decide) (hr.order 6 (by decide)) fun ws a b ha hb hs hw => ?_
  refine (C56_angular_block_partial ws hw _ n false).bind fun _ _ => ?_
  refine two 8 (by decide) (by decide) (hr.order 8 (by decide)) fun ws a b ha hb hs hw => ?_
  refine (energies hw (hr.dlwh ws a b ha hb hs) (some tyrh) fun t e => ?_).bind fun _ _ => ?_
  · have := Option.some.inj e
    subst this
    exact ⟨ys, n, ht, Nat.le_refl _⟩
  refine one 10 (by decide) (by decide) fun ws _ hw => ?_
  exact ((C56_counted_partial ws hw).2.2.2.1).bind fun _ _ => .ok _

theorem secondaries (h : InPlace d) (he : EndsInPlace d) {ntype : Nat} (hn : d.count 7 = .ok ntype) (hpos : 0 < ntype)
    (hp : SecondariesReady d ntype) : EndsChecked (CE.readSecondaries d) := by
  have pr : ∀ i, i ∈ [30, 31, 32] → 1 ≤ jxsAt d i := hp.present
  have hlen := h.moderate.length
  have hin := hp.inside
  have h32 := pr 32 (by decide)
  unfold CE.readSecondaries
  rw [hn, ok_bind]
  refine one h he (i := 30) (by decide) (by decide) (pr 30 (by decide)) (by decide) fun ws _ _ => ?_
  refine (EndsChecked.of_ends ((C56_arrays ws).1 ntype).2.2.2.2.2.2.2.2.2.2.2.2.1).bind fun _ _ => ?_
  refine one h he (i := 31) (by decide) (by decide) (pr 31 (by decide)) (by decide) fun us hus hum => ?_
  refine (EndsChecked.of_ends ((C56_arrays us).1 ntype).2.2.2.2.2.2.2.2.2.2.2.2.2.2.2).bind fun ntro hntro => ?_
  have e32 : CE.block d 32 = .ok ((jxsAt d 32 - 1).toNat, (jxsAt d 32).toNat + ntype * 10) := by
    have hm := h.locators _ (jxs_mem h.sized (show 1 ≤ 32 by decide) (by decide))
    have e := size_eq hlen hm
    unfold CE.block CE.blockEnd TableData.locator
    rw [JXS_at h.sized (show 1 ≤ 32 by decide) (by decide)]
    simp only [ok_bind, pure_eq_ok]
    rw [if_pos trivial, hn, ok_bind, if_pos (by omega), e]
    unfold TableData.range
    rw [ok_bind, if_neg (by omega), if_neg (by omega), if_neg (by omega)]
    congr 1
    refine Prod.ext ?_ ?_
    · simp only; omega
    · simp only; omega
  obtain ⟨ws, hw⟩ := C56.sub_ok (xs := d.xss) (l := (jxsAt d 32 - 1).toNat) (r := (jxsAt d 32).toNat + ntype * 10)
    (by omega) (by omega)
  have hst : Stretch d 32 32 ws := ⟨_, _, e32, e32, hw⟩
  have hwm := C56.Moderate.sub h.moderate hw
  have hwl := (C56.sub_mem hw).1
  rw [e32, ok_bind]
  unfold TableData.words
  rw [hw, ok_bind]
  refine (EndsChecked.of_ends ((C56_arrays ws).1 ntype).2.2.2.2.2.2.2.2.2.2.2.2.2.1).bind fun ixs hixs => ?_
  have hx : ixs.xss = ws := by
    unfold IXS.ofRange at hixs
    obtain ⟨_, _, hixs⟩ := bind_eq_ok.mp hixs
    have := Except.ok.inj hixs
    subst this
    rfl
  have hu : ntro.xss = us ∧ ntype ≤ us.length := by
    unfold NTRO.ofRange at hntro
    obtain ⟨_, hg, hntro⟩ := bind_eq_ok.mp hntro
    have := Except.ok.inj hntro
    subst this
    have := guardThrow_eq_ok.mp hg
    simp at this
    exact ⟨rfl, this⟩
  obtain ⟨l1, l2⟩ := hp.locators ws hst
  refine EndsChecked.bind (EndsChecked.mapM _ fun p hpm => ?_) fun _ _ => .ok _
  obtain ⟨k, hk, rfl⟩ := List.mem_range'.mp hpm
  obtain ⟨v, hv⟩ := IXSS_value hum (i := 1 + 1 * k) (by omega) (by omega)
  refine particle h (ixs := ixs) (ntro := ntro) (ntype := ntype) (by rw [hx]; omega) (hx ▸ hwm) (hx ▸ l1) (hx ▸ l2) (by omega)
    (by omega) ?_ fun n hnp => hp.particles ws us ixs ntro _ n hst hixs hus hntro (by omega) (by omega) hnp
  unfold NTRO.NP
  rw [hu.1, hv]
  exact ⟨_, rfl⟩

end C60

/-- A continuous energy table whose locators are in place and whose blocks are ready is read or refused. -/
theorem C60_continuous_partial (zaid : List Char) (hz : zaid ≠ []) (d : TableData) (h : InPlace d) (he : EndsInPlace d)
    (hid : d.NXS 9 ≠ .ok 0 ∨ d.NXS 10 ≠ .ok 0 ∨ d.NXS 11 ≠ .ok 0)
    (hp : ∀ ntr nr, d.count 4 = .ok ntr → d.count 5 = .ok nr → PrincipalReady d ntr nr)
    (hg : ∀ n, d.count 6 = .ok n → 0 < n → PhotonsReady d n)
    (hu : ∀ ws, Stretch d 23 23 ws → TablesReady ws)
    (hdn : ∀ ws, Stretch d 24 24 ws → NuReady ws)
    (hdl : ∀ n, d.count 8 = .ok n → 0 < n → DelayedReady d n)
    (hs : ∀ n, d.count 7 = .ok n → 0 < n → SecondariesReady d n) : EndsChecked (CE.ofTable zaid d) := by
  unfold CE.ofTable CE.generateBlocks
  refine (C60.verifyType_checked _ hz).bind fun _ _ => ?_
  rw [C36_stored d h.sized zaid hid, ok_bind]
  obtain ⟨ntr, c4⟩ : ∃ n, d.count 4 = .ok n := ⟨_, C60.count_at h.sized (by decide) (by decide)⟩
  obtain ⟨nr, c5⟩ : ∃ n, d.count 5 = .ok n := ⟨_, C60.count_at h.sized (by decide) (by decide)⟩
  obtain ⟨n6, c6⟩ : ∃ n, d.count 6 = .ok n := ⟨_, C60.count_at h.sized (by decide) (by decide)⟩
  obtain ⟨n7, c7⟩ : ∃ n, d.count 7 = .ok n := ⟨_, C60.count_at h.sized (by decide) (by decide)⟩
  obtain ⟨n8, c8⟩ : ∃ n, d.count 8 = .ok n := ⟨_, C60.count_at h.sized (by decide) (by decide)⟩
  refine (C60.principal h he c4 c5 (hp ntr nr c4 c5)).bind fun _ _ => ?_
  rw [c6, c7, c8, C60.JXS_at h.sized (show 1 ≤ 23 by decide) (by decide),
    C60.JXS_at h.sized (show 1 ≤ 24 by decide) (by decide)]
  simp only [ok_bind]
  refine (C60.onlyIf_checked fun hc => C60.photons h he c6 (hg n6 c6 (of_decide_eq_true hc))).bind fun _ _ => ?_
  refine (C60.onlyIf_checked fun hc => ?_).bind fun _ _ => ?_
  · exact C60.one h he (i := 23) (by decide) (by decide) (of_decide_eq_true hc) (by decide) fun ws hs hm =>
      (C56_unchecked_partial ws hm).2.2.1 (hu ws hs)
  refine (C60.onlyIf_checked fun hc => ?_).bind fun _ _ => ?_
  · exact C60.one h he (i := 24) (by decide) (by decide) (of_decide_eq_true hc) (by decide) fun ws hs hm =>
      (C56_unchecked_partial ws hm).1 (hdn ws hs)
  refine (C60.onlyIf_checked fun hc => C60.delayed h he c8 (hdl n8 c8 (of_decide_eq_true hc))).bind fun _ _ => ?_
  exact (C60.onlyIf_checked fun hc => C60.secondaries h he c7 (of_decide_eq_true hc)
    (hs n7 c7 (of_decide_eq_true hc))).bind fun _ _ => .ok _

end ACE.Props

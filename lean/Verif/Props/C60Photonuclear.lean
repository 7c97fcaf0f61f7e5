import Verif.Props.C60Case

/-!
# C60, continued: photonuclear tables
-/

namespace ACE.Props
open ACE

/-- The words from the beginning of block `i` of a secondary particle to the end of its block `j`. -/
def NuclearStretch (d : TableData) (ixs : IXSU) (p i j : Nat) (ws : Words) : Prop :=
  ∃ a b : Nat × Nat, PN.particleBlock d ixs p i = .ok a ∧ PN.particleBlock d ixs p j = .ok b ∧
    sub d.xss a.1 b.2 = .ok ws

/-- The blocks of secondary particle `p` with `n` reactions: its locators are in order in pairs. -/
structure NuclearParticleReady (d : TableData) (ixs : IXSU) (p n : Nat) : Prop where
  order : ∀ i ∈ [7, 9, 11], ∀ a b, ixs.LLOC p i = .ok a → ixs.LLOC p (i + 1) = .ok b → a ≤ b
  sigh : ∀ ws a b, ixs.LLOC p 7 = .ok a → ixs.LLOC p 8 = .ok b → NuclearStretch d ixs p 7 8 ws → YieldsReady ws (b - a) n
  dlwh : ∀ ws a b, ixs.LLOC p 11 = .ok a → ixs.LLOC p 12 = .ok b → NuclearStretch d ixs p 11 12 ws →
    EnergiesReady ws (b - a) n

/-- The secondary particle blocks: the locators lead inside and the blocks of each particle are ready. The particle
types and the numbers of reactions are in the same array, and they can be taken for locators: they are not
larger than the table. -/
structure NuclearSecondariesReady (d : TableData) (ntype : Nat) : Prop where
  few : ntype < 268435456
  present : 1 ≤ jxsAt d 10
  locators : ∀ ws, AtomicStretch d 10 10 ws →
    (∀ p i, 1 ≤ p → p ≤ ntype → 3 ≤ i → i ≤ 12 → ∀ v, Base.IXSS ws ((p - 1) * 12 + i) = .ok v → 1 ≤ v) ∧
    ∀ x ∈ ws, ∀ v, x.round? = some v → v ≤ (d.xss.length : Int) + 1
  particles : ∀ ws ixs p n, AtomicStretch d 10 10 ws → IXSU.ofRange ws ntype = .ok ixs → 1 ≤ p → p ≤ ntype →
    ixs.NP p = .ok n → NuclearParticleReady d ixs p n

namespace C60
variable {d : TableData}

/-- A block of a secondary particle is in place. -/
theorem nuclear_block {ixs : IXSU} {ntype : Nat} (hl : 12 * ntype ≤ ixs.xss.length)
    (hm : Moderate ixs.xss)
    (h1 : ∀ p i, 1 ≤ p → p ≤ ntype → 3 ≤ i → i ≤ 12 → ∀ v, Base.IXSS ixs.xss ((p - 1) * 12 + i) = .ok v → 1 ≤ v)
    (h2 : ∀ x ∈ ixs.xss, ∀ v, x.round? = some v → v ≤ (d.xss.length : Int) + 1) {p i : Nat} (hp : 1 ≤ p)
    (hp' : p ≤ ntype) (hi : 3 ≤ i) (hi' : i ≤ 12) :
    ∃ start r, ixs.LLOC p i = .ok start ∧ PN.particleBlock d ixs p i = .ok r ∧ r.1 = start - 1 ∧ 1 ≤ start ∧ r.1 ≤ r.2 ∧
      r.2 ≤ d.xss.length := by
  have hk : (p - 1) * 12 + i ≤ 12 * ntype := by omega
  obtain ⟨v, hv⟩ := IXSS_value hm (i := (p - 1) * 12 + i) (by omega) (by omega)
  have m := C56.IXSS_moderate hm hv
  have v1 := h1 p i hp hp' hi hi' v hv
  obtain ⟨x, hx, hr⟩ := C56.IXSS_round hv
  have v2 := h2 x (C56.XSS_mem hx).2.2 v hr
  have es : sizeOfInt v = v.toNat := by unfold sizeOfInt; omega
  have hll : ixs.LLOC p i = .ok v.toNat := by
    unfold IXSU.LLOC
    rw [position_pos (by omega), hv, ok_bind, es]
    rfl
  have key : ∃ stop, PN.particleEnd ixs p i v.toNat = .ok stop ∧ (stop = 0 ∨ v.toNat ≤ stop ∧ stop ≤ d.xss.length + 1) := by
    unfold PN.particleEnd
    obtain ⟨ws, hw⟩ := C56.sub_ok (xs := ixs.xss) (l := (p - 1) * 12 + i) (r := ixs.xss.length) (by omega) (Nat.le_refl _)
    rw [hw, ok_bind]
    cases hf : ws.find? (fun value => value.geNat v.toNat) with
    | none => exact ⟨0, rfl, .inl rfl⟩
    | some y =>
      have hy := (C56.sub_mem hw).2.2 y (List.mem_of_find?_eq_some hf)
      have hg : y.geNat v.toNat = true := List.find?_some (p := fun value : Dbl => value.geNat v.toNat) hf
      obtain ⟨u, u1, u2, u3⟩ := hm.words y hy
      obtain ⟨j, j1, j2, j3⟩ := C56.trunc_of_round u1
      have hge := trunc_ge hg j1
      have u4 := h2 y hy u u1
      have u5 := round_ge (by omega) hg u1
      refine ⟨j.toNat, ?_, .inr (by omega)⟩
      simp only [j1, toSize]
      rw [if_pos (by omega)]
  obtain ⟨stop, k1, k2⟩ := key
  obtain ⟨r, r1, r2, r3, r4⟩ := range_ok (d := d) (start := v.toNat) (by omega) (by omega) k2
  refine ⟨v.toNat, r, hll, ?_, r2, by omega, r3, r4⟩
  unfold PN.particleBlock
  rw [hll, ok_bind, k1, ok_bind, r1]

theorem nuclear_particle (h : InPlace d) {ixs : IXSU} {ntype : Nat} (hl : 12 * ntype ≤ ixs.xss.length)
    (hm : Moderate ixs.xss)
    (h1 : ∀ p i, 1 ≤ p → p ≤ ntype → 3 ≤ i → i ≤ 12 → ∀ v, Base.IXSS ixs.xss ((p - 1) * 12 + i) = .ok v → 1 ≤ v)
    (h2 : ∀ x ∈ ixs.xss, ∀ v, x.round? = some v → v ≤ (d.xss.length : Int) + 1) {p : Nat} (hp : 1 ≤ p)
    (hp' : p ≤ ntype) (hr : ∀ n, ixs.NP p = .ok n → NuclearParticleReady d ixs p n) :
    EndsChecked (PN.readParticle d ixs p) := by
  have blk := fun i hi hi' => nuclear_block (d := d) (i := i) hl hm h1 h2 hp hp' hi hi'
  have one : ∀ i, 3 ≤ i → i ≤ 12 → ∀ {α : Type} {f : Words → Res α},
      (∀ ws, Moderate ws → EndsChecked (f ws)) →
      EndsChecked (PN.particleBlock d ixs p i >>= fun r => d.words r >>= f) := by
    intro i hi hi' α f hf
    obtain ⟨_, r, _, e, _, _, a, b⟩ := blk i hi hi'
    rw [e, ok_bind]
    exact place_words h a b fun ws _ hm => hf ws hm
  have two : ∀ i, 3 ≤ i → i + 1 ≤ 12 → (∀ a b, ixs.LLOC p i = .ok a → ixs.LLOC p (i + 1) = .ok b → a ≤ b) →
      ∀ {α : Type} {f : Words × Nat → Res α},
      (∀ ws a b, ixs.LLOC p i = .ok a → ixs.LLOC p (i + 1) = .ok b → NuclearStretch d ixs p i (i + 1) ws →
        Moderate ws → EndsChecked (f (ws, b - a))) →
      EndsChecked (PN.particleBlock d ixs p i >>= fun a => PN.particleBlock d ixs p (i + 1) >>= fun b =>
        CE.located d a b >>= f) := by
    intro i hi hi' ho α f hf
    obtain ⟨s, r, l1, e1, a1, a2, a3, a4⟩ := blk i hi (by omega)
    obtain ⟨s', r', l2, e2, b1, b2, b3, b4⟩ := blk (i + 1) (by omega) hi'
    have o := ho s s' l1 l2
    obtain ⟨ws, hw⟩ := C56.sub_ok (xs := d.xss) (l := r.1) (r := r'.2) (by omega) b4
    rw [e1, ok_bind, e2, ok_bind]
    unfold CE.located
    rw [hw, ok_bind]
    have : r'.1 - r.1 = s' - s := by omega
    rw [this]
    exact hf ws s s' l1 l2 ⟨r, r', e1, e2, hw⟩ (C56.Moderate.sub h.moderate hw)
  unfold PN.readParticle
  have hn : ∃ n, ixs.NP p = .ok n := by
    obtain ⟨v, hv⟩ := IXSS_value hm (i := (p - 1) * 12 + 2) (by omega) (by omega)
    unfold IXSU.NP IXSU.LLOC
    rw [position_pos (by omega), hv]
    exact ⟨_, rfl⟩
  obtain ⟨n, hn⟩ := hn
  have hr := hr n hn
  refine one 3 (by decide) (by decide) fun ws hw => ((C56_counted_partial ws hw).1).bind fun _ _ => ?_
  refine one 4 (by decide) (by decide) fun ws hw => ((C56_counted_partial ws hw).1).bind fun _ _ => ?_
  rw [hn, ok_bind]
  refine one 5 (by decide) (by decide) fun ws _ => ?_
  refine (EndsChecked.of_ends ((C56_arrays ws).1 n).2.2.2.1).bind fun _ _ => ?_
  refine one 6 (by decide) (by decide) fun ys hw => ?_
  refine ((C56_counted_partial ys hw).2.2.2.2.2 n).bind fun tyrh ht => ?_
  refine two 7 (by decide) (by decide) (hr.order 7 (by decide)) fun ws a b ha hb hs hw => ?_
  refine (yields (hr.sigh ws a b ha hb hs)).1.bind fun _ _ => ?_
  refine two 9 (by decide) (by decide) (hr.order 9 (by decide)) fun ws a b ha hb hs hw => ?_
  refine (C56_angular_block_partial ws hw _ n false).bind fun _ _ => ?_
  refine two 11 (by decide) (by decide) (hr.order 11 (by decide)) fun ws a b ha hb hs hw => ?_
  refine (energies hw (hr.dlwh ws a b ha hb hs) (some tyrh) fun t e => ?_).bind fun _ _ => .ok _
  have := Option.some.inj e
  subst this
  exact ⟨ys, n, ht, Nat.le_refl _⟩

theorem nuclear_secondaries (h : InPlace d) {ntype : Nat} (hp : NuclearSecondariesReady d ntype) :
    EndsChecked (PN.readSecondaries d ntype) := by
  have few := hp.few
  obtain ⟨r, e, _, h4, h5⟩ := PA_place h (show 1 ≤ 10 by decide) (by decide) hp.present
  unfold PN.readSecondaries PN.block
  rw [e, ok_bind]
  refine place_words h h4 h5 fun ws hw hm => ?_
  have hst : AtomicStretch d 10 10 ws := ⟨_, _, e, e, hw⟩
  refine (EndsChecked.of_ends ((C56_arrays ws).1 ntype).2.2.2.2.2.2.2.2.2.2.2.2.2.2.1).bind fun ixs hixs => ?_
  have hx : ixs.xss = ws ∧ 12 * ntype ≤ ws.length := by
    unfold IXSU.ofRange at hixs
    obtain ⟨_, hg, hixs⟩ := bind_eq_ok.mp hixs
    have := Except.ok.inj hixs
    subst this
    have := guardThrow_eq_ok.mp hg
    simp at this
    rw [Nat.mod_eq_of_lt (by omega)] at this
    exact ⟨rfl, this⟩
  obtain ⟨l1, l2⟩ := hp.locators ws hst
  refine EndsChecked.bind (EndsChecked.mapM _ fun p hpm => ?_) fun _ _ => .ok _
  obtain ⟨k, hk, rfl⟩ := List.mem_range'.mp hpm
  exact nuclear_particle h (ixs := ixs) (ntype := ntype) (by rw [hx.1]; exact hx.2) (hx.1 ▸ hm) (hx.1 ▸ l1) (hx.1 ▸ l2)
    (by omega) (by omega) fun n hnp => hp.particles ws ixs _ n hst hixs (by omega) (by omega) hnp

end C60

/-- A photonuclear table whose blocks are present and in order, and whose secondary particles, if there are any, are
ready, is read or refused. -/
theorem C60_photonuclear_partial (zaid : List Char) (hz : zaid ≠ []) (d : TableData) (h : InPlace d)
    (hid : d.NXS 9 ≠ .ok 0 ∨ d.NXS 10 ≠ .ok 0 ∨ d.NXS 11 ≠ .ok 0)
    (hp : 1 ≤ jxsAt d 1 ∧ jxsAt d 1 ≤ jxsAt d 6 ∧ 1 ≤ jxsAt d 7 ∧ 1 ≤ jxsAt d 8 ∧ jxsAt d 8 ≤ jxsAt d 9)
    (ho : ∀ ntr, d.count 4 = .ok ntr → OrderedAt d 8 ntr)
    (hs : ∀ ntype, d.count 5 = .ok ntype → 0 < ntype → NuclearSecondariesReady d ntype) :
    EndsChecked (PN.ofTable zaid d) := by
  unfold PN.ofTable PN.generateBlocks PN.block CE.located
  refine (C60.verifyType_checked _ hz).bind fun _ _ => ?_
  rw [C36_stored d h.sized zaid hid]
  simp only [ok_bind]
  obtain ⟨p1, p6, p7, p8, p9⟩ := hp
  obtain ⟨r1, e1, a1, b1, d1⟩ := C60.PA_place h (show 1 ≤ 1 by decide) (by decide) p1
  obtain ⟨r6, e6, a6, b6, d6⟩ := C60.PA_place h (show 1 ≤ 6 by decide) (by decide) (by omega)
  obtain ⟨r7, e7, a7, b7, d7⟩ := C60.PA_place h (show 1 ≤ 7 by decide) (by decide) p7
  obtain ⟨r8, e8, a8, b8, d8⟩ := C60.PA_place h (show 1 ≤ 8 by decide) (by decide) p8
  obtain ⟨r9, e9, a9, b9, d9⟩ := C60.PA_place h (show 1 ≤ 9 by decide) (by decide) (by omega)
  have c4 := C60.count_at h.sized (show 1 ≤ 4 by decide) (by decide)
  have c5 := C60.count_at h.sized (show 1 ≤ 5 by decide) (by decide)
  rw [C60.JXS_at h.sized (show 1 ≤ 4 by decide) (by decide), e1, e6, e7, e8, e9, c4, c5,
    C60.count_at h.sized (show 1 ≤ 3 by decide) (by decide)]
  simp only [ok_bind, bind_assoc]
  refine C60.place_words h (by omega) (by omega) fun ws _ _ => ?_
  refine (EndsChecked.of_ends ((C56_arrays ws).2.1 _ _).1).bind fun _ _ => ?_
  refine C60.place_words h b6 d6 fun w6 _ _ => ?_
  refine (EndsChecked.of_ends ((C56_arrays w6).1 _).2.2.2.1).bind fun _ _ => ?_
  refine C60.place_words h b7 d7 fun w7 _ _ => ?_
  refine (EndsChecked.of_ends ((C56_arrays w7).1 _).2.1).bind fun _ _ => ?_
  refine C60.place_words h (by omega) d9 fun ls hls hg => ?_
  simp only [pure_eq_ok, ok_bind]
  refine EndsChecked.bind ?_ fun _ _ => (C60.onlyIf_checked fun hc => ?_).bind fun _ _ => .ok _
  · have ho := ho _ c4
    unfold OrderedAt at ho
    rw [← a8] at ho
    exact C56.LocBlock_checked hg (C60.order_sub ho hls) fun _ _ _ ws _ _ _ hw =>
      (C56_counted_partial ws (C56.Moderate.sub hg hw)).1
  · exact C60.nuclear_secondaries h (hs _ c5 (of_decide_eq_true hc))

/-! ## The hypotheses can be met -/

open C60

example : EndsChecked (PN.ofTable "92235.70u".toList exPNData) :=
  C60_photonuclear_partial _ (by decide) _ (regular_of (by decide +kernel)).toInPlace (by decide +kernel) (by decide +kernel)
    (fun ntr h => by
      have e : exPNData.count 4 = .ok 2 := by decide +kernel
      obtain rfl := Except.ok.inj (e.symm.trans h)
      exact ordered_of (by decide +kernel)) fun n h hn => by
      have e : exPNData.count 5 = .ok 0 := by decide +kernel
      obtain rfl := Except.ok.inj (e.symm.trans h)
      omega


namespace C60

/-- The photonuclear table of C33 with neutrons and protons. -/
def exNuclear : TableData := made (PN.generateData 92 235 0 (exPNBlocks [1, 9]).input)
/-- Its locators. -/
def exIxsu : IXSU := ⟨naturals [1, 1, 47, 51, 54, 55, 56, 57, 65, 66, 66, 67, 9, 1, 78, 82, 85, 86, 87, 88, 96, 97, 97, 98], 2⟩

/-- The stretch of two blocks of a secondary particle. -/
def nuclearStretch (d : TableData) (ixs : IXSU) (p i j : Nat) : Res Words := do
  let a ← PN.particleBlock d ixs p i
  let b ← PN.particleBlock d ixs p j
  sub d.xss a.1 b.2

theorem nuclearStretch_of {d : TableData} {ixs : IXSU} {p i j : Nat} {ws vs : Words} (h : NuclearStretch d ixs p i j ws)
    (e : nuclearStretch d ixs p i j = .ok vs) : ws = vs := by
  obtain ⟨a, b, ha, hb, hs⟩ := h
  unfold nuclearStretch at e
  rw [ha, ok_bind, hb, ok_bind, hs] at e
  exact Except.ok.inj e

set_option maxRecDepth 10000 in
theorem exNuclear_particle {p : Nat} (hp : p ∈ [1, 2]) : NuclearParticleReady exNuclear exIxsu p 1 := by
  have l : ∀ p ∈ [1, 2], ∀ i ∈ [7, 9, 11], inOrder (exIxsu.LLOC p i) (exIxsu.LLOC p (i + 1)) = true := by decide +kernel
  have s : ∀ p ∈ [1, 2], ∀ i ∈ [7, 11], exIxsu.LLOC p i >>= (fun a => exIxsu.LLOC p (i + 1) >>= fun b => pure (b - a)) = .ok 1 := by
    decide +kernel
  have one : ∀ i ∈ [7, 11], ∀ a b, exIxsu.LLOC p i = .ok a → exIxsu.LLOC p (i + 1) = .ok b → b - a = 1 := by
    intro i hi a b ha hb
    have := s p hp i hi
    rw [ha, ok_bind, hb, ok_bind] at this
    exact Except.ok.inj this
  have e7 : ∀ p ∈ [1, 2], nuclearStretch exNuclear exIxsu p 7 8 = .ok (naturals [1, 12, 5, 0, 2, 1, 20, 1, 1]) := by
    decide +kernel
  have e11 : ∀ p ∈ [1, 2], nuclearStretch exNuclear exIxsu p 11 12 = .ok exLaw := by decide +kernel
  refine ⟨fun i hi a b ha hb => ?_, fun ws a b ha hb hs => ?_, fun ws a b ha hb hs => ?_⟩
  · have := l p hp i hi
    rw [ha, hb] at this
    exact of_decide_eq_true this
  · obtain rfl := nuclearStretch_of hs (e7 p hp)
    rw [one 7 (by decide) a b ha hb]
    exact ⟨C56.nonNegative_of (by decide +kernel) (by decide +kernel), one_in_order _,
      one_located (l := 1) (ws := naturals [12, 5, 0, 2, 1, 20, 1, 1]) (by decide +kernel) (by decide +kernel) (by decide)⟩
  · obtain rfl := nuclearStretch_of hs (e11 p hp)
    rw [one 11 (by decide) a b ha hb]
    exact exLaw_energies

set_option maxRecDepth 10000 in
theorem exNuclear_ready : NuclearSecondariesReady exNuclear 2 where
  few := by decide
  present := by decide +kernel
  locators := fun ws hs => by
    obtain rfl := atomic_of (vs := exIxsu.xss) (a := (22, 46)) (b := (22, 46)) hs (by decide +kernel) (by decide +kernel)
      (by decide +kernel)
    refine ⟨fun p i h1 h2 h3 h4 v hv => ?_, fun x hx v hv => ?_⟩
    · have e : ∀ p ∈ [1, 2], ∀ i ∈ List.range' 3 10,
          (Base.IXSS exIxsu.xss ((p - 1) * 12 + i)).toOption.any (fun v => decide (1 ≤ v)) = true := by decide +kernel
      have := e p (by simp only [List.mem_cons, List.not_mem_nil, or_false]; omega) i (by rw [List.mem_range'_1]; omega)
      rw [hv] at this
      exact of_decide_eq_true this
    · have e : exIxsu.xss.all (fun x => x.round?.any fun v => decide (v ≤ 108)) = true := by decide +kernel
      have e' : exNuclear.xss.length = 108 := by decide +kernel
      have := List.all_eq_true.mp e x hx
      rw [hv] at this
      have := of_decide_eq_true this
      omega
  particles := fun ws ixs p n hs hi h1 h2 hn => by
    obtain rfl := atomic_of (vs := exIxsu.xss) (a := (22, 46)) (b := (22, 46)) hs (by decide +kernel) (by decide +kernel)
      (by decide +kernel)
    have e : IXSU.ofRange exIxsu.xss 2 = .ok exIxsu := by decide +kernel
    obtain rfl := Except.ok.inj (e.symm.trans hi)
    have hp : p ∈ [1, 2] := by
      simp only [List.mem_cons, List.not_mem_nil, or_false]
      omega
    have e : ∀ p ∈ [1, 2], exIxsu.NP p = .ok 1 := by decide +kernel
    obtain rfl := Except.ok.inj ((e p hp).symm.trans hn)
    exact exNuclear_particle hp

end C60

example : (PN.ofTable "92235.70u".toList exNuclear).toOption.isSome ∧ EndsChecked (PN.ofTable "92235.70u".toList exNuclear) :=
  ⟨by decide +kernel,
  C60_photonuclear_partial _ (by decide) _ (inPlace_of (by decide +kernel)) (by decide +kernel) (by decide +kernel)
    (fun ntr h => by
      have e : exNuclear.count 4 = .ok 2 := by decide +kernel
      obtain rfl := Except.ok.inj (e.symm.trans h)
      exact ordered_of (by decide +kernel)) fun n h _ => by
      have e : exNuclear.count 5 = .ok 2 := by decide +kernel
      obtain rfl := Except.ok.inj (e.symm.trans h)
      exact exNuclear_ready⟩

end ACE.Props

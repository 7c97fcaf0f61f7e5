import Verif.Props.C60Continuous

/-!
# C60, a case: a continuous energy table with all kinds of blocks

The table of C28 with 194 words: two reactions, one photon, one probability table, one precursor group and two
secondary particle types. It meets every hypothesis of `C60_continuous_partial`, and so does the table with one word
less, which is refused.
-/

namespace ACE.Props
open ACE
namespace C60

/-- The table of C28. -/
def exCE : TableData := made (CE.generateData 92 235 0 exBlocks.input)

/-- Natural numbers as words. -/
def naturals : List Nat → Words := List.map Dbl.ofNat

/-- The energy distribution data of all reactions of the table, with their locator. -/
def exLaw : Words := naturals [1, 0, 3, 10, 0, 2, 1, 20, 1, 1, 3, 4]

theorem exLaw_ready : DataReady 1 exLaw.tail := by
  refine .inl ⟨by decide +kernel, ⟨3, 10, 0, 2, by decide +kernel, by decide, by decide +kernel, by decide +kernel,
    by decide +kernel, by decide, by decide, by decide, by decide, fun ws hw => ?_⟩⟩
  refine C56.simple (by decide) (by decide) (by decide) _ (C56.NonNegative.sub (xs := exLaw.tail) ?_ hw)
  exact C56.nonNegative_of (by decide +kernel) (by decide +kernel)

/-- One locator is in order. -/
theorem one_in_order (xs : Words) : LocatorsInOrder xs 1 true := by
  intro i a b hi ha _
  obtain rfl : i = 0 := by omega
  unfold LocBlock.LLOCof LocBlock.verifyDataIndex at ha
  rw [if_pos (by omega)] at ha
  cases ha

/-- The data of one locator. -/
theorem one_located {xs ws : Words} {iter l : Nat} {P : Nat → Words → Prop} (hl : LocBlock.LLOCof xs 1 true 1 = .ok l)
    (hs : sub xs (iter + l - 1) xs.length = .ok ws) (h : P l ws) : Located xs iter 1 P := by
  intro i locator right vs hi hl' hr hs'
  obtain rfl : i = 0 := by omega
  obtain rfl := Except.ok.inj (hl.symm.trans hl')
  obtain rfl : right = xs.length := hr.elim (·.2) fun ⟨next, hn, _⟩ => by
    unfold LocBlock.LLOCof LocBlock.verifyDataIndex at hn
    rw [if_pos (by omega)] at hn
    cases hn
  obtain rfl := Except.ok.inj (hs.symm.trans hs')
  exact h

theorem exLaw_energies : EnergiesReady exLaw 1 1 :=
  ⟨one_in_order _, one_located (l := 1) (ws := exLaw.tail) (by decide +kernel) (by decide +kernel) fun _ => exLaw_ready⟩

theorem stretch_eq {d : TableData} {i j : Nat} {a b : Nat × Nat} {ws vs : Words} (h : Stretch d i j ws)
    (ha : CE.block d i = .ok a) (hb : CE.block d j = .ok b) (hs : sub d.xss a.1 b.2 = .ok vs) : ws = vs := by
  obtain ⟨a', b', ha', hb', hs'⟩ := h
  obtain rfl := Except.ok.inj (ha.symm.trans ha')
  obtain rfl := Except.ok.inj (hb.symm.trans hb')
  exact Except.ok.inj (hs'.symm.trans hs)

/-- The stretch of two blocks. -/
def stretch (d : TableData) (i j : Nat) : Res Words := do
  let a ← CE.block d i
  let b ← CE.block d j
  sub d.xss a.1 b.2

theorem stretch_of {d : TableData} {i j : Nat} {ws vs : Words} (h : Stretch d i j ws) (e : stretch d i j = .ok vs) :
    ws = vs := by
  obtain ⟨a, b, ha, hb, hs⟩ := h
  unfold stretch at e
  rw [ha, ok_bind, hb, ok_bind, hs] at e
  exact Except.ok.inj e

/-- The stretch of two blocks of a secondary particle. -/
def particleStretch (d : TableData) (ixs : IXS) (p i j : Nat) : Res Words := do
  let a ← CE.particleBlock d ixs p i
  let b ← CE.particleBlock d ixs p j
  sub d.xss a.1 b.2

theorem particleStretch_of {d : TableData} {ixs : IXS} {p i j : Nat} {ws vs : Words} (h : ParticleStretch d ixs p i j ws)
    (e : particleStretch d ixs p i j = .ok vs) : ws = vs := by
  obtain ⟨a, b, ha, hb, hs⟩ := h
  unfold particleStretch at e
  rw [ha, ok_bind, hb, ok_bind, hs] at e
  exact Except.ok.inj e

/-- Two locators in order. -/
theorem two_in_order {xs : Words} {a b : Nat} (ha : LocBlock.LLOCof xs 2 true 1 = .ok a)
    (hb : LocBlock.LLOCof xs 2 true 2 = .ok b) (h : a ≤ b) : LocatorsInOrder xs 2 true := by
  intro i a' b' hi ha' hb'
  obtain rfl | rfl : i = 0 ∨ i = 1 := by omega
  · unfold LocBlock.LLOCof LocBlock.verifyDataIndex at ha'
    rw [if_pos (by omega)] at ha'
    cases ha'
  · obtain rfl := Except.ok.inj (ha.symm.trans ha')
    obtain rfl := Except.ok.inj (hb.symm.trans hb')
    exact h

/-- The locators of the blocks of the secondary particles. -/
def exIxs : IXS := ⟨naturals [131, 137, 138, 139, 140, 148, 149, 149, 150, 161,
    163, 169, 170, 171, 172, 180, 181, 181, 182, 193, 1], 2⟩
/-- The numbers of reactions of the secondary particles. -/
def exNtro : NTRO := ⟨naturals [1, 1], 2⟩

/-- The number of words does not count: the same holds for all tables that have the same blocks. -/
structure SameBlocks (d : TableData) : Prop where
  place : InPlace d
  ends : EndsInPlace d
  nxs : d.nxs = exCE.nxs
  jxs : d.jxs = exCE.jxs
  nu : stretch d 2 2 = .ok (naturals [1, 1, 2])
  sig : stretch d 6 7 = .ok (naturals [1, 5, 1, 2, 5, 6, 1, 2, 7, 8])
  tyr : stretch d 5 5 = .ok (naturals [2, 0])
  dlw : stretch d 10 11 = .ok exLaw
  sigp : stretch d 14 15 = .ok (naturals [1, 13, 1, 2, 1, 2])
  dlwp : stretch d 18 19 = .ok exLaw
  unr : stretch d 23 23 = .ok (naturals [1, 1, 2, 0, 0, 1, 1, 1, 1, 1, 1, 1, 1])
  dnu : stretch d 24 24 = .ok (naturals [2, 0, 2, 1, 20, 1, 1])
  bdd : stretch d 25 25 = .ok (naturals [1, 0, 2, 1, 20, 1, 1])
  dned : stretch d 26 27 = .ok exLaw
  ntro : stretch d 31 31 = .ok (naturals [1, 1])
  ixs : stretch d 32 32 = .ok (naturals [131, 137, 138, 139, 140, 148, 149, 149, 150, 161,
    163, 169, 170, 171, 172, 180, 181, 181, 182, 193, 1])
  hpd : ∀ p ∈ [1, 2], particleStretch d exIxs p 1 1 = .ok (naturals [p, 2, 1, 2, 1, 2])
  sigh : ∀ p ∈ [1, 2], particleStretch d exIxs p 4 5 = .ok (naturals [1, 12, 5, 0, 2, 1, 20, 1, 1])
  dlwh : ∀ p ∈ [1, 2], particleStretch d exIxs p 8 9 = .ok exLaw

variable {d : TableData}

theorem nu_ready {xs : Words} (x : Dbl) (flag : Nat) (e : Base.XSS xs 1 = .ok x) (hx : x.isNeg = false)
    (h : Base.IXSS xs 1 = .ok (flag : Int)) (hc : NonNegative (xs.drop 1)) : NuReady xs := by
  intro y hy
  obtain rfl := Except.ok.inj (e.symm.trans hy)
  refine ⟨fun _ => ⟨flag, h, fun _ => C56.NonNegative.counted hc⟩, fun h => ?_⟩
  rw [hx] at h
  cases h

theorem tyr_eq {d : TableData} (h : SameBlocks d) {ys : Words} {tyr : TYR} (hy : Stretch d 5 5 ys)
    (ht : TYR.ofRange ys 2 = .ok tyr) : tyr = ⟨naturals [2, 0], 2, [.laboratory, .laboratory], [2, 0]⟩ := by
  obtain rfl := stretch_of hy h.tyr
  have e : TYR.ofRange (naturals [2, 0]) 2 = .ok ⟨naturals [2, 0], 2, [.laboratory, .laboratory], [2, 0]⟩ := by
    decide +kernel
  exact Except.ok.inj (ht.symm.trans e)

theorem principal_ready (h : SameBlocks d) : PrincipalReady d 2 1 where
  present := by
    unfold jxsAt
    rw [h.jxs]
    decide +kernel
  order := by
    unfold jxsAt
    rw [h.jxs]
    decide +kernel
  neutrons := by decide
  nu := fun ws hs => by
    obtain rfl := stretch_of hs h.nu
    exact nu_ready (Dbl.ofNat 1) 1 (by decide +kernel) (by decide +kernel) (by decide +kernel)
      (C56.nonNegative_of (by decide +kernel) (by decide +kernel))
  sig := fun ws hs => by
    obtain rfl := stretch_of hs h.sig
    exact two_in_order (a := 1) (b := 5) (by decide +kernel) (by decide +kernel) (by decide)
  dlw := fun ws ys tyr hs hy ht i hi => by
    obtain rfl := tyr_eq h hy ht
    obtain rfl := stretch_of hs h.dlw
    obtain rfl : i = 0 := by omega
    have e : DLW.LDLWof exLaw 1 1 = .ok 1 := by decide +kernel
    have r : DLW.rightOf exLaw 1 ⟨naturals [2, 0], 2, [.laboratory, .laboratory], [2, 0]⟩ 1 = .ok 12 := by decide +kernel
    have m : TYR.multiplicity ⟨naturals [2, 0], 2, [.laboratory, .laboratory], [2, 0]⟩ 1 = .ok 2 := by decide +kernel
    refine ⟨fun v hv => ?_, fun locator right hl _ hr => ?_, fun k locator hk h100 _ => ?_⟩
    · have := Except.ok.inj (e.symm.trans hv)
      omega
    · obtain rfl : locator = 1 := by
        have := Except.ok.inj (e.symm.trans hl)
        omega
      obtain rfl := Except.ok.inj (r.symm.trans hr)
      refine ⟨by decide, fun ws hw => ?_⟩
      have e : sub exLaw 1 12 = .ok exLaw.tail := by decide +kernel
      obtain rfl := Except.ok.inj (e.symm.trans hw)
      exact exLaw_ready
    · have := Except.ok.inj (m.symm.trans hk)
      omega

theorem photons_ready (h : SameBlocks d) : PhotonsReady d 1 where
  present := by
    unfold jxsAt
    rw [h.jxs]
    decide +kernel
  order := by
    unfold jxsAt
    rw [h.jxs]
    decide +kernel
  sigp := fun ws hs => by
    obtain rfl := stretch_of hs h.sigp
    have e : (jxsAt d 15 - jxsAt d 14).toNat = 1 := by
      unfold jxsAt
      rw [h.jxs]
      decide +kernel
    rw [e]
    exact ⟨C56.nonNegative_of (by decide +kernel) (by decide +kernel), one_in_order _,
      one_located (l := 1) (ws := naturals [13, 1, 2, 1, 2]) (by decide +kernel) (by decide +kernel) (by decide)⟩
  dlwp := fun ws hs => by
    obtain rfl := stretch_of hs h.dlwp
    have e : (jxsAt d 19 - jxsAt d 18).toNat = 1 := by
      unfold jxsAt
      rw [h.jxs]
      decide +kernel
    rw [e]
    exact exLaw_energies

theorem delayed_ready (h : SameBlocks d) : DelayedReady d 1 where
  present := by
    unfold jxsAt
    rw [h.jxs]
    decide +kernel
  order := by
    unfold jxsAt
    rw [h.jxs]
    decide +kernel
  ending := by
    unfold jxsAt
    rw [h.jxs]
    decide +kernel
  bdd := fun ws hs => by
    obtain rfl := stretch_of hs h.bdd
    intro v hv
    have e : Base.IXSS (naturals [1, 0, 2, 1, 20, 1, 1]) (0 + 2) = .ok 0 := by decide +kernel
    obtain rfl := Except.ok.inj (e.symm.trans hv)
    refine ⟨by decide, fun w hw => ?_⟩
    have e : Base.IXSS (naturals [1, 0, 2, 1, 20, 1, 1]) (0 + 2 * (0 : Int).toNat + 3) = .ok 2 := by decide +kernel
    obtain rfl := Except.ok.inj (e.symm.trans hw)
    exact ⟨by decide, by decide, trivial⟩
  dned := fun ws hs => by
    obtain rfl := stretch_of hs h.dned
    have e : (jxsAt d 27 - jxsAt d 26).toNat = 1 := by
      unfold jxsAt
      rw [h.jxs]
      decide +kernel
    rw [e]
    exact exLaw_energies

theorem particle_ready (h : SameBlocks d) {p : Nat} (hp : p ∈ [1, 2]) : ParticleReady d exIxs p 1 := by
  have l : ∀ p ∈ [1, 2], ∀ i ∈ [4, 6, 8], inOrder (exIxs.LLOC p i) (exIxs.LLOC p (i + 1)) = true := by decide +kernel
  have s : ∀ p ∈ [1, 2], ∀ i ∈ [4, 8], exIxs.LLOC p i >>= (fun a => exIxs.LLOC p (i + 1) >>= fun b => pure (b - a)) = .ok 1 := by
    decide +kernel
  have one : ∀ i ∈ [4, 8], ∀ a b, exIxs.LLOC p i = .ok a → exIxs.LLOC p (i + 1) = .ok b → b - a = 1 := by
    intro i hi a b ha hb
    have := s p hp i hi
    rw [ha, ok_bind, hb, ok_bind] at this
    exact Except.ok.inj this
  refine ⟨fun i hi a b ha hb => ?_, fun ws hs v hv => ?_, fun ws a b ha hb hs => ?_, fun ws a b ha hb hs => ?_⟩
  · have := l p hp i hi
    rw [ha, hb] at this
    exact of_decide_eq_true this
  · obtain rfl := particleStretch_of hs (h.hpd p hp)
    have e : Base.IXSS (naturals [p, 2, 1, 2, 1, 2]) 2 = .ok 2 := by
      simp only [List.mem_cons, List.not_mem_nil, or_false] at hp
      rcases hp with rfl | rfl <;> decide +kernel
    obtain rfl := Except.ok.inj (e.symm.trans hv)
    decide
  · obtain rfl := particleStretch_of hs (h.sigh p hp)
    rw [one 4 (by decide) a b ha hb]
    exact ⟨C56.nonNegative_of (by decide +kernel) (by decide +kernel), one_in_order _,
      one_located (l := 1) (ws := naturals [12, 5, 0, 2, 1, 20, 1, 1]) (by decide +kernel) (by decide +kernel) (by decide)⟩
  · obtain rfl := particleStretch_of hs (h.dlwh p hp)
    rw [one 8 (by decide) a b ha hb]
    exact exLaw_energies

theorem secondaries_ready (h : SameBlocks d) (hl : 192 ≤ d.xss.length) : SecondariesReady d 2 where
  present := by
    unfold jxsAt
    rw [h.jxs]
    decide +kernel
  inside := by
    have e : jxsAt d 32 = 111 := by
      unfold jxsAt
      rw [h.jxs]
      decide +kernel
    rw [e]
    omega
  locators := fun ws hs => by
    obtain rfl := stretch_of hs h.ixs
    refine ⟨fun k h1 h2 v hv => ?_, fun x hx v hv => ?_⟩
    · have e : ∀ k ∈ List.range' 1 20, (Base.IXSS exIxs.xss k).toOption.any (fun v => decide (1 ≤ v)) = true := by
        decide +kernel
      have := e k (by rw [List.mem_range'_1]; omega)
      change Base.IXSS exIxs.xss k = .ok v at hv
      rw [hv] at this
      exact of_decide_eq_true this
    · have e : exIxs.xss.all (fun x => x.round?.any fun v => decide (v ≤ 193)) = true := by decide +kernel
      have := List.all_eq_true.mp e x hx
      rw [hv] at this
      have := of_decide_eq_true this
      omega
  particles := fun ws us ixs ntro p n hs hi hu ht h1 h2 hn => by
    obtain rfl := stretch_of hs h.ixs
    obtain rfl := stretch_of hu h.ntro
    have e : IXS.ofRange exIxs.xss 2 = .ok exIxs := by decide +kernel
    obtain rfl := Except.ok.inj (e.symm.trans hi)
    have hp : p ∈ [1, 2] := by
      simp only [List.mem_cons, List.not_mem_nil, or_false]
      omega
    have e : NTRO.ofRange (naturals [1, 1]) 2 = .ok exNtro := by decide +kernel
    obtain rfl := Except.ok.inj (e.symm.trans ht)
    have e : ∀ p ∈ [1, 2], exNtro.NP p = .ok 1 := by decide +kernel
    obtain rfl := Except.ok.inj ((e p hp).symm.trans hn)
    exact particle_ready h hp

theorem same_checked (h : SameBlocks d) (hl : 192 ≤ d.xss.length) : EndsChecked (CE.ofTable "92235.80c".toList d) := by
  have count : ∀ i, d.count i = exCE.count i := by
    intro i
    unfold TableData.count TableData.NXS
    rw [h.nxs]
  have c4 : exCE.count 4 = .ok 2 := by decide +kernel
  have c5 : exCE.count 5 = .ok 1 := by decide +kernel
  have c6 : exCE.count 6 = .ok 1 := by decide +kernel
  have c7 : exCE.count 7 = .ok 2 := by decide +kernel
  have c8 : exCE.count 8 = .ok 1 := by decide +kernel
  refine C60_continuous_partial _ (by decide) d h.place h.ends ?_ (fun a b ha hb => ?_) (fun n hn _ => ?_) (fun ws hs => ?_)
    (fun ws hs => ?_) (fun n hn _ => ?_) fun n hn _ => ?_
  · refine .inr (.inl ?_)
    unfold TableData.NXS
    rw [h.nxs]
    decide +kernel
  · obtain rfl := Except.ok.inj (c4.symm.trans ((count 4).symm.trans ha))
    obtain rfl := Except.ok.inj (c5.symm.trans ((count 5).symm.trans hb))
    exact principal_ready h
  · obtain rfl := Except.ok.inj (c6.symm.trans ((count 6).symm.trans hn))
    exact photons_ready h
  · obtain rfl := stretch_of hs h.unr
    intro n m hn hm
    have e : Base.IXSS (naturals [1, 1, 2, 0, 0, 1, 1, 1, 1, 1, 1, 1, 1]) 1 = .ok 1 := by decide +kernel
    obtain rfl := Except.ok.inj (e.symm.trans hn)
    have e : Base.IXSS (naturals [1, 1, 2, 0, 0, 1, 1, 1, 1, 1, 1, 1, 1]) 2 = .ok 1 := by decide +kernel
    obtain rfl := Except.ok.inj (e.symm.trans hm)
    decide +kernel
  · obtain rfl := stretch_of hs h.dnu
    exact nu_ready (Dbl.ofNat 2) 2 (by decide +kernel) (by decide +kernel) (by decide +kernel)
      (C56.nonNegative_of (by decide +kernel) (by decide +kernel))
  · obtain rfl := Except.ok.inj (c8.symm.trans ((count 8).symm.trans hn))
    exact delayed_ready h
  · obtain rfl := Except.ok.inj (c7.symm.trans ((count 7).symm.trans hn))
    exact secondaries_ready h hl

set_option maxRecDepth 10000 in
theorem exCE_same : SameBlocks exCE where
  place := inPlace_of (by decide +kernel)
  ends := ⟨by decide +kernel, by decide +kernel⟩
  nxs := rfl
  jxs := rfl
  nu := by decide +kernel
  sig := by decide +kernel
  tyr := by decide +kernel
  dlw := by decide +kernel
  sigp := by decide +kernel
  dlwp := by decide +kernel
  unr := by decide +kernel
  dnu := by decide +kernel
  bdd := by decide +kernel
  dned := by decide +kernel
  ntro := by decide +kernel
  ixs := by decide +kernel
  hpd := by decide +kernel
  sigh := by decide +kernel
  dlwh := by decide +kernel

/-- The table with one word less: the last block, a count of reactions and one number, ends too early. -/
def shortCE : TableData := { exCE with xss := exCE.xss.dropLast }

set_option maxRecDepth 10000 in
theorem shortCE_same : SameBlocks shortCE where
  place := inPlace_of (by decide +kernel)
  ends := ⟨by decide +kernel, by decide +kernel⟩
  nxs := rfl
  jxs := rfl
  nu := by decide +kernel
  sig := by decide +kernel
  tyr := by decide +kernel
  dlw := by decide +kernel
  sigp := by decide +kernel
  dlwp := by decide +kernel
  unr := by decide +kernel
  dnu := by decide +kernel
  bdd := by decide +kernel
  dned := by decide +kernel
  ntro := by decide +kernel
  ixs := by decide +kernel
  hpd := by decide +kernel
  sigh := by decide +kernel
  dlwh := by decide +kernel

end C60

open C60

example : (CE.ofTable "92235.80c".toList exCE).toOption.isSome ∧ EndsChecked (CE.ofTable "92235.80c".toList exCE) :=
  ⟨by decide +kernel, same_checked exCE_same (by decide +kernel)⟩

example : CE.ofTable "92235.80c".toList shortCE = .error .thrown ∧ EndsChecked (CE.ofTable "92235.80c".toList shortCE) :=
  ⟨by decide +kernel, same_checked shortCE_same (by decide +kernel)⟩

end ACE.Props

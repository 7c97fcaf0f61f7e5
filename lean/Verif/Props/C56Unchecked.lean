import Verif.Props.C56Laws

/-!
# C56, continued: blocks that are read without a check of their size

Fission multiplicities (NU, DNU), delayed neutron precursors (BDD), probability tables (UNR), elastic and
bremsstrahlung electron data (ELAS, BREME, EION) and secondary particle production (HPD). What their words
have to satisfy is given next to each of them; `C56_truncated` shows undefined behaviour otherwise.
-/

namespace ACE.Props
open ACE

/-- One set of fission multiplicities: its flag is not negative, and tabulated multiplicities have counts that are
not negative. -/
def NuDataReady (ws : Words) : Prop :=
  ∃ flag : Nat, Base.IXSS ws 1 = .ok (flag : Int) ∧ (flag = 2 → Counted (ws.drop 1))

/-- Fission multiplicities: one set, or two sets after minus the length of the first one. -/
def NuReady (xs : Words) : Prop :=
  ∀ x, Base.XSS xs 1 = .ok x →
    (x.isNeg = false → NuDataReady xs) ∧
    (x.isNeg = true → ∀ v, x.round? = some v → v.natAbs + 1 ≤ xs.length ∧
      ∀ prompt total, sub xs 1 (v.natAbs + 1) = .ok prompt → sub xs (v.natAbs + 1) xs.length = .ok total →
        NuDataReady prompt ∧ NuDataReady total)

/-- Delayed neutron precursor groups from offset `left` on: their counts are not negative and they end inside. -/
def GroupsReady (xs : Words) : (groups left : Nat) → Prop
  | 0, _ => True
  | groups + 1, left => ∀ nr, Base.IXSS xs (left + 2) = .ok nr → 0 ≤ nr ∧
      ∀ ne, Base.IXSS xs (left + 2 * nr.toNat + 3) = .ok ne → 0 ≤ ne ∧
        left + 2 * nr.toNat + 2 * ne.toNat + 3 ≤ xs.length ∧
        GroupsReady xs groups (left + 2 * nr.toNat + 2 * ne.toNat + 3)

/-- Probability tables: the numbers of energies and of bins are not negative, and all tables are inside. -/
def TablesReady (xs : Words) : Prop :=
  ∀ n m, Base.IXSS xs 1 = .ok n → Base.IXSS xs 2 = .ok m → 0 ≤ n ∧ 0 ≤ m ∧
    6 + n.toNat + n.toNat * (6 * m.toNat) ≤ xs.length

/-- Electron data: the energies, lengths and locators of the `n` distributions are there, and so are the
distributions. -/
def ElectronReady (xs : Words) (n : Nat) : Prop :=
  3 * n ≤ xs.length ∧ ∀ i length locator, 1 ≤ i → i ≤ n → Base.IXSS xs (n + i) = .ok length →
    Base.IXSS xs (2 * n + i) = .ok locator →
    0 ≤ length ∧ 0 ≤ locator ∧ 3 * n + locator.toNat + 2 * length.toNat ≤ xs.length

namespace C56

theorem u32_small {v : Int} (h0 : 0 ≤ v) (h : v < 1073741824) : u32OfInt v = v.toNat := by
  unfold u32OfInt; omega
theorem size_small {v : Int} (h0 : 0 ≤ v) (h : v < 1073741824) : sizeOfInt v = v.toNat := by
  unfold sizeOfInt; omega

theorem nuData {ws : Words} (hm : Moderate ws) (h : NuDataReady ws) : EndsChecked (NuData.generateData ws) := by
  obtain ⟨flag, h1, h2⟩ := h
  obtain ⟨x, d, r⟩ := deref_of h1
  have m := IXSS_moderate hm h1
  unfold NuData.generateData
  have e : toU32 (some (flag : Int)) = .ok flag := by
    unfold toU32
    simp only
    rw [if_pos (by omega), Int.toNat_natCast]
  rw [d, ok_bind, r, e, ok_bind]
  refine ite_checked (fun _ => ((C56_counted_partial ws hm).2.2.2.2.1).bind fun _ _ => .ok _) fun _ => ?_
  refine ite_checked (fun h => ((C56_tabulated_partial ws).2.1 m.2.1 (h2 h)).1.bind fun _ _ => .ok _) fun _ => .thrown

theorem groups {xs : Words} (hm : Moderate xs) : ∀ (todo index left : Nat), GroupsReady xs todo left →
    EndsChecked (BDD.groups xs todo index left)
  | 0, _, _, _ => .ok _
  | todo + 1, index, left, h => by
    unfold BDD.groups
    refine (IXSS_checked hm _).bind fun v hv => ?_
    obtain ⟨h0, h⟩ := h v hv
    have m := IXSS_moderate hm hv
    rw [size_small h0 m.2.2.2]
    refine (IXSS_checked hm _).bind fun w hw => ?_
    rw [show left + 2 + 2 * v.toNat + 1 = left + 2 * v.toNat + 3 by omega] at hw
    obtain ⟨h1, h2, h3⟩ := h w hw
    have m' := IXSS_moderate hm hw
    rw [size_small h1 m'.2.2.2]
    have er : left + (2 + 2 * v.toNat + 2 * w.toNat + 1) = left + 2 * v.toNat + 2 * w.toNat + 3 := by omega
    simp only [er]
    obtain ⟨ws, hs⟩ := sub_ok (xs := xs) (l := left) (r := left + 2 * v.toNat + 2 * w.toNat + 3) (by omega) h2
    rw [hs, ok_bind]
    have hl := (sub_mem hs).1
    refine EndsChecked.bind ?_ fun _ _ => (groups hm todo _ _ h3).bind fun _ _ => .ok _
    refine ((C56_tabulated_partial ws).2.1 (by omega) ?_).2 _
    have mw := Moderate.sub hm hs
    have dm : Moderate (ws.drop 1) := ⟨by have := mw.length; simp only [List.length_drop]; omega,
      fun x hx => mw.words x (List.mem_of_mem_drop hx)⟩
    have di : ∀ i, 1 ≤ i → i + 1 ≤ ws.length → Base.IXSS (ws.drop 1) i = Base.IXSS xs (left + (i + 1)) := by
      intro i a b
      have hd : sub ws 1 ws.length = .ok (ws.drop 1) := by
        unfold sub
        rw [if_pos (by omega), List.take_of_length_le (by simp)]
      rw [sub_int hd a (by omega), show 1 + i = i + 1 by omega, sub_int hs (by omega) (by omega)]
    refine ⟨dm, fun a ha => ?_, fun nr hnr a ha => ?_⟩
    · rw [di 1 (by omega) (by omega)] at ha
      have := Except.ok.inj (hv.symm.trans ha)
      omega
    · rw [di 1 (by omega) (by omega)] at hnr
      have e := Except.ok.inj (hv.symm.trans hnr)
      rw [di (2 + 2 * nr) (by omega) (by omega), show left + (2 + 2 * nr + 1) = left + 2 * v.toNat + 3 by omega, hw] at ha
      have := Except.ok.inj ha
      omega

theorem tables {xs : Words} {m : Nat} : ∀ (todo index left : Nat), left + todo * (6 * m) ≤ xs.length →
    EndsChecked (UNR.tables xs m todo index left)
  | 0, _, _, _ => .ok _
  | todo + 1, index, left, h => by
    unfold UNR.tables
    rw [Nat.add_mul, Nat.one_mul] at h
    obtain ⟨ws, hs⟩ := sub_ok (xs := xs) (l := left) (r := left + 6 * m) (by omega) (by omega)
    rw [hs, ok_bind]
    refine (XSS_checked xs _).bind fun e _ => ?_
    refine (EndsChecked.of_ends ((C56_arrays ws).2.2.2.1 e m).1).bind fun _ _ => ?_
    exact (tables todo _ _ (by omega)).bind fun _ _ => .ok _

end C56

/-- Fission multiplicities, delayed neutron precursors, probability tables and secondary particle production are read
or refused. -/
theorem C56_unchecked_partial (xs : Words) (hm : Moderate xs) :
    (NuReady xs → EndsChecked (NU.ofRange xs)) ∧
    (∀ n, GroupsReady xs n 0 → EndsChecked (BDD.ofRange xs n)) ∧
    (TablesReady xs → EndsChecked (UNR.ofRange xs)) ∧
    ((∀ v, Base.IXSS xs 2 = .ok v → 0 ≤ v) → EndsChecked (HPD.ofRange xs)) := by
  refine ⟨fun h => ?_, fun n h => (C56.groups hm n 1 0 h).bind fun _ _ => .ok _, fun h => ?_, fun h => ?_⟩
  · unfold NU.ofRange NU.generateBlocks
    refine (EndsChecked.guard _).bind fun _ _ => (C56.XSS_checked xs 1).bind fun x hx => ?_
    obtain ⟨h1, h2⟩ := h x hx
    have hp := C56.XSS_mem hx
    cases hn : x.isNeg with
    | false =>
      rw [if_neg (by simp)]
      exact (C56.nuData hm (h1 hn)).bind fun _ _ => .ok _
    | true =>
      rw [if_pos rfl]
      obtain ⟨v, r, a, b⟩ := hm.words x hp.2.2
      obtain ⟨g1, g2⟩ := h2 hn v r
      unfold NU.generateBoth
      have hd : deref xs 0 = .ok x := by
        unfold Base.XSS at hx
        obtain ⟨_, _, hx⟩ := bind_eq_ok.mp hx
        exact hx
      have e : toU32 (some (v.natAbs : Int)) = .ok v.natAbs := by
        unfold toU32
        simp only
        rw [if_pos (by omega), Int.toNat_natCast]
      rw [hd, ok_bind, r, Option.map_some, e, ok_bind]
      rw [Nat.mod_eq_of_lt (by omega)]
      obtain ⟨w1, e1⟩ := C56.sub_ok (xs := xs) (l := 1) (r := v.natAbs + 1) (by omega) g1
      obtain ⟨w2, e2⟩ := C56.sub_ok (xs := xs) (l := v.natAbs + 1) (r := xs.length) g1 (Nat.le_refl _)
      obtain ⟨r1, r2⟩ := g2 w1 w2 e1 e2
      simp only [e1, e2, ok_bind]
      refine (C56.nuData (C56.Moderate.sub hm e1) r1).bind fun _ _ => ?_
      exact (C56.nuData (C56.Moderate.sub hm e2) r2).bind fun _ _ => .ok _
  · unfold UNR.ofRange UNR.M UNR.N UNR.flag
    by_cases he : xs = []
    · subst he
      exact .ok _
    · rw [if_neg he, if_neg he]
      simp only [bind_assoc, pure_eq_ok, ok_bind]
      refine (C56.IXSS_checked hm 2).bind fun m h2 => ?_
      refine (C56.IXSS_checked hm 1).bind fun n h1 => ?_
      obtain ⟨a, b, c⟩ := h n m h1 h2
      have m1 := C56.IXSS_moderate hm h1
      have m2 := C56.IXSS_moderate hm h2
      rw [C56.u32_small a m1.2.2.2, C56.u32_small b m2.2.2.2]
      exact (C56.tables _ _ _ c).bind fun _ _ => .ok _
  · unfold HPD.ofRange HPD.numberValues
    simp only [bind_assoc]
    refine (C56.XSS_checked xs 2).bind fun x hx => ?_
    obtain ⟨v, r, a, b⟩ := hm.words x (C56.XSS_mem hx).2.2
    obtain ⟨j, j1, j2, j3⟩ := C56.trunc_of_round r
    have hv : Base.IXSS xs 2 = .ok v := by
      unfold Base.IXSS
      rw [hx, ok_bind, r]
      unfold toInt32
      simp only
      rw [if_pos (by omega)]
    have h0 := j3 (h v hv)
    have e : toSize x.trunc? = .ok j.toNat := by
      rw [j1]
      unfold toSize
      simp only
      rw [if_pos (by omega)]
    rw [e, ok_bind]
    exact (EndsChecked.guard _).bind fun _ _ => .ok _

/-- Electron data are read or refused. -/
theorem C56_electrons_partial (xs : Words) (hm : Moderate xs) (n : Nat) (h : ElectronReady xs n) :
    EndsChecked (ElectronBlock.ofRange xs n) := by
  unfold ElectronBlock.ofRange ElectronBlock.generateBlocks
  obtain ⟨h0, h⟩ := h
  obtain ⟨us, hu⟩ := C56.sub_ok (xs := xs) (l := 0) (r := 3 * n) (by omega) h0
  have um := C56.Moderate.sub hm hu
  have ul := (C56.sub_mem hu).1
  rw [hu, ok_bind]
  refine (EndsChecked.of_ends (C56.array us n 3)).bind fun info hi => ?_
  have hinfo : info.xss = us ∧ info.n = n ∧ info.m = 3 := by
    unfold ArrayData.ofRange at hi
    obtain ⟨_, _, hi⟩ := bind_eq_ok.mp hi
    have := Except.ok.inj hi
    subst this
    exact ⟨rfl, rfl, rfl⟩
  obtain ⟨i1, i2, i3⟩ := hinfo
  refine EndsChecked.bind (EndsChecked.mapM _ fun i hi => ?_) fun _ _ => .ok _
  have hin := List.mem_range.mp hi
  have iv : ∀ a, 1 ≤ a → a ≤ 3 → info.ivalue a (i + 1) = Base.IXSS xs ((a - 1) * n + (i + 1)) := by
    intro a a1 a2
    have hle : (a - 1) * n + (i + 1) ≤ 3 * n := by
      have : (a - 1) * n ≤ 2 * n := Nat.mul_le_mul_right _ (by omega)
      omega
    unfold ArrayData.ivalue ArrayData.verifyIndex ArrayData.verifyArray
    rw [i1, i2, i3, if_neg (by omega), ok_bind, if_neg (by omega), ok_bind,
      C56.sub_int hu (by omega) (by omega), Nat.zero_add]
  unfold ElectronBlock.generateBlock ElectronBlock.LLOCof ElectronBlock.lengthOf ElectronBlock.energyOf
    LocBlock.verifyDataIndex
  have hnot : ¬(i + 1 < 1 ∨ i + 1 > n) := by omega
  simp only [if_neg hnot, ok_bind, bind_assoc, pure_eq_ok, iv 3 (by omega) (by omega), iv 2 (by omega) (by omega)]
  refine (C56.IXSS_checked hm _).bind fun loc hl => ?_
  refine (C56.iterator_checked xs _).bind fun left hleft => ?_
  refine (C56.IXSS_checked hm _).bind fun len hlen => ?_
  obtain ⟨a, b, c⟩ := h (i + 1) len loc (by omega) (by omega)
    (by rw [← hlen]; congr 1; omega) (by rw [← hl])
  have m1 := C56.IXSS_moderate hm hl
  have m2 := C56.IXSS_moderate hm hlen
  have il := C56.iterator_ok hleft
  rw [C56.u32_small a m2.2.2.2]
  have hsz : sizeOfInt (loc + 1) = loc.toNat + 1 := by unfold sizeOfInt; omega
  rw [hsz] at il
  refine EndsChecked.bind ?_ fun e _ => ?_
  · unfold ArrayData.dvalue ArrayData.verifyIndex ArrayData.verifyArray
    rw [i2, i3, if_neg (by omega), ok_bind, if_neg (by omega), ok_bind]
    exact C56.XSS_checked _ _
  · obtain ⟨ws, hw⟩ := C56.sub_ok (xs := xs) (l := left) (r := left + 2 * len.toNat) (by omega) (by omega)
    rw [hw, ok_bind, hlen, ok_bind]
    exact EndsChecked.of_ends ((C56_arrays ws).2.2.2.1 e _).2.1

/-! ## The hypotheses can be met -/

/-- Two sets of multiplicities, the second of which ends too early: refused. -/
def shortNu : Words := [Dbl.ofInt (-3), Dbl.ofNat 1, Dbl.ofNat 1, Dbl.ofNat 2, Dbl.ofNat 2, Dbl.ofNat 0, Dbl.ofNat 5]

theorem C56.moderate_drop {xs : Words} (h : Moderate xs) (k : Nat) : Moderate (xs.drop k) :=
  ⟨by have := h.length; simp only [List.length_drop]; omega, fun x hx => h.words x (List.mem_of_mem_drop hx)⟩

theorem shortNu_ready : Moderate shortNu ∧ NuReady shortNu := by
  have hm : Moderate shortNu := C56.moderate_of (by decide +kernel) (by decide +kernel)
  refine ⟨hm, fun x hx => ?_⟩
  have e : Base.XSS shortNu 1 = .ok (Dbl.ofInt (-3)) := by decide +kernel
  have := Except.ok.inj (e.symm.trans hx)
  subst this
  refine ⟨fun h => absurd h (by decide +kernel), fun _ v hv => ?_⟩
  have e : (Dbl.ofInt (-3)).round? = some (-3) := by decide +kernel
  have := Option.some.inj (e.symm.trans hv)
  subst this
  refine ⟨by decide, fun p t hp ht => ?_⟩
  have ep : sub shortNu 1 4 = .ok [Dbl.ofNat 1, Dbl.ofNat 1, Dbl.ofNat 2] := by decide +kernel
  have et : sub shortNu 4 7 = .ok [Dbl.ofNat 2, Dbl.ofNat 0, Dbl.ofNat 5] := by decide +kernel
  have := Except.ok.inj (ep.symm.trans hp); subst this
  have := Except.ok.inj (et.symm.trans ht); subst this
  refine ⟨⟨1, by decide +kernel, fun h => absurd h (by decide)⟩, 2, by decide +kernel, fun _ => ?_⟩
  exact C56.NonNegative.counted (C56.nonNegative_of (by decide +kernel) (by decide +kernel))

example : NU.ofRange shortNu = .error .thrown ∧ EndsChecked (NU.ofRange shortNu) :=
  ⟨by decide +kernel, (C56_unchecked_partial shortNu shortNu_ready.1).1 shortNu_ready.2⟩

/-- Two precursor groups, the second of which has no counts: refused by an index check. -/
def shortBdd : Words := [Dbl.ofNat 1, Dbl.ofNat 0, Dbl.ofNat 1, Dbl.ofNat 1, Dbl.ofNat 2, Dbl.ofNat 7]

theorem shortBdd_ready : Moderate shortBdd ∧ GroupsReady shortBdd 2 0 := by
  refine ⟨C56.moderate_of (by decide +kernel) (by decide +kernel), fun v hv => ?_⟩
  have e : Base.IXSS shortBdd (0 + 2) = .ok 0 := by decide +kernel
  have := Except.ok.inj (e.symm.trans hv); subst this
  refine ⟨by decide, fun w hw => ?_⟩
  have e : Base.IXSS shortBdd (0 + 2 * (0 : Int).toNat + 3) = .ok 1 := by decide +kernel
  have := Except.ok.inj (e.symm.trans hw); subst this
  refine ⟨by decide, by decide, fun v hv => ?_⟩
  have e : Base.IXSS shortBdd (0 + 2 * (0 : Int).toNat + 2 * (1 : Int).toNat + 3 + 2) = .error .range := by decide +kernel
  exact absurd (e.symm.trans hv) nofun

example : BDD.ofRange shortBdd 2 = .error .range ∧ EndsChecked (BDD.ofRange shortBdd 2) :=
  ⟨by decide +kernel, (C56_unchecked_partial shortBdd shortBdd_ready.1).2.1 2 shortBdd_ready.2⟩

/-- Probability tables for one energy with two bins. -/
def oneUnr : Words := [Dbl.ofNat 1, Dbl.ofNat 2, Dbl.ofNat 2, Dbl.ofInt (-1), Dbl.ofInt (-1), Dbl.ofNat 0, Dbl.ofNat 1] ++
  List.replicate 12 (Dbl.ofNat 1)

theorem oneUnr_ready : Moderate oneUnr ∧ TablesReady oneUnr := by
  refine ⟨C56.moderate_of (by decide +kernel) (by decide +kernel), fun n m hn hm => ?_⟩
  have e : Base.IXSS oneUnr 1 = .ok 1 := by decide +kernel
  have := Except.ok.inj (e.symm.trans hn); subst this
  have e : Base.IXSS oneUnr 2 = .ok 2 := by decide +kernel
  have := Except.ok.inj (e.symm.trans hm); subst this
  decide +kernel

example : (UNR.ofRange oneUnr).toOption.isSome ∧ EndsChecked (UNR.ofRange oneUnr) :=
  ⟨by decide +kernel, (C56_unchecked_partial oneUnr oneUnr_ready.1).2.2.1 oneUnr_ready.2⟩

/-- Production data with fewer words than their count says: refused. -/
example : HPD.ofRange [Dbl.ofNat 1, Dbl.ofNat 2, Dbl.ofNat 5] = .error .thrown ∧
    EndsChecked (HPD.ofRange [Dbl.ofNat 1, Dbl.ofNat 2, Dbl.ofNat 5]) := by
  refine ⟨by decide +kernel, (C56_unchecked_partial _ (C56.moderate_of (by decide +kernel) (by decide +kernel))).2.2.2
    fun v hv => ?_⟩
  have e : Base.IXSS [Dbl.ofNat 1, Dbl.ofNat 2, Dbl.ofNat 5] 2 = .ok 2 := by decide +kernel
  have := Except.ok.inj (e.symm.trans hv); subst this
  decide

/-- Electron data for one energy with two values. -/
def oneElectron : Words := [Dbl.ofNat 1, Dbl.ofNat 2, Dbl.ofNat 0, Dbl.ofNat 1, Dbl.ofNat 2, Dbl.ofNat 3, Dbl.ofNat 4]

theorem oneElectron_ready : Moderate oneElectron ∧ ElectronReady oneElectron 1 := by
  refine ⟨C56.moderate_of (by decide +kernel) (by decide +kernel), by decide, fun i l o h1 h2 hl ho => ?_⟩
  obtain rfl : i = 1 := by omega
  have e : Base.IXSS oneElectron (1 + 1) = .ok 2 := by decide +kernel
  have := Except.ok.inj (e.symm.trans hl); subst this
  have e : Base.IXSS oneElectron (2 * 1 + 1) = .ok 0 := by decide +kernel
  have := Except.ok.inj (e.symm.trans ho); subst this
  decide

example : (ElectronBlock.ofRange oneElectron 1).toOption.isSome ∧ EndsChecked (ElectronBlock.ofRange oneElectron 1) :=
  ⟨by decide +kernel, C56_electrons_partial oneElectron oneElectron_ready.1 1 oneElectron_ready.2⟩

end ACE.Props

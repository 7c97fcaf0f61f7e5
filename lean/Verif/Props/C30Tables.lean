import Verif.Props.C30
import Verif.Props.C32
import Verif.Props.C33
import Verif.Props.C34
import Verif.Props.C35

/-!
# C30 for the other types of tables

Photoatomic, photonuclear, thermal scattering and dosimetry tables made from blocks: NXS(1) is the number of
words, the other values of NXS are the counts of the blocks, and each value of JXS is the locator of its block
(`LocatedAt`), of a part of one (`Further`), or zero. Nothing is assumed of the blocks: every table that is
made at all.
-/

namespace ACE.Props
open ACE

/-- JXS(i) is `k` words further than JXS(j). -/
def Further (d : TableData) (i j k : Nat) : Prop := ∃ l : Int, d.JXS j = .ok l ∧ d.JXS i = .ok (l + k)

/-- A cross section block at locator JXS(i) with its cross sections at JXS(i + 1). -/
def ThermalXS (d : TableData) (i : Nat) (b : ITIE) : Prop :=
  LocatedAt d i b.xss ∧ ∃ ne, b.NE = .ok ne ∧ Further d (i + 1) i (ne + 1)

/-- Optional cosines at locator JXS(i): zero if there are none. -/
def ThermalCosines (d : TableData) (i : Nat) : Option ITCA → Prop
  | some a => if a.xss = [] then d.JXS i = .ok 0 else LocatedAt d i a.xss
  | none => d.JXS i = .ok 0

/-- The words of optional cosines. -/
def cosineWords : Option ITCA → Words
  | some a => a.xss
  | none => []

namespace C30

theorem located {d : TableData} (i : Nat) (pre w post : Words) (hx : d.xss = pre ++ w ++ post)
    (hj : d.jxs[i]? = some ((pre.length + 1 : Nat) : Int)) : LocatedAt d (i + 1) w :=
  ⟨_, JXS_get d i _ hj, pre, post, hx, by omega⟩

theorem further {d : TableData} (i j k : Nat) (n : Nat) (hj : d.jxs[j]? = some (n : Int))
    (m : Nat) (hi : d.jxs[i]? = some (m : Int)) (hm : m = n + k) : Further d (i + 1) (j + 1) k :=
  ⟨n, JXS_get d j _ hj, by rw [JXS_get d i _ hi, hm]; congr 1⟩

theorem nxs_get {d : TableData} (i : Nat) (v : Int) (h : d.nxs[i]? = some v) : d.NXS (i + 1) = .ok v :=
  NXS_get d i v h
theorem jxs_get {d : TableData} (i : Nat) (v : Int) (h : d.jxs[i]? = some v) : d.JXS (i + 1) = .ok v :=
  JXS_get d i v h
theorem get_zeros {l m : List Int} {k : Nat} (h : m = l ++ List.replicate k 0) (i : Nat) (h1 : l.length ≤ i)
    (h2 : i < l.length + k) : m[i]? = some 0 := by
  subst h
  rw [List.getElem?_append_right h1, List.getElem?_replicate, if_pos (by omega)]
theorem nxs_zero {d : TableData} (l : List Int) (k : Nat) (h : d.nxs = l ++ List.replicate k 0) (i : Nat)
    (h1 : l.length < i) (h2 : i ≤ l.length + k) : d.NXS i = .ok 0 := by
  have := nxs_get (i - 1) 0 (get_zeros h (i - 1) (by omega) (by omega))
  rwa [show i - 1 + 1 = i by omega] at this
theorem jxs_zero {d : TableData} (l : List Int) (k : Nat) (h : d.jxs = l ++ List.replicate k 0) (i : Nat)
    (h1 : l.length < i) (h2 : i ≤ l.length + k) : d.JXS i = .ok 0 := by
  have := jxs_get (i - 1) 0 (get_zeros h (i - 1) (by omega) (by omega))
  rwa [show i - 1 + 1 = i by omega] at this


/-- The words and the locator of optional cosines. -/
theorem addCosines_eq (x : Words) (o : Option ITCA) : ∃ j : Int,
    TS.addCosines x o = (x ++ cosineWords o, j) ∧ ∀ (d : TableData) (i : Nat) (post : Words), d.jxs[i]? = some j →
      d.xss = x ++ cosineWords o ++ post → ThermalCosines d (i + 1) o := by
  cases o with
  | none =>
    refine ⟨0, by simp [TS.addCosines, cosineWords], fun d i post h1 h2 => ?_⟩
    exact jxs_get i 0 h1
  | some a =>
    by_cases ha : a.xss = []
    · refine ⟨0, by simp [TS.addCosines, cosineWords, ha], fun d i post h1 h2 => ?_⟩
      unfold ThermalCosines
      simp only [ha, if_true]
      exact jxs_get i 0 h1
    · refine ⟨((x.length + 1 : Nat) : Int), by simp [TS.addCosines, cosineWords, ha], fun d i post h1 h2 => ?_⟩
      unfold ThermalCosines
      simp only [if_neg ha]
      exact located i x a.xss post h2 h1

end C30

/-! ## Dosimetry -/

/-- A dosimetry table: the reaction numbers and the cross sections. -/
structure DosimetryArrays (z a : Nat) (mtr : MTR) (sigd : SIGD) (d : TableData) : Prop where
  words : d.xss = mtr.xss ++ sigd.xss
  length : d.NXS 1 = .ok (d.xss.length : Int)
  za : 1000 * z + a < 4294967296 → d.NXS 2 = .ok ((1000 * z + a : Nat) : Int)
  ntr : d.NXS 4 = .ok (mtr.n : Int)
  other : ∀ i, 3 ≤ i → i ≤ 16 → i ≠ 4 → d.NXS i = .ok 0
  lone : d.JXS 1 = .ok 1
  numbers : LocatedAt d 3 mtr.xss
  lsig : LocatedAt d 6 sigd.xss
  sigd : Further d 7 6 mtr.n
  last : d.JXS 22 = .ok (d.xss.length : Int)
  rest : ∀ i, 1 ≤ i → i ≤ 32 → i ∉ [1, 3, 6, 7, 22] → d.JXS i = .ok 0

/-- NXS and JXS of a dosimetry table. -/
theorem C30_dosimetry (zaid : List Char) (z a : Nat) (mtr : MTR) (sigd : SIGD) (t : Dosimetry)
    (h : Dosimetry.mk' zaid z a mtr sigd = .ok t) : DosimetryArrays z a mtr sigd t.data := by
  unfold Dosimetry.mk' at h
  obtain ⟨d, hd, h⟩ := bind_eq_ok.mp h
  have ht : t.data = d := by
    unfold Dosimetry.ofTable at h
    obtain ⟨_, _, h⟩ := bind_eq_ok.mp h
    unfold Dosimetry.generateBlocks at h
    repeat (obtain ⟨_, _, h⟩ := bind_eq_ok.mp h)
    injection h with h; subst h; rfl
  rw [ht]
  clear ht h
  unfold Dosimetry.generateData at hd
  obtain ⟨_, _, hd⟩ := bind_eq_ok.mp hd
  injection hd with hd; subst hd
  exact {
    words := rfl
    length := C30.nxs_get 0 _ rfl
    za := by
      intro hza
      rw [show 1000 * z + a = (z * 1000 + a) % 4294967296 by omega]
      exact C30.nxs_get 1 _ rfl
    ntr := C30.nxs_get 3 _ rfl
    other := by
      intro i h1 h2 h3
      have hi : i = 3 ∨ i = 5 ∨ i = 6 ∨ i = 7 ∨ i = 8 ∨ i = 9 ∨ i = 10 ∨ i = 11 ∨ i = 12 ∨ i = 13 ∨ i = 14 ∨ i = 15 ∨ i = 16 := by omega
      rcases hi with rfl | rfl | rfl | rfl | rfl | rfl | rfl | rfl | rfl | rfl | rfl | rfl | rfl <;> exact C30.nxs_get _ 0 rfl
    lone := C30.jxs_get 0 _ rfl
    numbers := C30.located 2 [] mtr.xss sigd.xss rfl rfl
    lsig := C30.located 5 mtr.xss sigd.xss [] (by simp) rfl
    sigd := C30.further 6 5 mtr.n (mtr.xss.length + 1) rfl (mtr.xss.length + mtr.n + 1) rfl (by omega)
    last := C30.jxs_get 21 _ rfl
    rest := by
      intro i h1 h2 h3
      have hi : i = 2 ∨ i = 4 ∨ i = 5 ∨ i = 8 ∨ i = 9 ∨ i = 10 ∨ i = 11 ∨ i = 12 ∨ i = 13 ∨ i = 14 ∨ i = 15 ∨ i = 16 ∨ i = 17 ∨ i = 18 ∨ i = 19 ∨ i = 20 ∨ i = 21 ∨ i = 23 ∨ i = 24 ∨ i = 25 ∨ i = 26 ∨ i = 27 ∨ i = 28 ∨ i = 29 ∨ i = 30 ∨ i = 31 ∨ i = 32 := by simp only [List.mem_cons, List.not_mem_nil, or_false, not_or] at h3; omega
      rcases hi with rfl | rfl | rfl | rfl | rfl | rfl | rfl | rfl | rfl | rfl | rfl | rfl | rfl | rfl | rfl | rfl | rfl | rfl | rfl | rfl | rfl | rfl | rfl | rfl | rfl | rfl | rfl <;> exact C30.jxs_get _ 0 rfl }

/-! ## Thermal scattering -/

/-- The words of the elastic blocks: coherent ones first. -/
def elasticWords (b : TS.Input) : Words :=
  match b.itce, b.itcei with
  | some c, some i => c.xss ++ cosineWords b.itca ++ i.xss ++ cosineWords b.itcai
  | some c, none => c.xss ++ cosineWords b.itca
  | none, some i => i.xss ++ cosineWords b.itcai
  | none, none => []

/-- The elastic mode IDPNC, the dimensioning parameters NCL and NCLI and the locators of the elastic blocks: 5
for both, 4 for coherent, 3 for incoherent and 0 for no elastic scattering. -/
def ThermalElastic (b : TS.Input) (d : TableData) : Prop :=
  match b.itce, b.itcei with
  | some c, some i => d.NXS 5 = .ok 5 ∧ ThermalXS d 4 c ∧ ThermalCosines d 6 b.itca ∧ ThermalXS d 7 i ∧
      d.NXS 6 = .ok (match b.itca with | some a => a.NCL | none => -1) ∧
      ∃ a, b.itcai = some a ∧ LocatedAt d 9 a.xss ∧ d.NXS 8 = .ok a.NCL
  | some c, none => d.NXS 5 = .ok 4 ∧ ThermalXS d 4 c ∧ ThermalCosines d 6 b.itca ∧
      d.NXS 6 = .ok (match b.itca with | some a => a.NCL | none => -1) ∧ d.NXS 8 = .ok 0 ∧
      d.JXS 7 = .ok 0 ∧ d.JXS 8 = .ok 0 ∧ d.JXS 9 = .ok 0
  | none, some i => d.NXS 5 = .ok 3 ∧ ThermalXS d 4 i ∧
      (∃ a, b.itcai = some a ∧ LocatedAt d 6 a.xss ∧ d.NXS 6 = .ok a.NCL) ∧ d.NXS 8 = .ok 0 ∧
      d.JXS 7 = .ok 0 ∧ d.JXS 8 = .ok 0 ∧ d.JXS 9 = .ok 0
  | none, none => (∀ i, i ∈ [5, 6, 8] → d.NXS i = .ok 0) ∧ ∀ i, 4 ≤ i → i ≤ 9 → d.JXS i = .ok 0

/-- A thermal scattering table. -/
structure ThermalArrays (b : TS.Input) (d : TableData) : Prop where
  words : d.xss = b.itie.xss ++ b.itxe.xss ++ elasticWords b
  length : d.NXS 1 = .ok (d.xss.length : Int)
  idpni : d.NXS 2 = .ok 3
  nil : d.NXS 3 = .ok (if b.itxe.IFENG < 2 then (b.itxe.nc : Int) - 1 else b.itxe.nc + 1)
  nieb : b.itxe.IFENG < 2 → ∃ n : Nat, b.itxe.NIEB 1 = .ok n ∧ d.NXS 4 = .ok (n : Int)
  nieb2 : ¬ b.itxe.IFENG < 2 → d.NXS 4 = .ok 0
  ifeng : d.NXS 7 = .ok (b.itxe.IFENG : Int)
  other : ∀ i, 9 ≤ i → i ≤ 16 → d.NXS i = .ok 0
  targets : d.iz.take b.za.length = b.za.map (fun v : Nat => (v : Int)) ∧ d.iz.length = 16
  itie : ThermalXS d 1 b.itie
  itxe : LocatedAt d 3 b.itxe.xss
  elastic : ThermalElastic b d
  rest : ∀ i, 10 ≤ i → i ≤ 32 → d.JXS i = .ok 0

/-- NXS and JXS of a thermal scattering table. -/
theorem C30_thermal (zaid : List Char) (b : TS.Input) (t : TS) (h : TS.mk' zaid b = .ok t) :
    ThermalArrays b t.data := by
  unfold TS.mk' at h
  obtain ⟨d, hd, h⟩ := bind_eq_ok.mp h
  have ht : t.data = d := by
    unfold TS.ofTable at h
    obtain ⟨_, _, h⟩ := bind_eq_ok.mp h
    unfold TS.generateBlocks at h
    repeat (obtain ⟨_, _, h⟩ := bind_eq_ok.mp h)
    injection h with h; subst h; rfl
  rw [ht]
  clear ht h
  unfold TS.generateData at hd
  obtain ⟨iz, hiz, hd⟩ := bind_eq_ok.mp hd
  obtain ⟨ne, hne, hd⟩ := bind_eq_ok.mp hd
  obtain ⟨o, ho, hd⟩ := bind_eq_ok.mp hd
  obtain ⟨_, _, hd⟩ := bind_eq_ok.mp hd
  obtain ⟨⟨w, js⟩, hx, hd⟩ := bind_eq_ok.mp hd
  obtain ⟨nieb, hnieb, hd⟩ := bind_eq_ok.mp hd
  injection hd with hd
  have hiz' : iz.take b.za.length = b.za.map (fun v : Nat => (v : Int)) ∧ iz.length = 16 := by
    unfold TS.izOf at hiz
    split at hiz
    · injection hiz with hiz; subst hiz
      refine ⟨by simp, by simp; omega⟩
    · cases hiz
  have main : ∀ (j4 j5 j6 j7 j8 j9 : Int) (o1 : Nat) (o2 o3 : Int), o = (o1, o2, o3) → js = [j4, j5, j6, j7, j8, j9] →
      w = b.itie.xss ++ b.itxe.xss ++ elasticWords b → ThermalElastic b d → ThermalArrays b d := by
    intro j4 j5 j6 j7 j8 j9 o1 o2 o3 eo ejs ew hel
    subst eo ejs ew
    exact {
      words := by subst hd; rfl
      length := by subst hd; exact C30.nxs_get 0 _ rfl
      idpni := by subst hd; exact C30.nxs_get 1 _ rfl
      nil := by subst hd; exact C30.nxs_get 2 _ rfl
      nieb := by
        intro hi
        unfold TS.niebOf at hnieb
        rw [if_pos hi] at hnieb
        exact ⟨nieb, hnieb, by subst hd; exact C30.nxs_get 3 _ rfl⟩
      nieb2 := by
        intro hi
        unfold TS.niebOf at hnieb
        rw [if_neg hi] at hnieb
        injection hnieb with hnieb
        subst hnieb
        subst hd; exact C30.nxs_get 3 _ rfl
      ifeng := by subst hd; exact C30.nxs_get 6 _ rfl
      other := by
        intro i h1 h2
        subst hd
        exact C30.nxs_zero [_, _, _, _, _, _, _, _] 8 rfl i (Nat.lt_of_succ_le h1) h2
      targets := by subst hd; exact hiz'
      itie := by
        subst hd
        exact ⟨C30.located 0 [] _ (b.itxe.xss ++ elasticWords b) (by simp) rfl, ne, hne,
          C30.further 1 0 (ne + 1) 1 rfl (1 + ne + 1) rfl (by omega)⟩
      itxe := by subst hd; exact C30.located 2 b.itie.xss _ (elasticWords b) rfl rfl
      elastic := hel
      rest := by
        intro i h1 h2
        subst hd
        exact C30.jxs_zero [_, _, _, _, _, _, _, _, _] 23 rfl i (Nat.lt_of_succ_le h1) h2 }
  unfold TS.addElastic TS.addXS at hx
  unfold TS.options at ho
  have hxs : d.xss = w := by subst hd; rfl
  cases hc : b.itce with
  | none =>
    cases hi : b.itcei with
    | none =>
      simp only [hc, hi] at hx ho
      injection hx with hx; injection ho with ho
      injection hx with hx1 hx2
      subst ho; subst hx1 hx2
      refine main _ _ _ _ _ _ _ _ _ rfl rfl (by simp [elasticWords, hc, hi]) ?_
      unfold ThermalElastic
      simp only [hc, hi]
      subst hd
      refine ⟨fun i hi => ?_, fun i h1 h2 => C30.jxs_zero [_, _, _] 29 rfl i (Nat.lt_of_succ_le h1) (by omega)⟩
      simp only [List.mem_cons, List.not_mem_nil, or_false] at hi
      rcases hi with rfl | rfl | rfl
      · exact C30.nxs_get 4 _ rfl
      · exact C30.nxs_get 5 _ rfl
      · exact C30.nxs_get 7 _ rfl
    | some i =>
      simp only [hc, hi] at hx ho
      obtain ⟨⟨x1, x2, x3⟩, hx4, hx⟩ := bind_eq_ok.mp hx
      obtain ⟨ne', hne', hx4⟩ := bind_eq_ok.mp hx4
      injection hx4 with hx4
      injection hx4 with hx4 hx5
      injection hx5 with hx5 hx6
      obtain ⟨a, ha, hx⟩ := bind_eq_ok.mp hx
      rw [ha, ok_bind] at ho
      injection hx with hx; injection ho with ho
      injection hx with hx1 hx2
      have ea : b.itcai = some a := by
        cases hq : b.itcai with
        | none => rw [hq] at ha; cases ha
        | some q => rw [hq] at ha; injection ha with ha; rw [ha]
      subst ho; subst hx1 hx2; subst hx4 hx5 hx6
      refine main _ _ _ _ _ _ _ _ _ rfl rfl (by simp [elasticWords, hc, hi, ea, cosineWords]) ?_
      unfold ThermalElastic
      simp only [hc, hi]
      subst hd
      refine ⟨C30.nxs_get 4 _ rfl, ⟨C30.located 3 (b.itie.xss ++ b.itxe.xss) i.xss a.xss rfl rfl, ne', hne',
        C30.further 4 3 (ne' + 1) _ rfl _ rfl (by omega)⟩, ⟨a, ea, C30.located 5 (b.itie.xss ++ b.itxe.xss ++ i.xss)
        a.xss [] (by simp) rfl, C30.nxs_get 5 _ rfl⟩, C30.nxs_get 7 _ rfl, C30.jxs_get 6 _ rfl, C30.jxs_get 7 _ rfl, C30.jxs_get 8 _ rfl⟩
  | some c =>
    cases hi : b.itcei with
    | none =>
      simp only [hc, hi] at hx ho
      obtain ⟨⟨x1, x2, x3⟩, hx4, hx⟩ := bind_eq_ok.mp hx
      obtain ⟨ne', hne', hx4⟩ := bind_eq_ok.mp hx4
      injection hx4 with hx4
      injection hx4 with hx4 hx5
      injection hx5 with hx5 hx6
      obtain ⟨j6, hj6, hcos⟩ := C30.addCosines_eq x1 b.itca
      simp only [hj6] at hx
      injection hx with hx; injection ho with ho
      injection hx with hx1 hx2
      subst ho; subst hx1 hx2; subst hx4 hx5 hx6
      refine main _ _ _ _ _ _ _ _ _ rfl rfl (by simp [elasticWords, hc, hi]) ?_
      unfold ThermalElastic
      simp only [hc, hi]
      subst hd
      refine ⟨C30.nxs_get 4 _ rfl, ⟨C30.located 3 (b.itie.xss ++ b.itxe.xss) c.xss (cosineWords b.itca) rfl rfl, ne', hne',
        C30.further 4 3 (ne' + 1) _ rfl _ rfl (by omega)⟩, hcos _ 5 [] rfl (by simp), ?_, C30.nxs_get 7 _ rfl,
        C30.jxs_get 6 _ rfl, C30.jxs_get 7 _ rfl, C30.jxs_get 8 _ rfl⟩
      rw [C30.nxs_get 5 _ rfl]
      cases b.itca <;> rfl
    | some i =>
      simp only [hc, hi] at hx ho
      obtain ⟨⟨x1, x2, x3⟩, hx4, hx⟩ := bind_eq_ok.mp hx
      obtain ⟨ne', hne', hx4⟩ := bind_eq_ok.mp hx4
      injection hx4 with hx4
      injection hx4 with hx4 hx5
      injection hx5 with hx5 hx6
      obtain ⟨j6, hj6, hcos⟩ := C30.addCosines_eq x1 b.itca
      simp only [hj6] at hx
      obtain ⟨⟨y1, y2, y3⟩, hy4, hx⟩ := bind_eq_ok.mp hx
      obtain ⟨ne2, hne2, hy4⟩ := bind_eq_ok.mp hy4
      injection hy4 with hy4
      injection hy4 with hy4 hy5
      injection hy5 with hy5 hy6
      obtain ⟨a, ha, hx⟩ := bind_eq_ok.mp hx
      rw [ha, ok_bind] at ho
      injection hx with hx; injection ho with ho
      injection hx with hx1 hx2
      have ea : b.itcai = some a := by
        cases hq : b.itcai with
        | none => rw [hq] at ha; cases ha
        | some q => rw [hq] at ha; injection ha with ha; rw [ha]
      subst ho; subst hx1 hx2; subst hx4 hx5 hx6; subst hy4 hy5 hy6
      refine main _ _ _ _ _ _ _ _ _ rfl rfl (by simp [elasticWords, hc, hi, ea]; simp [cosineWords]) ?_
      unfold ThermalElastic
      simp only [hc, hi]
      subst hd
      refine ⟨C30.nxs_get 4 _ rfl, ⟨C30.located 3 (b.itie.xss ++ b.itxe.xss) c.xss
          (cosineWords b.itca ++ i.xss ++ a.xss) (by simp) rfl, ne', hne',
        C30.further 4 3 (ne' + 1) _ rfl _ rfl (by omega)⟩, hcos _ 5 (i.xss ++ a.xss) rfl (by simp),
        ⟨C30.located 6 (b.itie.xss ++ b.itxe.xss ++ c.xss ++ cosineWords b.itca) i.xss a.xss rfl rfl, ne2, hne2,
          C30.further 7 6 (ne2 + 1) _ rfl _ rfl (by omega)⟩, ?_,
        a, ea, C30.located 8 (b.itie.xss ++ b.itxe.xss ++ c.xss ++ cosineWords b.itca ++ i.xss) a.xss [] (by simp) rfl,
          C30.nxs_get 7 _ rfl⟩
      rw [C30.nxs_get 5 _ rfl]
      cases b.itca <;> rfl

/-! ## Photonuclear -/

/-- The locators of a secondary particle, in the `i`-th row of twelve words from locator `l` on: its type, the
number of reactions and the locators of its blocks. The third array of each pair is `n` words further. -/
def PNRow (p : PNSecondary) (l i : Nat) (d : TableData) : Prop :=
  ∃ (fs : List Frame) (pxs phn mtrh tyrh sigh andh dlwh : Nat), p.dlwh.frames = fs.map some ∧
    At d ((l + 12 * i : Nat) : Int) ([p.type, p.mtrh.n, pxs, phn, mtrh, tyrh, sigh, sigh + p.mtrh.n, andh,
      andh + p.mtrh.n, dlwh, dlwh + p.mtrh.n].map Dbl.ofNat) ∧
    At d pxs p.pxs.xss ∧ At d phn p.phn.xss ∧ At d mtrh p.mtrh.xss ∧
    At d tyrh (fs.map fun f => TYR.word f 1) ∧ At d sigh p.sigh.xss ∧ At d andh p.andh.xss ∧
    At d dlwh p.dlwh.block.xss

/-- A photonuclear table. -/
structure PNArrays (B : PNBlocks) (z a s : Nat) (d : TableData) : Prop where
  length : d.NXS 1 = .ok (d.xss.length : Int)
  za : 1000 * z + a < 4294967296 → d.NXS 2 = .ok ((1000 * z + a : Nat) : Int)
  nes : d.NXS 3 = .ok (B.eszu.n : Int)
  ntr : d.NXS 4 = .ok (B.mtr.n : Int)
  ntype : d.NXS 5 = .ok (B.particles.length : Int)
  npixs : d.NXS 6 = .ok 2
  neixs : d.NXS 7 = .ok 12
  state : s ≠ 0 ∨ z ≠ 0 ∨ a ≠ 0 → d.NXS 9 = .ok (s : Int) ∧ d.NXS 10 = .ok (z : Int) ∧ d.NXS 11 = .ok (a : Int)
  other : ∀ i, i ∈ [8, 12, 13, 14, 15] → d.NXS i = .ok 0
  tvn : d.NXS 16 = .ok 1
  size : d.xss.length = B.size
  esz : LocatedAt d 1 B.eszu.xss ∧ d.JXS 1 = .ok 1
  tot : Further d 2 1 B.eszu.n
  /-- no elastic cross section: the nonelastic one is the total -/
  three : B.eszu.m = 3 → Further d 3 1 B.eszu.n ∧ d.JXS 4 = .ok 0 ∧ Further d 5 1 (2 * B.eszu.n)
  four : B.eszu.m = 4 → d.JXS 3 = .ok 0 ∧ Further d 4 1 (2 * B.eszu.n) ∧ Further d 5 1 (3 * B.eszu.n)
  mtr : LocatedAt d 6 B.mtr.xss
  lqr : LocatedAt d 7 B.lqr.xss
  lsig : LocatedAt d 8 B.sig.xss
  sig : Further d 9 8 B.mtr.n
  none : B.secondaries = none → d.JXS 10 = .ok 0 ∧ d.JXS 11 = .ok 0
  some : ∀ ps, B.secondaries = some ps → Further d 11 10 (12 * ps.length) ∧
    ∃ l : Nat, d.JXS 10 = .ok (l : Int) ∧ ∀ i p, ps[i]? = .some p → PNRow p l i d
  rest : ∀ i, 12 ≤ i → i ≤ 32 → d.JXS i = .ok 0

namespace C30

/-- Giving S, Z and A values changes nothing else. -/
theorem setSZA_keeps {d d' : TableData} {zaid : List Char} (h : d.setSZA zaid = .ok d') :
    d'.xss = d.xss ∧ d'.jxs = d.jxs ∧ ∀ i, i ∉ [8, 9, 10] → d'.nxs[i]? = d.nxs[i]? := by
  unfold TableData.setSZA at h
  obtain ⟨_, _, h⟩ := bind_eq_ok.mp h
  obtain ⟨_, _, h⟩ := bind_eq_ok.mp h
  obtain ⟨_, _, h⟩ := bind_eq_ok.mp h
  split at h
  · obtain ⟨za, _, h⟩ := bind_eq_ok.mp h
    obtain ⟨d1, h1, h⟩ := bind_eq_ok.mp h
    obtain ⟨d2, h2, h⟩ := bind_eq_ok.mp h
    unfold TableData.setNXS at h1 h2 h
    obtain ⟨_, _, h1⟩ := bind_eq_ok.mp h1
    obtain ⟨_, _, h2⟩ := bind_eq_ok.mp h2
    obtain ⟨_, _, h⟩ := bind_eq_ok.mp h
    injection h1 with h1
    injection h2 with h2
    injection h with h
    subst h1 h2 h
    refine ⟨rfl, rfl, fun i hi => ?_⟩
    simp only [List.mem_cons, List.not_mem_nil, or_false, not_or] at hi
    rw [List.getElem?_set_ne (by omega), List.getElem?_set_ne (by omega), List.getElem?_set_ne (by omega)]
  · injection h with h; subst h; exact ⟨rfl, rfl, fun _ _ => rfl⟩

theorem at_words {d : TableData} {w : Words} (pre post : Words) (l : Nat) (h : d.xss = pre ++ w ++ post)
    (hl : l = pre.length + 1) : At d l w := ⟨pre, post, h, by omega⟩

open PN C33 in
/-- The row and the blocks of a particle. -/
theorem pn_row {B : PNBlocks} {d : TableData} (hs : ∀ p ∈ B.particles, p.Sound)
    (hd : d.xss = frontWords B ++ ixsWords B ++ bodies (B.particles.map pin)) (i : Nat) (p : PNSecondary)
    (hp : B.particles[i]? = some p) : PNRow p ((frontWords B).length + 1) i d := by
  obtain ⟨hi, hpi⟩ := List.getElem?_eq_some_iff.mp hp
  obtain ⟨fs, hfs, -⟩ := (hs p (List.mem_of_getElem? hp)).frames
  have hft : framesOf p = fs := by simp [framesOf, hfs, Function.comp_def]
  have split : B.particles = B.particles.take i ++ p :: B.particles.drop (i + 1) := by
    rw [← hpi]
    rw [← List.drop_eq_getElem_cons, List.take_append_drop]
  generalize hA : B.particles.take i = A at split
  generalize hC : B.particles.drop (i + 1) = C at split
  have hAl : A.length = i := by rw [← hA, List.length_take]; omega
  have hbod : bodies (B.particles.map pin) = bodies (A.map pin) ++ particleWords (pin p) ++ bodies (C.map pin) := by
    rw [split, List.map_append, List.map_cons, bodies_append]
    simp [bodies]
  have hmm : ∀ L : List PNSecondary, (L.map typed).map (·.2) = L.map pin := by
    intro L; simp [typed]
  have hix : ixsWords B = (flat (start B) (A.map typed)).map Dbl.ofNat ++
      ((p.type :: p.mtrh.n :: particleLocators (start B + (bodies (A.map pin)).length) (pin p)).map Dbl.ofNat ++
      (flat (start B + (bodies (A.map pin)).length + (particleWords (pin p)).length) (C.map typed)).map Dbl.ofNat) := by
    unfold ixsWords
    rw [split, List.map_append, List.map_cons, flat_append, hmm, List.map_append]
    simp only [flat, typed, List.map_append]
    rfl
  have hil : (ixsWords B).length = 12 * B.particles.length := by
    simp [ixsWords, flat_length]
  have hfl : ((flat (start B) (A.map typed)).map Dbl.ofNat).length = 12 * i := by
    rw [List.length_map, flat_length, List.length_map, hAl]
  have hst : (frontWords B ++ ixsWords B ++ bodies (A.map pin)).length = start B + (bodies (A.map pin)).length := by
    simp only [List.length_append, hil, start]
  generalize hn : start B + (bodies (A.map pin)).length = n at *
  generalize hpre : frontWords B ++ ixsWords B ++ bodies (A.map pin) = pre at *
  generalize bodies (C.map pin) = post at *
  have hx : d.xss = pre ++ p.pxs.xss ++ p.phn.xss ++ p.mtrh.xss ++ (fs.map fun f => TYR.word f 1) ++ p.sigh.xss ++
      p.andh.xss ++ p.dlwh.block.xss ++ post := by
    rw [hd, hbod, ← List.append_assoc, ← List.append_assoc, hpre]
    simp only [particleWords, pin, CE.frameTyr, hft, List.append_assoc, List.map_map, Function.comp_def]
  refine ⟨fs, n + 1, n + p.pxs.xss.length + 1, n + p.pxs.xss.length + p.phn.xss.length + 1,
    n + p.pxs.xss.length + p.phn.xss.length + p.mtrh.xss.length + 1,
    n + p.pxs.xss.length + p.phn.xss.length + p.mtrh.xss.length + fs.length + 1,
    n + p.pxs.xss.length + p.phn.xss.length + p.mtrh.xss.length + fs.length + p.sigh.xss.length + 1,
    n + p.pxs.xss.length + p.phn.xss.length + p.mtrh.xss.length + fs.length + p.sigh.xss.length + p.andh.xss.length + 1,
    hfs, ?_, ?_, ?_, ?_, ?_, ?_, ?_, ?_⟩
  · refine at_words (frontWords B ++ (flat (start B) (A.map typed)).map Dbl.ofNat)
      ((flat (n + (particleWords (pin p)).length) (C.map typed)).map Dbl.ofNat ++ bodies (B.particles.map pin)) _ ?_ ?_
    · rw [hd, hix]
      have : particleLocators n (pin p) = [n + 1, n + p.pxs.xss.length + 1, n + p.pxs.xss.length + p.phn.xss.length + 1,
          n + p.pxs.xss.length + p.phn.xss.length + p.mtrh.xss.length + 1,
          n + p.pxs.xss.length + p.phn.xss.length + p.mtrh.xss.length + fs.length + 1,
          n + p.pxs.xss.length + p.phn.xss.length + p.mtrh.xss.length + fs.length + 1 + p.mtrh.n,
          n + p.pxs.xss.length + p.phn.xss.length + p.mtrh.xss.length + fs.length + p.sigh.xss.length + 1,
          n + p.pxs.xss.length + p.phn.xss.length + p.mtrh.xss.length + fs.length + p.sigh.xss.length + 1 + p.mtrh.n,
          n + p.pxs.xss.length + p.phn.xss.length + p.mtrh.xss.length + fs.length + p.sigh.xss.length + p.andh.xss.length + 1,
          n + p.pxs.xss.length + p.phn.xss.length + p.mtrh.xss.length + fs.length + p.sigh.xss.length + p.andh.xss.length + 1 + p.mtrh.n] := by
        simp only [particleLocators, pin, CE.frameTyr, hft, List.length_map, Nat.add_right_comm _ 1 p.mtrh.n]
      rw [this]
      simp only [List.append_assoc]
    · rw [List.length_append, hfl]; omega
  · exact at_words pre _ _ (by rw [hx]; simp only [List.append_assoc]; rfl) (by omega)
  · exact at_words (pre ++ p.pxs.xss) _ _ (by rw [hx]; simp only [List.append_assoc]; rfl) (by simp; omega)
  · exact at_words (pre ++ p.pxs.xss ++ p.phn.xss) _ _ (by rw [hx]; simp only [List.append_assoc]; rfl) (by simp; omega)
  · exact at_words (pre ++ p.pxs.xss ++ p.phn.xss ++ p.mtrh.xss) _ _ (by rw [hx]; simp only [List.append_assoc]; rfl)
      (by simp; omega)
  · exact at_words (pre ++ p.pxs.xss ++ p.phn.xss ++ p.mtrh.xss ++ (fs.map fun f => TYR.word f 1)) _ _
      (by rw [hx]; simp only [List.append_assoc]; rfl) (by simp; omega)
  · exact at_words (pre ++ p.pxs.xss ++ p.phn.xss ++ p.mtrh.xss ++ (fs.map fun f => TYR.word f 1) ++ p.sigh.xss) _ _
      (by rw [hx]; simp only [List.append_assoc]; rfl) (by simp; omega)
  · exact at_words (pre ++ p.pxs.xss ++ p.phn.xss ++ p.mtrh.xss ++ (fs.map fun f => TYR.word f 1) ++ p.sigh.xss ++
      p.andh.xss) post _ (by rw [hx]) (by simp; omega)

end C30


/-- NXS and JXS of a photonuclear table. -/
theorem C30_photonuclear (zaid : List Char) (z a s : Nat) (B : PNBlocks) (hs : B.Sound) (t : PN)
    (h : PN.mk' zaid z a s B.input = .ok t) : PNArrays B z a s t.data := by
  unfold PN.mk' at h
  rw [C33.generateData_eq z a s hs, ok_bind] at h
  unfold PN.ofTable at h
  obtain ⟨_, _, h⟩ := bind_eq_ok.mp h
  obtain ⟨d, hd, h⟩ := bind_eq_ok.mp h
  have ht : t.data = d := by
    unfold PN.generateBlocks at h
    repeat (obtain ⟨_, _, h⟩ := bind_eq_ok.mp h)
    injection h with h; subst h; rfl
  rw [ht]
  clear ht h
  obtain ⟨hx, hj, hn⟩ := C30.setSZA_keeps hd
  have hx' : d.xss = C33.frontWords B ++ C33.ixsWords B ++ PN.bodies (B.particles.map C33.pin) := hx
  have nx : ∀ i v, i ∉ [8, 9, 10] → (C33.dataOf z a s B).nxs[i]? = some v → d.NXS (i + 1) = .ok v := by
    intro i v h1 h2
    exact C30.nxs_get i v (by rw [hn i h1, h2])
  have hel : ∀ (b : Bool), ∃ j3 j4 j5 : Int, PN.principalLocators B.eszu.n b = [1, ((B.eszu.n + 1 : Nat) : Int), j3, j4, j5] := by
    intro b; unfold PN.principalLocators; split <;> exact ⟨_, _, _, rfl⟩
  have hsl : ∃ j1 j2, C33.secondaryLocators B = [j1, j2] := by
    unfold C33.secondaryLocators; split <;> exact ⟨_, _, rfl⟩
  obtain ⟨j3, j4, j5, e1⟩ := hel (B.eszu.m == 4)
  obtain ⟨j10, j11, e2⟩ := hsl
  have ej : d.jxs = [1, ((B.eszu.n + 1 : Nat) : Int), j3, j4, j5, PA.after B.eszu.xss,
      PA.after (B.eszu.xss ++ B.mtr.xss), PA.after (B.eszu.xss ++ B.mtr.xss ++ B.lqr.xss),
      PA.afterPlus (B.eszu.xss ++ B.mtr.xss ++ B.lqr.xss) B.mtr.n, j10, j11] ++ List.replicate 21 0 := by
    rw [hj]
    simp only [C33.dataOf, e1, e2]
    rfl
  have j1 : d.jxs[0]? = some ((1 : Nat) : Int) := by rw [ej]; rfl
  have hfront : ∀ w1 w2 : Words, ∀ w : Words, C33.frontWords B = w1 ++ w ++ w2 → ∃ post, d.xss = w1 ++ w ++ post := by
    intro w1 w2 w hw
    exact ⟨w2 ++ (C33.ixsWords B ++ PN.bodies (B.particles.map C33.pin)), by rw [hx', hw]; simp only [List.append_assoc]⟩
  exact {
    length := by rw [hx]; exact nx 0 _ (by decide) rfl
    za := by
      intro hza
      rw [show 1000 * z + a = (z * 1000 + a) % 4294967296 by omega]
      exact nx 1 _ (by decide) rfl
    nes := nx 2 _ (by decide) rfl
    ntr := nx 3 _ (by decide) rfl
    ntype := nx 4 _ (by decide) rfl
    npixs := nx 5 _ (by decide) rfl
    neixs := nx 6 _ (by decide) rfl
    state := by
      intro h
      have g9 : (C33.dataOf z a s B).NXS 9 = .ok (s : Int) := C30.nxs_get 8 _ rfl
      have g10 : (C33.dataOf z a s B).NXS 10 = .ok (z : Int) := C30.nxs_get 9 _ rfl
      have g11 : (C33.dataOf z a s B).NXS 11 = .ok (a : Int) := C30.nxs_get 10 _ rfl
      have : d = C33.dataOf z a s B := by
        unfold TableData.setSZA at hd
        simp only [g9, g10, g11, ok_bind] at hd
        rw [if_neg (by omega)] at hd
        injection hd with hd
        exact hd.symm
      rw [this]
      exact ⟨g9, g10, g11⟩
    other := by
      intro i hi
      simp only [List.mem_cons, List.not_mem_nil, or_false] at hi
      rcases hi with rfl | rfl | rfl | rfl | rfl <;> exact nx _ 0 (by decide) rfl
    tvn := nx 15 _ (by decide) rfl
    size := by
      rw [hx', List.length_append, List.length_append, C33.body_size hs]
      simp [C33.ixsWords, PN.flat_length, C33.frontWords, PNBlocks.size, PNBlocks.front]
      omega
    esz := by
      obtain ⟨post, hp⟩ := hfront [] (B.mtr.xss ++ B.lqr.xss ++ B.sig.xss) B.eszu.xss (by simp [C33.frontWords])
      exact ⟨C30.located 0 [] _ post hp j1, C30.jxs_get 0 _ j1⟩
    tot := C30.further 1 0 _ 1 j1 (B.eszu.n + 1) (by rw [ej]; rfl) (by omega)
    three := by
      intro hm
      have : (B.eszu.m == 4) = false := by rw [hm]; rfl
      rw [this] at e1
      unfold PN.principalLocators at e1
      simp only [Bool.false_eq_true, if_false, List.cons.injEq, and_true, true_and] at e1
      obtain ⟨rfl, rfl, rfl⟩ := e1
      exact ⟨C30.further 2 0 _ 1 j1 (B.eszu.n + 1) (by rw [ej]; rfl) (by omega), C30.jxs_get 3 _ (by rw [ej]; rfl),
        C30.further 4 0 _ 1 j1 (2 * B.eszu.n + 1) (by rw [ej]; rfl) (by omega)⟩
    four := by
      intro hm
      have : (B.eszu.m == 4) = true := by rw [hm]; rfl
      rw [this] at e1
      unfold PN.principalLocators at e1
      simp only [if_true, List.cons.injEq, and_true, true_and] at e1
      obtain ⟨rfl, rfl, rfl⟩ := e1
      exact ⟨C30.jxs_get 2 _ (by rw [ej]; rfl), C30.further 3 0 _ 1 j1 (2 * B.eszu.n + 1) (by rw [ej]; rfl) (by omega),
        C30.further 4 0 _ 1 j1 (3 * B.eszu.n + 1) (by rw [ej]; rfl) (by omega)⟩
    mtr := by
      obtain ⟨post, hp⟩ := hfront B.eszu.xss (B.lqr.xss ++ B.sig.xss) B.mtr.xss (by simp [C33.frontWords])
      exact C30.located 5 _ _ post hp (by rw [ej]; rfl)
    lqr := by
      obtain ⟨post, hp⟩ := hfront (B.eszu.xss ++ B.mtr.xss) B.sig.xss B.lqr.xss (by simp [C33.frontWords])
      exact C30.located 6 _ _ post hp (by rw [ej]; rfl)
    lsig := by
      obtain ⟨post, hp⟩ := hfront (B.eszu.xss ++ B.mtr.xss ++ B.lqr.xss) [] B.sig.xss (by simp [C33.frontWords])
      exact C30.located 7 _ _ post hp (by rw [ej]; rfl)
    sig := C30.further 8 7 _ ((B.eszu.xss ++ B.mtr.xss ++ B.lqr.xss).length + 1) (by rw [ej]; rfl)
      ((B.eszu.xss ++ B.mtr.xss ++ B.lqr.xss).length + 1 + B.mtr.n) (by rw [ej]; rfl) rfl
    none := by
      intro hp
      unfold C33.secondaryLocators at e2
      simp only [hp, List.cons.injEq, and_true] at e2
      obtain ⟨rfl, rfl⟩ := e2
      exact ⟨C30.jxs_get 9 _ (by rw [ej]; rfl), C30.jxs_get 10 _ (by rw [ej]; rfl)⟩
    some := by
      intro ps hp
      unfold C33.secondaryLocators at e2
      simp only [hp, List.cons.injEq, and_true] at e2
      obtain ⟨rfl, rfl⟩ := e2
      refine ⟨C30.further 10 9 _ ((C33.frontWords B).length + 1) (by rw [ej]; rfl)
        ((C33.frontWords B).length + 12 * ps.length + 1) (by rw [ej]; rfl) (by omega), (C33.frontWords B).length + 1,
        C30.jxs_get 9 _ (by rw [ej]; rfl), fun i p hi => ?_⟩
      have : B.particles = ps := by simp [PNBlocks.particles, hp]
      exact C30.pn_row hs.secondaries hx' i p (by rw [this]; exact hi)
    rest := by
      intro i h1 h2
      exact C30.jxs_zero _ 21 ej i (Nat.lt_of_succ_le h1) h2 }

/-! ## Photoatomic -/

/-- The three arrays at locator `l` in front of `n` electroionisation blocks and the blocks: the number of
distributions, the locator of the block and the locator of its distributions. -/
def EionAt (bs : List ElectronBlock) (l : Nat) (d : TableData) : Prop :=
  ∀ i b, bs[i]? = some b → ∃ p : Nat, At d p b.xss ∧
    d.xss[l - 1 + i]? = some (Dbl.ofNat b.n) ∧
    d.xss[l - 1 + bs.length + i]? = some (Dbl.ofNat p) ∧
    d.xss[l - 1 + 2 * bs.length + i]? = some (Dbl.ofNat (p + 3 * b.n))

/-- The electron, photon and relaxation data are there: the locators JXS(11) to JXS(27) and the counts NXS(6) to
NXS(14). -/
structure PAElectronArrays (b : PA.Input) (subsh : SUBSH) (d : TableData) : Prop where
  nepr : d.NXS 6 = .ok (if b.selas.isSome then 3 else 1)
  nssh : d.NXS 7 = .ok (subsh.n : Int) ∧ b.eion.length = subsh.n
  subshells : LocatedAt d 11 subsh.xss ∧ Further d 12 11 subsh.n ∧ Further d 13 11 (2 * subsh.n) ∧ Further d 14 11 (3 * subsh.n) ∧
    Further d 15 11 (4 * subsh.n)
  sphel : ∃ x, b.sphel = some x ∧ LocatedAt d 16 x.xss
  xprob : ∃ x, b.xprob = some x ∧ LocatedAt d 17 x.xss ∧ Further d 18 17 subsh.n
  esze : ∃ x, b.esze = some x ∧ LocatedAt d 19 x.xss ∧ d.NXS 8 = .ok (x.n : Int)
  excit : ∃ x, b.excit = some x ∧ LocatedAt d 20 x.xss ∧ d.NXS 9 = .ok (x.n : Int)
  elas : ∃ x, b.elas = some x ∧ LocatedAt d 21 x.xss ∧ d.NXS 10 = .ok (x.n : Int) ∧ Further d 22 21 (3 * x.n)
  eion : ∃ l : Nat, d.JXS 23 = .ok (l : Int) ∧ EionAt b.eion l d
  breme : ∃ x, b.breme = some x ∧ LocatedAt d 24 x.xss ∧ d.NXS 11 = .ok (x.n : Int) ∧ Further d 25 24 (3 * x.n)
  breml : ∃ x, b.breml = some x ∧ LocatedAt d 26 x.xss ∧ d.NXS 12 = .ok (x.n : Int)
  selas : LocatedIf d 27 (b.selas.map (·.xss))
  ninc : d.NXS 13 = .ok (if b.selas.isSome then b.jinc.NM else 0 : Nat)
  ncoh : d.NXS 14 = .ok (if b.selas.isSome then b.jcoh.NM else 0 : Nat)

/-- A photoatomic table. -/
structure PAArrays (b : PA.Input) (d : TableData) : Prop where
  length : d.NXS 1 = .ok (d.xss.length : Int)
  z : d.NXS 2 = .ok (b.z : Int)
  nes : d.NXS 3 = .ok (b.eszg.n : Int)
  nflo : d.NXS 4 = .ok ((match b.jflo with | some x => ArrayData.n x | none => 0 : Nat) : Int)
  nsh : d.NXS 5 = .ok ((match b.swd with | some x => x.n | none => 0 : Nat) : Int)
  eszg : LocatedAt d 1 b.eszg.xss
  jinc : LocatedAt d 2 b.jinc.data.xss
  jcoh : LocatedAt d 3 b.jcoh.data.xss
  jflo : LocatedAt d 4 (match b.jflo with | some x => ArrayData.xss x | none => [])
  lhnm : LocatedAt d 5 b.lhnm.xss
  eps : LocatedIf d 6 (b.eps.map (·.xss))
  shells : ∀ x nsh, b.eps = some x → d.NXS 5 = .ok ((nsh : Nat) : Int) →
    Further d 7 6 nsh ∧ Further d 8 6 (2 * nsh)
  noshells : b.eps = none → d.JXS 7 = .ok 0 ∧ d.JXS 8 = .ok 0
  swd : LocatedIf d 9 (b.swd.map (·.xss))
  swd2 : ∀ x, b.swd = some x → Further d 10 9 x.n
  noswd : b.swd = none → d.JXS 10 = .ok 0
  electrons : ∀ x, b.subsh = some x → PAElectronArrays b x d
  noelectrons : b.subsh = none → (∀ i, 6 ≤ i → i ≤ 14 → d.NXS i = .ok 0) ∧ ∀ i, 11 ≤ i → i ≤ 27 → d.JXS i = .ok 0
  other : ∀ i, 15 ≤ i → i ≤ 16 → d.NXS i = .ok 0
  rest : ∀ i, 28 ≤ i → i ≤ 32 → d.JXS i = .ok 0
  targets : d.iz.take b.za.length = b.za.map (fun v : Nat => (v : Int)) ∧ d.aw.take b.za.length = b.awr ∧
    b.za.length = b.awr.length

namespace C30

theorem eionSecond_get (k : Nat) (bs : List ElectronBlock) (i : Nat) (b : ElectronBlock) (h : bs[i]? = some b) :
    (PA.eionSecond k bs)[i]? = some (Dbl.ofNat (k + ((bs.take i).map (·.xss)).flatten.length + 3 * b.n + 1)) := by
  induction bs generalizing k i with
  | nil => simp at h
  | cons x bs ih =>
    cases i with
    | zero => simp at h; subst h; simp [PA.eionSecond]
    | succ i =>
      simp only [List.getElem?_cons_succ] at h
      simp only [PA.eionSecond, List.getElem?_cons_succ, ih _ i h, List.take_succ_cons, List.map_cons,
        List.flatten_cons, List.length_append, Nat.add_assoc]

theorem eionFirst_get (k : Nat) (bs : List ElectronBlock) (i : Nat) (b : ElectronBlock) (h : bs[i]? = some b) :
    (locsFrom (fun p => Dbl.ofNat (p + 1)) k (bs.map (·.xss)))[i]? =
      some (Dbl.ofNat (k + ((bs.take i).map (·.xss)).flatten.length + 1)) := by
  induction bs generalizing k i with
  | nil => simp at h
  | cons x bs ih =>
    cases i with
    | zero => simp at h; subst h; simp [locsFrom]
    | succ i =>
      simp only [List.getElem?_cons_succ] at h
      simp only [locsFrom, List.map_cons, List.getElem?_cons_succ, ih _ i h, List.take_succ_cons,
        List.flatten_cons, List.length_append, Nat.add_assoc]

theorem eion_at {d : TableData} (x post : Words) (bs : List ElectronBlock)
    (hd : d.xss = PA.addEION bs.length bs x ++ post) : EionAt bs (x.length + 1) d := by
  intro i b hb
  rw [PA.addEION_eq] at hd
  obtain ⟨hi, hbi⟩ := List.getElem?_eq_some_iff.mp hb
  have hsplit : (bs.map (·.xss)).flatten = ((bs.take i).map (·.xss)).flatten ++ b.xss ++
      ((bs.drop (i + 1)).map (·.xss)).flatten := by
    have : bs = bs.take i ++ b :: bs.drop (i + 1) := by
      rw [← hbi, ← List.drop_eq_getElem_cons, List.take_append_drop]
    conv => lhs; rw [this]
    simp
  have hl := PA.eionHead_length x.length bs
  refine ⟨x.length + 3 * bs.length + ((bs.take i).map (·.xss)).flatten.length + 1, ?_, ?_, ?_, ?_⟩
  · refine at_words (x ++ PA.eionHead x.length bs ++ ((bs.take i).map (·.xss)).flatten)
      (((bs.drop (i + 1)).map (·.xss)).flatten ++ post) _ ?_ ?_
    · rw [hd, hsplit]; simp only [List.append_assoc]
    · simp only [List.length_append, hl]
  · rw [hd, show x.length + 1 - 1 + i = x.length + i by omega]
    rw [List.append_assoc, List.append_assoc, List.getElem?_append_right (by omega),
      List.getElem?_append_left (by rw [hl]; omega)]
    unfold PA.eionHead
    rw [List.append_assoc, List.getElem?_append_left (by simp; omega)]
    simp [hb]
  · rw [hd, show x.length + 1 - 1 + bs.length + i = x.length + (bs.length + i) by omega]
    rw [List.append_assoc, List.append_assoc, List.getElem?_append_right (by omega),
      List.getElem?_append_left (by rw [hl]; omega)]
    unfold PA.eionHead
    rw [List.append_assoc, List.getElem?_append_right (by simp), List.getElem?_append_left (by simp; omega)]
    rw [show x.length + (bs.length + i) - x.length - (List.map (fun b : ElectronBlock => Dbl.ofNat b.n) bs).length = i by
      simp]
    rw [eionFirst_get _ _ _ _ hb]
  · rw [hd, show x.length + 1 - 1 + 2 * bs.length + i = x.length + (2 * bs.length + i) by omega]
    rw [List.append_assoc, List.append_assoc, List.getElem?_append_right (by omega),
      List.getElem?_append_left (by rw [hl]; omega)]
    unfold PA.eionHead
    rw [List.getElem?_append_right (by simp; omega)]
    rw [show x.length + (2 * bs.length + i) - x.length - (List.map (fun b : ElectronBlock => Dbl.ofNat b.n) bs ++
      locsFrom (fun p => Dbl.ofNat (p + 1)) (x.length + 3 * bs.length) (bs.map (·.xss))).length = i by
      simp; omega]
    rw [eionSecond_get _ _ _ _ hb]
    congr 2; omega

theorem located_pre {d : TableData} (i : Nat) (pre w : Words) (hp : pre ++ w <+: d.xss)
    (hj : d.jxs[i]? = some (PA.after pre)) : LocatedAt d (i + 1) w := by
  obtain ⟨post, hp⟩ := hp
  exact located i pre w post hp.symm hj

theorem further_pre {d : TableData} (i j k : Nat) (pre : Words) (hj : d.jxs[j]? = some (PA.after pre))
    (hi : d.jxs[i]? = some (PA.afterPlus pre k)) : Further d (i + 1) (j + 1) k :=
  further i j k (pre.length + 1) hj (pre.length + 1 + k) hi rfl

theorem sub_pre {a b c : Words} (h : b <+: c) (t : Words) (ht : b = a ++ t) : a <+: c := by
  rw [ht] at h; exact (List.prefix_append _ _).trans h

theorem pre_trans {a b c : Words} (h : a <+: b) (t : Words) (ht : c = b ++ t) : a <+: c := by
  rw [ht]; exact h.trans (List.prefix_append _ _)

/-- The words and locators of the shells. -/
theorem shells_shape (x5 : Words) (nsh : Nat) (eps : Option EPS) (swd : Option SWD) :
    ∃ (x6 x9 : Words) (j6 j7 j8 j9 j10 : Int), PA.addShells x5 nsh eps swd = (x9, [j6, j7, j8, j9, j10]) ∧
      x5 <+: x6 ∧ x6 <+: x9 ∧
      (∀ x, eps = some x → x6 = x5 ++ x.xss ∧ j6 = PA.after x5 ∧ j7 = PA.afterPlus x5 nsh ∧
        j8 = PA.afterPlus x5 (2 * nsh)) ∧ (eps = none → j6 = 0 ∧ j7 = 0 ∧ j8 = 0) ∧
      (∀ x, swd = some x → x9 = x6 ++ x.xss ∧ j9 = PA.after x6 ∧ j10 = PA.afterPlus x6 nsh) ∧
      (swd = none → j9 = 0 ∧ j10 = 0) := by
  cases eps with
  | none =>
    cases swd with
    | none => exact ⟨x5, x5, 0, 0, 0, 0, 0, rfl, List.prefix_refl _, List.prefix_refl _, by simp, by simp, by simp, by simp⟩
    | some y =>
      exact ⟨x5, x5 ++ y.xss, 0, 0, 0, _, _, rfl, List.prefix_refl _, List.prefix_append _ _, by simp, by simp,
        by intro x hx; injection hx with hx; subst hx; exact ⟨rfl, rfl, rfl⟩, by simp⟩
  | some e =>
    cases swd with
    | none =>
      exact ⟨x5 ++ e.xss, x5 ++ e.xss, _, _, _, 0, 0, rfl, List.prefix_append _ _, List.prefix_refl _,
        by intro x hx; injection hx with hx; subst hx; exact ⟨rfl, rfl, rfl, rfl⟩, by simp, by simp, by simp⟩
    | some y =>
      exact ⟨x5 ++ e.xss, x5 ++ e.xss ++ y.xss, _, _, _, _, _, rfl, List.prefix_append _ _, List.prefix_append _ _,
        by intro x hx; injection hx with hx; subst hx; exact ⟨rfl, rfl, rfl, rfl⟩, by simp,
        by intro x hx; injection hx with hx; subst hx; exact ⟨rfl, rfl, rfl⟩, by simp⟩

/-- The words and locators of the electron data. -/
theorem electrons_shape (x9 : Words) (e : PA.Electrons) :
    ∃ (w : Words) (j27 : Int), PA.addElectrons x9 (some e) = (w,
      [PA.after x9, PA.afterPlus x9 e.subsh.n, PA.afterPlus x9 (2 * e.subsh.n), PA.afterPlus x9 (3 * e.subsh.n),
        PA.afterPlus x9 (4 * e.subsh.n), PA.after (x9 ++ e.subsh.xss), PA.after (x9 ++ e.subsh.xss ++ e.sphel.xss),
        PA.afterPlus (x9 ++ e.subsh.xss ++ e.sphel.xss) e.subsh.n,
        PA.after (x9 ++ e.subsh.xss ++ e.sphel.xss ++ e.xprob.xss),
        PA.after (x9 ++ e.subsh.xss ++ e.sphel.xss ++ e.xprob.xss ++ e.esze.xss),
        PA.after (x9 ++ e.subsh.xss ++ e.sphel.xss ++ e.xprob.xss ++ e.esze.xss ++ e.excit.xss),
        PA.afterPlus (x9 ++ e.subsh.xss ++ e.sphel.xss ++ e.xprob.xss ++ e.esze.xss ++ e.excit.xss) (3 * e.elas.n),
        PA.after (x9 ++ e.subsh.xss ++ e.sphel.xss ++ e.xprob.xss ++ e.esze.xss ++ e.excit.xss ++ e.elas.xss),
        PA.after (PA.addEION e.subsh.n e.eion
          (x9 ++ e.subsh.xss ++ e.sphel.xss ++ e.xprob.xss ++ e.esze.xss ++ e.excit.xss ++ e.elas.xss)),
        PA.afterPlus (PA.addEION e.subsh.n e.eion
          (x9 ++ e.subsh.xss ++ e.sphel.xss ++ e.xprob.xss ++ e.esze.xss ++ e.excit.xss ++ e.elas.xss)) (3 * e.breme.n),
        PA.after (PA.addEION e.subsh.n e.eion
          (x9 ++ e.subsh.xss ++ e.sphel.xss ++ e.xprob.xss ++ e.esze.xss ++ e.excit.xss ++ e.elas.xss) ++ e.breme.xss),
        j27]) ∧
      w = PA.addEION e.subsh.n e.eion
          (x9 ++ e.subsh.xss ++ e.sphel.xss ++ e.xprob.xss ++ e.esze.xss ++ e.excit.xss ++ e.elas.xss) ++ e.breme.xss ++
            e.breml.xss ++ (match e.selas with | some s => s.xss | none => []) ∧
      (e.selas = none → j27 = 0) ∧ (e.selas.isSome → j27 = PA.after (PA.addEION e.subsh.n e.eion
          (x9 ++ e.subsh.xss ++ e.sphel.xss ++ e.xprob.xss ++ e.esze.xss ++ e.excit.xss ++ e.elas.xss) ++ e.breme.xss ++
            e.breml.xss)) := by
  obtain ⟨subsh, sphel, xprob, esze, excit, elas, eion, breme, breml, selas⟩ := e
  cases selas with
  | none => exact ⟨_, _, rfl, (List.append_nil _).symm, fun _ => rfl, fun h => by cases h⟩
  | some s => exact ⟨_, _, rfl, rfl, fun h => by (cases h), fun _ => rfl⟩

end C30

/-- NXS and JXS of a photoatomic table. -/
theorem C30_photoatomic (zaid : List Char) (b : PA.Input) (t : PA) (h : PA.mk' zaid b = .ok t) :
    PAArrays b t.data := by
  unfold PA.mk' at h
  obtain ⟨d, hd, h⟩ := bind_eq_ok.mp h
  have ht : t.data = d := by
    unfold PA.ofTable at h
    obtain ⟨_, _, h⟩ := bind_eq_ok.mp h
    unfold PA.generateBlocks at h
    repeat (obtain ⟨_, _, h⟩ := bind_eq_ok.mp h)
    injection h with h; subst h; rfl
  rw [ht]
  clear ht h
  unfold PA.generateData at hd
  obtain ⟨ta, hta, hd⟩ := bind_eq_ok.mp hd
  obtain ⟨e, he, hd⟩ := bind_eq_ok.mp hd
  obtain ⟨_, hl, hd⟩ := bind_eq_ok.mp hd
  obtain ⟨_, _, hd⟩ := bind_eq_ok.mp hd
  obtain ⟨_, hv, hd⟩ := bind_eq_ok.mp hd
  injection hd with hd
  have hl' : b.za.length = b.awr.length := by simpa using guardThrow_eq_ok.mp hl
  generalize hx5 : b.eszg.xss ++ b.jinc.data.xss ++ b.jcoh.data.xss ++ PA.jfloWords b.jflo ++ b.lhnm.xss = x5 at hd
  obtain ⟨x6, x9, j6, j7, j8, j9, j10, hsh, p56, p69, he1, he2, hs1, hs2⟩ :=
    C30.shells_shape x5 (PA.nshCount b.swd) b.eps b.swd
  simp only [hsh] at hd
  have htar : ta.1.take b.za.length = b.za.map (fun v : Nat => (v : Int)) ∧ ta.2.take b.za.length = b.awr := by
    unfold PA.targets at hta
    split at hta
    · injection hta with hta; subst hta
      refine ⟨by simp, ?_⟩
      simp only
      rw [hl', List.take_length, List.take_left]
    · cases hta
  -- what does not depend on the electron data
  have main : ∀ (w : Words) (js : List Int), PA.addElectrons x9 e = (w, js) → x9 <+: w → js.length = 17 →
      (∀ x, b.subsh = some x → PAElectronArrays b x d) →
      (b.subsh = none → (∀ i, 6 ≤ i → i ≤ 14 → d.NXS i = .ok 0) ∧ ∀ i, 11 ≤ i → i ≤ 27 → d.JXS i = .ok 0) →
        PAArrays b d := by
    intro w js hw p9 hjs h1 h2
    simp only [hw] at hd
    have hxs : d.xss = w := by subst hd; rfl
    have ej : d.jxs = ([1, PA.after b.eszg.xss, PA.after (b.eszg.xss ++ b.jinc.data.xss),
        PA.after (b.eszg.xss ++ b.jinc.data.xss ++ b.jcoh.data.xss),
        PA.after (b.eszg.xss ++ b.jinc.data.xss ++ b.jcoh.data.xss ++ PA.jfloWords b.jflo), j6, j7, j8, j9, j10] ++ js) ++
        List.replicate 5 0 := by subst hd; simp
    have p5 : x5 <+: d.xss := by rw [hxs]; exact p56.trans (p69.trans p9)
    have p6 : x6 <+: d.xss := by rw [hxs]; exact p69.trans p9
    have p9' : x9 <+: d.xss := by rw [hxs]; exact p9
    have jq : ∀ (i : Nat) (v : Int), [1, PA.after b.eszg.xss, PA.after (b.eszg.xss ++ b.jinc.data.xss),
        PA.after (b.eszg.xss ++ b.jinc.data.xss ++ b.jcoh.data.xss),
        PA.after (b.eszg.xss ++ b.jinc.data.xss ++ b.jcoh.data.xss ++ PA.jfloWords b.jflo), j6, j7, j8, j9, j10][i]? = some v →
          d.jxs[i]? = some v := by
      intro i v hi
      have : i < 10 := (List.getElem?_eq_some_iff.mp hi).1
      rw [ej, List.append_assoc, List.getElem?_append_left (by simpa using this)]
      exact hi
    have hsw : ∀ x, b.swd = some x → PA.nshCount b.swd = x.n := by intro x hx; rw [hx]; rfl
    have n5 : d.NXS 5 = .ok ((PA.nshCount b.swd : Nat) : Int) := by subst hd; exact C30.nxs_get 4 _ rfl
    exact {
      length := by rw [hxs]; subst hd; exact C30.nxs_get 0 _ rfl
      z := by subst hd; exact C30.nxs_get 1 _ rfl
      nes := by subst hd; exact C30.nxs_get 2 _ rfl
      nflo := by subst hd; rw [C30.nxs_get 3 _ rfl]; cases b.jflo <;> rfl
      nsh := by rw [n5]; cases b.swd <;> rfl
      eszg := C30.located_pre 0 [] _ (C30.sub_pre p5 (b.jinc.data.xss ++ b.jcoh.data.xss ++ PA.jfloWords b.jflo ++ b.lhnm.xss)
        (by rw [← hx5]; simp)) (jq 0 _ rfl)
      jinc := C30.located_pre 1 _ _ (C30.sub_pre p5 (b.jcoh.data.xss ++ PA.jfloWords b.jflo ++ b.lhnm.xss)
        (by rw [← hx5]; simp)) (jq 1 _ rfl)
      jcoh := C30.located_pre 2 _ _ (C30.sub_pre p5 (PA.jfloWords b.jflo ++ b.lhnm.xss)
        (by rw [← hx5]; simp)) (jq 2 _ rfl)
      jflo := by
        have := C30.located_pre 3 _ (PA.jfloWords b.jflo) (C30.sub_pre p5 b.lhnm.xss (by rw [← hx5])) (jq 3 _ rfl)
        unfold PA.jfloWords at this
        cases hb : b.jflo with
        | none => rw [hb] at this; exact this
        | some x => rw [hb] at this; exact this
      lhnm := C30.located_pre 4 _ _ (by rw [← hx5] at p5; exact p5) (jq 4 _ rfl)
      eps := by
        cases hb : b.eps with
        | none => rw [(he2 hb).1] at jq; exact C30.jxs_get 5 _ (jq 5 _ rfl)
        | some x =>
          obtain ⟨q1, q2, -⟩ := he1 x hb
          exact C30.located_pre 5 x5 _ (q1 ▸ p6) (q2 ▸ jq 5 _ rfl)
      shells := by
        intro x nsh hb hn
        obtain ⟨q1, q2, q3, q4⟩ := he1 x hb
        have : nsh = PA.nshCount b.swd := by
          rw [n5] at hn; injection hn with hn; omega
        subst this
        exact ⟨C30.further_pre 6 5 _ x5 (q2 ▸ jq 5 _ rfl) (q3 ▸ jq 6 _ rfl),
          C30.further_pre 7 5 _ x5 (q2 ▸ jq 5 _ rfl) (q4 ▸ jq 7 _ rfl)⟩
      noshells := by
        intro hb
        obtain ⟨q1, q2, q3⟩ := he2 hb
        exact ⟨C30.jxs_get 6 _ (q2 ▸ jq 6 _ rfl), C30.jxs_get 7 _ (q3 ▸ jq 7 _ rfl)⟩
      swd := by
        cases hb : b.swd with
        | none => exact C30.jxs_get 8 _ ((hs2 hb).1 ▸ jq 8 _ rfl)
        | some x =>
          obtain ⟨q1, q2, -⟩ := hs1 x hb
          exact C30.located_pre 8 x6 _ (q1 ▸ p9') (q2 ▸ jq 8 _ rfl)
      swd2 := by
        intro x hb
        obtain ⟨q1, q2, q3⟩ := hs1 x hb
        rw [hsw x hb] at q3
        exact C30.further_pre 9 8 _ x6 (q2 ▸ jq 8 _ rfl) (q3 ▸ jq 9 _ rfl)
      noswd := by
        intro hb
        exact C30.jxs_get 9 _ ((hs2 hb).2 ▸ jq 9 _ rfl)
      electrons := h1
      noelectrons := h2
      other := by
        intro i a c
        subst hd
        exact C30.nxs_zero [_, _, _, _, _, _, _, _, _, _, _, _, _, _] 2 rfl i (Nat.lt_of_succ_le a) c
      rest := by
        intro i a c
        refine C30.jxs_zero _ 5 ej i ?_ ?_ <;> simp only [List.length_append, hjs, List.length_cons, List.length_nil] <;> omega
      targets := by subst hd; exact ⟨htar.1, htar.2, hl'⟩ }
  cases hb : b.subsh with
  | none =>
    have e0 : e = none := by
      unfold PA.electrons at he
      rw [hb] at he
      injection he with he
      exact he.symm
    subst e0
    refine main x9 (List.replicate 17 0) rfl (List.prefix_refl _) rfl (fun x hx => by rw [hb] at hx; cases hx) (fun _ => ?_)
    simp only [PA.addElectrons] at hd
    refine ⟨fun i h1 h2 => ?_, fun i h1 h2 => ?_⟩
    · subst hd
      exact C30.nxs_zero [_, _, _, _, _] 11 rfl i (Nat.lt_of_succ_le h1) (show i ≤ 16 by omega)
    · subst hd
      exact C30.jxs_zero [_, _, _, _, _, _, _, _, _, _] 22 rfl i (Nat.lt_of_succ_le h1) (show i ≤ 32 by omega)
  | some x =>
    obtain ⟨q, hq, q1, q2, q3, q4, q5, q6, q7, q8, q9, q10⟩ : ∃ q : PA.Electrons, e = some q ∧ q.subsh = x ∧ b.sphel = some q.sphel ∧
        b.xprob = some q.xprob ∧ b.esze = some q.esze ∧ b.excit = some q.excit ∧ b.elas = some q.elas ∧
        b.breme = some q.breme ∧ b.breml = some q.breml ∧ q.eion = b.eion ∧ q.selas = b.selas := by
      unfold PA.electrons at he
      rw [hb] at he
      simp only at he
      split at he
      · rename_i g1 g2 g3 g4 g5 g6 g7
        injection he with he
        subst he
        exact ⟨_, rfl, rfl, g1, g2, g3, g4, g5, g6, g7, rfl, rfl⟩
      · cases he
    subst hq
    have hlen : b.eion.length = x.n := by
      unfold PA.verifyElectrons at hv
      obtain ⟨_, hv, -⟩ := bind_eq_ok.mp hv
      have := guardThrow_eq_ok.mp hv
      simp only [Bool.not_eq_true', Bool.or_eq_false_iff, bne_eq_false_iff_eq] at this
      rw [← q9, ← this.2, q1]
    obtain ⟨w, j27, hw, hww, g1, g2⟩ := C30.electrons_shape x9 q
    have hp9 : x9 <+: w := by
      rw [hww, show q.subsh.n = q.eion.length by rw [q1, q9, hlen], PA.addEION_eq]
      exact C30.sub_pre (List.prefix_refl _) _ (by simp only [List.append_assoc]; rfl)
    refine main w _ hw hp9 rfl (fun y hy => ?_) (fun hn => by rw [hb] at hn; cases hn)
    rw [hb] at hy
    injection hy with hy
    subst hy
    simp only [hw] at hd
    have hxs : d.xss = w := by subst hd; rfl
    generalize hx19 : x9 ++ q.subsh.xss ++ q.sphel.xss ++ q.xprob.xss ++ q.esze.xss = x19 at *
    generalize hx21 : x19 ++ q.excit.xss ++ q.elas.xss = x21 at *
    have hx23 : ∃ m, PA.addEION q.subsh.n q.eion x21 = x21 ++ m := by
      rw [show q.subsh.n = q.eion.length by rw [q1, q9, hlen], PA.addEION_eq]
      exact ⟨_, List.append_assoc _ _ _⟩
    obtain ⟨m, hm⟩ := hx23
    have p23 : PA.addEION q.subsh.n q.eion x21 ++ q.breme.xss ++ q.breml.xss <+: d.xss := by
      rw [hxs, hww]; exact List.prefix_append _ _
    have p21 : x21 <+: d.xss := C30.sub_pre p23 (m ++ q.breme.xss ++ q.breml.xss) (by rw [hm]; simp)
    have p19 : x19 <+: d.xss := C30.sub_pre p21 (q.excit.xss ++ q.elas.xss) (by rw [← hx21]; simp)
    have jj : ∀ (i : Nat) (v : Int), (PA.addElectrons x9 (some q)).2[i]? = some v → d.jxs[10 + i]? = some v := by
      intro i v hi
      rw [hw] at hi
      have h17 : i < 17 := (List.getElem?_eq_some_iff.mp hi).1
      subst hd
      simp only
      rw [List.append_assoc, List.append_assoc, List.getElem?_append_right (by simp; omega),
        List.getElem?_append_right (by simp; omega), List.getElem?_append_left (by simp; omega)]
      rw [← hi]
      congr 1
      simp; omega
    rw [hw] at jj
    exact {
      nepr := by subst hd; rw [C30.nxs_get 5 _ rfl]; simp only [PA.neprOf, q10]; cases b.selas <;> rfl
      nssh := by subst hd; exact ⟨by rw [C30.nxs_get 6 _ rfl]; simp [PA.ifElectrons, q1], hlen⟩
      subshells := by
        rw [← q1]
        exact ⟨C30.located_pre 10 x9 _ (C30.sub_pre p19 (q.sphel.xss ++ q.xprob.xss ++ q.esze.xss) (by rw [← hx19]; simp)) (jj 0 _ rfl),
          C30.further_pre 11 10 _ x9 (jj 0 _ rfl) (jj 1 _ rfl), C30.further_pre 12 10 _ x9 (jj 0 _ rfl) (jj 2 _ rfl),
          C30.further_pre 13 10 _ x9 (jj 0 _ rfl) (jj 3 _ rfl), C30.further_pre 14 10 _ x9 (jj 0 _ rfl) (jj 4 _ rfl)⟩
      sphel := ⟨_, q2, C30.located_pre 15 _ _ (C30.sub_pre p19 (q.xprob.xss ++ q.esze.xss) (by rw [← hx19]; simp)) (jj 5 _ rfl)⟩
      xprob := ⟨_, q3, C30.located_pre 16 _ _ (C30.sub_pre p19 q.esze.xss (by rw [← hx19])) (jj 6 _ rfl),
        by rw [← q1]; exact C30.further_pre 17 16 _ _ (jj 6 _ rfl) (jj 7 _ rfl)⟩
      esze := ⟨_, q4, C30.located_pre 18 _ _ (by rw [hx19]; exact p19) (jj 8 _ rfl), by subst hd; exact C30.nxs_get 7 _ rfl⟩
      excit := ⟨_, q5, C30.located_pre 19 _ _ (C30.sub_pre p21 q.elas.xss (by rw [← hx21])) (jj 9 _ rfl),
        by subst hd; exact C30.nxs_get 8 _ rfl⟩
      elas := ⟨_, q6, C30.located_pre 20 _ _ (by rw [hx21]; exact p21) (jj 10 _ rfl),
        by subst hd; exact C30.nxs_get 9 _ rfl, C30.further_pre 21 20 _ _ (jj 10 _ rfl) (jj 11 _ rfl)⟩
      eion := ⟨_, C30.jxs_get 22 _ (jj 12 _ rfl), by
        rw [← q9]
        refine C30.eion_at x21 (q.breme.xss ++ q.breml.xss ++ (match q.selas with | some s => s.xss | none => [])) q.eion ?_
        rw [hxs, hww, show q.subsh.n = q.eion.length by rw [q1, q9, hlen]]
        simp only [List.append_assoc]⟩
      breme := ⟨_, q7, C30.located_pre 23 _ _ (C30.sub_pre p23 q.breml.xss rfl) (jj 13 _ rfl),
        by subst hd; exact C30.nxs_get 10 _ rfl, C30.further_pre 24 23 _ _ (jj 13 _ rfl) (jj 14 _ rfl)⟩
      breml := ⟨_, q8, C30.located_pre 25 _ _ p23 (jj 15 _ rfl), by subst hd; exact C30.nxs_get 11 _ rfl⟩
      selas := by
        cases hs : b.selas with
        | none => exact C30.jxs_get 26 _ (g1 (q10.trans hs) ▸ jj 16 _ rfl)
        | some y =>
          have hqs : q.selas = some y := q10.trans hs
          refine C30.located_pre 26 _ _ ?_ (g2 (by rw [hqs]; rfl) ▸ jj 16 _ rfl)
          rw [hxs, hww, hqs]
          exact List.prefix_refl _
      ninc := by subst hd; rw [C30.nxs_get 12 _ rfl]; simp only [PA.neprOf, q10]; cases b.selas <;> rfl
      ncoh := by subst hd; rw [C30.nxs_get 13 _ rfl]; simp only [PA.neprOf, q10]; cases b.selas <;> rfl }

/-! ## Cases -/

/-- NXS and JXS of a table. -/
def arraysOf (r : Res TableData) : Res (List Int × List Int) := r.map fun d => (d.nxs, d.jxs)

example : arraysOf ((·.data) <$> PA.mk' "1000.12p".toList C32.exAll.input) =
    .ok ([135, 1, 2, 1, 2, 3, 2, 1, 1, 2, 1, 1, 3, 1, 0, 0],
      [1, 11, 17, 20, 24, 26, 28, 30, 32, 34, 50, 52, 54, 56, 58, 60, 64, 66, 74, 82, 84, 90, 98, 125, 128, 132, 134,
        0, 0, 0, 0, 0]) := by decide +kernel
/-- The arrays at JXS(23): counts, locators, locators of the distributions. -/
example : (fun t : PA => (t.data.xss.drop 97).take 6) <$> PA.mk' "1000.12p".toList C32.exAll.input =
    .ok ([1, 2, 104, 111, 107, 117].map Dbl.ofNat) := by decide +kernel
example : arraysOf ((·.data) <$> PN.mk' "92235.70u".toList 92 235 0 (exPNBlocks [1, 9]).input) =
    .ok ([108, 92235, 2, 2, 2, 2, 12, 0, 0, 92, 235, 0, 0, 0, 0, 1],
      [1, 3, 0, 5, 7, 9, 11, 13, 15, 23, 47] ++ List.replicate 21 0) := by decide +kernel
example : arraysOf ((·.data) <$> TS.mk' "lwtr.10t".toList (tsInput [1001, 8016] exXS
      (made (ITXE.mkPlain exDCos true 1)) exElastic)) =
    .ok ([31, 3, 0, 2, 5, 1, 1, 1, 0, 0, 0, 0, 0, 0, 0, 0],
      [1, 4, 6, 14, 17, 19, 23, 26, 28] ++ List.replicate 23 0) := by decide +kernel
example : arraysOf ((·.data) <$> Dosimetry.mk' "26056.10y".toList 26 56 (made (MTR.mk' [16, 107]))
      (made (SIGD.mk' exSigd))) =
    .ok ([18, 26056, 0, 2, 0, 0, 0, 0, 0, 0, 0, 0, 0, 0, 0, 0],
      [1, 0, 1, 0, 0, 3, 5] ++ List.replicate 14 0 ++ [18] ++ List.replicate 10 0) := by decide +kernel

end ACE.Props

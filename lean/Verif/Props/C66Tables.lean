import Verif.Props.C32
import Verif.Props.C33
import Verif.Props.C34
import Verif.Props.C35
import Verif.Props.C66

/-!
# C66 for dosimetry, thermal scattering, photoatomic and photonuclear tables
-/

namespace ACE.Props
open ACE

/-! ## Dosimetry -/

/-- The dosimetry table made again from its blocks and its ZA number is the same. -/
theorem C66_dosimetry (zaid : List Char) (z a : Nat) (mts : List Nat) (ds : List TabulatedData)
    (mtr : MTR) (sigd : SIGD) (hm : MTR.mk' mts = .ok mtr) (hs : SIGD.mk' ds = .ok sigd)
    (hn : mts.length = ds.length) (hf : FitsN mts.length) (hza : z * 1000 + a < 4294967296)
    (ht : TableType.dosimetry.verifyType zaid = .ok ()) :
    ∃ t, Dosimetry.mk' zaid z a mtr sigd = .ok t ∧ (do
      let za ← t.ZA
      Dosimetry.mk' t.zaid (za / 1000) (za % 1000) t.mtr t.sigd) = .ok t := by
  obtain ⟨t, h, h1, h2, h3, _, h5, _⟩ := C35_blocks zaid z a mts ds mtr sigd hm hs hn hf hza ht
  refine ⟨t, h, ?_⟩
  rw [h5, ok_bind, h1, h2, h3, ← h]
  unfold Dosimetry.mk' Dosimetry.generateData
  rw [Nat.div_add_mod']

example : ∃ t, Dosimetry.mk' "26056.30y".toList 26 56 (made (MTR.mk' [16, 107])) (made (SIGD.mk' exSigd)) = .ok t ∧ (do
      let za ← t.ZA
      Dosimetry.mk' t.zaid (za / 1000) (za % 1000) t.mtr t.sigd) = .ok t :=
  C66_dosimetry _ 26 56 [16, 107] exSigd _ _ (by decide +kernel) (by decide +kernel) (by decide +kernel)
    (by decide) (by decide) (by decide +kernel)

/-! ## The sixteen ZA numbers and atomic masses -/

namespace C66

theorem sixteen {α : Type} (l : List α) (h : l.length = 16) :
    (List.range' 1 16).mapM (TableData.fetch l) = .ok l := by
  have := mapM_range'_eq (TableData.fetch l) l fun i hi =>
    TableData.fetch_get l i l[i] (List.getElem?_eq_getElem hi)
  rwa [h] at this

/-- The ZA numbers with zeros up to sixteen. -/
def padded (za : List Nat) : List Nat := za ++ List.replicate (16 - za.length) 0

theorem padded_length {za : List Nat} (h : za.length ≤ 16) : (padded za).length = 16 := by
  simp [padded]; omega

theorem padded_int (za : List Nat) :
    (za.map (fun v : Nat => (v : Int)) ++ List.replicate (16 - za.length) 0).map Int.toNat = padded za := by
  simp [padded, Function.comp_def]

theorem padded_again {za : List Nat} (h : za.length ≤ 16) :
    (padded za).map (fun v : Nat => (v : Int)) ++ List.replicate (16 - (padded za).length) 0 =
      za.map (fun v : Nat => (v : Int)) ++ List.replicate (16 - za.length) 0 := by
  rw [padded_length h]
  simp [padded]
end C66

/-! ## Thermal scattering -/

/-- The blocks and the sixteen ZA numbers from the accessors of a thermal scattering table. -/
def TS.taken (t : TS) : Res TS.Input := do
  let za ← (List.range' 1 16).mapM t.data.IZ
  return ⟨za.map Int.toNat, t.itie, t.itxe, t.itce, t.itca, t.itcei, t.itcai⟩

namespace C66

theorem thermal (zaid : List Char) (za : List Nat) (itie : ITIE) (itxe r : ITXE) (E : Elastic)
    (ne nieb : Nat) (ht : TableType.thermal.verifyType zaid = .ok ()) (hza : za.length ≤ 16)
    (hi : TS.MadeXS itie ne) (hE : E.Sound) (hn : itxe.NE = ne) (hb : TS.niebOf itxe = .ok nieb)
    (hfb : FitsN nieb) (hfc : FitsN (itxe.nc + 1)) (hfi : FitsN itxe.IFENG)
    (hr : ITXE.ofRange itxe.IFENG nieb itxe.nc ne (itie.xss.length + 1) itxe.xss = .ok r)
    (hf : FitsN (itie.xss.length + itxe.xss.length + E.size + 1)) :
    ∃ t, TS.mk' zaid (tsInput za itie itxe E) = .ok t ∧ (TS.taken t >>= TS.mk' t.zaid) = .ok t := by
  obtain ⟨ne1, ne2, _, _, hg⟩ := C34.generateData_eq za itie itxe E ne nieb hza hi hE hn hb
  have hm : TS.mk' zaid (tsInput za itie itxe E) = TS.ofTable zaid (C34.dataOf za itie itxe ne nieb E
      (C34.words E (itie.xss ++ itxe.xss)) (C34.locs E (itie.xss ++ itxe.xss) ne1 ne2)) := by
    unfold TS.mk'
    rw [hg, ok_bind]
  have hz : (C34.dataOf za itie itxe ne nieb E (C34.words E (itie.xss ++ itxe.xss))
      (C34.locs E (itie.xss ++ itxe.xss) ne1 ne2)).iz =
      za.map (fun v : Nat => (v : Int)) ++ List.replicate (16 - za.length) 0 := rfl
  generalize hd : C34.dataOf za itie itxe ne nieb E (C34.words E (itie.xss ++ itxe.xss))
      (C34.locs E (itie.xss ++ itxe.xss) ne1 ne2) = d at *
  obtain ⟨hread, _⟩ := C34.generateBlocks_eq zaid za itie itxe r E ne nieb ne1 ne2 hi hE (by
        intro h
        unfold TS.niebOf at hb
        rw [if_neg h] at hb
        injection hb with hb
        exact hb.symm) hfb hfc hfi hr hf d hd
  have ho : TS.ofTable zaid d = .ok ⟨zaid, d, itie, r, E.itce, E.itca, E.itcei, E.itcai⟩ := by
    unfold TS.ofTable
    rw [ht, ok_bind, hread]
  refine ⟨_, hm.trans ho, ?_⟩
  have htk : TS.taken ⟨zaid, d, itie, r, E.itce, E.itca, E.itcei, E.itcai⟩ =
      .ok (tsInput (padded za) itie r E) := by
    unfold TS.taken
    have h16 : (List.range' 1 16).mapM d.IZ = .ok d.iz := sixteen d.iz (by rw [hz]; simp; omega)
    show (List.range' 1 16).mapM d.IZ >>= _ = _
    rw [h16, ok_bind, hz, padded_int]
    rfl
  rw [htk, ok_bind]
  refine Eq.trans ?_ ho
  refine Eq.trans ?_ hm
  unfold ITXE.ofRange at hr
  obtain ⟨_, _, hr⟩ := bind_eq_ok.mp hr
  obtain ⟨dat, _, hr⟩ := bind_eq_ok.mp hr
  injection hr with hr
  have r1 : r.xss = itxe.xss := by rw [← hr]
  have r2 : r.IFENG = itxe.IFENG := by rw [← hr]; rfl
  have r3 : r.nc = itxe.nc := by rw [← hr]
  have r4 : r.NE = itxe.NE := by rw [← hr]; exact hn.symm
  have r5 : TS.niebOf r = TS.niebOf itxe := by
    rw [hb]
    unfold TS.niebOf
    rw [r2]
    split
    · rename_i h
      show ITXE.NIEBof r.xss r.nieb r.ne 1 = _
      rw [← hr]
      simp only [if_pos h]
      rfl
    · rename_i h
      unfold TS.niebOf at hb
      rw [if_neg h] at hb
      exact hb
  have g : TS.generateData (tsInput (padded za) itie r E) = TS.generateData (tsInput za itie itxe E) := by
    unfold TS.generateData
    have e0 : TS.izOf (tsInput (padded za) itie r E).za = TS.izOf (tsInput za itie itxe E).za := by
      show TS.izOf (padded za) = TS.izOf za
      unfold TS.izOf
      rw [if_pos (by rw [padded_length hza]; omega), if_pos hza, padded_again hza]
    have e1 : TS.options (tsInput (padded za) itie r E) = TS.options (tsInput za itie itxe E) := rfl
    have e2 : ∀ x, TS.addElastic x (tsInput (padded za) itie r E) = TS.addElastic x (tsInput za itie itxe E) :=
      fun _ => rfl
    have e3 : (tsInput (padded za) itie r E).itxe = r := rfl
    have e4 : (tsInput za itie itxe E).itxe = itxe := rfl
    have e5 : (tsInput (padded za) itie r E).itie = (tsInput za itie itxe E).itie := rfl
    simp only [e0, e1, e2, e3, e4, e5, r1, r2, r3, r4, r5]
  show TS.mk' zaid _ = _
  unfold TS.mk'
  rw [g]
end C66

/-- The thermal scattering table with discrete cosines made again from its blocks is the same. -/
theorem C66_thermal_discrete_partial (zaid : List Char) (za : List Nat) (itie : ITIE) (E : Elastic)
    (vss : List (List PlainSpec)) (css : List (List DCos)) (skewed : Bool) (locb nc nieb : Nat)
    (hm : vss.mapM (fun vs => vs.mapM fun v => DCos.mk' v.1 v.2) = .ok css)
    (hne : vss ≠ []) (h0 : 1 ≤ nieb) (hb : ∀ vs ∈ vss, vs.length = nieb)
    (hn : ∀ vs ∈ vss, ∀ v ∈ vs, v.2.length = nc) (h1 : 1 ≤ nc)
    (ht : TableType.thermal.verifyType zaid = .ok ()) (hza : za.length ≤ 16)
    (hi : TS.MadeXS itie vss.length) (hE : E.Sound) (hfb : FitsN nieb) (hfc : FitsN (nc + 1))
    (hf : FitsN (itie.xss.length + (plainAll vss).length + E.size + 1)) :
    ∃ itxe t, ITXE.mkPlain css skewed locb = .ok itxe ∧
      TS.mk' zaid (tsInput za itie itxe E) = .ok t ∧ (TS.taken t >>= TS.mk' t.zaid) = .ok t := by
  obtain ⟨b, hb1, hb2, hb3, hb4⟩ := C27_discrete_partial vss css skewed locb nc nieb hm hne h0 hb hn
    (by unfold FitsN at *; omega) h1
  obtain ⟨r, hr, hr'⟩ := hb4 (itie.xss.length + 1) []
  rw [List.append_nil] at hr
  have hlt : (if skewed = true then 1 else 0) < 2 := by cases skewed <;> decide
  have hN : TS.niebOf b = .ok nieb := by
    unfold TS.niebOf
    rw [hb3.1, if_pos hlt]
    have hpos : 0 < vss.length := List.length_pos_iff.mpr hne
    rw [(hb3.2.2.2.2.1 0 hpos).1, hb _ (List.getElem_mem _)]
  have hbn : b.nc = nc := hb3.2.1
  obtain ⟨t, t1, t2⟩ := C66.thermal zaid za itie b r E vss.length nieb ht hza hi hE hb3.2.2.2.1 hN hfb
    (by rw [hbn]; exact hfc) (by rw [hb3.1]; unfold FitsN; omega)
    (by rw [hb3.1, hbn]; exact hr) (by rw [hb2]; exact hf)
  exact ⟨b, t, hb1, t1, t2⟩

/-- The same with probabilities, when the inelastic block is made for the place it gets. -/
theorem C66_thermal_probability_partial (zaid : List Char) (za : List Nat) (itie : ITIE) (E : Elastic)
    (vss : List (List CosProbSpec)) (css : List (List PCos)) (locb nc : Nat)
    (hm : vss.mapM (fun vs => vs.mapM fun v => PCos.mk' v.1 v.2.1 v.2.2.1 v.2.2.2) = .ok css)
    (vs0 : List CosProbSpec) (v0 : CosProbSpec) (hhead : vss.head? = some (v0 :: vs0))
    (hloc : locb = itie.xss.length + 1) (hn : ∀ vs ∈ vss, ∀ v ∈ vs, v.2.2.2.length = nc)
    (hcnt : ∀ vs ∈ vss, FitsN (vs.length + 1)) (hfc : FitsN (nc + 1))
    (ht : TableType.thermal.verifyType zaid = .ok ()) (hza : za.length ≤ 16)
    (hi : TS.MadeXS itie vss.length) (hE : E.Sound)
    (hf : FitsN (itie.xss.length + (itxeWords locb vss).length + E.size + 1)) :
    ∃ itxe t, ITXE.mkProb css locb = .ok itxe ∧
      TS.mk' zaid (tsInput za itie itxe E) = .ok t ∧ (TS.taken t >>= TS.mk' t.zaid) = .ok t := by
  obtain ⟨b, hb1, hb2, hb3, hb4⟩ := C27_probability_partial vss css locb nc hm vs0 v0 hhead (by omega)
    hn (by unfold FitsN at *; omega) hcnt hfc
  obtain ⟨r, hr, hr'⟩ := hb4 0 []
  rw [List.append_nil, hloc] at hr
  have hN : TS.niebOf b = .ok 0 := by
    unfold TS.niebOf
    rw [hb3.1, if_neg (by omega)]
  have hbn : b.nc = nc := hb3.2.1
  obtain ⟨t, t1, t2⟩ := C66.thermal zaid za itie b r E vss.length 0 ht hza hi hE hb3.2.2.2.1 hN
    (by decide) (by rw [hbn]; exact hfc) (by rw [hb3.1]; decide)
    (by rw [hb3.1, hbn]; exact hr) (by rw [hb2]; exact hf)
  exact ⟨b, t, hb1, t1, t2⟩

/-- Mixed elastic scattering and two ZA numbers. -/
example : ∃ itxe t, ITXE.mkPlain exDCos true 1 = .ok itxe ∧
    TS.mk' "lwtr.10t".toList (tsInput [1001, 8016] exXS itxe exElastic) = .ok t ∧
    (TS.taken t >>= TS.mk' t.zaid) = .ok t :=
  C66_thermal_discrete_partial "lwtr.10t".toList [1001, 8016] exXS
    exElastic exPlain exDCos true 1 1 2 (by decide +kernel) (by decide) (by decide)
    (by decide +kernel) (by decide +kernel) (by decide) (by decide +kernel) (by decide) exXS_made
    exElastic_sound (by decide) (by decide) (by decide +kernel)

example : ∃ itxe t, ITXE.mkProb exPCos 6 = .ok itxe ∧
    TS.mk' "lwtr.10t".toList (tsInput [1001] exXS itxe (.incoherent exXS exCosines)) = .ok t ∧
    (TS.taken t >>= TS.mk' t.zaid) = .ok t :=
  C66_thermal_probability_partial "lwtr.10t".toList [1001] exXS
    (.incoherent exXS exCosines) exProb exPCos 6 1 (by decide +kernel) _ _ rfl (by decide +kernel)
    (by decide +kernel) (by decide +kernel) (by decide) (by decide +kernel) (by decide) exXS_made
    ⟨2, exXS_made, exCosines_made⟩ (by decide +kernel)

/-! ## Photoatomic -/

/-- The blocks, the atomic number and the sixteen ZA numbers and atomic masses from the accessors of a
photoatomic table. -/
def PA.taken (t : PA) : Res PA.Input := do
  let z ← t.Z
  let za ← (List.range' 1 16).mapM t.data.IZ
  let awr ← (List.range' 1 16).mapM t.data.AW
  return { z := z, za := za.map Int.toNat, awr := awr, eszg := t.eszg, jinc := t.jinc, jcoh := t.jcoh
           lhnm := t.lhnm, jflo := t.jflo, eps := t.eps, swd := t.swd, subsh := t.subsh, sphel := t.sphel
           xprob := t.xprob, esze := t.esze, excit := t.excit, elas := t.elas, eion := t.eion
           breme := t.breme, breml := t.breml, selas := t.selas }

/-- The photoatomic or electron-photon table made again from its blocks is the same. -/
theorem C66_photoatomic_partial (zaid : List Char) (B : PABlocks) (hs : B.Sound) (hf : B.Fits)
    (ht : TableType.photoatomic.verifyType zaid = .ok ()) :
    ∃ t, PA.mk' zaid B.input = .ok t ∧ (PA.taken t >>= PA.mk' t.zaid) = .ok t := by
  have hread := C32.generateBlocks_eq zaid hs hf (C32.dataOf B) rfl _ (.inl rfl) (by simp [C32.dataOf])
    (fun _ _ _ => rfl)
  have h1 : PA.mk' zaid B.input = .ok (C32.tableOf zaid B (C32.dataOf B)) := by
    unfold PA.mk' PA.ofTable
    rw [C32.generateData_eq hs, ok_bind, ht, ok_bind, hread]
  have h16 := hs.sixteen
  have hta := hs.targets
  let B' : PABlocks := { B with
    za := C66.padded B.za
    awr := B.awr ++ List.replicate (16 - B.za.length) (Dbl.ofNat 0) }
  have hs' : B'.Sound := { hs with
    targets := by
      show (C66.padded B.za).length = _
      rw [C66.padded_length h16]
      show 16 = (B.awr ++ _).length
      simp; omega
    sixteen := by
      show (C66.padded B.za).length ≤ _
      rw [C66.padded_length h16]
      exact Nat.le_refl _ }
  have hd : C32.dataOf B' = C32.dataOf B := by
    have e1 : (C32.dataOf B').iz = (C32.dataOf B).iz := C66.padded_again h16
    have e2 : (C32.dataOf B').aw = (C32.dataOf B).aw := by
      show (B.awr ++ List.replicate (16 - B.za.length) (Dbl.ofNat 0)).take (C66.padded B.za).length ++
        List.replicate (16 - (C66.padded B.za).length) (Dbl.ofNat 0) = B.awr.take B.za.length ++
        List.replicate (16 - B.za.length) (Dbl.ofNat 0)
      rw [C66.padded_length h16, hta, List.take_of_length_le (by simp; omega),
        List.take_of_length_le (Nat.le_refl _)]
      simp
    have e3 : (C32.dataOf B').nxs = (C32.dataOf B).nxs := rfl
    have e4 : (C32.dataOf B').jxs = (C32.dataOf B).jxs := rfl
    have e5 : (C32.dataOf B').xss = (C32.dataOf B).xss := rfl
    generalize C32.dataOf B' = x at *
    generalize C32.dataOf B = y at *
    obtain ⟨x1, x2, x3, x4, x5⟩ := x
    obtain ⟨y1, y2, y3, y4, y5⟩ := y
    simp only at e1 e2 e3 e4 e5
    rw [e1, e2, e3, e4, e5]
  have htk : PA.taken (C32.tableOf zaid B (C32.dataOf B)) = .ok B'.input := by
    have c2 : (C32.tableOf zaid B (C32.dataOf B)).Z = .ok B.z := TS.count_get (i := 1) rfl hf.z
    have i16 : (List.range' 1 16).mapM (C32.dataOf B).IZ = .ok (C32.dataOf B).iz :=
      C66.sixteen _ (by simp [C32.dataOf]; omega)
    have a16 : (List.range' 1 16).mapM (C32.dataOf B).AW = .ok (C32.dataOf B).aw :=
      C66.sixteen _ (by simp [C32.dataOf]; omega)
    have hz : (C32.dataOf B).iz.map Int.toNat = C66.padded B.za := C66.padded_int B.za
    have hw : (C32.dataOf B).aw = B'.awr := by
      show B.awr.take B.za.length ++ _ = _
      rw [hta, List.take_of_length_le (Nat.le_refl _), ← hta]
    unfold PA.taken
    rw [c2, ok_bind]
    show ((List.range' 1 16).mapM (C32.dataOf B).IZ >>= _) = _
    rw [i16, ok_bind]
    show ((List.range' 1 16).mapM (C32.dataOf B).AW >>= _) = _
    rw [a16, ok_bind, hz, hw]
    rfl
  refine ⟨_, h1, ?_⟩
  rw [htk, ok_bind, ← h1]
  show PA.mk' zaid B'.input = _
  unfold PA.mk'
  rw [C32.generateData_eq hs', C32.generateData_eq hs, hd]

/-- All blocks. -/
example : ∃ t, PA.mk' "1000.12p".toList C32.exAll.input = .ok t ∧ (PA.taken t >>= PA.mk' t.zaid) = .ok t :=
  C66_photoatomic_partial "1000.12p".toList C32.exAll (C32_built C32.exAll_made) C32.exAll_fits
    (by decide +kernel)

/-! ## Photonuclear -/

/-- A list that is only given when there is a locator block. -/
def PN.given (t : PN) {α : Type} (l : List α) : Option (List α) := if t.ixsu.isSome then some l else none

/-- The particle types, one for each index of the locator block. -/
def PN.types (t : PN) : Res (List Nat) :=
  match t.ixsu with
  | some x => (List.range' 1 t.particles.length).mapM x.IP
  | none => .ok []

/-- The blocks a user gets from the accessors of a photonuclear table. -/
def PN.taken (t : PN) : Res PN.Input := do
  let types ← PN.types t
  let pxs ← (List.range' 1 t.particles.length).mapM t.PXS
  let phn ← (List.range' 1 t.particles.length).mapM t.PHN
  let mtrh ← (List.range' 1 t.particles.length).mapM t.MTRH
  let sigh ← (List.range' 1 t.particles.length).mapM t.SIGH
  let andh ← (List.range' 1 t.particles.length).mapM t.ANDH
  let dlwh ← (List.range' 1 t.particles.length).mapM t.DLWH
  return { eszu := t.eszu, mtr := t.mtr, lqr := t.lqr, sig := t.sig, ptype := PN.given t types
           pxs := PN.given t pxs, phn := PN.given t phn, mtrh := PN.given t mtrh, sigh := PN.given t sigh
           andh := PN.given t andh, dlwh := PN.given t dlwh }

namespace C66

/-- The particle that comes back. -/
def backParticle (p : PNSecondary) : PNSecondary :=
  { p with dlwh := ⟨p.dlwh.block, some (CE.frameTyr (C33.framesOf p)), p.dlwh.frames⟩ }

/-- The blocks that come back. -/
def backPN (B : PNBlocks) : PNBlocks := { B with secondaries := B.secondaries.map (·.map backParticle) }

theorem backPN_particles (B : PNBlocks) : (backPN B).particles = B.particles.map backParticle := by
  unfold backPN PNBlocks.particles
  cases B.secondaries <;> rfl

theorem backPN_sound {B : PNBlocks} (h : B.Sound) : (backPN B).Sound :=
  { h with
    secondaries := by
      intro p hp
      rw [backPN_particles] at hp
      obtain ⟨q, hq, rfl⟩ := List.mem_map.mp hp
      have := h.secondaries q hq
      exact ⟨this.pxs, this.phn, this.mtrh, this.sigh, this.andh, this.dlwh, this.ndlwh, this.frames⟩ }

theorem flat_back (ps : List PNSecondary) : ∀ n, PN.flat n ((ps.map backParticle).map C33.typed) =
    PN.flat n (ps.map C33.typed) := by
  induction ps with
  | nil => intro n; rfl
  | cons p ps ih =>
    intro n
    simp only [List.map_cons, PN.flat]
    rw [show (C33.typed (backParticle p)).1 = (C33.typed p).1 from rfl,
      show (C33.typed (backParticle p)).2.mtrh = (C33.typed p).2.mtrh from rfl,
      show PN.particleLocators n (C33.typed (backParticle p)).2 = PN.particleLocators n (C33.typed p).2 from rfl,
      show PN.particleWords (C33.typed (backParticle p)).2 = PN.particleWords (C33.typed p).2 from rfl, ih]

theorem backPN_data (z a s : Nat) (B : PNBlocks) : C33.dataOf z a s (backPN B) = C33.dataOf z a s B := by
  have e1 : C33.frontWords (backPN B) = C33.frontWords B := rfl
  have e2 : C33.ixsWords (backPN B) = C33.ixsWords B := by
    unfold C33.ixsWords C33.start
    rw [backPN_particles, flat_back, e1, List.length_map]
  have e3 : PN.bodies ((backPN B).particles.map C33.pin) = PN.bodies (B.particles.map C33.pin) := by
    rw [backPN_particles]
    unfold PN.bodies
    rw [List.map_map, List.map_map, List.map_map]
    rfl
  have e4 : C33.secondaryLocators (backPN B) = C33.secondaryLocators B := by
    unfold C33.secondaryLocators
    rw [e1]
    unfold backPN
    cases B.secondaries <;> simp
  have e5 : (backPN B).particles.length = B.particles.length := by rw [backPN_particles, List.length_map]
  unfold C33.dataOf
  rw [e1, e2, e3, e4, e5]
  rfl

theorem takenPN {zaid : List Char} {B : PNBlocks} {d : TableData} (hne : B.secondaries ≠ some [])
    (hr : PNReturned B ⟨zaid, d, B.eszu, B.mtr, B.lqr, B.sig,
      if B.particles = [] then none else some ⟨C33.ixsWords B, B.particles.length⟩,
      B.particles.map fun p => PN.readOf (C33.pin p)⟩) :
    PN.taken ⟨zaid, d, B.eszu, B.mtr, B.lqr, B.sig,
      if B.particles = [] then none else some ⟨C33.ixsWords B, B.particles.length⟩,
      B.particles.map fun p => PN.readOf (C33.pin p)⟩ = .ok (backPN B).input := by
  generalize ht : (⟨zaid, d, B.eszu, B.mtr, B.lqr, B.sig,
      if B.particles = [] then none else some ⟨C33.ixsWords B, B.particles.length⟩,
      B.particles.map fun p => PN.readOf (C33.pin p)⟩ : PN) = t at *
  have hp : t.particles = B.particles.map fun p => PN.readOf (C33.pin p) := by rw [← ht]
  have key : ∀ {α : Type} (f : PN.Particle → α) (g : PN → Nat → Res α)
      (hg : ∀ t i, g t i = (do return f (← t.particle i))),
      (List.range' 1 t.particles.length).mapM (g t) = .ok (t.particles.map f) := by
    intro α f g hg
    have := mapM_range'_eq (g t) (t.particles.map f) (by
      intro i hi
      rw [List.length_map] at hi
      rw [hg]
      unfold PN.particle
      rw [if_neg (by omega), Nat.add_sub_cancel, List.getElem?_eq_getElem hi]
      simp only [ok_bind, List.getElem_map]; rfl)
    rwa [List.length_map] at this
  have hty : PN.types t = .ok (B.particles.map (·.type)) := by
    unfold PN.types
    by_cases h : B.particles = []
    · rw [hr.none h, h]; rfl
    · obtain ⟨x, hx, _, hi⟩ := hr.ixsu h
      rw [hx]
      have := mapM_range'_eq x.IP (B.particles.map (·.type)) (by
        intro i hj
        rw [List.length_map] at hj
        rw [(hi i hj).2, List.getElem_map])
      rw [hp, List.length_map]
      rwa [List.length_map] at this
  have hsome : t.ixsu.isSome = B.secondaries.isSome := by
    rw [← ht]
    simp only
    cases hb : B.secondaries with
    | none => simp [PNBlocks.particles, hb]
    | some ps =>
      have : ps ≠ [] := by intro h; exact hne (by rw [hb, h])
      simp [PNBlocks.particles, hb, this]
  unfold PN.taken
  rw [hty, ok_bind, key (·.pxs) PN.PXS (fun _ _ => rfl), ok_bind, key (·.phn) PN.PHN (fun _ _ => rfl), ok_bind,
    key (·.mtrh) PN.MTRH (fun _ _ => rfl), ok_bind, key (·.sigh) PN.SIGH (fun _ _ => rfl), ok_bind,
    key (·.andh) PN.ANDH (fun _ _ => rfl), ok_bind, key (·.dlwh) PN.DLWH (fun _ _ => rfl), ok_bind, hp,
    pure_eq_ok]
  unfold PN.given
  rw [hsome, ← ht]
  unfold backPN PNBlocks.input PNBlocks.particles
  cases B.secondaries <;> simp [Function.comp_def, backParticle, PN.readOf, C33.pin]
end C66

/-- The photonuclear table made again from its own blocks is the same. Missing: particle types and
numbers of reactions that look like locators (C33), and an empty list of secondary particles (for which
the first table has locators and the second has none). -/
theorem C66_photonuclear_partial (zaid : List Char) (z a s : Nat) (B : PNBlocks) (hs : B.Sound)
    (hsm : B.Small) (hne : B.secondaries ≠ some [])
    (hf : FitsN (B.size + 1)) (ht : TableType.photonuclear.verifyType zaid = .ok ())
    (hid : Identified zaid z a s) :
    ∃ t, PN.mk' zaid z a s B.input = .ok t ∧ (PN.taken t >>= PN.mk' t.zaid z a s) = .ok t := by
  obtain ⟨t0, h1, _, h2, _⟩ := C33.table zaid z a s B hs hsm hf ht hid
  obtain ⟨hx, hj, hn⟩ := CE.setSZA_same h2
  have hget : ∀ i, i ≠ 1 → i < 5 → t0.data.nxs[i]? = (C33.dataOf z a s B).nxs[i]? := by
    intro i _ hi
    have := congrArg (·[i]?) hn
    simpa [List.getElem?_take_of_lt (show i < 8 from by omega)] using this
  have hg := C33.generateBlocks_eq hs hsm hf zaid z a s t0.data hx hj hget
  obtain ⟨t1, g1, _, _, hr⟩ := C33.returned hs hsm hf zaid z a s t0.data hx hj hget
  have e := Except.ok.inj (g1.symm.trans hg)
  subst e
  have hm : ∀ b, PN.generateData z a s b = .ok (C33.dataOf z a s B) → PN.mk' zaid z a s b =
      PN.generateBlocks zaid t0.data := by
    intro b hb
    unfold PN.mk' PN.ofTable
    rw [hb, ok_bind, ht, ok_bind, h2, ok_bind]
  refine ⟨_, (hm _ (C33.generateData_eq z a s hs)).trans hg, ?_⟩
  rw [C66.takenPN hne hr, ok_bind]
  exact (hm _ ((C33.generateData_eq z a s (C66.backPN_sound hs)).trans (by rw [C66.backPN_data]))).trans hg

/-- Neutrons and protons. -/
example : ∃ t, PN.mk' "92235.70u".toList 92 235 0 (exPNBlocks [1, 9]).input = .ok t ∧
    (PN.taken t >>= PN.mk' t.zaid 92 235 0) = .ok t :=
  C66_photonuclear_partial _ 92 235 0 _ (exPNBlocks_sound _)
    (by
      intro p hp
      have hl : 9 ≤ (exPNBlocks [1, 9]).front + 12 * (exPNBlocks [1, 9]).particles.length := by decide +kernel
      have hm : ∀ t, (exPN t).mtrh.n = 1 := fun _ => (by decide +kernel : (exSecondary 1).mtrh.n = 1)
      obtain ⟨t, ht, rfl⟩ := List.mem_map.mp hp
      simp at ht
      rw [hm]
      rcases ht with rfl | rfl <;> simp only [exPN] <;> omega)
    (by simp [exPNBlocks]) (by decide +kernel) (by decide +kernel) (.inl (by decide))

/-- An empty list of secondary particles: the table made again has no locators for them. -/
theorem C66_photonuclear_empty : ∃ (b : PN.Input) (t t' : PN), PN.mk' "92235.70u".toList 92 235 0 b = .ok t ∧
    (PN.taken t >>= PN.mk' "92235.70u".toList 92 235 0) = .ok t' ∧ t' ≠ t := by
  have h : ((do
      let t ← PN.mk' "92235.70u".toList 92 235 0 (exPNBlocks []).input
      let t' ← PN.taken t >>= PN.mk' "92235.70u".toList 92 235 0
      return (decide (t'.data.jxs = t.data.jxs))) : Res Bool) = .ok false := by decide +kernel
  obtain ⟨t, h1, h⟩ := bind_eq_ok.mp h
  obtain ⟨t', h2, h⟩ := bind_eq_ok.mp h
  refine ⟨_, t, t', h1, h2, ?_⟩
  intro e
  subst e
  simp [pure_eq_ok] at h

end ACE.Props

import Verif.Lemmas.ContinuousMade
import Verif.Props.C22

/-!
# C28: a continuous energy table returns the blocks it was made from

The end of a block in the XSS array is searched for in the JXS array (ContinuousEnergyTable.hpp,
`block`). The search finds the right end for the blocks of `Clear` (`C28_blocks_partial`) and not for
all others: `C28_false` and the theorems after it have a witness for each way in which it goes wrong.
-/

namespace ACE.Props
open ACE

/-- The full statement: no condition besides that of sound blocks of matching numbers in a table of
less than 2^31 words. -/
def C28Statement : Prop :=
  ∀ (zaid : List Char) (z a s : Nat) (B : Blocks) (mts : List Nat) (vs : List (Frame × Nat)),
    Sound B mts vs → FitsN (B.size mts.length + 2) →
    TableType.continuousEnergy.verifyType zaid = .ok () → s ≠ 0 ∨ z ≠ 0 ∨ a ≠ 0 →
    ∃ t, CE.mk' zaid z a s B.input = .ok t ∧ Returned B vs mts.length t

/-- The blocks come back, those that are not given stay absent, and the ZAID is kept. The nuclide is
given or the ZAID starts with a number. Missing: blocks that are not `Clear`. -/
theorem C28_blocks_partial (zaid : List Char) (z a s : Nat) (B : Blocks) (mts : List Nat)
    (vs : List (Frame × Nat)) (hs : Sound B mts vs) (hc : Clear B)
    (hf : FitsN (B.size mts.length + 2))
    (ht : TableType.continuousEnergy.verifyType zaid = .ok ())
    (hid : (s ≠ 0 ∨ z ≠ 0 ∨ a ≠ 0) ∨ ∃ v, Ident.stoi (Ident.target zaid) = .ok v) :
    ∃ t, CE.mk' zaid z a s B.input = .ok t ∧ t.zaid = zaid ∧ Returned B vs mts.length t := by
  obtain ⟨fis, d, _, _, h⟩ := CE.mk_eq zaid z a s hs hc hf ht hid
  refine ⟨_, h, rfl, ?_⟩
  exact {
    esz := rfl, nu := rfl, mtr := rfl, lqr := rfl, sig := rfl, ang := rfl
    tyr := tyr_gives _ _
    dlw := ⟨rfl, rfl, rfl, rfl, rfl⟩
    gpd := rfl, mtrp := rfl, sigp := rfl, andp := rfl, yp := rfl, unr := rfl, dnu := rfl, bdd := rfl
    dlwp := by simp [CE.tableOf, CE.withoutFrames, Option.map_map, Function.comp_def]
    dned := by simp [CE.tableOf, CE.withoutFrames, Option.map_map, Function.comp_def] }

/-! ## Blocks made by their constructors are sound -/

theorem built_array {as : List Words} {d : ArrayData} (h : ArrayData.ofArrays as = .ok d) :
    ArrayData.ofRange d.xss d.n as.length = .ok d := by
  obtain ⟨hd, hx⟩ := ArrayData.ofArrays_holds h
  have hl : d.xss.length = as.length * d.n := by rw [hx]; exact length_flatten_const _ _ hd.hn
  rw [ArrayData.ofRange_ok _ _ _ (by rw [hl, Nat.mul_comm]; exact Nat.le_refl _), ← hd.hm]

theorem built_array_holds {as : List Words} {d : ArrayData} (h : ArrayData.ofArrays as = .ok d) :
    as.length * d.n ≤ d.xss.length := by
  obtain ⟨hd, hx⟩ := ArrayData.ofArrays_holds h
  rw [hx, length_flatten_const _ _ hd.hn]; exact Nat.le_refl _

theorem C28_built_ESZ {e t a el h : Words} {b : ESZ} (hb : ESZ.mk' e t a el h = .ok b) :
    ESZ.ofRange b.xss b.n = .ok b ∧ 5 * b.n ≤ b.xss.length :=
  ⟨built_array hb, built_array_holds hb⟩
theorem C28_built_LQR {q : Words} {b : LQR} (hb : LQR.mk' q = .ok b) :
    LQR.ofRange b.xss b.n = .ok b := built_array hb
theorem C28_built_GPD {q : Words} {b : GPD} (hb : GPD.mk' q = .ok b) :
    GPD.ofRange b.xss b.n = .ok b := built_array hb
theorem C28_built_MTR {q : List Nat} {b : MTR} (hb : MTR.mk' q = .ok b) :
    MTR.ofRange b.xss b.n = .ok b := built_array hb
theorem C28_built_PTYPE {q : List Nat} {b : PTYPE} (hb : PTYPE.mk' q = .ok b) :
    PTYPE.ofRange b.xss b.n = .ok b := built_array hb

theorem built_located {D : Type} {words : D → Words} {gen : Nat → Words → Res D} {l : Bool}
    {ds : List D} {b : LocBlock D} (hb : LocBlock.ofData words gen l ds = .ok b) :
    b.n = ds.length ∧ LocBlock.ofRange gen b.xss b.n b.n l = .ok b := by
  unfold LocBlock.ofData at hb
  have h := hb
  unfold LocBlock.generateBlocks at h
  obtain ⟨_, _, h⟩ := bind_eq_ok.mp h
  injection h with h
  subst h
  refine ⟨rfl, ?_⟩
  unfold LocBlock.ofRange
  rw [guardThrow_eq_ok.mpr (by simp)]
  exact hb

theorem C28_built_SIG {ds : List CrossSectionData} {b : SIG} (hb : SIG.mk' ds = .ok b) :
    b.n = ds.length ∧ SIG.ofRange b.xss b.n b.n = .ok b := built_located hb
theorem C28_built_SIGP {ds : List PhotonData} {b : SIGP} (hb : SIGP.mk' ds = .ok b) :
    b.n = ds.length ∧ SIGP.ofRange b.xss b.n b.n = .ok b := built_located hb
theorem C28_built_SIGH {ds : List TabMult} {b : SIGH} (hb : SIGH.mk' ds = .ok b) :
    b.n = ds.length ∧ SIGH.ofRange b.xss b.n b.n = .ok b := built_located hb

/-- AND: the elastic angular distribution comes with those of the reactions. -/
theorem C28_built_AND {sort : StdSort AngDist.energy} {e : AngEntry} {es : List AngEntry}
    {b : AngularBlock} (hb : AngularBlock.mkZero sort e es = .ok b) :
    b.nr = es.length ∧ AngularBlock.ofRange b.xss (b.nr + 1) b.nr true = .ok b := by
  unfold AngularBlock.mkZero at hb
  obtain ⟨w, _, hb⟩ := bind_eq_ok.mp hb
  have h := hb
  unfold AngularBlock.generateBlocks at h
  obtain ⟨_, _, h⟩ := bind_eq_ok.mp h
  injection h with h
  subst h
  refine ⟨rfl, ?_⟩
  unfold AngularBlock.ofRange
  rw [guardThrow_eq_ok.mpr (by simp)]
  exact hb

theorem C28_built_ANDP {sort : StdSort AngDist.energy} {es : List AngEntry}
    {b : AngularBlock} (hb : AngularBlock.mk' sort es = .ok b) :
    b.nr = es.length ∧ AngularBlock.ofRange b.xss b.nr b.nr false = .ok b := by
  unfold AngularBlock.mk' at hb
  obtain ⟨w, _, hb⟩ := bind_eq_ok.mp hb
  have h := hb
  unfold AngularBlock.generateBlocks at h
  obtain ⟨_, _, h⟩ := bind_eq_ok.mp h
  injection h with h
  subst h
  refine ⟨rfl, ?_⟩
  unfold AngularBlock.ofRange
  rw [guardThrow_eq_ok.mpr (by simp)]
  exact hb

/-- DLW: with the frames and multiplicities of its TYR block. -/
theorem C28_built_DLW {ds : List EnergyData} {ms : List Mult} {fs : List Frame} {b : DLW}
    (hb : DLW.mk' ds ms fs = .ok b) :
    b.nr = ds.length ∧ DLW.ofRange b.xss b.nr b.tyr b.nr = .ok b := by
  unfold DLW.mk' at hb
  obtain ⟨w, _, hb⟩ := bind_eq_ok.mp hb
  obtain ⟨t, _, hb⟩ := bind_eq_ok.mp hb
  have h := hb
  unfold DLW.generateBlocks at h
  obtain ⟨_, _, h⟩ := bind_eq_ok.mp h
  obtain ⟨_, _, h⟩ := bind_eq_ok.mp h
  injection h with h
  subst h
  refine ⟨rfl, ?_⟩
  unfold DLW.ofRange
  rw [guardThrow_eq_ok.mpr (by simp)]
  exact hb

/-- DLWP, DNED and DLWH. -/
theorem C28_built_DLWH {ds : List EnergyData} {fs : Option (List Frame)} {b : DLWH}
    (hb : DLWH.mk' ds fs = .ok b) : b.block.n = ds.length ∧ SoundDLWH b := by
  unfold DLWH.mk' at hb
  obtain ⟨w, _, hb⟩ := bind_eq_ok.mp hb
  obtain ⟨k, hk, hb⟩ := bind_eq_ok.mp hb
  have hbk : b.block = k := by
    cases fs with
    | none =>
      obtain ⟨_, _, hb⟩ := bind_eq_ok.mp hb
      injection hb with hb; rw [← hb]
    | some f =>
      obtain ⟨_, _, hb⟩ := bind_eq_ok.mp hb
      obtain ⟨_, _, hb⟩ := bind_eq_ok.mp hb
      injection hb with hb; rw [← hb]
  unfold SoundDLWH
  rw [hbk]
  have h := hk
  unfold LocBlock.generateBlocks at h
  obtain ⟨_, _, h⟩ := bind_eq_ok.mp h
  injection h with h
  subst h
  refine ⟨rfl, ?_⟩
  unfold LocBlock.ofRange
  rw [guardThrow_eq_ok.mpr (by simp)]
  exact hk

theorem nu_xss {w : Words} {b : NU} (h : NU.generateBlocks w = .ok b) : b.xss = w := by
  unfold NU.generateBlocks at h
  obtain ⟨_, _, h⟩ := bind_eq_ok.mp h
  obtain ⟨_, _, h⟩ := bind_eq_ok.mp h
  split at h
  · unfold NU.generateBoth at h
    obtain ⟨_, _, h⟩ := bind_eq_ok.mp h
    obtain ⟨_, _, h⟩ := bind_eq_ok.mp h
    obtain ⟨_, _, h⟩ := bind_eq_ok.mp h
    obtain ⟨_, _, h⟩ := bind_eq_ok.mp h
    obtain ⟨_, _, h⟩ := bind_eq_ok.mp h
    obtain ⟨_, _, h⟩ := bind_eq_ok.mp h
    injection h with h; rw [← h]
  · obtain ⟨_, _, h⟩ := bind_eq_ok.mp h
    injection h with h; rw [← h]

theorem C28_built_NU {p : NuData} {b : NU} (hb : NU.mk1 p = .ok b) : NU.ofRange b.xss = .ok b := by
  unfold NU.ofRange; rw [nu_xss hb]; exact hb
theorem C28_built_NU2 {p t : NuData} {b : NU} (hb : NU.mk2 p t = .ok b) :
    NU.ofRange b.xss = .ok b := by
  unfold NU.ofRange; rw [nu_xss hb]; exact hb

theorem C28_built_BDD {gs : List Precursor} {b : BDD} (hb : BDD.mk' gs = .ok b) :
    b.npcr = gs.length ∧ BDD.ofRange b.xss b.npcr = .ok b := by
  unfold BDD.mk' at hb
  have h := hb
  unfold BDD.ofRange at h
  obtain ⟨_, _, h⟩ := bind_eq_ok.mp h
  injection h with h; subst h
  exact ⟨rfl, hb⟩

theorem unr_again {w : Words} {b : UNR} (hb : UNR.ofRange w = .ok b) :
    UNR.ofRange b.xss = .ok b := by
  have h := hb
  unfold UNR.ofRange at h
  obtain ⟨_, _, h⟩ := bind_eq_ok.mp h
  obtain ⟨_, _, h⟩ := bind_eq_ok.mp h
  obtain ⟨_, _, h⟩ := bind_eq_ok.mp h
  injection h with h; subst h
  exact hb

theorem C28_built_UNR {int : Nat} {ilf ioa : Int} {iff : Nat} {ts : List ProbabilityTable} {b : UNR}
    (hb : UNR.mk' int ilf ioa iff ts = .ok b) : UNR.ofRange b.xss = .ok b := by
  cases ts with
  | nil => cases hb
  | cons t ts => exact unr_again hb

theorem C28_built_YP (mts : List Nat) (h : FitsN mts.length) :
    YP.ofRange (YP.mk' mts).xss = .ok (YP.mk' mts) := by
  have := YP.nyp mts [] h
  simp only [ypWords, List.append_nil] at this
  unfold YP.ofRange
  show (YP.NYP ⟨Dbl.ofNat mts.length :: mts.map Dbl.ofNat⟩ >>= _) = _
  rw [this, ok_bind, guardThrow_eq_ok.mpr (by simp [YP.mk', Nat.mod_le])]
  rfl

theorem C28_built_HPD {i : Nat} {p h : Words} {b : HPD} (hb : HPD.mk' i p h = .ok b)
    (hf : FitsN p.length) : HPD.ofRange b.xss = .ok b := by
  unfold HPD.mk' at hb
  obtain ⟨_, hg, hb⟩ := bind_eq_ok.mp hb
  have hg := guardThrow_eq_ok.mp hg
  simp at hg
  injection hb with hb; subst hb
  have hn : HPD.numberValues ⟨Dbl.ofNat i :: Dbl.ofNat p.length :: p ++ h⟩ = .ok p.length := by
    unfold HPD.numberValues
    rw [Base.XSS_of_eq (xs := Dbl.ofNat i :: Dbl.ofNat p.length :: p ++ h) (x := Dbl.ofNat p.length)
      (a := [Dbl.ofNat i]) (c := p ++ h) (by simp) (by simp),
      ok_bind, Dbl.trunc?_ofNat, toSize_natCast hf]
  unfold HPD.ofRange
  rw [hn, ok_bind, guardThrow_eq_ok.mpr]
  · rfl
  · have := Nat.mod_le (2 * p.length + 2) 4294967296
    simp [hg]
    omega

end ACE.Props

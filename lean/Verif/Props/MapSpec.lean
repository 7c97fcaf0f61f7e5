import Verif.Model.Typed

/-!
# Specification: the same data with every word replaced

`X.mapw r d` is the object `d` in which every number taken from the file is replaced by its
image under `r`; counts, locators that were converted to integers, kinds of data and flags are
left as they are. `Keeps r` says that `r` replaces numbers without changing the integers the
library may read from them.
-/

namespace ACE

/-- A replacement of numbers after which every number still rounds to the same integer, truncates
to the same integer, has the same sign and compares in the same way with natural numbers. -/
class Keeps (r : Dbl → Dbl) : Prop where
  round : ∀ x, (r x).round? = x.round?
  trunc : ∀ x, (r x).trunc? = x.trunc?
  neg : ∀ x, (r x).isNeg = x.isNeg
  ge : ∀ x n, (r x).geNat n = x.geNat n

/-! ## Arrays and columns -/

/-- Every word replaced, the sizes kept. -/
def ArrayData.mapw (r : Dbl → Dbl) (d : ArrayData) : ArrayData := { d with xss := d.xss.map r }
/-- Every word replaced, the number of columns kept. -/
def ColumnData.mapw (r : Dbl → Dbl) (d : ColumnData) : ColumnData := { d with xss := d.xss.map r }
/-- Every word replaced, also in both parts. -/
def TabulatedData.mapw (r : Dbl → Dbl) (d : TabulatedData) : TabulatedData :=
  { xss := d.xss.map r, interpolation := ColumnData.mapw r d.interpolation, data := d.data.mapw r }
/-- Every word replaced. -/
def TabProb.mapw (r : Dbl → Dbl) (d : TabProb) : TabProb := ⟨d.xss.map r⟩
/-- Every word and the energy limits replaced. -/
def TwoParam.mapw (r : Dbl → Dbl) (d : TwoParam) : TwoParam :=
  { xss := d.xss.map r, emin := r d.emin, emax := r d.emax }
/-- Every word replaced. -/
def Evaporation.mapw (r : Dbl → Dbl) (d : Evaporation) : Evaporation :=
  { xss := d.xss.map r, tabulated := d.tabulated.mapw r }
/-- Every word and the incident energy replaced. -/
def ProbabilityTable.mapw (r : Dbl → Dbl) (d : ProbabilityTable) : ProbabilityTable :=
  { data := d.data.mapw r, incident := r d.incident }
/-- Every word and the energy or cosine replaced. -/
def TabDist.mapw (r : Dbl → Dbl) (d : TabDist) : TabDist :=
  { value := r d.value, dist := d.dist.mapw r }
/-- Every word replaced; the literal grid is kept. -/
def JINC.mapw (r : Dbl → Dbl) (d : JINC) : JINC := { d with data := d.data.mapw r }
/-- Every word replaced; the literal grid is kept. -/
def JCOH.mapw (r : Dbl → Dbl) (d : JCOH) : JCOH := { d with data := d.data.mapw r }

/-! ## Blocks with locators -/

/-- Every word replaced, and every data block replaced by `f`. -/
def LocBlock.mapw {D : Type} (f : D → D) (r : Dbl → Dbl) (d : LocBlock D) : LocBlock D :=
  { d with xss := d.xss.map r, data := d.data.map f }
/-- Every word replaced. -/
def CrossSectionData.mapw (r : Dbl → Dbl) (d : CrossSectionData) : CrossSectionData :=
  ⟨d.xss.map r⟩
/-- Every word replaced. -/
def PhotonXS.mapw (r : Dbl → Dbl) (d : PhotonXS) : PhotonXS := ⟨d.xss.map r⟩
/-- Every word replaced. -/
def TabMult.mapw (r : Dbl → Dbl) (d : TabMult) : TabMult := ⟨d.xss.map r, d.data.mapw r⟩
/-- Every word replaced, the kind kept. -/
def PhotonData.mapw (r : Dbl → Dbl) : PhotonData → PhotonData
  | .xs d => .xs (d.mapw r)
  | .mult d => .mult (d.mapw r)
/-- Every word and the energy replaced. -/
def ElectronDist.mapw (r : Dbl → Dbl) (d : ElectronDist) : ElectronDist :=
  ⟨r d.energy, d.data.mapw r⟩
/-- Every word replaced. -/
def ElectronBlock.mapw (r : Dbl → Dbl) (d : ElectronBlock) : ElectronBlock :=
  { d with xss := d.xss.map r, information := d.information.mapw r
           data := d.data.map (ElectronDist.mapw r) }

/-! ## Distributions -/

/-- Every word replaced, and every distribution replaced by `f`. -/
def DistData.mapw {D : Type} (f : D → D) (r : Dbl → Dbl) (d : DistData D) : DistData D :=
  { d with xss := d.xss.map r, interpolation := ColumnData.mapw r d.interpolation
           values := d.values.mapw r, distributions := d.distributions.map f }
/-- Every word and the incident energy replaced, and every distribution replaced by `f`. -/
def DistDataI.mapw {D : Type} (f : D → D) (r : Dbl → Dbl) (d : DistDataI D) : DistDataI D :=
  { d with incident := r d.incident, xss := d.xss.map r, values := d.values.mapw r
           distributions := d.distributions.map f }
/-- Every word, the energy and the probabilities replaced. -/
def AngularProb.mapw (r : Dbl → Dbl) (d : AngularProb) : AngularProb :=
  ⟨d.angular.mapw r, r d.probability, r d.cumulative⟩
/-- Every word and the energy replaced. -/
def EquiAngular.mapw (r : Dbl → Dbl) (d : EquiAngular) : EquiAngular := ⟨r d.energy, d.xss.map r⟩
/-- Every word and the energy replaced, the kind kept. -/
def AngDist.mapw (r : Dbl → Dbl) : AngDist → AngDist
  | .iso e => .iso (r e)
  | .equi d => .equi (d.mapw r)
  | .tab d => .tab (d.mapw r)
/-- Every word replaced. -/
def AngularData.mapw (r : Dbl → Dbl) (d : AngularData) : AngularData :=
  { d with xss := d.xss.map r, values := d.values.mapw r
           distributions := d.distributions.map (AngDist.mapw r) }
/-- Every word replaced, the kind kept. -/
def AngEntry.mapw (r : Dbl → Dbl) : AngEntry → AngEntry
  | .fullyIsotropic => .fullyIsotropic
  | .givenElsewhere => .givenElsewhere
  | .data d => .data (d.mapw r)
/-- Every word replaced. -/
def AngularBlock.mapw (r : Dbl → Dbl) (d : AngularBlock) : AngularBlock :=
  { d with xss := d.xss.map r, entries := d.entries.map (AngEntry.mapw r) }

/-! ## Energy distributions -/

/-- Every word and the incident energy replaced. -/
def EquiEnergy.mapw (r : Dbl → Dbl) (d : EquiEnergy) : EquiEnergy := ⟨r d.incident, d.xss.map r⟩
/-- Every word replaced. -/
def EquiBinData.mapw (r : Dbl → Dbl) (d : EquiBinData) : EquiBinData :=
  { xss := d.xss.map r, interpolation := ColumnData.mapw r d.interpolation
    energies := d.energies.mapw r, bins := d.bins.map (EquiEnergy.mapw r) }
/-- Every word replaced. -/
def GenEvap.mapw (r : Dbl → Dbl) (d : GenEvap) : GenEvap :=
  { xss := d.xss.map r, tabulated := d.tabulated.mapw r, bins := d.bins.mapw r }
/-- Every word replaced. -/
def Watt.mapw (r : Dbl → Dbl) (d : Watt) : Watt :=
  { xss := d.xss.map r, a := d.a.mapw r, b := d.b.mapw r }
/-- Every word and the energy limits replaced. -/
def NBody.mapw (r : Dbl → Dbl) (d : NBody) : NBody := ⟨d.xss.map r, r d.emin, r d.emax⟩
/-- Every word replaced, the law kept. -/
def LawData.mapw (r : Dbl → Dbl) : LawData → LawData
  | equiprobable d => equiprobable (d.mapw r)
  | photon d => photon (d.mapw r)
  | level d => level (d.mapw r)
  | tabulated d => tabulated (DistData.mapw (TabDist.mapw r) r d)
  | general d => general (d.mapw r)
  | maxwell d => maxwell (d.mapw r)
  | evaporation d => evaporation (d.mapw r)
  | watt d => watt (d.mapw r)
  | kalbach d => kalbach (DistData.mapw (TabDist.mapw r) r d)
  | nbody d => nbody (d.mapw r)
  | transfer d => transfer (d.mapw r)
  | energyAngle d => energyAngle (DistData.mapw (DistDataI.mapw (AngularProb.mapw r) r) r d)
  | angleEnergy d => angleEnergy (DistData.mapw (DistDataI.mapw (TabDist.mapw r) r) r d)
/-- Every word replaced. -/
def MultiData.mapw (r : Dbl → Dbl) (d : MultiData) : MultiData :=
  { d with xss := d.xss.map r, probabilities := d.probabilities.map (TabulatedData.mapw r)
           distributions := d.distributions.map (LawData.mapw r) }
/-- Every word replaced, the kind kept. -/
def EnergyData.mapw (r : Dbl → Dbl) : EnergyData → EnergyData
  | law d => law (d.mapw r)
  | multi d => multi (d.mapw r)
  | undefined => undefined
/-- Every word replaced, the frames and multiplicities kept. -/
def TYR.mapw (r : Dbl → Dbl) (d : TYR) : TYR := { d with xss := d.xss.map r }
/-- Every word of a tabulated multiplicity replaced. -/
def Mult.mapw (r : Dbl → Dbl) : Mult → Mult
  | int n => int n
  | tab d => tab (d.mapw r)
/-- Every word replaced, the frames kept. -/
def DLW.mapw (r : Dbl → Dbl) (d : DLW) : DLW :=
  { d with xss := d.xss.map r, tyr := d.tyr.mapw r, data := d.data.map (EnergyData.mapw r)
           multiplicities := d.multiplicities.map (Mult.mapw r) }
/-- Every word replaced, the frames kept. -/
def DLWH.mapw (r : Dbl → Dbl) (d : DLWH) : DLWH :=
  { d with block := LocBlock.mapw (EnergyData.mapw r) r d.block, tyrh := d.tyrh.map (TYR.mapw r) }
/-- Every word replaced. -/
def HPD.mapw (r : Dbl → Dbl) (d : HPD) : HPD := ⟨d.xss.map r⟩
/-- Every word replaced. -/
def NTRO.mapw (r : Dbl → Dbl) (d : NTRO) : NTRO := ⟨d.xss.map r, d.ntype⟩

/-! ## Fission and probability tables -/

/-- Every word replaced. -/
def PolyNu.mapw (r : Dbl → Dbl) (d : PolyNu) : PolyNu := ⟨d.xss.map r⟩
/-- Every word replaced. -/
def TabNu.mapw (r : Dbl → Dbl) (d : TabNu) : TabNu := ⟨d.xss.map r, d.data.mapw r⟩
/-- Every word replaced, the kind kept. -/
def NuData.mapw (r : Dbl → Dbl) : NuData → NuData
  | poly d => poly (d.mapw r)
  | tab d => tab (d.mapw r)
/-- Every word replaced. -/
def NU.mapw (r : Dbl → Dbl) (d : NU) : NU :=
  { xss := d.xss.map r, prompt := d.prompt.mapw r, total := d.total.map (NuData.mapw r) }
/-- Every word replaced, the number kept. -/
def Precursor.mapw (r : Dbl → Dbl) (d : Precursor) : Precursor :=
  { d with xss := d.xss.map r, data := d.data.mapw r }
/-- Every word replaced. -/
def BDD.mapw (r : Dbl → Dbl) (d : BDD) : BDD :=
  { d with xss := d.xss.map r, data := d.data.map (Precursor.mapw r) }
/-- Every word replaced. -/
def UNR.mapw (r : Dbl → Dbl) (d : UNR) : UNR :=
  { xss := d.xss.map r, data := d.data.map (ProbabilityTable.mapw r) }

/-! ## Thermal cosines -/

/-- Every word replaced. -/
def DCos.mapw (r : Dbl → Dbl) (d : DCos) : DCos := ⟨d.xss.map r, d.nc⟩
/-- Every word replaced. -/
def PCos.mapw (r : Dbl → Dbl) (d : PCos) : PCos := ⟨d.xss.map r, d.nc⟩
/-- Every word replaced, the kind kept. -/
def CosData.mapw (r : Dbl → Dbl) : CosData → CosData
  | plain d => plain (d.mapw r)
  | prob d => prob (d.mapw r)
/-- Every word replaced. -/
def ITXE.mapw (r : Dbl → Dbl) (d : ITXE) : ITXE :=
  { d with xss := d.xss.map r, data := d.data.map (List.map (CosData.mapw r)) }

/-! ## Locators and numbers of secondary particles -/

/-- Every word replaced. -/
def YP.mapw (r : Dbl → Dbl) (d : YP) : YP := ⟨d.xss.map r⟩
/-- Every word replaced. -/
def IXS.mapw (r : Dbl → Dbl) (d : IXS) : IXS := ⟨d.xss.map r, d.ntype⟩
/-- Every word replaced. -/
def IXSU.mapw (r : Dbl → Dbl) (d : IXSU) : IXSU := ⟨d.xss.map r, d.ntype⟩

/-! ## Tables -/

/-- Every word of the XSS array replaced; the other arrays are kept. -/
def TableData.mapw (r : Dbl → Dbl) (d : TableData) : TableData := { d with xss := d.xss.map r }
/-- Every word replaced. -/
def Particle.mapw (r : Dbl → Dbl) (p : Particle) : Particle :=
  { hpd := p.hpd.mapw r, mtrh := ArrayData.mapw r p.mtrh, tyrh := p.tyrh.mapw r
    sigh := LocBlock.mapw (TabMult.mapw r) r p.sigh, andh := p.andh.mapw r, dlwh := p.dlwh.mapw r
    yh := p.yh.mapw r }
/-- Every word replaced; the ZAID and which blocks are present are kept. -/
def CE.mapw (r : Dbl → Dbl) (t : CE) : CE :=
  { zaid := t.zaid, data := t.data.mapw r
    esz := ArrayData.mapw r t.esz, nu := t.nu.map (NU.mapw r), mtr := ArrayData.mapw r t.mtr
    lqr := ArrayData.mapw r t.lqr, tyr := t.tyr.mapw r
    sig := LocBlock.mapw (CrossSectionData.mapw r) r t.sig, ang := t.ang.mapw r, dlw := t.dlw.mapw r
    gpd := t.gpd.map (ArrayData.mapw r), mtrp := t.mtrp.map (ArrayData.mapw r)
    sigp := t.sigp.map (LocBlock.mapw (PhotonData.mapw r) r)
    andp := t.andp.map (AngularBlock.mapw r), dlwp := t.dlwp.map (DLWH.mapw r)
    yp := t.yp.map (YP.mapw r), unr := t.unr.map (UNR.mapw r), dnu := t.dnu.map (NU.mapw r)
    bdd := t.bdd.map (BDD.mapw r), dned := t.dned.map (DLWH.mapw r)
    ptype := t.ptype.map (ArrayData.mapw r), ntro := t.ntro.map (NTRO.mapw r)
    ixs := t.ixs.map (IXS.mapw r), particles := t.particles.map (Particle.mapw r) }
/-- Every word replaced. -/
def Dosimetry.mapw (r : Dbl → Dbl) (t : Dosimetry) : Dosimetry :=
  { zaid := t.zaid, data := t.data.mapw r, mtr := ArrayData.mapw r t.mtr
    sigd := LocBlock.mapw (TabulatedData.mapw r) r t.sigd }
/-- Every word replaced; the ZAID and which blocks are present are kept. -/
def TS.mapw (r : Dbl → Dbl) (t : TS) : TS :=
  { zaid := t.zaid, data := t.data.mapw r, itie := ColumnData.mapw r t.itie, itxe := t.itxe.mapw r
    itce := t.itce.map (ColumnData.mapw r), itca := t.itca.map (ArrayData.mapw r)
    itcei := t.itcei.map (ColumnData.mapw r), itcai := t.itcai.map (ArrayData.mapw r) }
/-- Every word replaced; the ZAID and which blocks are present are kept. -/
def PA.mapw (r : Dbl → Dbl) (t : PA) : PA :=
  { zaid := t.zaid, data := t.data.mapw r, eszg := ArrayData.mapw r t.eszg
    jinc := t.jinc.mapw r, jcoh := t.jcoh.mapw r, jflo := t.jflo.map (ArrayData.mapw r)
    lhnm := ArrayData.mapw r t.lhnm, eps := t.eps.map (ArrayData.mapw r)
    swd := t.swd.map (LocBlock.mapw (TabProb.mapw r) r), subsh := t.subsh.map (ArrayData.mapw r)
    sphel := t.sphel.map (ArrayData.mapw r)
    xprob := t.xprob.map (LocBlock.mapw (ArrayData.mapw r) r)
    esze := t.esze.map (ArrayData.mapw r), excit := t.excit.map (ArrayData.mapw r)
    elas := t.elas.map (ElectronBlock.mapw r), eion := t.eion.map (ElectronBlock.mapw r)
    breme := t.breme.map (ElectronBlock.mapw r), breml := t.breml.map (ArrayData.mapw r)
    selas := t.selas.map (ArrayData.mapw r) }
/-- Every word replaced. -/
def PN.Particle.mapw (r : Dbl → Dbl) (p : PN.Particle) : PN.Particle :=
  { pxs := p.pxs.mapw r, phn := p.phn.mapw r, mtrh := ArrayData.mapw r p.mtrh, tyrh := p.tyrh.mapw r
    sigh := LocBlock.mapw (TabMult.mapw r) r p.sigh, andh := p.andh.mapw r, dlwh := p.dlwh.mapw r }
/-- Every word replaced; the ZAID and which blocks are present are kept. -/
def PN.mapw (r : Dbl → Dbl) (t : PN) : PN :=
  { zaid := t.zaid, data := t.data.mapw r, eszu := ArrayData.mapw r t.eszu
    mtr := ArrayData.mapw r t.mtr, lqr := ArrayData.mapw r t.lqr
    sig := LocBlock.mapw (CrossSectionData.mapw r) r t.sig, ixsu := t.ixsu.map (IXSU.mapw r)
    particles := t.particles.map (PN.Particle.mapw r) }
/-- Every word replaced, the class kept. -/
def Content.mapw (r : Dbl → Dbl) : Content → Content
  | ce t => ce (t.mapw r)
  | dosimetry t => dosimetry (t.mapw r)
  | photoatomic t => photoatomic (t.mapw r)
  | photonuclear t => photonuclear (t.mapw r)
  | thermal t => thermal (t.mapw r)

end ACE

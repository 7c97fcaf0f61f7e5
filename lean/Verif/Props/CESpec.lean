import Verif.Model.Continuous
import Verif.Props.C20

/-!
# What a continuous energy table is built from

`Blocks` groups the arguments of the constructor: the photon production, delayed neutron and
secondary particle blocks come in groups that are there as a whole or not at all (a group in part is
refused, C31). `Returned` says that a table has given back all of them.
-/

namespace ACE.Props
open ACE

/-- Photon production. -/
structure PhotonBlocks where
  gpd : GPD
  mtrp : MTR
  sigp : SIGP
  andp : AngularBlock
  dlwp : DLWH
  yp : YP

/-- Delayed neutrons. -/
structure DelayedBlocks where
  dnu : NU
  bdd : BDD
  dned : DLWH

/-- One secondary particle type. -/
structure SecondaryBlocks where
  hpd : HPD
  mtrh : MTR
  sigh : SIGH
  andh : AngularBlock
  dlwh : DLWH
  yh : YP

/-- All blocks. -/
structure Blocks where
  esz : ESZ
  nu : Option NU
  mtr : MTR
  lqr : LQR
  sig : SIG
  ang : AngularBlock
  dlw : DLW
  photons : Option PhotonBlocks
  unr : Option UNR
  delayed : Option DelayedBlocks
  secondaries : Option (PTYPE × List SecondaryBlocks)

/-- The arguments of the constructor. -/
def Blocks.input (B : Blocks) : CE.Input where
  esz := B.esz
  nu := B.nu
  dnu := B.delayed.map (·.dnu)
  mtr := B.mtr
  lqr := B.lqr
  sig := B.sig
  ang := B.ang
  dlw := B.dlw
  bdd := B.delayed.map (·.bdd)
  dned := B.delayed.map (·.dned)
  gpd := B.photons.map (·.gpd)
  mtrp := B.photons.map (·.mtrp)
  sigp := B.photons.map (·.sigp)
  andp := B.photons.map (·.andp)
  dlwp := B.photons.map (·.dlwp)
  yp := B.photons.map (·.yp)
  unr := B.unr
  ptype := B.secondaries.map (·.1)
  hpd := B.secondaries.map (fun s => s.2.map (·.hpd))
  mtrh := B.secondaries.map (fun s => s.2.map (·.mtrh))
  sigh := B.secondaries.map (fun s => s.2.map (·.sigh))
  andh := B.secondaries.map (fun s => s.2.map (·.andh))
  dlwh := B.secondaries.map (fun s => s.2.map (·.dlwh))
  yh := B.secondaries.map (fun s => s.2.map (·.yh))

/-! ## Blocks that are what their words say

A block is sound when its own reading constructor makes it from its own words. Blocks made by their
constructors are (`C28_built_*`), and so are blocks read from exactly their words. -/

/-- Sound energy distributions of secondary particles (the frames are not in the words). -/
def SoundDLWH (d : DLWH) : Prop :=
  LocBlock.ofRange EnergyData.readSecondary d.block.xss d.block.n d.block.n true = .ok d.block

/-- Sound photon production blocks with matching numbers of energies and reactions. -/
structure SoundPhotons (nes : Nat) (p : PhotonBlocks) : Prop where
  gpd : GPD.ofRange p.gpd.xss nes = .ok p.gpd
  mtrp : MTR.ofRange p.mtrp.xss p.mtrp.n = .ok p.mtrp
  sigp : SIGP.ofRange p.sigp.xss p.mtrp.n p.mtrp.n = .ok p.sigp
  andp : AngularBlock.ofRange p.andp.xss p.mtrp.n p.mtrp.n false = .ok p.andp
  dlwp : SoundDLWH p.dlwp
  ndlwp : p.dlwp.block.n = p.mtrp.n
  yp : YP.ofRange p.yp.xss = .ok p.yp

/-- Sound delayed neutron blocks: the multiplicity is one table. -/
structure SoundDelayed (p : DelayedBlocks) : Prop where
  dnu : NU.ofRange p.dnu.xss = .ok p.dnu
  single : p.dnu.hasBoth = false
  tabulated : ∃ t, p.dnu.multiplicity = .tab t
  bdd : BDD.ofRange p.bdd.xss p.bdd.npcr = .ok p.bdd
  dned : SoundDLWH p.dned
  ndned : p.dned.block.n = p.bdd.npcr

/-- Sound blocks of a secondary particle with matching numbers of reactions. -/
structure SoundSecondary (p : SecondaryBlocks) : Prop where
  hpd : HPD.ofRange p.hpd.xss = .ok p.hpd
  mtrh : MTR.ofRange p.mtrh.xss p.mtrh.n = .ok p.mtrh
  sigh : SIGH.ofRange p.sigh.xss p.mtrh.n p.mtrh.n = .ok p.sigh
  andh : AngularBlock.ofRange p.andh.xss p.mtrh.n p.mtrh.n false = .ok p.andh
  dlwh : SoundDLWH p.dlwh
  ndlwh : p.dlwh.block.n = p.mtrh.n
  /-- every reaction has a frame -/
  frames : ∃ fs : List Frame, p.dlwh.frames = fs.map some ∧ fs.length = p.mtrh.n
  yh : YP.ofRange p.yh.xss = .ok p.yh

/-- Sound blocks with matching numbers of reactions: `mts` are the reaction numbers and `vs` the
frames and multiplicities. -/
structure Sound (B : Blocks) (mts : List Nat) (vs : List (Frame × Nat)) : Prop where
  esz : ESZ.ofRange B.esz.xss B.esz.n = .ok B.esz
  /-- the words hold the five arrays: the reading constructor only compares with `5 * NES`
  reduced to 32 bits -/
  esz_holds : 5 * B.esz.n ≤ B.esz.xss.length
  nu : ∀ x, B.nu = some x → NU.ofRange x.xss = .ok x
  mtr : MTR.mk' mts = .ok B.mtr
  lqr : LQR.ofRange B.lqr.xss mts.length = .ok B.lqr
  sig : SIG.ofRange B.sig.xss mts.length mts.length = .ok B.sig
  ang : AngularBlock.ofRange B.ang.xss (B.ang.nr + 1) B.ang.nr true = .ok B.ang
  dlw : DLW.ofRange B.dlw.xss B.ang.nr B.dlw.tyr B.ang.nr = .ok B.dlw
  tyr : B.dlw.tyr.ntr = vs.length ∧ B.dlw.tyr.frames = vs.map (·.1) ∧
    B.dlw.tyr.multiplicities = vs.map (·.2)
  unr : ∀ x, B.unr = some x → UNR.ofRange x.xss = .ok x
  photons : ∀ p, B.photons = some p → SoundPhotons B.esz.n p
  delayed : ∀ p, B.delayed = some p → SoundDelayed p
  ptype : ∀ t ps, B.secondaries = some (t, ps) → PTYPE.ofRange t.xss ps.length = .ok t
  secondaries : ∀ t ps, B.secondaries = some (t, ps) → ∀ p ∈ ps, SoundSecondary p
  /-- more reactions than those with secondary neutrons -/
  nr : B.ang.nr ≤ mts.length
  ntyr : B.ang.nr ≤ vs.length
  /-- fission comes with a multiplicity, and its cross section is inside of the SIG block -/
  fission : 18 ∈ mts → B.nu.isSome = true
  located : ∀ i l, B.sig.LLOC i = .ok l → 1 ≤ l ∧ mts.length + l ≤ B.sig.xss.length
  numbers : ∀ n ∈ mts, n < 4294967296
  signs : ∀ v ∈ vs, TyrOk v

/-- Clear of the defects of the search for the end of a block (see C28 for a witness of each). -/
structure Clear (B : Blocks) : Prop where
  /-- groups that are there have something in them -/
  ntrp : ∀ p, B.photons = some p → 1 ≤ p.mtrp.n
  npcr : ∀ p, B.delayed = some p → 1 ≤ p.bdd.npcr
  ntype : ∀ t ps, B.secondaries = some (t, ps) → ps ≠ []
  /-- the last word before the secondary particles is not the first word of a block -/
  last : 2 ≤ B.ang.xss.length ∨ 2 ≤ B.dlw.xss.length ∨ B.unr.isSome ∨ B.photons.isSome ∨
    B.delayed.isSome
  dlw : B.dlw.xss.length ≠ 1
  unr : ∀ x, B.unr = some x → 2 ≤ x.xss.length
  yp : ∀ p, B.photons = some p → 2 ≤ p.yp.xss.length
  dned : ∀ p, B.delayed = some p → 2 ≤ p.dned.block.xss.length
  /-- unresolved resonances and photons only go together with delayed neutrons -/
  unrPhotons : B.unr.isSome → B.photons.isSome → B.delayed.isSome
  /-- the grid index of the first secondary particle is one of the energies -/
  index : ∀ t p ps, B.secondaries = some (t, p :: ps) →
    ∃ i w, p.hpd.xss = Dbl.ofNat i :: w ∧ i ≤ B.esz.n

/-- Number of words of a secondary particle. -/
def SecondaryBlocks.size (p : SecondaryBlocks) : Nat :=
  p.hpd.xss.length + p.mtrh.xss.length + p.mtrh.n + p.sigh.xss.length + p.andh.xss.length +
    p.dlwh.block.xss.length + p.yh.xss.length

/-- Number of words of a table. -/
def Blocks.size (B : Blocks) (ntr : Nat) : Nat :=
  let opt {α : Type} (words : α → Nat) : Option α → Nat := fun o => (o.map words).getD 0
  B.esz.xss.length + opt (·.xss.length) B.nu + B.mtr.xss.length + B.lqr.xss.length + ntr +
    B.sig.xss.length + B.ang.xss.length + B.dlw.xss.length + opt (·.xss.length) B.unr +
    opt (fun p => p.dnu.xss.length + p.bdd.xss.length + p.dned.block.xss.length) B.delayed +
    opt (fun p => p.gpd.xss.length + p.mtrp.xss.length + p.sigp.xss.length + p.andp.xss.length +
      p.dlwp.block.xss.length + p.yp.xss.length) B.photons +
    opt (fun s => s.1.xss.length + 11 * s.2.length +
      (s.2.map SecondaryBlocks.size).sum) B.secondaries

/-! ## What comes back -/

/-- The principal, photon, unresolved and delayed neutron blocks of a table are the given ones. The
frames of DLWP and DNED are not in a table. -/
structure Returned (B : Blocks) (vs : List (Frame × Nat)) (ntr : Nat) (t : CE) : Prop where
  esz : t.esz = B.esz
  nu : t.nu = B.nu
  mtr : t.mtr = B.mtr
  lqr : t.lqr = B.lqr
  tyr : TyrGives (vs.take B.ang.nr ++ List.replicate (ntr - B.ang.nr) (.laboratory, 0)) t.tyr
  sig : t.sig = B.sig
  ang : t.ang = B.ang
  dlw : t.dlw.xss = B.dlw.xss ∧ t.dlw.nr = B.dlw.nr ∧ t.dlw.data = B.dlw.data ∧
    t.dlw.multiplicities = B.dlw.multiplicities ∧ t.dlw.frames = B.dlw.frames
  gpd : t.gpd = B.photons.map (·.gpd)
  mtrp : t.mtrp = B.photons.map (·.mtrp)
  sigp : t.sigp = B.photons.map (·.sigp)
  andp : t.andp = B.photons.map (·.andp)
  dlwp : t.dlwp.map (·.block) = B.photons.map (·.dlwp.block)
  yp : t.yp = B.photons.map (·.yp)
  unr : t.unr = B.unr
  dnu : t.dnu = B.delayed.map (·.dnu)
  bdd : t.bdd = B.delayed.map (·.bdd)
  dned : t.dned.map (·.block) = B.delayed.map (·.dned.block)

/-- A secondary particle is returned: TYRH holds the frames with multiplicity one. -/
structure ReturnedParticle (p : SecondaryBlocks) (q : Particle) : Prop where
  hpd : q.hpd = p.hpd
  mtrh : q.mtrh = p.mtrh
  tyrh : ∃ fs : List Frame, p.dlwh.frames = fs.map some ∧ TyrGives (fs.map fun f => (f, 1)) q.tyrh
  sigh : q.sigh = p.sigh
  andh : q.andh = p.andh
  dlwh : q.dlwh.block = p.dlwh.block ∧ q.dlwh.frames = p.dlwh.frames
  yh : q.yh = p.yh

end ACE.Props

import Verif.Model.Ident
import Verif.Model.ArrayBlocks
import Verif.Model.Secondary
import Verif.Model.Located
import Verif.Model.Angular
import Verif.Model.EnergyBlock
import Verif.Model.Fission

/-!
# `ContinuousEnergyTable`

/repo/src/ACEtk/ContinuousEnergyTable.hpp and ContinuousEnergyTable/src. A range of iterators into
the XSS array is a pair of offsets.
-/

namespace ACE

/-- An `unsigned int` accessor of NXS, /repo/src/ACEtk/ContinuousEnergyTable.hpp:147-246. -/
def TableData.count (d : TableData) (index : Nat) : Res Nat := do return u32OfInt (← d.NXS index)
/-- A locator converted to `std::size_t`. -/
def TableData.locator (d : TableData) (index : Nat) : Res Nat := do return sizeOfInt (← d.JXS index)
/-- The pair of iterators made of two locators (`stop = 0` is the end of the XSS array);
iterators outside of the XSS array are undefined. -/
def TableData.range (d : TableData) (start stop : Nat) : Res (Nat × Nat) :=
  if start = 0 ∨ d.xss.length < start - 1 then .error .ub
  else if stop = 0 then .ok (start - 1, d.xss.length)
  else if d.xss.length < stop - 1 then .error .ub
  else .ok (start - 1, stop - 1)
/-- The words of a block. -/
def TableData.words (d : TableData) (r : Nat × Nat) : Res Words := sub d.xss r.1 r.2

/-- One secondary particle: the blocks HPD to YH. -/
structure Particle where
  hpd : HPD
  mtrh : MTR
  tyrh : TYR
  sigh : SIGH
  andh : AngularBlock
  dlwh : DLWH
  yh : YP
deriving DecidableEq, Repr

/-- `ContinuousEnergyTable`, /repo/src/ACEtk/ContinuousEnergyTable.hpp:39-72. The header is reduced
to its ZAID; the seven vectors of secondary particle blocks (filled together) are one list. -/
structure CE where
  zaid : List Char
  data : TableData
  esz : ESZ
  nu : Option NU
  mtr : MTR
  lqr : LQR
  tyr : TYR
  sig : SIG
  ang : AngularBlock
  dlw : DLW
  gpd : Option GPD
  mtrp : Option MTR
  sigp : Option SIGP
  andp : Option AngularBlock
  dlwp : Option DLWH
  yp : Option YP
  unr : Option UNR
  dnu : Option NU
  bdd : Option BDD
  dned : Option DLWH
  ptype : Option PTYPE
  ntro : Option NTRO
  ixs : Option IXS
  particles : List Particle
deriving DecidableEq, Repr

namespace CE

/-! ## Reading -/

/-- The end locator found by the general rule (0 for none),
ContinuousEnergyTable/src/generateBlocks.hpp:14-28. -/
def generalEnd (d : TableData) (index start : Nat) : Res Nat := do
  let last ← d.JXS 22
  let fission ← d.locator 21
  match (d.jxs.drop index).find? (fun value => decide (start ≤ sizeOfInt value)) with
  | none => return 0
  | some value =>
      let stop := if value ≠ last then sizeOfInt value else sizeOfInt (value + 1)
      if stop = fission then return sizeOfInt (last + 1) else return stop

/-- The exceptions for DLW and DNED, ContinuousEnergyTable/src/generateBlocks.hpp:31-69. -/
def exceptions (d : TableData) (index start stop : Nat) : Res Nat := do
  if index = 11 then
    match (d.jxs.drop 22).find? (fun value => decide (start ≤ sizeOfInt value)) with
    | none => return stop
    | some next => if stop > sizeOfInt next then return sizeOfInt next else return stop
  else if index = 27 then
    let last ← d.JXS 22
    let stop' := if stop = 0 then sizeOfInt (last + 1) else stop
    let gpd ← d.locator 12
    if gpd ≠ 0 ∧ stop' > gpd then return gpd else return stop'
  else return stop

/-- The end locator of a block, ContinuousEnergyTable/src/generateBlocks.hpp:8-78. -/
def blockEnd (d : TableData) (index start : Nat) : Res Nat := do
  if index = 32 then
    let ntype ← d.count 7
    if ntype ≠ 0 then return start + ntype * 10 + 1 else return 0
  else if start ≠ 0 then exceptions d index start (← generalEnd d index start)
  else return 0

/-- `block( index )`, ContinuousEnergyTable/src/generateBlocks.hpp:1-83. -/
def block (d : TableData) (index : Nat) : Res (Nat × Nat) := do
  let start ← d.locator index
  d.range start (← blockEnd d index start)

/-- The end locator of a block of a secondary particle,
ContinuousEnergyTable/src/generateBlocks.hpp:92-100; the word found is converted to `std::size_t`. -/
def particleEnd (ixs : IXS) (particle index start : Nat) : Res Nat := do
  let ws ← sub ixs.xss ((particle - 1) * 10 + index) ixs.xss.length
  match ws.find? (fun value => value.geNat start) with
  | none => return 0
  | some value => toSize value.trunc?

/-- `block( particle, index )`, ContinuousEnergyTable/src/generateBlocks.hpp:85-105. -/
def particleBlock (d : TableData) (ixs : IXS) (particle index : Nat) : Res (Nat × Nat) := do
  let start ← ixs.LLOC particle index
  d.range start (← particleEnd ixs particle index start)

/-- The words `[ locators.first, iterators.second )` of a block with locators and the offset of
`iterators.first` in it. Simplification: a data part before its locators has offset 0. -/
def located (d : TableData) (locators iterators : Nat × Nat) : Res (Words × Nat) := do
  return (← sub d.xss locators.1 iterators.2, iterators.1 - locators.1)

/-- The photon production blocks. -/
structure Photons where
  gpd : GPD
  mtrp : MTR
  sigp : SIGP
  andp : AngularBlock
  dlwp : DLWH
  yp : YP

/-- The secondary photon blocks, ContinuousEnergyTable/src/generateBlocks.hpp:183-211. -/
def readPhotons (d : TableData) : Res Photons := do
  let nes ← d.count 3
  let ntrp ← d.count 6
  let gpd ← GPD.ofRange (← d.words (← block d 12)) nes
  let mtrp ← MTR.ofRange (← d.words (← block d 13)) ntrp
  let ls ← located d (← block d 14) (← block d 15)
  let sigp ← SIGP.ofRange ls.1 ls.2 ntrp
  let la ← located d (← block d 16) (← block d 17)
  let andp ← AngularBlock.ofRange la.1 la.2 ntrp false
  let le ← located d (← block d 18) (← block d 19)
  let dlwp ← DLWH.ofRange le.1 le.2 none ntrp
  let yp ← YP.ofRange (← d.words (← block d 20))
  return ⟨gpd, mtrp, sigp, andp, dlwp, yp⟩

/-- The delayed neutron blocks, ContinuousEnergyTable/src/generateBlocks.hpp:234-242. -/
def readDelayed (d : TableData) : Res (BDD × DLWH) := do
  let npcr ← d.count 8
  let bdd ← BDD.ofRange (← d.words (← block d 25)) npcr
  let le ← located d (← block d 26) (← block d 27)
  let dned ← DLWH.ofRange le.1 le.2 none npcr
  return (bdd, dned)

/-- The blocks of one secondary particle, ContinuousEnergyTable/src/generateBlocks.hpp:264-298. -/
def readParticle (d : TableData) (ntro : NTRO) (ixs : IXS) (index : Nat) : Res Particle := do
  let hpd ← HPD.ofRange (← d.words (← particleBlock d ixs index 1))
  let np ← ntro.NP index
  let mtrh ← MTR.ofRange (← d.words (← particleBlock d ixs index 2)) np
  let tyrh ← TYR.ofRange (← d.words (← particleBlock d ixs index 3)) np
  let ls ← located d (← particleBlock d ixs index 4) (← particleBlock d ixs index 5)
  let sigh ← SIGH.ofRange ls.1 ls.2 np
  let la ← located d (← particleBlock d ixs index 6) (← particleBlock d ixs index 7)
  let andh ← AngularBlock.ofRange la.1 la.2 np false
  let le ← located d (← particleBlock d ixs index 8) (← particleBlock d ixs index 9)
  let dlwh ← DLWH.ofRange le.1 le.2 (some tyrh) np
  let yh ← YP.ofRange (← d.words (← particleBlock d ixs index 10))
  return ⟨hpd, mtrh, tyrh, sigh, andh, dlwh, yh⟩

/-- The secondary particle blocks. -/
structure Secondaries where
  ptype : PTYPE
  ntro : NTRO
  ixs : IXS
  particles : List Particle

/-- ContinuousEnergyTable/src/generateBlocks.hpp:249-299. -/
def readSecondaries (d : TableData) : Res Secondaries := do
  let ntype ← d.count 7
  let ptype ← PTYPE.ofRange (← d.words (← block d 30)) ntype
  let ntro ← NTRO.ofRange (← d.words (← block d 31)) ntype
  let ixs ← IXS.ofRange (← d.words (← block d 32)) ntype
  let particles ← (List.range' 1 ntype).mapM (readParticle d ntro ixs)
  return ⟨ptype, ntro, ixs, particles⟩

/-- A block that is only read when it is present. -/
def onlyIf {α : Type} (present : Bool) (read : Res α) : Res (Option α) :=
  if present then do return some (← read) else .ok none

/-- The blocks that are always present. -/
structure Principal where
  esz : ESZ
  nu : Option NU
  mtr : MTR
  lqr : LQR
  tyr : TYR
  sig : SIG
  ang : AngularBlock
  dlw : DLW

/-- ContinuousEnergyTable/src/generateBlocks.hpp:137-177. -/
def readPrincipal (d : TableData) : Res Principal := do
  let ntr ← d.count 4
  let nr ← d.count 5
  let esz ← ESZ.ofRange (← d.words (← block d 1)) (← d.count 3)
  let nu ← onlyIf ((← d.JXS 2) > 0) (do NU.ofRange (← d.words (← block d 2)))
  let mtr ← MTR.ofRange (← d.words (← block d 3)) ntr
  let lqr ← LQR.ofRange (← d.words (← block d 4)) ntr
  let tyr ← TYR.ofRange (← d.words (← block d 5)) ntr
  let ls ← located d (← block d 6) (← block d 7)
  let sig ← SIG.ofRange ls.1 ls.2 ntr
  let la ← located d (← block d 8) (← block d 9)
  let ang ← AngularBlock.ofRange la.1 la.2 nr true
  let le ← located d (← block d 10) (← block d 11)
  let dlw ← DLW.ofRange le.1 le.2 tyr nr
  return ⟨esz, nu, mtr, lqr, tyr, sig, ang, dlw⟩

/-- `generateBlocks`, ContinuousEnergyTable/src/generateBlocks.hpp:107-301. -/
def generateBlocks (zaid : List Char) (d : TableData) : Res CE := do
  let p ← readPrincipal d
  let photons ← onlyIf ((← d.count 6) > 0) (readPhotons d)
  let unr ← onlyIf ((← d.JXS 23) > 0) (do UNR.ofRange (← d.words (← block d 23)))
  let dnu ← onlyIf ((← d.JXS 24) > 0) (do NU.ofRange (← d.words (← block d 24)))
  let delayed ← onlyIf ((← d.count 8) > 0) (readDelayed d)
  let s ← onlyIf ((← d.count 7) > 0) (readSecondaries d)
  return { zaid := zaid, data := d, esz := p.esz, nu := p.nu, mtr := p.mtr, lqr := p.lqr
           tyr := p.tyr, sig := p.sig, ang := p.ang, dlw := p.dlw
           gpd := photons.map (·.gpd), mtrp := photons.map (·.mtrp), sigp := photons.map (·.sigp)
           andp := photons.map (·.andp), dlwp := photons.map (·.dlwp), yp := photons.map (·.yp)
           unr := unr, dnu := dnu, bdd := delayed.map (·.1), dned := delayed.map (·.2)
           ptype := s.map (·.ptype), ntro := s.map (·.ntro), ixs := s.map (·.ixs)
           particles := match s with | some s => s.particles | none => [] }

/-- Construction from a generic table, ContinuousEnergyTable/src/ctor.hpp:6-23 (the copy and move
operations, lines 30-83, do the same). -/
def ofTable (zaid : List Char) (d : TableData) : Res CE := do
  TableType.continuousEnergy.verifyType zaid
  generateBlocks zaid (← d.setSZA zaid)

/-! ## Writing -/

/-- The blocks given to the constructor, ContinuousEnergyTable/src/ctor.hpp:117-139. -/
structure Input where
  esz : ESZ
  nu : Option NU
  dnu : Option NU
  mtr : MTR
  lqr : LQR
  sig : SIG
  ang : AngularBlock
  dlw : DLW
  bdd : Option BDD
  dned : Option DLWH
  gpd : Option GPD
  mtrp : Option MTR
  sigp : Option SIGP
  andp : Option AngularBlock
  dlwp : Option DLWH
  yp : Option YP
  unr : Option UNR
  ptype : Option PTYPE
  hpd : Option (List HPD)
  mtrh : Option (List MTR)
  sigh : Option (List SIGH)
  andh : Option (List AngularBlock)
  dlwh : Option (List DLWH)
  yh : Option (List YP)

/-- `generateTYR`, ContinuousEnergyTable/src/generateData.hpp:1-13; too few multiplicities are
undefined. -/
def generateTYR (dlw : DLW) (ntr : Nat) : Res TYR :=
  if dlw.tyr.multiplicities.length < dlw.nr then .error .ub
  else TYR.mk' (dlw.frames ++ List.replicate (ntr - dlw.nr) .laboratory)
    (dlw.tyr.multiplicities.take dlw.nr ++ List.replicate (ntr - dlw.nr) 0)

/-- `optional.value()`: an exception when it is empty. -/
def valueOf {α : Type} : Option α → Res α
  | some a => .ok a
  | none => .error .thrown

/-- The TYRH block of a DLWH block, ContinuousEnergyTable/src/generateData.hpp:24-30. -/
def tyrhOf (dlwh : DLWH) : Res TYR := do TYR.ofFrames (← dlwh.frames.mapM valueOf)

/-- `generateTYRH`, ContinuousEnergyTable/src/generateData.hpp:15-34. -/
def generateTYRH : Option (List DLWH) → Res (Option (List TYR))
  | none => .ok none
  | some l => do return some (← l.mapM tyrhOf)

/-- `lnu`, ContinuousEnergyTable/src/generateData.hpp:144-145. -/
def lnuOf : NuData → Nat
  | .poly _ => 1
  | .tab _ => 2

/-- All optional blocks of a group are there or none is. -/
def allOrNone (l : List Bool) : Bool := !(l.any id) || l.all id

/-- The checks on the principal and photon blocks,
ContinuousEnergyTable/src/generateData.hpp:91-135 (`*andp` and `*dlwp` are only used when they are
there, because of the check before). -/
def checkPrincipal (b : Input) (tyr : TYR) : Res Unit := do
  let ntr := b.mtr.n
  let ntrp := match b.mtrp with | some m => m.n | none => 0
  guardThrow (!(ntr != b.lqr.n || ntr != tyr.ntr || ntr != b.sig.n))
  guardThrow (!(b.ang.nr != b.dlw.nr))
  guardThrow (!((← MTR.hasMT b.mtr 18) && !b.nu.isSome))
  guardThrow (allOrNone [b.gpd.isSome, b.mtrp.isSome, b.sigp.isSome, b.andp.isSome, b.dlwp.isSome,
    b.yp.isSome])
  match b.andp, b.dlwp with
  | some andp, some dlwp => guardThrow (!(ntrp != andp.nr || ntrp != dlwp.block.n))
  | _, _ => return ()

/-- The checks on the delayed neutron blocks, ContinuousEnergyTable/src/generateData.hpp:136-172. -/
def checkDelayed (b : Input) : Res Unit := do
  match b.dnu with
  | some dnu => do
      guardThrow (!dnu.hasBoth)
      guardThrow (lnuOf dnu.multiplicity == 2)
  | none => pure ()
  guardThrow (allOrNone [b.dnu.isSome, b.bdd.isSome, b.dned.isSome])
  match b.bdd, b.dned with
  | some bdd, some dned => guardThrow (!(bdd.npcr != dned.block.n))
  | _, _ => return ()

/-- The size of an optional vector. -/
def sizeOf {α : Type} : Option (List α) → Nat
  | some l => l.length
  | none => 0

/-- The checks on the secondary particle blocks,
ContinuousEnergyTable/src/generateData.hpp:173-206. -/
def checkSecondary (b : Input) (tyrh : Option (List TYR)) : Res Unit := do
  guardThrow (allOrNone [b.ptype.isSome, b.hpd.isSome, b.mtrh.isSome, tyrh.isSome, b.sigh.isSome,
    b.andh.isSome, b.dlwh.isSome, b.yh.isSome])
  match b.ptype with
  | some ptype =>
      let ntype := ptype.n
      guardThrow (!(ntype != sizeOf b.hpd || ntype != sizeOf b.mtrh || ntype != sizeOf tyrh ||
        ntype != sizeOf b.sigh || ntype != sizeOf b.andh || ntype != sizeOf b.dlwh ||
        ntype != sizeOf b.yh))
  | none => return ()

/-- The words of an optional block. -/
def optWords {α : Type} (words : α → Words) : Option α → Words
  | some b => words b
  | none => []
/-- A locator that is only set when the block is there. -/
def locIf (present : Bool) (n : Nat) : Int := if present then (n : Int) else 0

/-- The blocks of one secondary particle side by side. -/
structure ParticleInput where
  hpd : HPD
  mtrh : MTR
  tyrh : TYR
  sigh : SIGH
  andh : AngularBlock
  dlwh : DLWH
  yh : YP

/-- The blocks with the same index in the seven vectors (of equal size). -/
def zipParticles : List HPD → List MTR → List TYR → List SIGH → List AngularBlock → List DLWH →
    List YP → List ParticleInput
  | h :: hs, m :: ms, t :: ts, s :: ss, a :: as, d :: ds, y :: ys =>
      ⟨h, m, t, s, a, d, y⟩ :: zipParticles hs ms ts ss as ds ys
  | _, _, _, _, _, _, _ => []

/-- The locators of the blocks of a secondary particle that starts after `n` words,
ContinuousEnergyTable/src/generateData.hpp:290-308. Simplification: not truncated to `unsigned
int`. -/
def particleLocators (n : Nat) (p : ParticleInput) : List Nat :=
  let n1 := n + p.hpd.xss.length
  let n2 := n1 + p.mtrh.xss.length
  let n3 := n2 + p.tyrh.xss.length
  let n4 := n3 + p.sigh.xss.length
  let n5 := n4 + p.andh.xss.length
  let n6 := n5 + p.dlwh.block.xss.length
  [n + 1, n1 + 1, n2 + 1, n3 + 1, n3 + p.mtrh.n + 1, n4 + 1, n4 + p.mtrh.n + 1, n5 + 1,
    n5 + p.mtrh.n + 1, n6 + 1]

/-- The words of the blocks of a secondary particle. -/
def particleWords (p : ParticleInput) : Words :=
  p.hpd.xss ++ p.mtrh.xss ++ p.tyrh.xss ++ p.sigh.xss ++ p.andh.xss ++ p.dlwh.block.xss ++ p.yh.xss

/-- The loop over the secondary particles, ContinuousEnergyTable/src/generateData.hpp:288-309:
`size` words of locators are still to be inserted. -/
def particleLoop (size : Nat) : List ParticleInput → Words → List (List Nat) →
    Words × List (List Nat)
  | [], xss, ixs => (xss, ixs)
  | p :: ps, xss, ixs =>
      particleLoop size ps (xss ++ particleWords p) (ixs ++ [particleLocators (xss.length + size) p])

/-- The secondary particle part, ContinuousEnergyTable/src/generateData.hpp:269-313: the words and
JXS(30) to JXS(32). -/
def addSecondaries (xss : Words) (ptype : PTYPE) (ps : List ParticleInput) :
    Words × Int × Int × Int :=
  let ntro := NTRO.mk' (ps.map (fun p => p.mtrh.n))
  let x1 := xss ++ ptype.xss
  let x2 := x1 ++ ntro.xss
  let r := particleLoop (ptype.n * 10) ps x2 []
  let locators := IXS.mk' r.2
  (r.1.take x2.length ++ locators.xss ++ r.1.drop x2.length,
    (xss.length + 1 : Nat), (x1.length + 1 : Nat), (x2.length + 1 : Nat))

/-- JXS(21), ContinuousEnergyTable/src/generateData.hpp:264-267. -/
def fissionLocator (b : Input) (jxs7 : Int) : Res Int := do
  if ← MTR.hasMT b.mtr 18 then return jxs7 + (← b.sig.LLOC (← MTR.index b.mtr 18)) - 1
  else return 0

/-- The XSS array and the locators, ContinuousEnergyTable/src/generateData.hpp:208-313. -/
def assemble (b : Input) (tyr : TYR) (ps : List ParticleInput) : Res (Words × List Int) := do
  let ntr := b.mtr.n
  let nr := b.ang.nr
  let ntrp := match b.mtrp with | some m => m.n | none => 0
  let npcr := match b.bdd with | some m => m.npcr | none => 0
  let x1 := b.esz.xss
  let x2 := x1 ++ optWords (·.xss) b.nu
  let x3 := x2 ++ b.mtr.xss
  let x4 := x3 ++ b.lqr.xss
  let x5 := x4 ++ tyr.xss
  let x6 := x5 ++ b.sig.xss
  let x8 := x6 ++ b.ang.xss
  let x10 := x8 ++ b.dlw.xss
  let x23 := x10 ++ optWords (·.xss) b.unr
  let dl := b.dnu.isSome
  let x24 := if dl then x23 ++ optWords (·.xss) b.dnu else x23
  let x25 := if dl then x24 ++ optWords (·.xss) b.bdd else x24
  let x26 := if dl then x25 ++ optWords (·.block.xss) b.dned else x25
  let ph := b.gpd.isSome
  let x12 := if ph then x26 ++ optWords (·.xss) b.gpd else x26
  let x13 := if ph then x12 ++ optWords (·.xss) b.mtrp else x12
  let x14 := if ph then x13 ++ optWords (·.xss) b.sigp else x13
  let x16 := if ph then x14 ++ optWords (·.xss) b.andp else x14
  let x18 := if ph then x16 ++ optWords (·.block.xss) b.dlwp else x16
  let x20 := if ph then x18 ++ optWords (·.xss) b.yp else x18
  let jxs7 : Int := (x5.length + ntr + 1 : Nat)
  let jxs21 ← fissionLocator b jxs7
  let sp := match b.ptype with
    | some ptype => addSecondaries x20 ptype ps
    | none => (x20, 0, 0, 0)
  return (sp.1,
    [1, locIf b.nu.isSome (x1.length + 1), (x2.length + 1 : Nat), (x3.length + 1 : Nat),
      (x4.length + 1 : Nat), (x5.length + 1 : Nat), jxs7, (x6.length + 1 : Nat),
      (x6.length + (nr + 1) + 1 : Nat), (x8.length + 1 : Nat), (x8.length + nr + 1 : Nat),
      locIf ph (x26.length + 1), locIf ph (x12.length + 1), locIf ph (x13.length + 1),
      locIf ph (x13.length + ntrp + 1), locIf ph (x14.length + 1),
      locIf ph (x14.length + ntrp + 1), locIf ph (x16.length + 1),
      locIf ph (x16.length + ntrp + 1), locIf ph (x18.length + 1), jxs21, (x20.length : Nat),
      locIf b.unr.isSome (x10.length + 1), locIf dl (x23.length + 1), locIf dl (x24.length + 1),
      locIf dl (x25.length + 1), locIf dl (x25.length + npcr + 1), 0, 0,
      sp.2.1, sp.2.2.1, sp.2.2.2])

/-- `generateData`, ContinuousEnergyTable/src/generateData.hpp:36-342. `z * 1000 + a` is computed in
`unsigned int`. -/
def generateData (z a s : Nat) (b : Input) : Res TableData := do
  let tyr ← generateTYR b.dlw b.mtr.n
  let tyrh ← generateTYRH b.dlwh
  checkPrincipal b tyr
  checkDelayed b
  checkSecondary b tyrh
  let ps := zipParticles (b.hpd.getD []) (b.mtrh.getD []) (tyrh.getD []) (b.sigh.getD [])
    (b.andh.getD []) (b.dlwh.getD []) (b.yh.getD [])
  let (xss, jxs) ← assemble b tyr ps
  let energies ← b.esz.energies
  return { iz := List.replicate 16 0, aw := List.replicate 16 (Dbl.ofNat 0)
           nxs := [(xss.length : Int), ((z * 1000 + a) % 4294967296 : Nat), energies.length, b.mtr.n, b.ang.nr,
             (match b.mtrp with | some m => (m.n : Int) | none => 0),
             (match b.ptype with | some m => (m.n : Int) | none => 0),
             (match b.bdd with | some m => (m.npcr : Int) | none => 0), s, z, a, 0, 0, 0, 0, 0]
           jxs := jxs, xss := xss }

/-- Construction from blocks, ContinuousEnergyTable/src/ctor.hpp:117-154. -/
def mk' (zaid : List Char) (z a s : Nat) (b : Input) : Res CE := do
  ofTable zaid (← generateData z a s b)

end CE
end ACE

import Verif.Lemmas.Photonuclear
import Verif.Lemmas.ContinuousMade
import Verif.Props.C35
import Verif.Props.C28Cases
import Verif.Props.C29

/-!
# C33: a photonuclear table returns the blocks it was made from

The secondary particle blocks are vectors, one entry for each particle type. The constructor does not
compare their sizes, and the end of a DLWH block is searched for in words that include the type and the
number of reactions of the next particle; see the end of this file.
-/

namespace ACE.Props
open ACE

/-- The type and blocks of one secondary particle. -/
structure PNSecondary where
  type : Nat
  pxs : CrossSectionData
  phn : CrossSectionData
  mtrh : MTR
  sigh : SIGH
  andh : AngularBlock
  dlwh : DLWH

/-- The contents of a table. -/
structure PNBlocks where
  eszu : ESZU
  mtr : MTR
  lqr : LQR
  sig : SIG
  secondaries : Option (List PNSecondary)

namespace PNBlocks

/-- The arguments of the constructor. -/
def input (B : PNBlocks) : PN.Input where
  eszu := B.eszu
  mtr := B.mtr
  lqr := B.lqr
  sig := B.sig
  ptype := B.secondaries.map (·.map (·.type))
  pxs := B.secondaries.map (·.map (·.pxs))
  phn := B.secondaries.map (·.map (·.phn))
  mtrh := B.secondaries.map (·.map (·.mtrh))
  sigh := B.secondaries.map (·.map (·.sigh))
  andh := B.secondaries.map (·.map (·.andh))
  dlwh := B.secondaries.map (·.map (·.dlwh))

/-- The secondary particles. -/
def particles (B : PNBlocks) : List PNSecondary := B.secondaries.getD []

/-- The number of words of the principal blocks. -/
def front (B : PNBlocks) : Nat :=
  B.eszu.xss.length + B.mtr.xss.length + B.lqr.xss.length + B.sig.xss.length

/-- The number of words of the blocks of a particle: TYRH has one word for each frame. -/
def _root_.ACE.Props.PNSecondary.size (p : PNSecondary) : Nat :=
  p.pxs.xss.length + p.phn.xss.length + p.mtrh.xss.length + p.dlwh.frames.length + p.sigh.xss.length +
    p.andh.xss.length + p.dlwh.block.xss.length

/-- The number of words of the table. -/
def size (B : PNBlocks) : Nat :=
  B.front + 12 * B.particles.length + (B.particles.map (·.size)).sum

/-- Sound blocks of a secondary particle: the reading constructors return them from their own words, and
the numbers of reactions match. -/
structure _root_.ACE.Props.PNSecondary.Sound (p : PNSecondary) : Prop where
  pxs : CrossSectionData.ofRange p.pxs.xss = .ok p.pxs
  phn : CrossSectionData.ofRange p.phn.xss = .ok p.phn
  mtrh : MTR.ofRange p.mtrh.xss p.mtrh.n = .ok p.mtrh
  sigh : SIGH.ofRange p.sigh.xss p.mtrh.n p.mtrh.n = .ok p.sigh
  andh : AngularBlock.ofRange p.andh.xss p.mtrh.n p.mtrh.n false = .ok p.andh
  dlwh : SoundDLWH p.dlwh
  ndlwh : p.dlwh.block.n = p.mtrh.n
  frames : ∃ fs : List Frame, p.dlwh.frames = fs.map some ∧ fs.length = p.mtrh.n

/-- Sound blocks with matching numbers of reactions. -/
structure Sound (B : PNBlocks) : Prop where
  eszu : ESZU.ofRange B.eszu.xss B.eszu.n B.eszu.m = .ok B.eszu
  /-- the words hold the arrays: the reading constructor only compares with the product reduced
  to 32 bits -/
  eszu_holds : B.eszu.n * B.eszu.m ≤ B.eszu.xss.length
  /-- three arrays, or four arrays with at least one energy -/
  arrays : B.eszu.m = 3 ∨ B.eszu.m = 4 ∧ 1 ≤ B.eszu.n
  mtr : MTR.ofRange B.mtr.xss B.mtr.n = .ok B.mtr
  lqr : LQR.ofRange B.lqr.xss B.mtr.n = .ok B.lqr
  sig : SIG.ofRange B.sig.xss B.mtr.n B.mtr.n = .ok B.sig
  secondaries : ∀ p ∈ B.particles, p.Sound

/-- The particle types and numbers of reactions do not look like locators. -/
def Small (B : PNBlocks) : Prop :=
  ∀ p ∈ B.particles, p.type ≤ B.front + 12 * B.particles.length ∧
    p.mtrh.n ≤ B.front + 12 * B.particles.length

end PNBlocks

/-- A secondary particle is returned: TYRH holds the frames with multiplicity one. -/
structure PNReturnedParticle (p : PNSecondary) (t : PN) (i : Nat) : Prop where
  pxs : t.PXS i = .ok p.pxs
  phn : t.PHN i = .ok p.phn
  mtrh : t.MTRH i = .ok p.mtrh
  tyrh : ∃ (q : TYR) (fs : List Frame), t.TYRH i = .ok q ∧ p.dlwh.frames = fs.map some ∧ TyrGives (fs.map fun f => (f, 1)) q
  sigh : t.SIGH i = .ok p.sigh
  andh : t.ANDH i = .ok p.andh
  dlwh : ∃ q, t.DLWH i = .ok q ∧ q.block = p.dlwh.block ∧ q.frames = p.dlwh.frames

/-- The blocks and parameters of the table are those given. -/
structure PNReturned (B : PNBlocks) (t : PN) : Prop where
  eszu : t.eszu = B.eszu
  mtr : t.mtr = B.mtr
  lqr : t.lqr = B.lqr
  sig : t.sig = B.sig
  length : t.length = .ok t.data.xss.length
  nes : t.NES = .ok B.eszu.n
  ntr : t.NTR = .ok B.mtr.n
  ntype : t.NTYPE = .ok B.particles.length
  none : B.particles = [] → t.ixsu = none
  ixsu : B.particles ≠ [] → ∃ x, t.ixsu = some x ∧ x.ntype = B.particles.length ∧
    ∀ i (h : i < B.particles.length), x.NP (i + 1) = .ok B.particles[i].mtrh.n ∧
      x.IP (i + 1) = .ok B.particles[i].type
  particles : ∀ i (h : i < B.particles.length), PNReturnedParticle B.particles[i] t (i + 1)

namespace C33
open PN PNBlocks

/-- The frames of a particle. -/
def framesOf (p : PNSecondary) : List Frame := p.dlwh.frames.filterMap id
/-- The particle with its TYRH block. -/
def pin (p : PNSecondary) : PN.Particle :=
  ⟨p.pxs, p.phn, p.mtrh, CE.frameTyr (framesOf p), p.sigh, p.andh, p.dlwh⟩
/-- With its type. -/
def typed (p : PNSecondary) : Nat × PN.Particle := (p.type, pin p)

theorem pin_read {p : PNSecondary} (h : p.Sound) : ParticleRead (pin p) (framesOf p) := by
  obtain ⟨fs, hfs, hfl⟩ := h.frames
  have hft : framesOf p = fs := by simp [framesOf, hfs, Function.comp_def]
  rw [hft]
  exact { pxs := h.pxs, phn := h.phn, mtrh := h.mtrh, tyrh := by rw [← hft]; rfl
          sigh := h.sigh, andh := h.andh, dlwh := h.dlwh, ndlwh := h.ndlwh, frames := hfs, nframes := hfl }

theorem tyrhOf_eq {p : PNSecondary} (h : p.Sound) : CE.tyrhOf p.dlwh = .ok (CE.frameTyr (framesOf p)) := by
  have h' : SoundSecondary ⟨⟨[Dbl.ofNat 0, Dbl.ofNat 0]⟩, p.mtrh, p.sigh, p.andh, p.dlwh, YP.mk' []⟩ :=
    { hpd := (by decide +kernel : HPD.ofRange [Dbl.ofNat 0, Dbl.ofNat 0] = .ok ⟨[Dbl.ofNat 0, Dbl.ofNat 0]⟩), mtrh := h.mtrh, sigh := h.sigh, andh := h.andh, dlwh := h.dlwh
      ndlwh := h.ndlwh, frames := h.frames, yh := (by decide +kernel : YP.ofRange (YP.mk' []).xss = .ok (YP.mk' [])) }
  exact CE.tyrhOf_eq h'

theorem generateTYRH_eq {B : PNBlocks} (h : B.Sound) : CE.generateTYRH B.input.dlwh =
    .ok (B.secondaries.map fun s => s.map fun p => CE.frameTyr (framesOf p)) := by
  have hs := h.secondaries
  unfold PNBlocks.particles at hs
  cases hp : B.secondaries with
  | none => simp [input, hp, CE.generateTYRH]
  | some ps =>
    rw [hp] at hs
    simp only [Option.getD_some] at hs
    have e : (ps.map (·.dlwh)).mapM CE.tyrhOf = .ok (ps.map fun p => CE.frameTyr (framesOf p)) := by
      clear hp
      induction ps with
      | nil => rfl
      | cons p ps ih =>
        rw [List.map_cons, List.mapM_cons, tyrhOf_eq (hs p (by simp)), ih (fun q hq => hs q (by simp [hq]))]
        rfl
    simp only [input, hp, CE.generateTYRH, Option.map_some, e]; rfl

theorem item_eq {α : Type} (l : List α) {i : Nat} (h : i < l.length) : item (some l) i = .ok l[i] := by
  unfold item CE.valueOf
  simp only [ok_bind, List.getElem?_eq_getElem h, pure_eq_ok]

/-- The words of the table. -/
def frontWords (B : PNBlocks) : Words := B.eszu.xss ++ B.mtr.xss ++ B.lqr.xss ++ B.sig.xss
/-- The words before the PNBlocks.particles, with the locators. -/
def start (B : PNBlocks) : Nat := (frontWords B).length + 12 * B.particles.length
/-- The locator block. -/
def ixsWords (B : PNBlocks) : Words := (flat (start B) (B.particles.map typed)).map Dbl.ofNat
/-- The locators of the secondary part. -/
def secondaryLocators (B : PNBlocks) : List Int :=
  match B.secondaries with
  | none => [0, 0]
  | some ps => [(((frontWords B).length + 1 : Nat) : Int), (((frontWords B).length + 12 * ps.length + 1 : Nat) : Int)]

theorem addSecondaries_eq (B : PNBlocks) :
    addSecondaries B.input (B.secondaries.map fun s => s.map fun p => CE.frameTyr (framesOf p))
      (frontWords B) B.input.ptype =
      .ok (frontWords B ++ ixsWords B ++ bodies (B.particles.map pin), secondaryLocators B) := by
  cases hp : B.secondaries with
  | none => simp [input, hp, addSecondaries, ixsWords, PNBlocks.particles, secondaryLocators, bodies, flat]
  | some ps =>
    have e : (List.range ps.length).mapM (particleOf B.input (some (ps.map fun p => CE.frameTyr (framesOf p)))) =
        .ok (ps.map pin) := by
      refine mapM_range_eq _ _ _ (by simp) ?_
      intro i hi
      rw [List.length_map] at hi
      unfold particleOf
      simp only [input, hp, Option.map_some]
      rw [item_eq _ (by simpa using hi), item_eq _ (by simpa using hi), item_eq _ (by simpa using hi),
        item_eq _ (by simpa using hi), item_eq _ (by simpa using hi), item_eq _ (by simpa using hi),
        item_eq _ (by simpa using hi)]
      simp [pin, pure_eq_ok, ok_bind]
    have hm : IXSU.mk' (ps.map (·.type)) (ps.map (·.mtrh.n))
        (locs ((frontWords B).length + ps.length * 12) (ps.map pin)) =
        .ok ⟨ixsWords B, ps.length⟩ := by
      unfold IXSU.mk'
      rw [guardThrow_eq_ok.mpr (by simp [locs_length]), ok_bind, pure_eq_ok, locs_length, List.length_map]
      have := rows_eq ((frontWords B).length + ps.length * 12) (ps.map typed)
      simp only [List.map_map] at this
      have hw : ixsWords B = (flat ((frontWords B).length + ps.length * 12) (ps.map typed)).map Dbl.ofNat := by
        simp only [ixsWords, start, PNBlocks.particles, hp, Option.getD_some, Nat.mul_comm]
      rw [hw, ← this]
      rfl
    simp only [input, hp, Option.map_some, addSecondaries, CE.valueOf, ok_bind, List.length_map]
    simp only [input, hp, Option.map_some] at e
    rw [e, ok_bind, particleLoop_eq]
    simp only [List.nil_append, List.map_map, Function.comp_def]
    rw [hm, ok_bind, List.take_left, List.drop_left]
    simp only [secondaryLocators, hp, PNBlocks.particles, Option.getD_some, Nat.mul_comm, pure_eq_ok]

/-- The data. -/
def dataOf (z a s : Nat) (B : PNBlocks) : TableData where
  iz := List.replicate 16 0
  aw := List.replicate 16 (Dbl.ofNat 0)
  nxs := [((frontWords B ++ ixsWords B ++ bodies (B.particles.map pin)).length : Nat), ((z * 1000 + a) % 4294967296 : Nat),
    (B.eszu.n : Nat), (B.mtr.n : Nat), (B.particles.length : Nat), 2, 12, 0, (s : Nat), (z : Nat), (a : Nat),
    0, 0, 0, 0, 1]
  jxs := principalLocators B.eszu.n (B.eszu.m == 4) ++
    [PA.after B.eszu.xss, PA.after (B.eszu.xss ++ B.mtr.xss), PA.after (B.eszu.xss ++ B.mtr.xss ++ B.lqr.xss),
      PA.afterPlus (B.eszu.xss ++ B.mtr.xss ++ B.lqr.xss) B.mtr.n] ++ secondaryLocators B ++
    List.replicate 21 0
  xss := frontWords B ++ ixsWords B ++ bodies (B.particles.map pin)

theorem eszu_size {B : PNBlocks} (h : B.Sound) : B.eszu.n * B.eszu.m ≤ B.eszu.xss.length :=
  h.eszu_holds

theorem elastic_eq {B : PNBlocks} (h : B.Sound) :
    ∃ w, B.eszu.elastic = .ok w ∧ (!w.isEmpty) = (B.eszu.m == 4) := by
  have hz := eszu_size h
  rcases h.arrays with hm | ⟨hm, hn⟩
  · refine ⟨[], ?_, by rw [hm]; rfl⟩
    unfold ESZU.elastic
    rw [if_pos hm]
    exact Base.XSSr_of_eq (a := []) (c := B.eszu.xss) (by simp) rfl rfl
  · refine ⟨(B.eszu.xss.drop (2 * B.eszu.n)).take B.eszu.n, ?_, ?_⟩
    · unfold ESZU.elastic ArrayData.darray ArrayData.verifyArray
      rw [if_neg (by omega), if_neg (by omega), ok_bind]
      rw [hm] at hz
      refine Base.XSSr_of_eq (a := B.eszu.xss.take (2 * B.eszu.n)) (c := (B.eszu.xss.drop (2 * B.eszu.n)).drop B.eszu.n)
        (by rw [List.append_assoc, List.take_append_drop, List.take_append_drop])
        (by rw [List.length_take]; omega) (by rw [List.length_take, List.length_drop]; omega)
    · rw [hm] at hz ⊢
      have : ((B.eszu.xss.drop (2 * B.eszu.n)).take B.eszu.n).length = B.eszu.n := by
        rw [List.length_take, List.length_drop]; omega
      cases hw : (B.eszu.xss.drop (2 * B.eszu.n)).take B.eszu.n with
      | nil => rw [hw] at this; simp at this; omega
      | cons _ _ => rfl

theorem array_n {xs : Words} {n m : Nat} {b : ArrayData} (h : ArrayData.ofRange xs n m = .ok b) :
    b.n = n := by
  unfold ArrayData.ofRange at h
  obtain ⟨_, _, h⟩ := bind_eq_ok.mp h
  injection h with h
  rw [← h]

theorem generateData_eq (z a s : Nat) {B : PNBlocks} (h : B.Sound) :
    generateData z a s B.input = .ok (dataOf z a s B) := by
  obtain ⟨w, hw, he⟩ := elastic_eq h
  have hl : B.lqr.n = B.mtr.n := array_n h.lqr
  have hsg : B.sig.n = B.mtr.n := CE.block_n h.sig
  have hnt : CE.sizeOf B.input.ptype = B.particles.length := by
    cases hp : B.secondaries <;> simp [input, PNBlocks.particles, CE.sizeOf, hp]
  have ha := addSecondaries_eq B
  unfold generateData
  rw [generateTYRH_eq h, ok_bind,
    guardThrow_eq_ok.mpr (show (!(B.input.mtr.n != B.input.lqr.n || B.input.mtr.n != B.input.sig.n)) = true by
      simp [input, hl, hsg]), ok_bind, show B.input.eszu = B.eszu from rfl, hw, ok_bind]
  simp only
  rw [show B.eszu.xss ++ B.input.mtr.xss ++ B.input.lqr.xss ++ B.input.sig.xss = frontWords B from rfl,
    ha, ok_bind, hnt, he]
  rfl

theorem principal_shape {B : PNBlocks} (h : B.Sound) : ∃ x3 x4 x5 : Int,
    principalLocators B.eszu.n (B.eszu.m == 4) =
      [((0 + 1 : Nat) : Int), ((B.eszu.n + 1 : Nat) : Int), x3, x4, x5] ∧ arraysOf x4 = B.eszu.m := by
  rcases h.arrays with hm | ⟨hm, hn⟩
  · refine ⟨_, _, _, by rw [hm]; rfl, by rw [hm]; rfl⟩
  · refine ⟨_, _, _, by rw [hm]; rfl, ?_⟩
    rw [hm]
    unfold arraysOf
    rw [if_pos (by omega)]

theorem body_size {B : PNBlocks} (h : B.Sound) :
    (bodies (B.particles.map pin)).length = (B.particles.map (·.size)).sum := by
  have hs := h.secondaries
  generalize B.particles = ps at hs
  induction ps with
  | nil => rfl
  | cons p ps ih =>
    have ih := ih fun q hq => hs q (by simp [hq])
    obtain ⟨fs, hfs, hfl⟩ := (hs p (by simp)).frames
    have hft : framesOf p = fs := by simp [framesOf, hfs, Function.comp_def]
    have hty : (CE.frameTyr (framesOf p)).xss.length = p.dlwh.frames.length := by
      rw [hft, hfs]; simp [CE.frameTyr]
    simp only [List.map_cons, bodies, List.flatten_cons, List.length_append, List.sum_cons] at ih ⊢
    rw [ih]
    simp only [particleWords, pin, List.length_append, hty, PNSecondary.size]

/-- The table that is read. -/
theorem generateBlocks_eq {B : PNBlocks} (h : B.Sound) (hsm : B.Small) (hf : FitsN (B.size + 1))
    (zaid : List Char) (z a s : Nat) (d : TableData) (hx : d.xss = (dataOf z a s B).xss)
    (hj : d.jxs = (dataOf z a s B).jxs)
    (hget : ∀ i, i ≠ 1 → i < 5 → d.nxs[i]? = (dataOf z a s B).nxs[i]?) :
    generateBlocks zaid d = .ok
      { zaid := zaid, data := d, eszu := B.eszu, mtr := B.mtr, lqr := B.lqr, sig := B.sig
        ixsu := if B.particles = [] then none else some ⟨ixsWords B, B.particles.length⟩
        particles := B.particles.map fun p => readOf (pin p) } := by
  have hez := eszu_size h
  have hsl : B.mtr.n ≤ B.sig.xss.length := CE.locBlock_length h.sig
  have hil : (ixsWords B).length = 12 * B.particles.length := by
    simp [ixsWords, flat_length]
  have hbl := body_size h
  obtain ⟨x3, x4, x5, hpl, h4⟩ := principal_shape h
  have hxw : d.xss = B.eszu.xss ++ B.mtr.xss ++ B.lqr.xss ++ B.sig.xss ++ ixsWords B ++
      bodies (B.particles.map pin) := hx
  have hlen : d.xss.length = B.size := by
    rw [hxw]; simp only [List.length_append, hil, hbl, PNBlocks.size, front]
  have hlen2 : d.xss.length = B.eszu.xss.length + B.mtr.xss.length + B.lqr.xss.length + B.sig.xss.length +
      12 * B.particles.length + (bodies (B.particles.map pin)).length := by
    rw [hxw]; simp only [List.length_append, hil]
  rw [← hlen] at hf
  have hnes : B.eszu.n ≤ B.eszu.xss.length := by
    rcases h.arrays with hm | ⟨hm, _⟩ <;> rw [hm] at hez <;> omega
  have hjx : d.jxs = [((0 + 1 : Nat) : Int), ((B.eszu.n + 1 : Nat) : Int), x3, x4, x5,
      PA.after B.eszu.xss, PA.after (B.eszu.xss ++ B.mtr.xss), PA.after (B.eszu.xss ++ B.mtr.xss ++ B.lqr.xss),
      PA.afterPlus (B.eszu.xss ++ B.mtr.xss ++ B.lqr.xss) B.mtr.n] ++
      (secondaryLocators B ++ List.replicate 21 0) := by
    rw [hj]; simp only [dataOf, hpl]; simp
  have hnext : PA.Next (secondaryLocators B ++ List.replicate 21 0) (frontWords B).length d.xss.length := by
    cases hp : B.secondaries with
    | none =>
      have e : d.xss.length = (frontWords B).length := by
        rw [hlen2]; simp [PNBlocks.particles, hp, frontWords, bodies]; omega
      rw [e]
      simp only [secondaryLocators, hp]
      exact PA.Next.zeros 23
    | some ps =>
      simp only [secondaryLocators, hp]
      exact .here
  have j4 : d.JXS 4 = .ok x4 := JXS_get d 3 _ (by rw [hjx]; rfl)
  have b1 : block d 1 = .ok (0, B.eszu.n) :=
    PA.block_next (i := 0) (by rw [hjx]; rfl) .here (by omega) (by omega) hf
  have b6 : block d 6 = .ok (B.eszu.xss.length, (B.eszu.xss ++ B.mtr.xss).length) :=
    PA.block_next (i := 5) (by rw [hjx]; rfl) .here (by simp) (by simp; omega) hf
  have b7 : block d 7 = .ok ((B.eszu.xss ++ B.mtr.xss).length, (B.eszu.xss ++ B.mtr.xss ++ B.lqr.xss).length) :=
    PA.block_next (i := 6) (by rw [hjx]; rfl) .here (by simp) (by simp; omega) hf
  have b8 : block d 8 = .ok ((B.eszu.xss ++ B.mtr.xss ++ B.lqr.xss).length,
      (B.eszu.xss ++ B.mtr.xss ++ B.lqr.xss).length + B.mtr.n) :=
    PA.block_next (i := 7) (by rw [hjx]; rfl) .plus (by simp) (by simp; omega) hf
  have b9 : block d 9 = .ok ((B.eszu.xss ++ B.mtr.xss ++ B.lqr.xss).length + B.mtr.n, (frontWords B).length) :=
    PA.block_next (i := 8) (by rw [hjx, ← PA.afterPlus_eq]; rfl) hnext (by simp [frontWords]; omega)
      (by simp [frontWords]; omega) hf
  have v1 : sub d.xss 0 B.eszu.xss.length = .ok B.eszu.xss :=
    sub_of_eq (a := []) (c := B.mtr.xss ++ B.lqr.xss ++ B.sig.xss ++ ixsWords B ++ bodies (B.particles.map pin))
      (by rw [hxw]; simp) rfl (by simp)
  have v6 : d.words (B.eszu.xss.length, (B.eszu.xss ++ B.mtr.xss).length) = .ok B.mtr.xss :=
    sub_of_eq (a := B.eszu.xss) (c := B.lqr.xss ++ B.sig.xss ++ ixsWords B ++ bodies (B.particles.map pin))
      (by rw [hxw]; simp) rfl (by simp)
  have v7 : d.words ((B.eszu.xss ++ B.mtr.xss).length, (B.eszu.xss ++ B.mtr.xss ++ B.lqr.xss).length) =
      .ok B.lqr.xss :=
    sub_of_eq (a := B.eszu.xss ++ B.mtr.xss) (c := B.sig.xss ++ ixsWords B ++ bodies (B.particles.map pin))
      (by rw [hxw]; simp) rfl (by simp; omega)
  have v8 : sub d.xss (B.eszu.xss ++ B.mtr.xss ++ B.lqr.xss).length (frontWords B).length = .ok B.sig.xss :=
    sub_of_eq (a := B.eszu.xss ++ B.mtr.xss ++ B.lqr.xss) (c := ixsWords B ++ bodies (B.particles.map pin))
      (by rw [hxw]; simp) rfl (by simp [frontWords]; omega)
  have hff := hf
  unfold FitsN at hff
  have c3 : d.count 3 = .ok B.eszu.n := TS.count_get (i := 2) (by rw [hget 2 (by omega) (by omega)]; rfl)
    (by unfold FitsN; omega)
  have c4 : d.count 4 = .ok B.mtr.n := TS.count_get (i := 3) (by rw [hget 3 (by omega) (by omega)]; rfl)
    (by unfold FitsN; omega)
  have c5 : d.count 5 = .ok B.particles.length := TS.count_get (i := 4) (by rw [hget 4 (by omega) (by omega)]; rfl)
    (by unfold FitsN; omega)
  have hsec : CE.onlyIf (decide (B.particles.length > 0)) (readSecondaries d B.particles.length) =
      .ok (if B.particles = [] then none else
        some (⟨ixsWords B, B.particles.length⟩, B.particles.map fun p => readOf (pin p))) := by
    by_cases hp : B.particles = []
    · rw [if_pos hp, hp]; rfl
    · rw [if_neg hp]
      refine CE.onlyIf_true (by have := List.length_pos_iff.mpr hp; simpa using this) ?_
      obtain ⟨ps, hps⟩ : ∃ ps, B.secondaries = some ps := by
        cases hs : B.secondaries with
        | none => exact absurd (by simp [PNBlocks.particles, hs]) hp
        | some ps => exact ⟨ps, rfl⟩
      have hpp : B.particles = ps := by simp [PNBlocks.particles, hps]
      have b10 : block d 10 = .ok ((frontWords B).length, (frontWords B).length + 12 * B.particles.length) :=
        PA.block_next (i := 9) (by rw [hjx]; simp only [secondaryLocators, hps]; rfl)
          (by rw [hpp]; exact .here) (by omega) (by simp [frontWords]; omega) hf
      have v10 : d.words ((frontWords B).length, (frontWords B).length + 12 * B.particles.length) =
          .ok (ixsWords B) :=
        sub_of_eq (a := frontWords B) (c := bodies (B.particles.map pin))
          (by rw [hxw]; simp [frontWords]) rfl (by rw [hil])
      have hread := readParticles_eq (d := d) (ixs := ⟨ixsWords B, B.particles.length⟩) (n := start B)
        (B.particles.map typed) (fun p => p.2.dlwh.frames.filterMap id) (a := frontWords B ++ ixsWords B)
        (by
          intro p hp
          obtain ⟨q, hq, rfl⟩ := List.mem_map.mp hp
          exact pin_read (h.secondaries q hq))
        (by
          intro p hp
          obtain ⟨q, hq, rfl⟩ := List.mem_map.mp hp
          have := hsm q hq
          unfold start
          simp only [frontWords, List.length_append]
          exact this)
        rfl (by rw [hxw, List.map_map]; rfl) (by simp [start, hil]) hf
      rw [List.length_map, List.map_map] at hread
      unfold readSecondaries
      rw [b10, ok_bind, v10, ok_bind]
      unfold IXSU.ofRange
      rw [guardThrow_eq_ok.mpr (by simp only [hil]; simp [Nat.mul_comm, Nat.mod_le]), ok_bind, pure_eq_ok, ok_bind, hread, ok_bind]
      rfl
  unfold generateBlocks
  simp only [j4, ok_bind, b1, b6, v1, c3, h4, h.eszu, c4, v6, h.mtr, b7, v7, h.lqr, b8, b9,
    CE.located_of v8, h.sig, c5, hsec, pure_eq_ok]
  by_cases hp : B.particles = [] <;> simp [hp]

end C33

/-- The identification of a photonuclear table succeeds: there is a nuclide or the ZAID starts with a
number. -/
def Identified (zaid : List Char) (z a s : Nat) : Prop :=
  (s ≠ 0 ∨ z ≠ 0 ∨ a ≠ 0) ∨ ∃ v, Ident.stoi (Ident.target zaid) = .ok v

theorem C33.sized (z a s : Nat) {B : PNBlocks} (hs : B.Sound) : (C33.dataOf z a s B).Sized := by
  refine ⟨by simp [C33.dataOf], by simp [C33.dataOf], by simp [C33.dataOf], ?_⟩
  obtain ⟨x3, x4, x5, hpl, _⟩ := C33.principal_shape hs
  have : (C33.secondaryLocators B).length = 2 := by
    unfold C33.secondaryLocators; split <;> rfl
  simp [C33.dataOf, hpl, this]

/-- The table that is read, in terms of its parts. -/
theorem C33.returned {B : PNBlocks} (hs : B.Sound) (hsm : B.Small) (hf : FitsN (B.size + 1))
    (zaid : List Char) (z a s : Nat) (d : TableData) (hx : d.xss = (C33.dataOf z a s B).xss)
    (hj : d.jxs = (C33.dataOf z a s B).jxs)
    (hget : ∀ i, i ≠ 1 → i < 5 → d.nxs[i]? = (C33.dataOf z a s B).nxs[i]?) :
    ∃ t, PN.generateBlocks zaid d = .ok t ∧ t.zaid = zaid ∧ t.data = d ∧ PNReturned B t := by
  have hx' : d.xss.length = B.size := by
    have hb := C33.body_size hs
    have : (C33.ixsWords B).length = 12 * B.particles.length := by simp [C33.ixsWords, PN.flat_length]
    rw [hx]
    simp only [C33.dataOf, C33.frontWords, List.length_append, hb, this, PNBlocks.size, PNBlocks.front]
  have hff := hf
  unfold FitsN at hff
  have hez := C33.eszu_size hs
  have hsl : B.mtr.n ≤ B.sig.xss.length := CE.locBlock_length hs.sig
  have hnes : B.eszu.n ≤ B.eszu.xss.length := by
    rcases hs.arrays with hm | ⟨hm, _⟩ <;> rw [hm] at hez <;> omega
  have hsize : B.eszu.n ≤ B.size ∧ B.mtr.n ≤ B.size ∧ B.particles.length ≤ B.size := by
    unfold PNBlocks.size PNBlocks.front; omega
  refine ⟨{ zaid := zaid, data := d, eszu := B.eszu, mtr := B.mtr, lqr := B.lqr, sig := B.sig
            ixsu := if B.particles = [] then none else some ⟨C33.ixsWords B, B.particles.length⟩
            particles := B.particles.map fun p => PN.readOf (C33.pin p) }, C33.generateBlocks_eq hs hsm hf zaid z a s d hx hj hget, rfl,
    rfl, ?_⟩
  have hpart : ∀ (i : Nat) (h : i < B.particles.length),
      PN.particle { zaid := zaid, data := d, eszu := B.eszu, mtr := B.mtr, lqr := B.lqr, sig := B.sig
                    ixsu := if B.particles = [] then none else some ⟨C33.ixsWords B, B.particles.length⟩
                    particles := B.particles.map fun p => PN.readOf (C33.pin p) } (i + 1) =
        .ok (PN.readOf (C33.pin B.particles[i])) := by
    intro i h
    unfold PN.particle
    rw [if_neg (by omega)]
    simp only [Nat.add_sub_cancel, List.getElem?_map, List.getElem?_eq_getElem h, Option.map_some]
  exact {
    eszu := rfl, mtr := rfl, lqr := rfl, sig := rfl
    length := TS.count_get (i := 0) (by rw [hget 0 (by omega) (by omega), hx]; rfl) (by unfold FitsN; simp only; omega)
    nes := TS.count_get (i := 2) (by rw [hget 2 (by omega) (by omega)]; rfl) (by unfold FitsN; omega)
    ntr := TS.count_get (i := 3) (by rw [hget 3 (by omega) (by omega)]; rfl) (by unfold FitsN; omega)
    ntype := TS.count_get (i := 4) (by rw [hget 4 (by omega) (by omega)]; rfl) (by unfold FitsN; omega)
    none := fun h => if_pos h
    ixsu := by
      intro hne
      refine ⟨_, if_neg hne, rfl, ?_⟩
      intro i hi
      have hsplit : B.particles = B.particles.take i ++ B.particles[i] :: B.particles.drop (i + 1) := by simp
      obtain ⟨pre, post, hpre, hflat⟩ : ∃ pre post, pre.length = 12 * i ∧
          PN.flat (C33.start B) (B.particles.map C33.typed) =
            pre ++ B.particles[i].type :: B.particles[i].mtrh.n :: post := by
        have key : ∃ post, PN.flat (C33.start B) (B.particles.map C33.typed) =
            PN.flat (C33.start B) ((B.particles.take i).map C33.typed) ++
              B.particles[i].type :: B.particles[i].mtrh.n :: post := by
          conv => rhs; intro post; lhs; rw [hsplit, List.map_append, PN.flat_append]
          exact ⟨_, rfl⟩
        obtain ⟨post, key⟩ := key
        refine ⟨_, post, ?_, key⟩
        rw [PN.flat_length, List.length_map, List.length_take]; congr 1; omega
      have hnp : B.particles[i].mtrh.n < 2 ^ 31 ∧ B.particles[i].type < 2 ^ 31 := by
        have := hsm _ (List.getElem_mem hi)
        have h2 : B.front + 12 * B.particles.length ≤ B.size := by unfold PNBlocks.size; omega
        omega
      constructor
      · unfold IXSU.NP
        rw [PN.LLOC_of (k := PN.flat (C33.start B) (B.particles.map C33.typed)) rfl
          (pre := pre ++ [B.particles[i].type]) (post := post) (s := B.particles[i].mtrh.n)
          (by rw [hflat]; simp) (by simp; omega) (by unfold FitsN; omega), ok_bind]
        unfold u32OfInt
        simp only [pure_eq_ok]
        congr 1
        omega
      · unfold IXSU.IP
        rw [PN.LLOC_of (k := PN.flat (C33.start B) (B.particles.map C33.typed)) rfl
          (pre := pre) (post := B.particles[i].mtrh.n :: post) (s := B.particles[i].type)
          hflat (by omega) (by unfold FitsN; omega), ok_bind]
        unfold u32OfInt
        simp only [pure_eq_ok]
        congr 1
        omega
    particles := by
      intro i hi
      have hp := hpart i hi
      obtain ⟨fs, hfs, hfl⟩ := (hs.secondaries _ (List.getElem_mem hi)).frames
      have hft : C33.framesOf B.particles[i] = fs := by simp [C33.framesOf, hfs, Function.comp_def]
      exact {
        pxs := by unfold PN.PXS; rw [hp]; rfl
        phn := by unfold PN.PHN; rw [hp]; rfl
        mtrh := by unfold PN.MTRH; rw [hp]; rfl
        tyrh := by
          refine ⟨CE.frameTyr fs, fs, ?_, hfs, ?_⟩
          · unfold PN.TYRH; rw [hp, ← hft]; rfl
          · rw [CE.frameTyr_eq]; exact tyr_gives _ _
        sigh := by unfold PN.SIGH; rw [hp]; rfl
        andh := by unfold PN.ANDH; rw [hp]; rfl
        dlwh := ⟨(PN.readOf (C33.pin B.particles[i])).dlwh, by unfold PN.DLWH; rw [hp]; rfl, rfl, rfl⟩ } }

/-- The blocks of a photonuclear table come back, with and without secondary particles, for all sizes. -/
theorem C33.table (zaid : List Char) (z a s : Nat) (B : PNBlocks) (hs : B.Sound) (hsm : B.Small)
    (hf : FitsN (B.size + 1)) (ht : TableType.photonuclear.verifyType zaid = .ok ())
    (hid : Identified zaid z a s) :
    ∃ t, PN.mk' zaid z a s B.input = .ok t ∧ t.zaid = zaid ∧ (C33.dataOf z a s B).setSZA zaid = .ok t.data ∧
      PNReturned B t := by
  have n9 : (C33.dataOf z a s B).NXS 9 = .ok (s : Int) := NXS_get _ 8 _ rfl
  have n10 : (C33.dataOf z a s B).NXS 10 = .ok (z : Int) := NXS_get _ 9 _ rfl
  have n11 : (C33.dataOf z a s B).NXS 11 = .ok (a : Int) := NXS_get _ 10 _ rfl
  have hsz := C33.sized z a s hs
  obtain ⟨d, hd⟩ := CE.setSZA_ok _ hsz zaid (by
      rcases hid with h | h
      · left
        rw [n9, n10, n11]
        simp
        omega
      · exact Or.inr h)
  obtain ⟨hx, hj, hn⟩ := CE.setSZA_same hd
  have hget : ∀ i, i ≠ 1 → i < 5 → d.nxs[i]? = (C33.dataOf z a s B).nxs[i]? := by
    intro i _ hi
    have := congrArg (·[i]?) hn
    simpa [List.getElem?_take_of_lt (show i < 8 from by omega)] using this
  obtain ⟨t, h1, h2, h4, h3⟩ := C33.returned hs hsm hf zaid z a s d hx hj hget
  refine ⟨t, ?_, h2, by rw [h4, hd], h3⟩
  unfold PN.mk' PN.ofTable
  rw [C33.generateData_eq z a s hs, ok_bind, ht, ok_bind, hd, ok_bind]
  exact h1

theorem C33_blocks_partial (zaid : List Char) (z a s : Nat) (B : PNBlocks) (hs : B.Sound) (hsm : B.Small)
    (hf : FitsN (B.size + 1)) (ht : TableType.photonuclear.verifyType zaid = .ok ())
    (hid : Identified zaid z a s) :
    ∃ t, PN.mk' zaid z a s B.input = .ok t ∧ t.zaid = zaid ∧ PNReturned B t := by
  obtain ⟨t, h1, h2, _, h3⟩ := C33.table zaid z a s B hs hsm hf ht hid
  exact ⟨t, h1, h2, h3⟩

/-- The target that was given is the target of the table. -/
theorem C33_target_partial (zaid : List Char) (z a s : Nat) (B : PNBlocks) (hs : B.Sound) (hsm : B.Small)
    (hf : FitsN (B.size + 1)) (ht : TableType.photonuclear.verifyType zaid = .ok ())
    (hz : z ≠ 0 ∨ a ≠ 0 ∨ s ≠ 0) (hfz : FitsN (z * 1000 + a)) (hfs : FitsN s) :
    ∃ t, PN.mk' zaid z a s B.input = .ok t ∧ t.ZA = .ok (z * 1000 + a) ∧ t.Z = .ok z ∧ t.A = .ok a ∧ t.S = .ok s := by
  obtain ⟨t, h1, _, h2, _⟩ := C33.table zaid z a s B hs hsm hf ht (.inl (by omega))
  have n9 : (C33.dataOf z a s B).NXS 9 = .ok (s : Int) := NXS_get _ 8 _ rfl
  have n10 : (C33.dataOf z a s B).NXS 10 = .ok (z : Int) := NXS_get _ 9 _ rfl
  have n11 : (C33.dataOf z a s B).NXS 11 = .ok (a : Int) := NXS_get _ 10 _ rfl
  rw [C36_stored _ (C33.sized z a s hs) zaid (by rw [n9, n10, n11]; simp; omega)] at h2
  injection h2 with h2
  refine ⟨t, h1, ?_, ?_, ?_, ?_⟩
  · show t.data.count 2 = _
    exact TS.count_get (i := 1) (by
      rw [← h2, show z * 1000 + a = (z * 1000 + a) % 4294967296 by omega]; rfl) hfz
  · show t.data.count 10 = _
    exact TS.count_get (i := 9) (by rw [← h2]; rfl) (by omega)
  · show t.data.count 11 = _
    exact TS.count_get (i := 10) (by rw [← h2]; rfl) (by omega)
  · show t.data.count 9 = _
    exact TS.count_get (i := 8) (by rw [← h2]; rfl) hfs

/-- Different numbers of reactions in the principal blocks are refused. -/
theorem C33_refused (zaid : List Char) (z a s : Nat) (b : PN.Input) (h : b.mtr.n ≠ b.lqr.n ∨ b.mtr.n ≠ b.sig.n)
    (hd : ∀ l, b.dlwh = some l → ∀ d ∈ l, ∃ fs : List Frame, d.frames = fs.map some ∧ ∃ t, TYR.ofFrames fs = .ok t) :
    PN.mk' zaid z a s b = .error .thrown := by
  have hg : ∃ t, CE.generateTYRH b.dlwh = .ok t := by
    cases hb : b.dlwh with
    | none => exact ⟨none, rfl⟩
    | some l =>
      have hd := hd l hb
      have : ∃ ts, l.mapM CE.tyrhOf = .ok ts := by
        clear hb
        induction l with
        | nil => exact ⟨[], rfl⟩
        | cons d l ih =>
          obtain ⟨fs, hfs, t, ht⟩ := hd d (by simp)
          obtain ⟨ts, hts⟩ := ih fun q hq => hd q (by simp [hq])
          refine ⟨t :: ts, ?_⟩
          have hv : (fs.map some).mapM CE.valueOf = .ok fs := by
            clear hfs ht
            induction fs with
            | nil => rfl
            | cons f fs ih => rw [List.map_cons, List.mapM_cons, ih]; rfl
          rw [List.mapM_cons, hts]
          unfold CE.tyrhOf
          rw [hfs, hv, ok_bind, ht]
          rfl
      obtain ⟨ts, hts⟩ := this
      exact ⟨some ts, by simp only [CE.generateTYRH, hts]; rfl⟩
  obtain ⟨t, ht⟩ := hg
  unfold PN.mk' PN.generateData
  rw [ht, ok_bind]
  have : guardThrow (!(b.mtr.n != b.lqr.n || b.mtr.n != b.sig.n)) = .error .thrown := by
    unfold guardThrow
    rw [if_neg (by simp; omega)]
  rw [this]
  rfl

/-! ## Blocks made by their constructors are sound -/

theorem C33_built_ESZU3 {e t h : Words} {b : ESZU} (hb : ESZU.mk3 e t h = .ok b) :
    b.m = 3 ∧ ESZU.ofRange b.xss b.n b.m = .ok b ∧ b.n * b.m ≤ b.xss.length := by
  have h1 := (ArrayData.ofArrays_holds hb).1.hm
  have h2 : b.m = 3 := h1
  have h3 := built_array_holds hb
  exact ⟨h2, by rw [h2]; exact built_array hb, by rw [h2, Nat.mul_comm]; exact h3⟩
theorem C33_built_ESZU4 {e t l h : Words} {b : ESZU} (hb : ESZU.mk4 e t l h = .ok b) :
    b.m = 4 ∧ ESZU.ofRange b.xss b.n b.m = .ok b ∧ b.n * b.m ≤ b.xss.length := by
  have h1 := (ArrayData.ofArrays_holds hb).1.hm
  have h2 : b.m = 4 := h1
  have h3 := built_array_holds hb
  exact ⟨h2, by rw [h2]; exact built_array hb, by rw [h2, Nat.mul_comm]; exact h3⟩
theorem C33_built_cross_sections (i : Nat) (v : Words) (hf : FitsN v.length) :
    CrossSectionData.ofRange (CrossSectionData.mk' i v).xss = .ok (CrossSectionData.mk' i v) := by
  unfold CrossSectionData.ofRange
  have : CrossSectionData.numberValues ⟨(CrossSectionData.mk' i v).xss⟩ = .ok v.length := by
    unfold CrossSectionData.numberValues
    have : Base.IXSS (CrossSectionData.mk' i v).xss 2 = .ok (v.length : Int) :=
      Base.IXSS_ofNat (a := [Dbl.ofNat i]) (c := v) (by simp [CrossSectionData.mk']) rfl hf
    rw [this, ok_bind, sizeOfInt_natCast hf]; rfl
  rw [this, ok_bind, guardThrow_not_lt_mod (by simp [CrossSectionData.mk']), ok_bind]
  rfl

/-! ## A table with two secondary particles -/

/-- A secondary particle of a type. -/
def exPN (t : Nat) : PNSecondary where
  type := t
  pxs := CrossSectionData.mk' 1 [num 7, num 8]
  phn := CrossSectionData.mk' 2 [num 9]
  mtrh := (exSecondary 1).mtrh
  sigh := (exSecondary 1).sigh
  andh := (exSecondary 1).andh
  dlwh := (exSecondary 1).dlwh

/-- Two energies with elastic cross sections. -/
def exEszu : ESZU := made (ESZU.mk4 [num 1, num 2] [num 5, num 6] [num 2, num 3] [num 0, num 1])
/-- Blocks with particles of these types. -/
def exPNBlocks (ts : List Nat) : PNBlocks where
  eszu := exEszu
  mtr := exMtr
  lqr := exLqr
  sig := exSig
  secondaries := some (ts.map exPN)

theorem exPN_sound (t : Nat) : (exPN t).Sound where
  pxs := C33_built_cross_sections 1 _ (by decide)
  phn := C33_built_cross_sections 2 _ (by decide)
  mtrh := (ex_secondary_far).mtrh
  sigh := (ex_secondary_far).sigh
  andh := (ex_secondary_far).andh
  dlwh := (ex_secondary_far).dlwh
  ndlwh := (ex_secondary_far).ndlwh
  frames := (ex_secondary_far).frames

theorem exEszu_read : ESZU.ofRange exEszu.xss exEszu.n exEszu.m = .ok exEszu := by decide +kernel
theorem exEszu_arrays : exEszu.m = 3 ∨ exEszu.m = 4 ∧ 1 ≤ exEszu.n := by decide +kernel
theorem exEszu_holds : exEszu.n * exEszu.m ≤ exEszu.xss.length := by decide +kernel
theorem exMtr_read : MTR.ofRange exMtr.xss exMtr.n = .ok exMtr := by decide +kernel
theorem exLqr_read : LQR.ofRange exLqr.xss exMtr.n = .ok exLqr := by decide +kernel
theorem exSig_read : SIG.ofRange exSig.xss exMtr.n exMtr.n = .ok exSig := by decide +kernel

theorem exPNBlocks_sound (ts : List Nat) : (exPNBlocks ts).Sound where
  eszu := by simp only [exPNBlocks]; exact exEszu_read
  eszu_holds := by simp only [exPNBlocks]; exact exEszu_holds
  arrays := by simp only [exPNBlocks]; exact exEszu_arrays
  mtr := by simp only [exPNBlocks]; exact exMtr_read
  lqr := by simp only [exPNBlocks]; exact exLqr_read
  sig := by simp only [exPNBlocks]; exact exSig_read
  secondaries := by
    intro p hp
    obtain ⟨t, _, rfl⟩ := List.mem_map.mp hp
    exact exPN_sound t

/-- Neutrons and protons. -/
example : ∃ t, PN.mk' "92235.70u".toList 92 235 0 (exPNBlocks [1, 9]).input = .ok t ∧
    t.zaid = "92235.70u".toList ∧ PNReturned (exPNBlocks [1, 9]) t :=
  C33_blocks_partial _ 92 235 0 _ (exPNBlocks_sound _)
    (by
      intro p hp
      have hl : 9 ≤ (exPNBlocks [1, 9]).front + 12 * (exPNBlocks [1, 9]).particles.length := by decide +kernel
      have hm : ∀ t, (exPN t).mtrh.n = 1 := fun _ => (by decide +kernel : (exSecondary 1).mtrh.n = 1)
      obtain ⟨t, ht, rfl⟩ := List.mem_map.mp hp
      simp at ht
      rw [hm]
      rcases ht with rfl | rfl <;> simp only [exPN] <;> omega)
    (by decide +kernel) (by decide +kernel) (.inl (by decide))

/-- A table without secondary particles. -/
example : ∃ t, PN.mk' "92235.70u".toList 0 0 0 { exPNBlocks [] with secondaries := none }.input = .ok t ∧
    t.ixsu = none ∧ t.NTYPE = .ok 0 := by
  obtain ⟨t, h, _, hr⟩ := C33_blocks_partial "92235.70u".toList 0 0 0 { exPNBlocks [] with secondaries := none }
    { eszu := by simp only [exPNBlocks]; exact exEszu_read
      eszu_holds := by simp only [exPNBlocks]; exact exEszu_holds
      arrays := by simp only [exPNBlocks]; exact exEszu_arrays
      mtr := by simp only [exPNBlocks]; exact exMtr_read
      lqr := by simp only [exPNBlocks]; exact exLqr_read
      sig := by simp only [exPNBlocks]; exact exSig_read
      secondaries := by intro p hp; cases hp }
    (by intro p hp; cases hp) (by decide +kernel) (by decide +kernel)
    (.inr ⟨92235, by decide +kernel⟩)
  exact ⟨t, h, hr.none rfl, hr.ntype⟩

/-! ## Where the table is not returned -/

/-- The full statement: every table of sound blocks that fits is returned. -/
def C33Statement : Prop :=
  ∀ (zaid : List Char) (z a s : Nat) (B : PNBlocks), B.Sound → FitsN (B.size + 1) →
    TableType.photonuclear.verifyType zaid = .ok () → (s ≠ 0 ∨ z ≠ 0 ∨ a ≠ 0) →
    ∃ t, PN.mk' zaid z a s B.input = .ok t ∧ PNReturned B t

/-- The table of a set of blocks. -/
def photonuclear (b : PN.Input) : Res PN := PN.mk' "92235.70u".toList 92 235 0 b

/-- The end of the DLWH block of the first particle is the first word behind its locator that is larger
than it: a type of 100 of the second particle is taken for that locator, and the block then has 34
words instead of 12. -/
theorem C33_type : ((exPNBlocks [1, 100]).particles.map fun p => p.dlwh.block.xss.length) = [12, 12] ∧
    (photonuclear (exPNBlocks [1, 100]).input).map (fun t : PN =>
      t.particles.map fun p : PN.Particle => p.dlwh.block.xss.length) = .ok [34, 12] := by decide +kernel

/-- With a type larger than the table it reads outside of the table. -/
theorem C33_outside : photonuclear (exPNBlocks [1, 5000]).input = .error .ub := by decide +kernel

theorem C33_false : ¬ C33Statement := by
  intro h
  obtain ⟨t, ht, _⟩ := h "92235.70u".toList 92 235 0 (exPNBlocks [1, 5000]) (exPNBlocks_sound _)
    (by decide +kernel) (by decide +kernel) (by decide)
  have e := C33_outside
  rw [show photonuclear (exPNBlocks [1, 5000]).input = .ok t from ht] at e
  cases e

/-- Too few PXS blocks: the constructor reads past the end of the vector. -/
theorem C33_short : photonuclear { (exPNBlocks [1, 9]).input with pxs := some [] } = .error .ub := by
  decide +kernel
/-- No PXS blocks: refused. -/
theorem C33_missing : photonuclear { (exPNBlocks [1, 9]).input with pxs := none } = .error .thrown := by
  decide +kernel
/-- Blocks without types are lost without an error. -/
theorem C33_dropped : (photonuclear { (exPNBlocks [1, 9]).input with ptype := none }).map (fun t : PN =>
    t.particles.length) = .ok 0 := by decide +kernel
/-- One type and one MTRH block with two of each of the other blocks: the second ones are lost. -/
theorem C33_dropped_second : (photonuclear { (exPNBlocks [1, 9]).input with
      ptype := some [1], mtrh := some [(exPN 1).mtrh] }).map (fun t : PN => t.particles.length) = .ok 1 := by
  decide +kernel
/-- Two reactions in a SIGH block. -/
def twoSigh : ACE.SIGH := made (SIGH.mk' (List.replicate 2
  (made (TabMult.mk' 12 5 [] [] [num 1, num 20] [num 1, num 1]))))
/-- Accepted beside an MTRH block with one reaction: the block of the table has one. -/
theorem C33_counts : twoSigh.n = 2 ∧
    (photonuclear { (exPNBlocks [1]).input with sigh := some [twoSigh] }).map (fun t : PN =>
      t.particles.map fun p : PN.Particle => p.sigh.n) = .ok [1] := by decide +kernel

/-- The hypotheses of the other theorems are met too. -/
example := C33_built_ESZU3 (e := [num 1]) (t := [num 2]) (h := [num 3]) rfl
example := C33_built_ESZU4 (e := [num 1]) (t := [num 2]) (l := [num 4]) (h := [num 3]) rfl
example := C33_built_cross_sections 3 [num 1, num 2] (by decide)

end ACE.Props

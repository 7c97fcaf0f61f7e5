import Verif.Lemmas.ContinuousBlocks
import Verif.Props.CESpec

/-! # The words and locators of a continuous energy table made from blocks -/

namespace ACE.CE
open ACE.Props

/-! ## Parts -/

section
variable (B : Blocks) (T : TYR)

def x1 : Words := B.esz.xss
def x2 : Words := x1 B ++ optWords (·.xss) B.nu
def x3 : Words := x2 B ++ B.mtr.xss
def x4 : Words := x3 B ++ B.lqr.xss
def x5 : Words := x4 B ++ T.xss
def x6 : Words := x5 B T ++ B.sig.xss
def x8 : Words := x6 B T ++ B.ang.xss
def x10 : Words := x8 B T ++ B.dlw.xss
def x23 : Words := x10 B T ++ optWords (·.xss) B.unr
def x24 : Words := x23 B T ++ optWords (·.dnu.xss) B.delayed
def x25 : Words := x24 B T ++ optWords (·.bdd.xss) B.delayed
def x26 : Words := x25 B T ++ optWords (·.dned.block.xss) B.delayed
def x12 : Words := x26 B T ++ optWords (·.gpd.xss) B.photons
def x13 : Words := x12 B T ++ optWords (·.mtrp.xss) B.photons
def x14 : Words := x13 B T ++ optWords (·.sigp.xss) B.photons
def x16 : Words := x14 B T ++ optWords (·.andp.xss) B.photons
def x18 : Words := x16 B T ++ optWords (·.dlwp.block.xss) B.photons
def x20 : Words := x18 B T ++ optWords (·.yp.xss) B.photons

/-- The frames of a secondary particle. -/
def framesOf (p : SecondaryBlocks) : List Frame := p.dlwh.frames.filterMap id
/-- The TYRH block made from frames. -/
def frameTyr (fs : List Frame) : TYR :=
  ⟨(fs.map fun f => (f, 1)).map (fun v => TYR.word v.1 v.2), fs.length, fs, fs.map fun _ => 1⟩
/-- A secondary particle with its TYRH block. -/
def pin (p : SecondaryBlocks) : ParticleInput :=
  ⟨p.hpd, p.mtrh, frameTyr (framesOf p), p.sigh, p.andh, p.dlwh, p.yh⟩

/-- The locators of particles in a row. -/
def locs : Nat → List ParticleInput → List (List Nat)
  | _, [] => []
  | n, p :: ps => particleLocators n p :: locs (n + (particleWords p).length) ps

/-- The words of the particles. -/
def bodies (ps : List ParticleInput) : Words := (ps.map particleWords).flatten

/-- Positions of the secondary particle part. -/
def n30 : Nat := (x20 B T).length + (match B.secondaries with | some s => s.1.xss.length | none => 0)
def n31 : Nat := n30 B T + (match B.secondaries with | some s => s.2.length | none => 0)

/-- The locator block. -/
def ixsOf (s : PTYPE × List SecondaryBlocks) : Words :=
  (IXS.mk' (locs (n31 B T + s.2.length * 10) (s.2.map pin))).xss

/-- The secondary particle part. -/
def spWords : Words :=
  match B.secondaries with
  | some s => s.1.xss ++ (NTRO.mk' (s.2.map (fun p => p.mtrh.n))).xss ++ ixsOf B T s ++
      bodies (s.2.map pin)
  | none => []

/-- The positions. -/
def marks (fis : Nat) : Marks where
  n1 := (x1 B).length
  n2 := (x2 B).length
  n3 := (x3 B).length
  n4 := (x4 B).length
  n5 := (x5 B T).length
  n6 := (x6 B T).length
  n8 := (x8 B T).length
  n10 := (x10 B T).length
  n23 := (x23 B T).length
  n24 := (x24 B T).length
  n25 := (x25 B T).length
  n26 := (x26 B T).length
  n12 := (x12 B T).length
  n13 := (x13 B T).length
  n14 := (x14 B T).length
  n16 := (x16 B T).length
  n18 := (x18 B T).length
  n20 := (x20 B T).length
  n30 := n30 B T
  n31 := n31 B T
  ntr := B.mtr.n
  nr := B.ang.nr
  ntrp := (match B.photons with | some p => p.mtrp.n | none => 0)
  npcr := (match B.delayed with | some p => p.bdd.npcr | none => 0)
  ntype := (match B.secondaries with | some s => s.2.length | none => 0)
  fis := fis
  nu := B.nu.isSome
  unr := B.unr.isSome
  dl := B.delayed.isSome
  ph := B.photons.isSome
  sp := B.secondaries.isSome

end

theorem particleLoop_eq (size : Nat) (ps : List ParticleInput) (xss : Words) (ixs : List (List Nat)) :
    particleLoop size ps xss ixs =
      (xss ++ bodies ps, ixs ++ locs (xss.length + size) ps) := by
  induction ps generalizing xss ixs with
  | nil => simp [particleLoop, bodies, locs]
  | cons p ps ih =>
    unfold particleLoop
    rw [ih]
    simp only [bodies, locs, List.map_cons, List.flatten_cons, List.append_assoc,
      List.length_append, List.singleton_append]
    rw [Nat.add_right_comm]

theorem addSecondaries_eq (xss : Words) (ptype : PTYPE) (ps : List ParticleInput) (h : ptype.n = ps.length) :
    addSecondaries xss ptype ps =
      (xss ++ ptype.xss ++ (NTRO.mk' (ps.map (fun p => p.mtrh.n))).xss ++
        (IXS.mk' (locs (xss.length + ptype.xss.length + ps.length + ps.length * 10) ps)).xss ++
        bodies ps,
       ((xss.length + 1 : Nat) : Int), ((xss.length + ptype.xss.length + 1 : Nat) : Int),
       ((xss.length + ptype.xss.length + ps.length + 1 : Nat) : Int)) := by
  unfold addSecondaries
  simp only [particleLoop_eq, List.nil_append, h]
  have hl : (xss ++ ptype.xss ++ (NTRO.mk' (ps.map (fun p => p.mtrh.n))).xss).length =
      xss.length + ptype.xss.length + ps.length := by
    simp [NTRO.mk']; omega
  rw [List.take_left, List.drop_left, hl, List.length_append]

theorem zipParticles_eq (ps : List SecondaryBlocks) :
    zipParticles (ps.map (·.hpd)) (ps.map (·.mtrh)) (ps.map (fun p => frameTyr (framesOf p)))
      (ps.map (·.sigh)) (ps.map (·.andh)) (ps.map (·.dlwh)) (ps.map (·.yh)) = ps.map pin := by
  induction ps with
  | nil => rfl
  | cons p ps ih => simp only [List.map_cons, zipParticles, ih]; rfl

theorem assemble_eq (B : Blocks) (T : TYR) (fis : Nat)
    (hfis : fissionLocator B.input ((x5 B T).length + B.mtr.n + 1 : Nat) = .ok (fis : Int))
    (hn : ∀ t ps, B.secondaries = some (t, ps) → t.n = ps.length) :
    assemble B.input T (match B.secondaries with | some s => s.2.map pin | none => []) =
      .ok (x20 B T ++ spWords B T, (marks B T fis).js.map (fun v : Nat => (v : Int))) := by
  obtain ⟨esz, nu, mtr, lqr, sig, ang, dlw, ph, unr, dl, sp⟩ := B
  unfold assemble
  have e : (((Blocks.mk esz nu mtr lqr sig ang dlw ph unr dl sp).input.esz.xss ++
      optWords (·.xss) (Blocks.mk esz nu mtr lqr sig ang dlw ph unr dl sp).input.nu ++
      (Blocks.mk esz nu mtr lqr sig ang dlw ph unr dl sp).input.mtr.xss ++
      (Blocks.mk esz nu mtr lqr sig ang dlw ph unr dl sp).input.lqr.xss ++ T.xss).length +
      (Blocks.mk esz nu mtr lqr sig ang dlw ph unr dl sp).input.mtr.n + 1 : Nat) =
      ((x5 (Blocks.mk esz nu mtr lqr sig ang dlw ph unr dl sp) T).length + mtr.n + 1 : Nat) := rfl
  simp only [e]
  rw [hfis]
  simp only [ok_bind]
  cases sp with
  | none =>
    cases dl <;> cases ph <;> cases nu <;> cases unr <;>
      simp [Blocks.input, optWords, locIf, marks, Marks.js, spWords, x1, x2, x3, x4, x5, x6, x8,
        x10, x23, x24, x25, x26, x12, x13, x14, x16, x18, x20, pure_eq_ok]
  | some s =>
    obtain ⟨t, ps⟩ := s
    have hn := hn t ps rfl
    cases dl <;> cases ph <;> cases nu <;> cases unr <;>
      simp [Blocks.input, optWords, locIf, marks, Marks.js, spWords, x1, x2, x3, x4, x5, x6, x8,
        x10, x23, x24, x25, x26, x12, x13, x14, x16, x18, x20, n30, n31, ixsOf, pure_eq_ok,
        addSecondaries_eq _ t (ps.map pin) (by simpa using hn), List.map_map, Function.comp_def, pin]

end ACE.CE

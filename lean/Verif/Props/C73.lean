import Verif.Lemmas.Local
import Verif.Props.C60Case
import Verif.Props.C60Photonuclear

/-!
# C73: a block of a table is made from its own words

Two tables of a class with the same NXS and JXS arrays and as many words: where the words of a block are the same in
both, the block is the same, whatever the other words are. So an edit of one block (`table.data().XSS( i ) = x`, and
the table made again, or written and read) leaves the others as they were. What a block is made from besides its own
words is named: DLW from TYR, the blocks of the particles from NTRO and IXS (IXSU), the second and third thermal
blocks from the energies of the first.
-/

set_option linter.unusedSimpArgs false

namespace ACE.Props
open ACE ACE.Local C60

/-- An edit of a word that is not one of a block's leaves the words of the block the same. -/
theorem C73_edit (d : TableData) (k : Nat) (x : Dbl) :
    d.SameFrame { d with xss := d.xss.set k x } ∧
    (∀ range, (∀ r, range = .ok r → k < r.1 ∨ r.2 ≤ k) → d.SameBlock { d with xss := d.xss.set k x } range) ∧
    (∀ a b, (∀ r s, a = .ok r → b = .ok s → k < r.1 ∨ s.2 ≤ k) → d.SamePair { d with xss := d.xss.set k x } a b) ∧
    (∀ a b, (∀ r s, a = .ok r → b = .ok s → k < r.1 ∨ s.1 ≤ k) → d.SameUpTo { d with xss := d.xss.set k x } a b) := by
  have key (r : Nat × Nat) (h : k < r.1 ∨ r.2 ≤ k) : d.SameWords { d with xss := d.xss.set k x } r := fun i h1 h2 =>
    List.getElem?_set_ne (by omega)
  exact ⟨⟨rfl, rfl, List.length_set⟩, fun _ h r e => key r (h r e), fun _ _ h r s e e' => key (r.1, s.2) (h r s e e'),
    fun _ _ h r s e e' => key (r.1, s.1) (h r s e e')⟩

/-- Continuous energy tables. -/
theorem C73_continuous {z z' : List Char} {d d' : TableData} {t t' : CE} (ht : CE.ofTable z d = .ok t)
    (ht' : CE.ofTable z' d' = .ok t') (hf : t.data.SameFrame t'.data) :
    (t.data.SameBlock t'.data (CE.block t.data 1) → t'.esz = t.esz) ∧
    (t.data.SameBlock t'.data (CE.block t.data 2) → t'.nu = t.nu) ∧
    (t.data.SameBlock t'.data (CE.block t.data 3) → t'.mtr = t.mtr) ∧
    (t.data.SameBlock t'.data (CE.block t.data 4) → t'.lqr = t.lqr) ∧
    (t.data.SameBlock t'.data (CE.block t.data 5) → t'.tyr = t.tyr) ∧
    (t.data.SamePair t'.data (CE.block t.data 6) (CE.block t.data 7) → t'.sig = t.sig) ∧
    (t.data.SamePair t'.data (CE.block t.data 8) (CE.block t.data 9) → t'.ang = t.ang) ∧
    (t'.tyr = t.tyr → t.data.SamePair t'.data (CE.block t.data 10) (CE.block t.data 11) → t'.dlw = t.dlw) ∧
    (t.data.SameBlock t'.data (CE.block t.data 12) → t'.gpd = t.gpd) ∧
    (t.data.SameBlock t'.data (CE.block t.data 13) → t'.mtrp = t.mtrp) ∧
    (t.data.SamePair t'.data (CE.block t.data 14) (CE.block t.data 15) → t'.sigp = t.sigp) ∧
    (t.data.SamePair t'.data (CE.block t.data 16) (CE.block t.data 17) → t'.andp = t.andp) ∧
    (t.data.SamePair t'.data (CE.block t.data 18) (CE.block t.data 19) → t'.dlwp = t.dlwp) ∧
    (t.data.SameBlock t'.data (CE.block t.data 20) → t'.yp = t.yp) ∧
    (t.data.SameBlock t'.data (CE.block t.data 23) → t'.unr = t.unr) ∧
    (t.data.SameBlock t'.data (CE.block t.data 24) → t'.dnu = t.dnu) ∧
    (t.data.SameBlock t'.data (CE.block t.data 25) → t'.bdd = t.bdd) ∧
    (t.data.SamePair t'.data (CE.block t.data 26) (CE.block t.data 27) → t'.dned = t.dned) ∧
    (t.data.SameBlock t'.data (CE.block t.data 30) → t'.ptype = t.ptype) ∧
    (t.data.SameBlock t'.data (CE.block t.data 31) → t'.ntro = t.ntro) ∧
    (t.data.SameBlock t'.data (CE.block t.data 32) → t'.ixs = t.ixs) := by
  unfold CE.ofTable at ht ht'
  obtain ⟨_, _, ht⟩ := bind_eq_ok.mp ht
  obtain ⟨v, _, ht⟩ := bind_eq_ok.mp ht
  obtain ⟨_, _, ht'⟩ := bind_eq_ok.mp ht'
  obtain ⟨v', _, ht'⟩ := bind_eq_ok.mp ht'
  obtain ⟨rfl, m⟩ := Local.made ht
  obtain ⟨rfl, m'⟩ := Local.made ht'
  exact ⟨(fun h => by
      have h2 := m'.esz
      simp only [block_eq hf, count_eq hf, JXS_eq hf] at h2
      simp only [one_eq hf h] at h2
      exact Except.ok.inj (h2.symm.trans m.esz)),
    (fun h => by
      have h2 := m'.nu
      simp only [block_eq hf, count_eq hf, JXS_eq hf] at h2
      simp only [one_eq hf h] at h2
      exact Except.ok.inj (h2.symm.trans m.nu)),
    (fun h => by
      have h2 := m'.mtr
      simp only [block_eq hf, count_eq hf, JXS_eq hf] at h2
      simp only [one_eq hf h] at h2
      exact Except.ok.inj (h2.symm.trans m.mtr)),
    (fun h => by
      have h2 := m'.lqr
      simp only [block_eq hf, count_eq hf, JXS_eq hf] at h2
      simp only [one_eq hf h] at h2
      exact Except.ok.inj (h2.symm.trans m.lqr)),
    (fun h => by
      have h2 := m'.tyr
      simp only [block_eq hf, count_eq hf, JXS_eq hf] at h2
      simp only [one_eq hf h] at h2
      exact Except.ok.inj (h2.symm.trans m.tyr)),
    (fun h => by
      have h2 := m'.sig
      simp only [block_eq hf, count_eq hf, JXS_eq hf] at h2
      simp only [two_eq hf h] at h2
      exact Except.ok.inj (h2.symm.trans m.sig)),
    (fun h => by
      have h2 := m'.ang
      simp only [block_eq hf, count_eq hf, JXS_eq hf] at h2
      simp only [two_eq hf h] at h2
      exact Except.ok.inj (h2.symm.trans m.ang)),
    (fun e h => by
      have h2 := m'.dlw
      rw [e] at h2
      simp only [block_eq hf, count_eq hf] at h2
      simp only [two_eq hf h] at h2
      exact Except.ok.inj (h2.symm.trans m.dlw)),
    (fun h => by
      have h2 := m'.gpd
      simp only [block_eq hf, count_eq hf, JXS_eq hf] at h2
      simp only [one_eq hf h] at h2
      exact Except.ok.inj (h2.symm.trans m.gpd)),
    (fun h => by
      have h2 := m'.mtrp
      simp only [block_eq hf, count_eq hf, JXS_eq hf] at h2
      simp only [one_eq hf h] at h2
      exact Except.ok.inj (h2.symm.trans m.mtrp)),
    (fun h => by
      have h2 := m'.sigp
      simp only [block_eq hf, count_eq hf, JXS_eq hf] at h2
      simp only [two_eq hf h] at h2
      exact Except.ok.inj (h2.symm.trans m.sigp)),
    (fun h => by
      have h2 := m'.andp
      simp only [block_eq hf, count_eq hf, JXS_eq hf] at h2
      simp only [two_eq hf h] at h2
      exact Except.ok.inj (h2.symm.trans m.andp)),
    (fun h => by
      have h2 := m'.dlwp
      simp only [block_eq hf, count_eq hf, JXS_eq hf] at h2
      simp only [two_eq hf h] at h2
      exact Except.ok.inj (h2.symm.trans m.dlwp)),
    (fun h => by
      have h2 := m'.yp
      simp only [block_eq hf, count_eq hf, JXS_eq hf] at h2
      simp only [one_eq hf h] at h2
      exact Except.ok.inj (h2.symm.trans m.yp)),
    (fun h => by
      have h2 := m'.unr
      simp only [block_eq hf, count_eq hf, JXS_eq hf] at h2
      simp only [one_eq hf h] at h2
      exact Except.ok.inj (h2.symm.trans m.unr)),
    (fun h => by
      have h2 := m'.dnu
      simp only [block_eq hf, count_eq hf, JXS_eq hf] at h2
      simp only [one_eq hf h] at h2
      exact Except.ok.inj (h2.symm.trans m.dnu)),
    (fun h => by
      have h2 := m'.bdd
      simp only [block_eq hf, count_eq hf, JXS_eq hf] at h2
      simp only [one_eq hf h] at h2
      exact Except.ok.inj (h2.symm.trans m.bdd)),
    (fun h => by
      have h2 := m'.dned
      simp only [block_eq hf, count_eq hf, JXS_eq hf] at h2
      simp only [two_eq hf h] at h2
      exact Except.ok.inj (h2.symm.trans m.dned)),
    (fun h => by
      have h2 := m'.ptype
      simp only [block_eq hf, count_eq hf, JXS_eq hf] at h2
      simp only [one_eq hf h] at h2
      exact Except.ok.inj (h2.symm.trans m.ptype)),
    (fun h => by
      have h2 := m'.ntro
      simp only [block_eq hf, count_eq hf, JXS_eq hf] at h2
      simp only [one_eq hf h] at h2
      exact Except.ok.inj (h2.symm.trans m.ntro)),
    (fun h => by
      have h2 := m'.ixs
      simp only [block_eq hf, count_eq hf, JXS_eq hf] at h2
      simp only [one_eq hf h] at h2
      exact Except.ok.inj (h2.symm.trans m.ixs))⟩

/-- The secondary particles of continuous energy tables with the same IXS and NTRO blocks. -/
theorem C73_continuous_particles {z z' : List Char} {d d' : TableData} {t t' : CE} (ht : CE.ofTable z d = .ok t)
    (ht' : CE.ofTable z' d' = .ok t') (hf : t.data.SameFrame t'.data) (ntro : NTRO) (ixs : IXS)
    (h1 : t.ntro = some ntro) (h1' : t'.ntro = some ntro) (h2 : t.ixs = some ixs) (h2' : t'.ixs = some ixs) :
    t'.particles.length = t.particles.length ∧
    ∀ i p p', t.particles[i]? = some p → t'.particles[i]? = some p' →
    (t.data.SameBlock t'.data (CE.particleBlock t.data ixs (i + 1) 1) → p'.hpd = p.hpd) ∧
    (t.data.SameBlock t'.data (CE.particleBlock t.data ixs (i + 1) 2) → p'.mtrh = p.mtrh) ∧
    (t.data.SameBlock t'.data (CE.particleBlock t.data ixs (i + 1) 3) → p'.tyrh = p.tyrh) ∧
    (t.data.SamePair t'.data (CE.particleBlock t.data ixs (i + 1) 4) (CE.particleBlock t.data ixs (i + 1) 5) → p'.sigh = p.sigh) ∧
    (t.data.SamePair t'.data (CE.particleBlock t.data ixs (i + 1) 6) (CE.particleBlock t.data ixs (i + 1) 7) → p'.andh = p.andh) ∧
    (p'.tyrh = p.tyrh → t.data.SamePair t'.data (CE.particleBlock t.data ixs (i + 1) 8) (CE.particleBlock t.data ixs (i + 1) 9) → p'.dlwh = p.dlwh) ∧
    (t.data.SameBlock t'.data (CE.particleBlock t.data ixs (i + 1) 10) → p'.yh = p.yh) := by
  unfold CE.ofTable at ht ht'
  obtain ⟨_, _, ht⟩ := bind_eq_ok.mp ht
  obtain ⟨v, _, ht⟩ := bind_eq_ok.mp ht
  obtain ⟨_, _, ht'⟩ := bind_eq_ok.mp ht'
  obtain ⟨v', _, ht'⟩ := bind_eq_ok.mp ht'
  obtain ⟨rfl, m⟩ := Local.made ht
  obtain ⟨rfl, m'⟩ := Local.made ht'
  obtain ⟨n, hn, g⟩ := bind_eq_ok.mp (m.particles ntro ixs h1 h2)
  obtain ⟨n', hn', g'⟩ := bind_eq_ok.mp (m'.particles ntro ixs h1' h2')
  rw [count_eq hf, hn] at hn'
  obtain rfl := Except.ok.inj hn'
  refine ⟨(C63.mapM_length _ _ _ g').trans (C63.mapM_length _ _ _ g).symm, fun i p p' hp hp' => ?_⟩
  have q := particleMade (range'_get g hp)
  have q' := particleMade (range'_get g' hp')
  exact ⟨(fun h => by
      have h2 := q'.hpd
      simp only [particleBlock_eq hf] at h2
      simp only [one_eq hf h] at h2
      exact Except.ok.inj (h2.symm.trans q.hpd)),
    (fun h => by
      have h2 := q'.mtrh
      simp only [particleBlock_eq hf] at h2
      simp only [one_eq hf h] at h2
      exact Except.ok.inj (h2.symm.trans q.mtrh)),
    (fun h => by
      have h2 := q'.tyrh
      simp only [particleBlock_eq hf] at h2
      simp only [one_eq hf h] at h2
      exact Except.ok.inj (h2.symm.trans q.tyrh)),
    (fun h => by
      have h2 := q'.sigh
      simp only [particleBlock_eq hf] at h2
      simp only [two_eq hf h] at h2
      exact Except.ok.inj (h2.symm.trans q.sigh)),
    (fun h => by
      have h2 := q'.andh
      simp only [particleBlock_eq hf] at h2
      simp only [two_eq hf h] at h2
      exact Except.ok.inj (h2.symm.trans q.andh)),
    (fun e h => by
      have h2 := q'.dlwh
      rw [e] at h2
      simp only [particleBlock_eq hf] at h2
      simp only [two_eq hf h] at h2
      exact Except.ok.inj (h2.symm.trans q.dlwh)),
    (fun h => by
      have h2 := q'.yh
      simp only [particleBlock_eq hf] at h2
      simp only [one_eq hf h] at h2
      exact Except.ok.inj (h2.symm.trans q.yh))⟩

/-- Photonuclear tables. -/
theorem C73_photonuclear {z z' : List Char} {d d' : TableData} {t t' : PN} (ht : PN.ofTable z d = .ok t)
    (ht' : PN.ofTable z' d' = .ok t') (hf : t.data.SameFrame t'.data) :
    (t.data.SameUpTo t'.data (PN.block t.data 1) (PN.block t.data 6) → t'.eszu = t.eszu) ∧
    (t.data.SameBlock t'.data (PN.block t.data 6) → t'.mtr = t.mtr) ∧
    (t.data.SameBlock t'.data (PN.block t.data 7) → t'.lqr = t.lqr) ∧
    (t.data.SamePair t'.data (PN.block t.data 8) (PN.block t.data 9) → t'.sig = t.sig) ∧
    (t.data.SameBlock t'.data (PN.block t.data 10) → t'.ixsu = t.ixsu) := by
  unfold PN.ofTable at ht ht'
  obtain ⟨_, _, ht⟩ := bind_eq_ok.mp ht
  obtain ⟨v, _, ht⟩ := bind_eq_ok.mp ht
  obtain ⟨_, _, ht'⟩ := bind_eq_ok.mp ht'
  obtain ⟨v', _, ht'⟩ := bind_eq_ok.mp ht'
  obtain ⟨rfl, m⟩ := pnMade ht
  obtain ⟨rfl, m'⟩ := pnMade ht'
  have pnBlock_eq (i : Nat) : PN.block t'.data i = PN.block t.data i := paBlock_eq hf i
  exact ⟨(fun h => by
      have h2 := m'.eszu
      simp only [pnBlock_eq, count_eq hf, JXS_eq hf] at h2
      simp only [span_eq hf h] at h2
      exact Except.ok.inj (h2.symm.trans m.eszu)),
    (fun h => by
      have h2 := m'.mtr
      simp only [pnBlock_eq, count_eq hf, JXS_eq hf] at h2
      simp only [one_eq hf h] at h2
      exact Except.ok.inj (h2.symm.trans m.mtr)),
    (fun h => by
      have h2 := m'.lqr
      simp only [pnBlock_eq, count_eq hf, JXS_eq hf] at h2
      simp only [one_eq hf h] at h2
      exact Except.ok.inj (h2.symm.trans m.lqr)),
    (fun h => by
      have h2 := m'.sig
      simp only [pnBlock_eq, count_eq hf, JXS_eq hf] at h2
      simp only [two_eq hf h] at h2
      exact Except.ok.inj (h2.symm.trans m.sig)),
    (fun h => by
      have h2 := m'.ixsu
      simp only [pnBlock_eq, count_eq hf, JXS_eq hf] at h2
      simp only [one_eq hf h] at h2
      exact Except.ok.inj (h2.symm.trans m.ixsu))⟩

/-- The secondary particles of photonuclear tables with the same IXSU block. -/
theorem C73_photonuclear_particles {z z' : List Char} {d d' : TableData} {t t' : PN} (ht : PN.ofTable z d = .ok t)
    (ht' : PN.ofTable z' d' = .ok t') (hf : t.data.SameFrame t'.data) (ixs : IXSU)
    (h2 : t.ixsu = some ixs) (h2' : t'.ixsu = some ixs) :
    t'.particles.length = t.particles.length ∧
    ∀ i p p', t.particles[i]? = some p → t'.particles[i]? = some p' →
    (t.data.SameBlock t'.data (PN.particleBlock t.data ixs (i + 1) 3) → p'.pxs = p.pxs) ∧
    (t.data.SameBlock t'.data (PN.particleBlock t.data ixs (i + 1) 4) → p'.phn = p.phn) ∧
    (t.data.SameBlock t'.data (PN.particleBlock t.data ixs (i + 1) 5) → p'.mtrh = p.mtrh) ∧
    (t.data.SameBlock t'.data (PN.particleBlock t.data ixs (i + 1) 6) → p'.tyrh = p.tyrh) ∧
    (t.data.SamePair t'.data (PN.particleBlock t.data ixs (i + 1) 7) (PN.particleBlock t.data ixs (i + 1) 8) → p'.sigh = p.sigh) ∧
    (t.data.SamePair t'.data (PN.particleBlock t.data ixs (i + 1) 9) (PN.particleBlock t.data ixs (i + 1) 10) → p'.andh = p.andh) ∧
    (p'.tyrh = p.tyrh → t.data.SamePair t'.data (PN.particleBlock t.data ixs (i + 1) 11) (PN.particleBlock t.data ixs (i + 1) 12) → p'.dlwh = p.dlwh) := by
  unfold PN.ofTable at ht ht'
  obtain ⟨_, _, ht⟩ := bind_eq_ok.mp ht
  obtain ⟨v, _, ht⟩ := bind_eq_ok.mp ht
  obtain ⟨_, _, ht'⟩ := bind_eq_ok.mp ht'
  obtain ⟨v', _, ht'⟩ := bind_eq_ok.mp ht'
  obtain ⟨rfl, m⟩ := pnMade ht
  obtain ⟨rfl, m'⟩ := pnMade ht'
  obtain ⟨n, hn, g⟩ := bind_eq_ok.mp (m.particles ixs h2)
  obtain ⟨n', hn', g'⟩ := bind_eq_ok.mp (m'.particles ixs h2')
  rw [count_eq hf, hn] at hn'
  obtain rfl := Except.ok.inj hn'
  refine ⟨(C63.mapM_length _ _ _ g').trans (C63.mapM_length _ _ _ g).symm, fun i p p' hp hp' => ?_⟩
  have q := pnParticleMade (range'_get g hp)
  have q' := pnParticleMade (range'_get g' hp')
  exact ⟨(fun h => by
      have h2 := q'.pxs
      simp only [pnParticleBlock_eq hf] at h2
      simp only [one_eq hf h] at h2
      exact Except.ok.inj (h2.symm.trans q.pxs)),
    (fun h => by
      have h2 := q'.phn
      simp only [pnParticleBlock_eq hf] at h2
      simp only [one_eq hf h] at h2
      exact Except.ok.inj (h2.symm.trans q.phn)),
    (fun h => by
      have h2 := q'.mtrh
      simp only [pnParticleBlock_eq hf] at h2
      simp only [one_eq hf h] at h2
      exact Except.ok.inj (h2.symm.trans q.mtrh)),
    (fun h => by
      have h2 := q'.tyrh
      simp only [pnParticleBlock_eq hf] at h2
      simp only [one_eq hf h] at h2
      exact Except.ok.inj (h2.symm.trans q.tyrh)),
    (fun h => by
      have h2 := q'.sigh
      simp only [pnParticleBlock_eq hf] at h2
      simp only [two_eq hf h] at h2
      exact Except.ok.inj (h2.symm.trans q.sigh)),
    (fun h => by
      have h2 := q'.andh
      simp only [pnParticleBlock_eq hf] at h2
      simp only [two_eq hf h] at h2
      exact Except.ok.inj (h2.symm.trans q.andh)),
    (fun e h => by
      have h2 := q'.dlwh
      rw [e] at h2
      simp only [pnParticleBlock_eq hf] at h2
      simp only [two_eq hf h] at h2
      exact Except.ok.inj (h2.symm.trans q.dlwh))⟩

/-- Photoatomic tables. -/
theorem C73_photoatomic {z z' : List Char} {d d' : TableData} {t t' : PA} (ht : PA.ofTable z d = .ok t)
    (ht' : PA.ofTable z' d' = .ok t') (hf : t.data.SameFrame t'.data) :
    (t.data.SameBlock t'.data (PA.block t.data 1) → t'.eszg = t.eszg) ∧
    (t.data.SameBlock t'.data (PA.block t.data 2) → t'.jinc = t.jinc) ∧
    (t.data.SameBlock t'.data (PA.block t.data 3) → t'.jcoh = t.jcoh) ∧
    (t.data.SameBlock t'.data (PA.block t.data 4) → t'.jflo = t.jflo) ∧
    (t.data.SameBlock t'.data (PA.block t.data 5) → t'.lhnm = t.lhnm) ∧
    (t.data.SamePair t'.data (PA.block t.data 6) (PA.block t.data 8) → t'.eps = t.eps) ∧
    (t.data.SamePair t'.data (PA.block t.data 9) (PA.block t.data 10) → t'.swd = t.swd) ∧
    (t.data.SameUpTo t'.data (PA.block t.data 11) (PA.block t.data 16) → t'.subsh = t.subsh) ∧
    (t.data.SameBlock t'.data (PA.block t.data 16) → t'.sphel = t.sphel) ∧
    (t.data.SamePair t'.data (PA.block t.data 17) (PA.block t.data 18) → t'.xprob = t.xprob) ∧
    (t.data.SameBlock t'.data (PA.block t.data 19) → t'.esze = t.esze) ∧
    (t.data.SameBlock t'.data (PA.block t.data 20) → t'.excit = t.excit) ∧
    (t.data.SamePair t'.data (PA.block t.data 21) (PA.block t.data 22) → t'.elas = t.elas) ∧
    (t.data.SamePair t'.data (PA.block t.data 24) (PA.block t.data 25) → t'.breme = t.breme) ∧
    (t.data.SameBlock t'.data (PA.block t.data 26) → t'.breml = t.breml) ∧
    (t'.breml = t.breml → t.data.SameBlock t'.data (PA.block t.data 27) → t'.selas = t.selas) ∧
    (∀ i b b' n, t.data.count 7 = .ok n → t.eion[i]? = some b → t'.eion[i]? = some b' → i < n →
      t.data.SameShell t'.data n (i + 1) → b' = b) := by
  unfold PA.ofTable at ht ht'
  obtain ⟨_, _, ht⟩ := bind_eq_ok.mp ht
  obtain ⟨_, _, ht'⟩ := bind_eq_ok.mp ht'
  obtain ⟨rfl, m⟩ := paMade ht
  obtain ⟨rfl, m'⟩ := paMade ht'
  refine ⟨(fun h => by
      have h2 := m'.eszg
      simp only [paBlock_eq hf, count_eq hf, JXS_eq hf] at h2
      simp only [one_eq hf h] at h2
      exact Except.ok.inj (h2.symm.trans m.eszg)),
    (fun h => by
      have h2 := m'.jinc
      simp only [paBlock_eq hf, count_eq hf, JXS_eq hf] at h2
      simp only [one_eq hf h] at h2
      exact Except.ok.inj (h2.symm.trans m.jinc)),
    (fun h => by
      have h2 := m'.jcoh
      simp only [paBlock_eq hf, count_eq hf, JXS_eq hf] at h2
      simp only [one_eq hf h] at h2
      exact Except.ok.inj (h2.symm.trans m.jcoh)),
    (fun h => by
      have h2 := m'.jflo
      simp only [paBlock_eq hf, count_eq hf, JXS_eq hf] at h2
      simp only [one_eq hf h] at h2
      exact Except.ok.inj (h2.symm.trans m.jflo)),
    (fun h => by
      have h2 := m'.lhnm
      simp only [paBlock_eq hf, count_eq hf, JXS_eq hf] at h2
      simp only [one_eq hf h] at h2
      exact Except.ok.inj (h2.symm.trans m.lhnm)),
    (fun h => by
      have h2 := m'.eps
      simp only [paBlock_eq hf, count_eq hf, JXS_eq hf] at h2
      simp only [two_eq hf h] at h2
      exact Except.ok.inj (h2.symm.trans m.eps)),
    (fun h => by
      have h2 := m'.swd
      simp only [paBlock_eq hf, count_eq hf, JXS_eq hf] at h2
      simp only [two_eq hf h] at h2
      exact Except.ok.inj (h2.symm.trans m.swd)),
    (fun h => by
      have h2 := m'.subsh
      simp only [paBlock_eq hf, count_eq hf, JXS_eq hf] at h2
      simp only [span_eq hf h] at h2
      exact Except.ok.inj (h2.symm.trans m.subsh)),
    (fun h => by
      have h2 := m'.sphel
      simp only [paBlock_eq hf, count_eq hf, JXS_eq hf] at h2
      simp only [one_eq hf h] at h2
      exact Except.ok.inj (h2.symm.trans m.sphel)),
    (fun h => by
      have h2 := m'.xprob
      simp only [paBlock_eq hf, count_eq hf, JXS_eq hf] at h2
      simp only [two_eq hf h] at h2
      exact Except.ok.inj (h2.symm.trans m.xprob)),
    (fun h => by
      have h2 := m'.esze
      simp only [paBlock_eq hf, count_eq hf, JXS_eq hf] at h2
      simp only [one_eq hf h] at h2
      exact Except.ok.inj (h2.symm.trans m.esze)),
    (fun h => by
      have h2 := m'.excit
      simp only [paBlock_eq hf, count_eq hf, JXS_eq hf] at h2
      simp only [one_eq hf h] at h2
      exact Except.ok.inj (h2.symm.trans m.excit)),
    (fun h => by
      have h2 := m'.elas
      simp only [paBlock_eq hf, count_eq hf, JXS_eq hf] at h2
      simp only [two_eq hf h] at h2
      exact Except.ok.inj (h2.symm.trans m.elas)),
    (fun h => by
      have h2 := m'.breme
      simp only [paBlock_eq hf, count_eq hf, JXS_eq hf] at h2
      simp only [two_eq hf h] at h2
      exact Except.ok.inj (h2.symm.trans m.breme)),
    (fun h => by
      have h2 := m'.breml
      simp only [paBlock_eq hf, count_eq hf, JXS_eq hf] at h2
      simp only [one_eq hf h] at h2
      exact Except.ok.inj (h2.symm.trans m.breml)), (fun e h => ?_), fun i b b' n hn hb hb' hi hs => ?_⟩
  · cases hi : t.breml.isSome with
    | false => rw [m.none_selas hi, m'.none_selas (by rw [e, hi])]
    | true =>
        have h2 := m'.selas (by rw [e, hi])
        simp only [paBlock_eq hf, count_eq hf] at h2
        simp only [one_eq hf h] at h2
        exact Except.ok.inj (h2.symm.trans (m.selas hi))
  · obtain ⟨n1, hn1, g⟩ := m.eion i b hb
    obtain ⟨n2, hn2, g'⟩ := m'.eion i b' hb'
    rw [count_eq hf, hn] at hn2
    rw [hn] at hn1
    obtain rfl := Except.ok.inj hn1
    obtain rfl := Except.ok.inj hn2
    obtain ⟨hw, hshell⟩ := hs
    unfold PA.readEION at g g'
    rw [offset_eq hf] at g'
    obtain ⟨o, ho, g⟩ := bind_eq_ok.mp g
    rw [ho, ok_bind] at g'
    have same (k : Nat) (h1 : o ≤ k) (h2 : k < o + 2 * n) : deref t'.data.xss k = deref t.data.xss k := by
      unfold deref
      rw [hw o ho k h1 h2]
    have sameW (k : Nat) (h1 : o ≤ k) (h2 : k < o + 2 * n) : PA.wordOffset t'.data k = PA.wordOffset t.data k := by
      unfold PA.wordOffset
      rw [same k h1 h2]
    rw [same _ (by omega) (by omega), sameW _ (by omega) (by omega), offset_eq hf] at g'
    obtain ⟨v, hv, g⟩ := bind_eq_ok.mp g
    rw [hv, ok_bind] at g'
    obtain ⟨c, hc, g⟩ := bind_eq_ok.mp g
    rw [hc, ok_bind] at g'
    obtain ⟨start, hstart, g⟩ := bind_eq_ok.mp g
    rw [hstart, ok_bind] at g'
    have hstop : ∀ stop, (if i + 1 ≠ n then PA.wordOffset t.data (o + n + (i + 1)) else t.data.offset 24) = .ok stop →
        sub t'.data.xss start stop = sub t.data.xss start stop := fun stop e =>
      words_eq hf (hshell o start stop ho hstart e)
    by_cases hc : i + 1 ≠ n
    · simp only [if_pos hc] at g g' hstop
      rw [sameW _ (by omega) (by omega)] at g'
      obtain ⟨stop, e, g⟩ := bind_eq_ok.mp g
      rw [e, ok_bind, hstop stop e] at g'
      exact Except.ok.inj (g'.symm.trans g)
    · simp only [if_neg hc] at g g' hstop
      obtain ⟨stop, e, g⟩ := bind_eq_ok.mp g
      rw [e, ok_bind, hstop stop e] at g'
      exact Except.ok.inj (g'.symm.trans g)

/-- Dosimetry tables. -/
theorem C73_dosimetry {z z' : List Char} {d d' : TableData} {t t' : Dosimetry} (ht : Dosimetry.ofTable z d = .ok t)
    (ht' : Dosimetry.ofTable z' d' = .ok t') (hf : t.data.SameFrame t'.data) :
    (∀ m l, t.data.offset 3 = .ok m → t.data.offset 6 = .ok l → t.data.SameWords t'.data (m, l) → t'.mtr = t.mtr) ∧
    (∀ l, t.data.offset 6 = .ok l → t.data.SameWords t'.data (l, t.data.xss.length) → t'.sigd = t.sigd) := by
  unfold Dosimetry.ofTable at ht ht'
  obtain ⟨_, _, ht⟩ := bind_eq_ok.mp ht
  obtain ⟨_, _, ht'⟩ := bind_eq_ok.mp ht'
  obtain ⟨rfl, m⟩ := dosMade ht
  obtain ⟨rfl, m'⟩ := dosMade ht'
  refine ⟨fun o l h1 h2 h => ?_, fun l h2 h => ?_⟩
  · have h3 := m'.mtr
    simp only [offset_eq hf, count_eq hf] at h3
    have hs : t.data.SameUpTo t'.data (t.data.offset 3 >>= fun o => pure (o, 0)) (t.data.offset 6 >>= fun o => pure (o, 0)) := by
      rw [h1, h2]
      intro r s e e'
      obtain rfl := Except.ok.inj e
      obtain rfl := Except.ok.inj e'
      exact h
    simp only [span_eq hf hs] at h3
    exact Except.ok.inj (h3.symm.trans m.mtr)
  · have h3 := m'.sigd
    simp only [offset_eq hf, count_eq hf, hf.size] at h3
    have hs : t.data.SamePair t'.data (t.data.offset 6 >>= fun o => pure (o, 0))
        (t.data.offset 7 >>= fun o => pure (o, t.data.xss.length)) := by
      rw [h2]
      intro r s e e'
      obtain rfl := Except.ok.inj e
      obtain ⟨_, _, e'⟩ := bind_eq_ok.mp e'
      obtain rfl := Except.ok.inj e'
      exact h
    simp only [two_eq hf hs] at h3
    exact Except.ok.inj (h3.symm.trans m.sigd)

/-- Thermal scattering tables. -/
theorem C73_thermal {z z' : List Char} {d d' : TableData} {t t' : TS} (ht : TS.ofTable z d = .ok t)
    (ht' : TS.ofTable z' d' = .ok t') (hf : t.data.SameFrame t'.data) :
    (t.data.SameBlock t'.data (TS.block t.data 1) → t'.itie = t.itie) ∧
    (t'.itie = t.itie → t.data.SameBlock t'.data (TS.block t.data 3) → t'.itxe = t.itxe) ∧
    (t.data.SameBlock t'.data (TS.block t.data 4) → t'.itce = t.itce) ∧
    (t'.itce = t.itce → t.data.SameBlock t'.data (TS.block t.data 6) → t'.itca = t.itca) ∧
    (t.data.count 5 = .ok 3 → t.data.SameBlock t'.data (TS.block t.data 4) → t'.itcei = t.itcei) ∧
    (t.data.count 5 ≠ .ok 3 → t.data.SameBlock t'.data (TS.block t.data 7) → t'.itcei = t.itcei) ∧
    (t.data.count 5 = .ok 3 → t'.itcei = t.itcei → t.data.SameBlock t'.data (TS.block t.data 6) → t'.itcai = t.itcai) ∧
    (t.data.count 5 ≠ .ok 3 → t'.itcei = t.itcei → t.data.SameBlock t'.data (TS.block t.data 9) → t'.itcai = t.itcai) := by
  unfold TS.ofTable at ht ht'
  obtain ⟨_, _, ht⟩ := bind_eq_ok.mp ht
  obtain ⟨_, _, ht'⟩ := bind_eq_ok.mp ht'
  obtain ⟨rfl, m⟩ := tsMade ht
  obtain ⟨rfl, m'⟩ := tsMade ht'
  refine ⟨fun h => ?_, fun e h => ?_, fun h => ?_, fun e h => ?_, fun hc h => ?_, fun hc h => ?_, fun hc e h => ?_,
    fun hc e h => ?_⟩
  · have h2 := m'.itie
    simp only [tsBlock_eq hf, JXS_eq hf] at h2
    simp only [one_eq hf h] at h2
    exact Except.ok.inj (h2.symm.trans m.itie)
  · have h2 := m'.itxe
    rw [e] at h2
    simp only [tsBlock_eq hf, JXS_eq hf, count_eq hf, locator_eq hf] at h2
    simp only [one_eq hf h] at h2
    exact Except.ok.inj (h2.symm.trans m.itxe)
  · have h2 := m'.itce
    simp only [tsBlock_eq hf, count_eq hf] at h2
    simp only [one_eq hf h] at h2
    exact Except.ok.inj (h2.symm.trans m.itce)
  · cases hi : t.itce with
    | none => rw [m.none_itca hi, m'.none_itca (e.trans hi)]
    | some b =>
        have h2 := m'.itca b (e.trans hi)
        simp only [tsBlock_eq hf, signed_eq hf] at h2
        simp only [one_eq hf h] at h2
        exact Except.ok.inj (h2.symm.trans (m.itca b hi))
  · have h1 := m.itcei
    have h2 := m'.itcei
    rw [count_eq hf] at h2
    rw [hc, ok_bind] at h1 h2
    simp only [tsBlock_eq hf, if_true] at h1 h2
    simp only [one_eq hf h] at h2
    exact Except.ok.inj (h2.symm.trans h1)
  · have h1 := m.itcei
    have h2 := m'.itcei
    rw [count_eq hf] at h2
    obtain ⟨n, hn, h1⟩ := bind_eq_ok.mp h1
    rw [hn, ok_bind] at h2
    have hne : n ≠ 3 := fun e => hc (by rw [hn, e])
    simp only [tsBlock_eq hf, if_neg hne] at h1 h2
    simp only [one_eq hf h] at h2
    exact Except.ok.inj (h2.symm.trans h1)
  · cases hi : t.itcei with
    | none => rw [m.none_itcai hi, m'.none_itcai (e.trans hi)]
    | some b =>
        have h1 := m.itcai b hi
        have h2 := m'.itcai b (e.trans hi)
        rw [count_eq hf] at h2
        rw [hc, ok_bind] at h1 h2
        simp only [tsBlock_eq hf, signed_eq hf, if_true] at h1 h2
        simp only [one_eq hf h] at h2
        exact Except.ok.inj (h2.symm.trans h1)
  · cases hi : t.itcei with
    | none => rw [m.none_itcai hi, m'.none_itcai (e.trans hi)]
    | some b =>
        have h1 := m.itcai b hi
        have h2 := m'.itcai b (e.trans hi)
        rw [count_eq hf] at h2
        obtain ⟨n, hn, h1⟩ := bind_eq_ok.mp h1
        rw [hn, ok_bind] at h2
        have hne : n ≠ 3 := fun e => hc (by rw [hn, e])
        simp only [tsBlock_eq hf, signed_eq hf, if_neg hne] at h1 h2
        simp only [one_eq hf h] at h2
        exact Except.ok.inj (h2.symm.trans h1)

/-! Each statement is about two accepted tables: the tables of the examples, and the same with one word of XSS set. -/

def C73.edited (d : TableData) (k : Nat) (x : Nat) : TableData := { d with xss := d.xss.set k (Dbl.ofNat x) }

/-- Two tables are made, with the same frame, and other words at `k` only. -/
def C73.Two {T : Type} (data : T → TableData) (r r' : Res T) (k : Nat) (P : T → T → Bool) : Prop :=
  ∃ t t', r = .ok t ∧ r' = .ok t' ∧ (data t).SameFrame (data t') ∧ (data t').xss ≠ (data t).xss ∧
    (∀ i, i ≠ k → (data t').xss[i]? = (data t).xss[i]?) ∧ P t t'

theorem C73.two_of {T : Type} {data : T → TableData} {r r' : Res T} {k : Nat} {P : T → T → Bool}
    (h : (match r, r' with
      | .ok t, .ok t' => decide ((data t').nxs = (data t).nxs ∧ (data t').jxs = (data t).jxs ∧
          (data t').xss ≠ (data t).xss ∧ (data t').xss.take k = (data t).xss.take k ∧
          (data t').xss.drop (k + 1) = (data t).xss.drop (k + 1) ∧
          (data t').xss.length = (data t).xss.length ∧ P t t')
      | _, _ => false) = true) : C73.Two data r r' k P := by
  cases r with
  | error _ => cases h
  | ok t =>
    cases r' with
    | error _ => cases h
    | ok t' =>
      obtain ⟨h1, h2, h3, h4, h5, h6, h7⟩ := of_decide_eq_true h
      refine ⟨t, t', rfl, rfl, ⟨h1, h2, h6⟩, h3, fun i hi => ?_, h7⟩
      rcases Nat.lt_or_ge i k with hlt | hge
      · have a := congrArg (·[i]?) h4
        simpa only [List.getElem?_take_of_lt hlt] using a
      · have a := congrArg (·[i - (k + 1)]?) h5
        simpa only [List.getElem?_drop, show k + 1 + (i - (k + 1)) = i by omega] using a

/-- Where a block begins. -/
def C73.start (r : Res (Nat × Nat)) : Nat :=
  match r with
  | .ok r => r.1
  | .error _ => 0

example : C73.Two CE.data (CE.ofTable "92235.00c".toList exCE) (CE.ofTable "92235.00c".toList (C73.edited exCE 0 7)) 0
    fun t t' => 0 < C73.start (CE.block t.data 2) ∧ 0 < C73.start (CE.block t.data 6) ∧
      (∀ ixs ∈ t.ixs, 0 < C73.start (CE.particleBlock t.data ixs 1 1)) ∧ t.ixs ≠ none ∧ t.particles.length = 2 ∧
      t'.esz.xss ≠ t.esz.xss := C73.two_of (by decide +kernel)
example : C73.Two PN.data (PN.ofTable "92235.00u".toList exNuclear)
    (PN.ofTable "92235.00u".toList (C73.edited exNuclear 0 7)) 0
    fun t t' => 0 < C73.start (PN.block t.data 6) ∧ t.particles ≠ [] ∧ t'.eszu.xss ≠ t.eszu.xss :=
  C73.two_of (by decide +kernel)
example : C73.Two PA.data (PA.ofTable "92000.00p".toList exElectrons)
    (PA.ofTable "92000.00p".toList (C73.edited exElectrons 0 7)) 0
    fun t t' => 0 < C73.start (PA.block t.data 2) ∧ t.eion ≠ [] ∧ t'.eszg.xss ≠ t.eszg.xss :=
  C73.two_of (by decide +kernel)
example : C73.Two Dosimetry.data (Dosimetry.ofTable "26056.00y".toList exDos)
    (Dosimetry.ofTable "26056.00y".toList (C73.edited exDos 0 18)) 0
    fun t t' => t.data.offset 6 = .ok 2 ∧ t'.mtr.xss ≠ t.mtr.xss := C73.two_of (by decide +kernel)
example : C73.Two TS.data (TS.ofTable "lwtr.00t".toList exTS) (TS.ofTable "lwtr.00t".toList (C73.edited exTS 1 7)) 1
    fun t t' => 1 < C73.start (TS.block t.data 4) ∧ t.itce ≠ none ∧ t'.itie.xss ≠ t.itie.xss :=
  C73.two_of (by decide +kernel)

end ACE.Props

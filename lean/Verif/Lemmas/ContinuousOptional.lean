import Verif.Lemmas.ContinuousPrincipal

/-! # Reading the photon, unresolved resonance and delayed neutron blocks -/

namespace ACE.CE
open ACE.Props

attribute [local irreducible] x1 x2 x3 x4 x5 x6 x8 x10 x23 x24 x25 x26 x12 x13 x14 x16 x18 x20

section
variable {B : Blocks} {mts : List Nat} {vs : List (Frame × Nat)} {T : TYR} {fis : Nat}
  {d : TableData}

/-- A DLWP or DNED block read from a table: the frames are unknown. -/
def withoutFrames (b : DLWH) : DLWH := ⟨b.block, none, List.replicate b.block.n none⟩

theorem dlwh_again {b : DLWH} {n : Nat} (h : SoundDLWH b) (hn : b.block.n = n) :
    DLWH.ofRange b.block.xss n none n = .ok (withoutFrames b) := by
  subst hn
  unfold SoundDLWH at h
  unfold DLWH.ofRange
  rw [h]; rfl

/-- The photon blocks that are read. -/
def photonsOf (p : PhotonBlocks) : Photons :=
  ⟨p.gpd, p.mtrp, p.sigp, p.andp, withoutFrames p.dlwp, p.yp⟩

theorem readPhotons_eq (hs : Sound B mts vs) (hc : Clear B) (r : Ready B T fis d) :
    (d.count 6 >>= fun n => onlyIf (n > 0) (readPhotons d)) = .ok (B.photons.map photonsOf) := by
  rw [r.ntrp, ok_bind]
  cases hp : B.photons with
  | none =>
    refine onlyIf_false ?_
    simp [marks, hp]
  | some p =>
    have h := hs.photons p hp
    have hn : (marks B T fis).ntrp = p.mtrp.n := by simp [marks, hp]
    have h1 := hc.ntrp p hp
    have hm : (marks B T fis).ph = true := by simp [marks, hp]
    refine onlyIf_true (by simp [hn]; omega) ?_
    have ok := r.ok
    have hj := r.js
    have hf := r.fits
    have hx := r.hx
    have b12 := block12 _ ok d hj hf hx hm
    have b13 := block13 _ ok d hj hf hx hm
    obtain ⟨e14, b14⟩ := block14 _ ok d hj hf hx hm
    have b15 := block15 _ ok d hj hf hx hm
    obtain ⟨e16, b16⟩ := block16 _ ok d hj hf hx hm
    have b17 := block17 _ ok d hj hf hx hm
    obtain ⟨e18, b18⟩ := block18 _ ok d hj hf hx hm
    have b19 := block19 _ ok d hj hf hx hm
    have b20 := block20 _ ok d hj hf hx hm
    have w12 : d.words ((marks B T fis).n26, (marks B T fis).n12) = .ok p.gpd.xss :=
      words_between' (a := x26 B T) (c := x12 B T) (by rw [x12, hp]; rfl) (r.pre (q12 B T))
    have w13 : d.words ((marks B T fis).n12, (marks B T fis).n13) = .ok p.mtrp.xss :=
      words_between' (a := x12 B T) (c := x13 B T) (by rw [x13, hp]; rfl) (r.pre (q13 B T))
    have w14 : sub d.xss (marks B T fis).n13 (marks B T fis).n14 = .ok p.sigp.xss :=
      words_between (a := x13 B T) (c := x14 B T) (by rw [x14, hp]; rfl) (r.pre (q14 B T))
    have w16 : sub d.xss (marks B T fis).n14 (marks B T fis).n16 = .ok p.andp.xss :=
      words_between (a := x14 B T) (c := x16 B T) (by rw [x16, hp]; rfl) (r.pre (q16 B T))
    have w18 : sub d.xss (marks B T fis).n16 (marks B T fis).n18 = .ok p.dlwp.block.xss :=
      words_between (a := x16 B T) (c := x18 B T) (by rw [x18, hp]; rfl) (r.pre (q18 B T))
    have w20 : d.words ((marks B T fis).n18, (marks B T fis).n20) = .ok p.yp.xss :=
      words_between' (a := x18 B T) (c := x20 B T) (by rw [x20, hp]; rfl) (r.pre List.prefix_rfl)
    unfold readPhotons
    simp only [r.nes, r.ntrp, ok_bind, b12, w12, h.gpd, b13, w13, hn, h.mtrp]
    rw [b14, ok_bind, b15, ok_bind, hn, show located d ((marks B T fis).n13, e14)
      ((marks B T fis).n13 + p.mtrp.n, (marks B T fis).n14) = .ok (p.sigp.xss, p.mtrp.n) from
      located_of w14, ok_bind, h.sigp, ok_bind,
      b16, ok_bind, b17, ok_bind, hn, show located d ((marks B T fis).n14, e16)
      ((marks B T fis).n14 + p.mtrp.n, (marks B T fis).n16) = .ok (p.andp.xss, p.mtrp.n) from
      located_of w16, ok_bind, h.andp, ok_bind,
      b18, ok_bind, b19, ok_bind, hn, show located d ((marks B T fis).n16, e18)
      ((marks B T fis).n16 + p.mtrp.n, (marks B T fis).n18) = .ok (p.dlwp.block.xss, p.mtrp.n) from
      located_of w18, ok_bind, dlwh_again h.dlwp h.ndlwp, ok_bind,
      b20, ok_bind, w20, ok_bind, h.yp]
    rfl

theorem readUnr_eq (hs : Sound B mts vs) (hc : Clear B) (r : Ready B T fis d) :
    (d.JXS 23 >>= fun n => onlyIf (n > 0) (block d 23 >>= fun r => d.words r >>= UNR.ofRange)) =
      .ok B.unr := by
  rw [r.jxs 22 (by omega), ok_bind]
  cases hp : B.unr with
  | none =>
    refine onlyIf_false ?_
    simp [marks, Marks.js, hp]
  | some p =>
    have hm : (marks B T fis).unr = true := by simp [marks, hp]
    have hq : (marks B T fis).dl = true ∨ (marks B T fis).ph = false := by
      have := hc.unrPhotons (by simp [hp])
      simp only [marks]
      cases hb : B.photons with
      | none => right; rfl
      | some _ => left; exact this (by simp [hb])
    refine onlyIf_true (by simp [Marks.js, hm]) ?_
    have b := block23 _ r.ok d r.js r.fits r.hx hm hq r.hend
    have w : d.words ((marks B T fis).n10, (marks B T fis).n23) = .ok p.xss :=
      words_between' (a := x10 B T) (c := x23 B T) (by rw [x23, hp]; rfl) (r.pre (q23 B T))
    rw [b, ok_bind, w, ok_bind, hs.unr p hp]

theorem readDnu_eq (hs : Sound B mts vs) (r : Ready B T fis d) :
    (d.JXS 24 >>= fun n => onlyIf (n > 0) (block d 24 >>= fun r => d.words r >>= NU.ofRange)) =
      .ok (B.delayed.map (·.dnu)) := by
  rw [r.jxs 23 (by omega), ok_bind]
  cases hp : B.delayed with
  | none =>
    refine onlyIf_false ?_
    simp [marks, Marks.js, hp]
  | some p =>
    have hm : (marks B T fis).dl = true := by simp [marks, hp]
    refine onlyIf_true (by simp [Marks.js, hm]) ?_
    have b := block24 _ r.ok d r.js r.fits r.hx hm
    have w : d.words ((marks B T fis).n23, (marks B T fis).n24) = .ok p.dnu.xss :=
      words_between' (a := x23 B T) (c := x24 B T) (by rw [x24, hp]; rfl) (r.pre (q24 B T))
    rw [b, ok_bind, w, ok_bind, (hs.delayed p hp).dnu]

theorem readDelayed_eq (hs : Sound B mts vs) (hc : Clear B) (r : Ready B T fis d) :
    (d.count 8 >>= fun n => onlyIf (n > 0) (readDelayed d)) =
      .ok (B.delayed.map fun p => (p.bdd, withoutFrames p.dned)) := by
  rw [r.npcr, ok_bind]
  cases hp : B.delayed with
  | none =>
    refine onlyIf_false ?_
    simp [marks, hp]
  | some p =>
    have h := hs.delayed p hp
    have hn : (marks B T fis).npcr = p.bdd.npcr := by simp [marks, hp]
    have h1 := hc.npcr p hp
    have hm : (marks B T fis).dl = true := by simp [marks, hp]
    refine onlyIf_true (by simp [hn]; omega) ?_
    have b25 := block25 _ r.ok d r.js r.fits r.hx hm
    obtain ⟨e26, b26⟩ := block26 _ r.ok d r.js r.fits r.hx hm
    have b27 := block27 _ r.ok d r.js r.fits r.hx hm
    have w25 : d.words ((marks B T fis).n24, (marks B T fis).n25) = .ok p.bdd.xss :=
      words_between' (a := x24 B T) (c := x25 B T) (by rw [x25, hp]; rfl) (r.pre (q25 B T))
    have w26 : sub d.xss (marks B T fis).n25 (marks B T fis).n26 = .ok p.dned.block.xss :=
      words_between (a := x25 B T) (c := x26 B T) (by rw [x26, hp]; rfl) (r.pre (q26 B T))
    unfold readDelayed
    simp only [r.npcr, ok_bind, b25, w25, hn, h.bdd]
    rw [b26, ok_bind, b27, ok_bind, hn, show located d ((marks B T fis).n25, e26)
      ((marks B T fis).n25 + p.bdd.npcr, (marks B T fis).n26) = .ok (p.dned.block.xss, p.bdd.npcr)
      from located_of w26, ok_bind, dlwh_again h.dned h.ndned]
    rfl

end
end ACE.CE

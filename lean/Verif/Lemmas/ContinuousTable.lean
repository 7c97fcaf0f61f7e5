import Verif.Lemmas.ContinuousSecondary

/-! # Reading a whole continuous energy table made from blocks -/

namespace ACE.CE
open ACE.Props

attribute [local irreducible] x1 x2 x3 x4 x5 x6 x8 x10 x23 x24 x25 x26 x12 x13 x14 x16 x18 x20

section
variable {B : Blocks} {mts : List Nat} {vs : List (Frame × Nat)} {T : TYR} {fis : Nat}
  {d : TableData}

/-- The secondary particle blocks that are read. -/
def secondariesOf (B : Blocks) (T : TYR) (s : PTYPE × List SecondaryBlocks) : Secondaries :=
  ⟨s.1, NTRO.mk' (s.2.map (fun p => p.mtrh.n)),
    ⟨ixsOf B T s ++ (bodies (s.2.map pin)).take 1, s.2.length⟩, s.2.map particleOf⟩

theorem bodies_append (a b : List ParticleInput) : bodies (a ++ b) = bodies a ++ bodies b := by
  simp [bodies]

theorem hpd_length {w : Words} {x : HPD} (h : HPD.ofRange w = .ok x) : x.xss = w ∧ 2 ≤ w.length := by
  unfold HPD.ofRange at h
  obtain ⟨n, hn, h⟩ := bind_eq_ok.mp h
  obtain ⟨_, _, h⟩ := bind_eq_ok.mp h
  injection h with h
  refine ⟨by rw [← h], ?_⟩
  unfold HPD.numberValues at hn
  obtain ⟨v, hv, _⟩ := bind_eq_ok.mp hn
  have := (Base.XSS_eq_ok_iff.mp hv)
  have := (List.getElem?_eq_some_iff.mp this.2).1
  exact this

theorem readSecondaries_eq (hs : Sound B mts vs) (hc : Clear B) (r : Ready B T fis d)
    (hf : FitsN (d.xss.length + 1)) :
    (d.count 7 >>= fun n => onlyIf (n > 0) (readSecondaries d)) =
      .ok (B.secondaries.map (secondariesOf B T)) := by
  rw [r.ntype, ok_bind]
  cases hp : B.secondaries with
  | none =>
    refine onlyIf_false ?_
    simp [marks, hp]
  | some s =>
    obtain ⟨t, ps⟩ := s
    have hne := hc.ntype t ps hp
    have hl : 1 ≤ ps.length := by cases ps with
      | nil => exact absurd rfl hne
      | cons _ _ => simp
    have hn : (marks B T fis).ntype = ps.length := by simp [marks, hp]
    have hm : (marks B T fis).sp = true := by simp [marks, hp]
    refine onlyIf_true (by simp [hn]; omega) ?_
    have m30 : (marks B T fis).n30 = (x20 B T).length + t.xss.length := by
      show n30 B T = _
      rw [n30, hp]
    have m31 : (marks B T fis).n31 = (x20 B T).length + t.xss.length + ps.length := by
      show n31 B T = _
      rw [n31, n30, hp]
    have m20 : (marks B T fis).n20 = (x20 B T).length := rfl
    have hlx : (ixsOf B T (t, ps)).length = ps.length * 10 := by
      have := locs_flatten_length (n31 B T + ps.length * 10) (ps.map pin)
      simp only [ixsOf, IXS.mk', ← List.map_flatten, List.length_map] at this ⊢
      omega
    have hxs : d.xss = x20 B T ++ (t.xss ++ (NTRO.mk' (ps.map (fun p => p.mtrh.n))).xss ++
        ixsOf B T (t, ps) ++ bodies (ps.map pin)) := by
      rw [r.xss, spWords, hp]
    have hnt : (NTRO.mk' (ps.map (fun p => p.mtrh.n))).xss.length = ps.length := by
      simp [NTRO.mk']
    obtain ⟨p0, ps', rfl⟩ : ∃ p0 ps', ps = p0 :: ps' := by
      cases ps with
      | nil => exact absurd rfl hne
      | cons a b => exact ⟨a, b, rfl⟩
    obtain ⟨ie, w, hw, hie⟩ := hc.index t p0 ps' hp
    obtain ⟨rest, hrest⟩ : ∃ rest, bodies ((p0 :: ps').map pin) = Dbl.ofNat ie :: rest := by
      simp only [bodies, List.map_cons, List.flatten_cons, pin_words, hw]
      exact ⟨_, rfl⟩
    generalize hps : p0 :: ps' = ps at *
    have hlen : d.xss.length = (x20 B T).length + t.xss.length + ps.length + ps.length * 10 +
        (bodies (ps.map pin)).length := by
      rw [hxs]; simp only [List.length_append, hnt, hlx]; omega
    have hbl : 1 ≤ (bodies (ps.map pin)).length := by rw [hrest]; simp
    have b30 := block30 _ r.ok d r.js r.fits r.hx hm (by omega)
    have b31 := block31 _ r.ok d r.js r.fits r.hx hm (by omega)
    have b32 := block32 _ d r.js r.fits hm r.ntype (by omega) (by omega)
    rw [m20, m30] at b30
    rw [m30, m31] at b31
    rw [m31, hn] at b32
    have w30 : sub d.xss (x20 B T).length ((x20 B T).length + t.xss.length) = .ok t.xss :=
      sub_of_eq (a := x20 B T) (c := (NTRO.mk' (ps.map (fun p => p.mtrh.n))).xss ++
        ixsOf B T (t, ps) ++ bodies (ps.map pin)) (by rw [hxs]; simp) rfl rfl
    have w31 : sub d.xss ((x20 B T).length + t.xss.length)
        ((x20 B T).length + t.xss.length + ps.length) =
        .ok (NTRO.mk' (ps.map (fun p => p.mtrh.n))).xss :=
      sub_of_eq (a := x20 B T ++ t.xss) (c := ixsOf B T (t, ps) ++ bodies (ps.map pin))
        (by rw [hxs]; simp) (by simp) (by simp [hnt])
    have w32 : sub d.xss ((x20 B T).length + t.xss.length + ps.length)
        ((x20 B T).length + t.xss.length + ps.length + ps.length * 10 + 1) =
        .ok (ixsOf B T (t, ps) ++ [Dbl.ofNat ie]) :=
      sub_of_eq (a := x20 B T ++ t.xss ++ (NTRO.mk' (ps.map (fun p => p.mtrh.n))).xss) (c := rest)
        (by rw [hxs, hrest]; simp) (by simp [hnt]; omega) (by simp [hnt, hlx]; omega)
    have r30 := hs.ptype t ps hp
    have r31 : NTRO.ofRange (NTRO.mk' (ps.map (fun p => p.mtrh.n))).xss ps.length =
        .ok (NTRO.mk' (ps.map (fun p => p.mtrh.n))) := by
      unfold NTRO.ofRange
      rw [guardThrow_eq_ok.mpr (by simp [hnt]), ok_bind]
      simp [NTRO.mk', pure_eq_ok]
    have r32 : IXS.ofRange (ixsOf B T (t, ps) ++ [Dbl.ofNat ie]) ps.length =
        .ok ⟨ixsOf B T (t, ps) ++ [Dbl.ofNat ie], ps.length⟩ := by
      unfold IXS.ofRange
      rw [guardThrow_eq_ok.mpr (by simp [hlx]; omega)]; rfl
    have key : (List.range' 1 ps.length).mapM (readParticle d
        (NTRO.mk' (ps.map (fun p => p.mtrh.n))) ⟨ixsOf B T (t, ps) ++ [Dbl.ofNat ie], ps.length⟩) =
        .ok (ps.map particleOf) := by
      have := mapM_range'_eq (readParticle d
        (NTRO.mk' (ps.map (fun p => p.mtrh.n))) ⟨ixsOf B T (t, ps) ++ [Dbl.ofNat ie], ps.length⟩)
        (ps.map particleOf) ?_
      · rw [List.length_map] at this; exact this
      intro i hi
      rw [List.length_map] at hi
      rw [List.getElem_map]
      obtain ⟨a, b, hab, hla⟩ := getElem_split ps i hi
      generalize hq : ps[i] = q at *
      have hsq : SoundSecondary q := hs.secondaries t ps hp q (by rw [← hq]; exact List.getElem_mem hi)
      have hpin : ps.map pin = a.map pin ++ pin q :: b.map pin := by rw [hab]; simp
      have hloc : (locs (n31 B T + ps.length * 10) (ps.map pin)).flatten =
          (locs (n31 B T + ps.length * 10) (a.map pin)).flatten ++
          particleLocators (n31 B T + ps.length * 10 + (bodies (a.map pin)).length) (pin q) ++
          (locs (n31 B T + ps.length * 10 + (bodies (a.map pin)).length +
            (particleWords (pin q)).length) (b.map pin)).flatten := by
        rw [hpin, locs_append]; simp [locs]
      have hbod : bodies (ps.map pin) = bodies (a.map pin) ++ particleWords (pin q) ++
          bodies (b.map pin) := by
        rw [hpin, bodies_append]; simp [bodies]
      have hn31 : n31 B T = (x20 B T).length + t.xss.length + ps.length := m31
      refine readParticle_eq (n := n31 B T + ps.length * 10 + (bodies (a.map pin)).length)
        (pre := (locs (n31 B T + ps.length * 10) (a.map pin)).flatten)
        (post := (locs (n31 B T + ps.length * 10 + (bodies (a.map pin)).length +
            (particleWords (pin q)).length) (b.map pin)).flatten) (w0 := Dbl.ofNat ie)
        (a := x20 B T ++ (t.xss ++ (NTRO.mk' (ps.map (fun p => p.mtrh.n))).xss ++
        ixsOf B T (t, ps) ++ bodies (a.map pin))) (c := bodies (b.map pin)) hsq ?_ ?_ ?_ ?_ ?_ ?_ hf
      · unfold NTRO.NP
        have hfits : FitsN q.mtrh.n := by
          have hq1 : q.mtrh.n ≤ q.sigh.xss.length := locBlock_length hsq.sigh
          have : (particleWords (pin q)).length ≤ d.xss.length := by
            rw [hlen, hbod]; simp; omega
          have h2 : q.sigh.xss.length ≤ (particleWords (pin q)).length := by
            rw [pin_words]; simp only [List.length_append]; omega
          unfold FitsN at hf ⊢; omega
        rw [Base.IXSS_ofNat (a := (a.map (fun p => p.mtrh.n)).map Dbl.ofNat)
          (c := (b.map (fun p => p.mtrh.n)).map Dbl.ofNat) (n := q.mtrh.n)
          (by rw [hab]; simp [NTRO.mk']) (by simp [hla]) hfits, ok_bind,
          u32OfInt_natCast (by unfold FitsN at hfits; omega)]
        rfl
      · show ixsOf B T (t, ps) ++ _ = _
        rw [← hloc]; simp [ixsOf, IXS.mk']
      · rw [locs_flatten_length]; simp [hla]
      · rw [hxs, hbod]; simp only [List.append_assoc]
      · simp only [List.length_append, hnt, hlx, hn31]; omega
      · cases b with
        | nil =>
          left
          refine ⟨rfl, rfl, fun s hs' => ?_⟩
          rw [geNat_ofNat]
          have h1 := (sound_lengths hs).2.2.2.2.2.1
          have h2 : (x1 B).length ≤ (x20 B T).length := (q1 B T).length_le
          have h3 : (x1 B).length = B.esz.xss.length := by rw [x1]
          have : ¬ (s + 1 ≤ ie) := by omega
          simp [this]
        | cons q' b' =>
          right
          exact locs_flatten_head _ (pin q') (b'.map pin)
    unfold readSecondaries TableData.words
    simp only [r.ntype, hn, ok_bind, b30, b31, b32, w30, w31, w32, r30, r31, r32, key]
    simp only [Option.map_some, secondariesOf, hrest]
    rfl

/-- The table that is read. -/
def tableOf (zaid : List Char) (d : TableData) (B : Blocks) (T : TYR) : CE where
  zaid := zaid
  data := d
  esz := B.esz
  nu := B.nu
  mtr := B.mtr
  lqr := B.lqr
  tyr := T
  sig := B.sig
  ang := B.ang
  dlw := { B.dlw with tyr := T }
  gpd := B.photons.map (·.gpd)
  mtrp := B.photons.map (·.mtrp)
  sigp := B.photons.map (·.sigp)
  andp := B.photons.map (·.andp)
  dlwp := B.photons.map (fun p => withoutFrames p.dlwp)
  yp := B.photons.map (·.yp)
  unr := B.unr
  dnu := B.delayed.map (·.dnu)
  bdd := B.delayed.map (·.bdd)
  dned := B.delayed.map (fun p => withoutFrames p.dned)
  ptype := B.secondaries.map (·.1)
  ntro := B.secondaries.map (fun s => NTRO.mk' (s.2.map (fun p => p.mtrh.n)))
  ixs := B.secondaries.map (fun s => (secondariesOf B T s).ixs)
  particles := match B.secondaries with | some s => s.2.map particleOf | none => []

theorem generateBlocks_eq (zaid : List Char) (hs : Sound B mts vs) (hc : Clear B)
    (r : Ready B (tyrBlock (allTyr B vs mts.length)) fis d) (hf : FitsN (d.xss.length + 1)) :
    generateBlocks zaid d = .ok (tableOf zaid d B (tyrBlock (allTyr B vs mts.length))) := by
  have h1 := readPrincipal_eq hs r
  have h2 := readPhotons_eq hs hc r
  have h3 := readUnr_eq hs hc r
  have h4 := readDnu_eq hs r
  have h5 := readDelayed_eq hs hc r
  have h6 := readSecondaries_eq hs hc r hf
  rw [r.ntrp, ok_bind] at h2
  rw [r.jxs 22 (by omega), ok_bind] at h3
  rw [r.jxs 23 (by omega), ok_bind] at h4
  rw [r.npcr, ok_bind] at h5
  rw [r.ntype, ok_bind] at h6
  unfold generateBlocks
  rw [h1, ok_bind, r.ntrp, ok_bind]
  simp only [h2, ok_bind]
  rw [r.jxs 22 (by omega), ok_bind]
  simp only [h3, ok_bind]
  rw [r.jxs 23 (by omega), ok_bind]
  simp only [h4, ok_bind]
  rw [r.npcr, ok_bind]
  simp only [h5, ok_bind]
  rw [r.ntype, ok_bind]
  simp only [h6, ok_bind]
  unfold tableOf
  cases B.secondaries <;>
    simp [pure_eq_ok, photonsOf, secondariesOf, Function.comp_def, Option.map_map]

end
end ACE.CE

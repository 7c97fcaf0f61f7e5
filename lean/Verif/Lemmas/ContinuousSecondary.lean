import Verif.Lemmas.ContinuousOptional

/-! # Reading the blocks of secondary particles -/

namespace ACE

theorem geNat_ofNat (a s : Nat) : (Dbl.ofNat a).geNat s = decide (s ≤ a) := by
  have h : ¬ ((a : Int) < 0) := by omega
  simp [Dbl.ofNat, Dbl.ofInt, Dbl.geNat, h]

theorem mapM_range'_eq {α : Type} (f : Nat → Res α) (vs : List α)
    (h : ∀ (i : Nat) (hi : i < vs.length), f (i + 1) = .ok vs[i]) :
    (List.range' 1 vs.length).mapM f = .ok vs := by
  have key : ∀ (ws : List α) (k : Nat), (∀ (i : Nat) (hi : i < ws.length), f (k + i) = .ok ws[i]) →
      (List.range' k ws.length).mapM f = .ok ws := by
    intro ws
    induction ws with
    | nil => intro k _; rfl
    | cons w ws ih =>
      intro k hk
      have h0 := hk 0 (by simp)
      rw [List.length_cons, List.range'_succ, List.mapM_cons]
      simp only [Nat.add_zero, List.getElem_cons_zero] at h0
      rw [h0, ih (k + 1) (fun i hi => by
        have := hk (i + 1) (by simp; omega)
        rw [Nat.add_assoc, Nat.add_comm 1 i]; simpa using this)]
      rfl
  exact key vs 1 (fun i hi => by rw [Nat.add_comm]; exact h i hi)

namespace CE
open ACE.Props

section
variable {d : TableData}

theorem LLOC_of {ixs : IXS} {pre post : List Nat} {rest : Words} {s p j : Nat}
    (hx : ixs.xss = (pre ++ s :: post).map Dbl.ofNat ++ rest)
    (hk : (p - 1) * 10 + j = pre.length + 1) (hs : FitsN s)
    (hp : 1 ≤ p := by omega) : ixs.LLOC p j = .ok s := by
  unfold IXS.LLOC
  rw [position_pos hp]
  have : Base.IXSS ixs.xss ((p - 1) * 10 + j) = .ok (s : Int) :=
    Base.IXSS_ofNat (a := pre.map Dbl.ofNat) (c := post.map Dbl.ofNat ++ rest)
      (by rw [hx]; simp) (by simpa using hk) hs
  rw [this, ok_bind, sizeOfInt_natCast hs]; rfl

theorem particleEnd_next {ixs : IXS} {pre post : List Nat} {rest : Words} {s e p j : Nat}
    (hx : ixs.xss = (pre ++ s :: e :: post).map Dbl.ofNat ++ rest)
    (hk : (p - 1) * 10 + j = pre.length + 1) (hle : s ≤ e) (he : FitsN e) :
    particleEnd ixs p j s = .ok e := by
  unfold particleEnd
  have : sub ixs.xss ((p - 1) * 10 + j) ixs.xss.length = .ok ((e :: post).map Dbl.ofNat ++ rest) :=
    sub_of_eq (a := (pre ++ [s]).map Dbl.ofNat) (c := []) (by rw [hx]; simp) (by simpa using hk)
      (by rw [hx]; simp; omega)
  rw [this]
  simp only [ok_bind, List.map_cons, List.cons_append]
  rw [List.find?_cons_of_pos (by rw [geNat_ofNat]; simpa using hle)]
  have ht : (Dbl.ofNat e).trunc? = some (e : Int) := by
    have h : ¬ ((e : Int) < 0) := by omega
    simp [Dbl.ofNat, Dbl.ofInt, Dbl.trunc?, Dbl.truncMag, Dbl.signed, h]
  simp only [ht]
  unfold FitsN at he
  simp [toSize]; omega

theorem particleEnd_last {ixs : IXS} {pre : List Nat} {w0 : Dbl} {s p j : Nat}
    (hx : ixs.xss = (pre ++ [s]).map Dbl.ofNat ++ [w0])
    (hk : (p - 1) * 10 + j = pre.length + 1) (hw : w0.geNat s = false) :
    particleEnd ixs p j s = .ok 0 := by
  unfold particleEnd
  have : sub ixs.xss ((p - 1) * 10 + j) ixs.xss.length = .ok [w0] :=
    sub_of_eq (a := (pre ++ [s]).map Dbl.ofNat) (c := []) (by rw [hx]; simp) (by simpa using hk)
      (by rw [hx]; simp)
  rw [this]
  simp only [ok_bind]
  rw [List.find?_cons_of_neg (by rw [hw]; simp), List.find?_nil]; rfl

theorem particleBlock_next {ixs : IXS} (k pre post : List Nat) (rest : Words) (s e p j : Nat)
    (hx : ixs.xss = k.map Dbl.ofNat ++ rest) (hkk : k = pre ++ (s + 1) :: (e + 1) :: post)
    (hk : (p - 1) * 10 + j = pre.length + 1) (hle : s ≤ e) (he : FitsN (e + 1))
    (hl : e ≤ d.xss.length) (hp : 1 ≤ p := by omega) : particleBlock d ixs p j = .ok (s, e) := by
  unfold particleBlock
  subst hkk
  have he' := he
  unfold FitsN at he'
  rw [LLOC_of hx hk (by unfold FitsN; omega), ok_bind,
    particleEnd_next hx hk (by omega) he, ok_bind, range_ok d _ _ (by omega) (by omega) (by omega)
      (by omega)]
  rfl

theorem particleBlock_last {ixs : IXS} (pre : List Nat) (w0 : Dbl) (s p j : Nat)
    (hx : ixs.xss = (pre ++ [s + 1]).map Dbl.ofNat ++ [w0])
    (hk : (p - 1) * 10 + j = pre.length + 1) (hw : w0.geNat (s + 1) = false) (hs : FitsN (s + 1))
    (hl : s ≤ d.xss.length) (hp : 1 ≤ p := by omega) : particleBlock d ixs p j = .ok (s, d.xss.length) := by
  unfold particleBlock
  rw [LLOC_of (post := []) hx hk hs, ok_bind,
    particleEnd_last hx hk hw, ok_bind, range_end d _ (by omega) (by omega)]
  rfl

end

/-! ## Locators of several particles -/

theorem locs_append (n : Nat) (a b : List ParticleInput) :
    locs n (a ++ b) = locs n a ++ locs (n + (bodies a).length) b := by
  induction a generalizing n with
  | nil => simp [locs, bodies]
  | cons p a ih =>
    simp only [List.cons_append, locs, ih, bodies, List.map_cons, List.flatten_cons,
      List.length_append]
    rw [Nat.add_assoc]

theorem locs_flatten_length (n : Nat) (a : List ParticleInput) :
    (locs n a).flatten.length = 10 * a.length := by
  induction a generalizing n with
  | nil => rfl
  | cons p a ih =>
    simp only [locs, List.flatten_cons, List.length_append, ih, List.length_cons]
    simp [particleLocators]; omega

theorem locs_flatten_head (n : Nat) (q : ParticleInput) (b : List ParticleInput) :
    ∃ r, (locs n (q :: b)).flatten = (n + 1) :: r := ⟨_, rfl⟩

/-! ## One particle -/

/-- The particle that is read. -/
def particleOf (p : SecondaryBlocks) : Particle :=
  ⟨p.hpd, p.mtrh, frameTyr (framesOf p), p.sigh, p.andh,
    ⟨p.dlwh.block, some (frameTyr (framesOf p)), p.dlwh.frames⟩, p.yh⟩

theorem framesOf_eq {p : SecondaryBlocks} {fs : List Frame} (h : p.dlwh.frames = fs.map some) :
    framesOf p = fs := by
  simp [framesOf, h, Function.comp_def]

theorem frameTyr_eq (fs : List Frame) : frameTyr fs = tyrBlock (fs.map fun f => (f, 1)) := by
  simp [frameTyr, tyrBlock, Function.comp_def]

theorem frames_ok (fs : List Frame) : ∀ v ∈ fs.map (fun f => (f, 1)), TyrOk v := by
  intro v hv
  obtain ⟨f, _, rfl⟩ := List.mem_map.mp hv
  exact ⟨by unfold FitsN; omega, fun _ => by simp⟩

theorem pin_words (p : SecondaryBlocks) : particleWords (pin p) = p.hpd.xss ++ p.mtrh.xss ++
    (frameTyr (framesOf p)).xss ++ p.sigh.xss ++ p.andh.xss ++ p.dlwh.block.xss ++ p.yh.xss := rfl

theorem readParticle_eq {d : TableData} {ntro : NTRO} {ixs : IXS} {i n : Nat}
    {pre post : List Nat} {p : SecondaryBlocks} {w0 : Dbl} {a c : Words} (hs : SoundSecondary p)
    (hn : ntro.NP (i + 1) = .ok p.mtrh.n)
    (hx : ixs.xss = (pre ++ particleLocators n (pin p) ++ post).map Dbl.ofNat ++ [w0])
    (hpre : pre.length = 10 * i)
    (hd : d.xss = a ++ particleWords (pin p) ++ c) (ha : a.length = n)
    (hpost : (post = [] ∧ c = [] ∧ ∀ s, n ≤ s → w0.geNat (s + 1) = false) ∨
      ∃ r, post = (n + (particleWords (pin p)).length + 1) :: r)
    (hf : FitsN (d.xss.length + 1)) : readParticle d ntro ixs (i + 1) = .ok (particleOf p) := by
  obtain ⟨fs, hfs, hfl⟩ := hs.frames
  have hft := framesOf_eq hfs
  have hty : (frameTyr (framesOf p)).xss.length = p.mtrh.n := by
    rw [hft]; simp [frameTyr, hfl]
  have l4 := locBlock_length hs.sigh
  have l6 : p.mtrh.n ≤ p.andh.xss.length := by simpa using angular_length hs.andh
  have l8 : p.mtrh.n ≤ p.dlwh.block.xss.length := by
    have := locBlock_length hs.dlwh; rw [hs.ndlwh] at this; exact this
  have hlen : d.xss.length = n + (particleWords (pin p)).length + c.length := by
    rw [hd]; simp [ha]; omega
  have hpw : (particleWords (pin p)).length = p.hpd.xss.length + p.mtrh.xss.length + p.mtrh.n +
      p.sigh.xss.length + p.andh.xss.length + p.dlwh.block.xss.length + p.yh.xss.length := by
    rw [pin_words]; simp only [List.length_append, hty]
  have hplen : particleLocators n (pin p) =
      let n1 := n + p.hpd.xss.length
      let n2 := n1 + p.mtrh.xss.length
      let n3 := n2 + p.mtrh.n
      let n4 := n3 + p.sigh.xss.length
      let n5 := n4 + p.andh.xss.length
      let n6 := n5 + p.dlwh.block.xss.length
      [n + 1, n1 + 1, n2 + 1, n3 + 1, n3 + p.mtrh.n + 1, n4 + 1, n4 + p.mtrh.n + 1, n5 + 1,
        n5 + p.mtrh.n + 1, n6 + 1] := by
    simp only [particleLocators, pin, hty]
  simp only at hplen
  rw [hplen] at hx
  have hdw : d.xss = a ++ p.hpd.xss ++ p.mtrh.xss ++
    (frameTyr (framesOf p)).xss ++ p.sigh.xss ++ p.andh.xss ++ p.dlwh.block.xss ++ p.yh.xss ++ c := by
    rw [hd, pin_words]; simp only [List.append_assoc]
  generalize e1 : n + p.hpd.xss.length = n1 at *
  generalize e2 : n1 + p.mtrh.xss.length = n2 at *
  generalize e3 : n2 + p.mtrh.n = n3 at *
  generalize e4 : n3 + p.sigh.xss.length = n4 at *
  generalize e5 : n4 + p.andh.xss.length = n5 at *
  generalize e6 : n5 + p.dlwh.block.xss.length = n6 at *
  have e7 : n + (particleWords (pin p)).length = n6 + p.yh.xss.length := by omega
  generalize hN : n + (particleWords (pin p)).length = n7 at *
  have fit : ∀ v, v ≤ n7 → FitsN (v + 1) := by
    intro v hv; unfold FitsN at hf ⊢; omega
  have le : ∀ v, v ≤ n7 → v ≤ d.xss.length := by intro v hv; omega
  have b1 : particleBlock d ixs (i + 1) 1 = .ok (n, n1) :=
    particleBlock_next _ pre _ [w0] n n1 _ _ hx (by rw [List.append_assoc]; rfl) (by omega) (by omega)
      (fit _ (by omega)) (le _ (by omega))
  have b2 : particleBlock d ixs (i + 1) 2 = .ok (n1, n2) :=
    particleBlock_next _ (pre ++ [n + 1]) _ [w0] _ _ _ _ hx (by rw [List.append_assoc, List.append_assoc]; rfl) (by simp; omega)
      (by omega) (fit _ (by omega)) (le _ (by omega))
  have b3 : particleBlock d ixs (i + 1) 3 = .ok (n2, n3) :=
    particleBlock_next _ (pre ++ [n + 1, n1 + 1]) _ [w0] _ _ _ _ hx (by rw [List.append_assoc, List.append_assoc]; rfl)
      (by simp; omega) (by omega) (fit _ (by omega)) (le _ (by omega))
  have b4 : particleBlock d ixs (i + 1) 4 = .ok (n3, n3 + p.mtrh.n) :=
    particleBlock_next _ (pre ++ [n + 1, n1 + 1, n2 + 1]) _ [w0] _ _ _ _ hx (by rw [List.append_assoc, List.append_assoc]; rfl)
      (by simp; omega) (by omega) (fit _ (by omega)) (le _ (by omega))
  have b5 : particleBlock d ixs (i + 1) 5 = .ok (n3 + p.mtrh.n, n4) :=
    particleBlock_next _ (pre ++ [n + 1, n1 + 1, n2 + 1, n3 + 1]) _ [w0] _ _ _ _
      hx (by rw [List.append_assoc, List.append_assoc]; rfl)
      (by simp; omega) (by omega) (fit _ (by omega)) (le _ (by omega))
  have b6 : particleBlock d ixs (i + 1) 6 = .ok (n4, n4 + p.mtrh.n) :=
    particleBlock_next _ (pre ++ [n + 1, n1 + 1, n2 + 1, n3 + 1, n3 + p.mtrh.n + 1]) _ [w0] _ _ _ _
      hx (by rw [List.append_assoc, List.append_assoc]; rfl)
      (by simp; omega) (by omega) (fit _ (by omega)) (le _ (by omega))
  have b7 : particleBlock d ixs (i + 1) 7 = .ok (n4 + p.mtrh.n, n5) :=
    particleBlock_next _ (pre ++ [n + 1, n1 + 1, n2 + 1, n3 + 1, n3 + p.mtrh.n + 1, n4 + 1]) _ [w0]
      _ _ _ _ hx (by rw [List.append_assoc, List.append_assoc]; rfl)
      (by simp; omega) (by omega) (fit _ (by omega)) (le _ (by omega))
  have b8 : particleBlock d ixs (i + 1) 8 = .ok (n5, n5 + p.mtrh.n) :=
    particleBlock_next _ (pre ++ [n + 1, n1 + 1, n2 + 1, n3 + 1, n3 + p.mtrh.n + 1, n4 + 1,
      n4 + p.mtrh.n + 1]) _ [w0] _ _ _ _ hx (by rw [List.append_assoc, List.append_assoc]; rfl)
      (by simp; omega) (by omega) (fit _ (by omega)) (le _ (by omega))
  have b9 : particleBlock d ixs (i + 1) 9 = .ok (n5 + p.mtrh.n, n6) :=
    particleBlock_next _ (pre ++ [n + 1, n1 + 1, n2 + 1, n3 + 1, n3 + p.mtrh.n + 1, n4 + 1,
      n4 + p.mtrh.n + 1, n5 + 1]) _ [w0] _ _ _ _ hx (by rw [List.append_assoc, List.append_assoc]; rfl)
      (by simp; omega) (by omega) (fit _ (by omega)) (le _ (by omega))
  have b10 : particleBlock d ixs (i + 1) 10 = .ok (n6, n7) := by
    rcases hpost with ⟨hp, hc, hw⟩ | ⟨r, hp⟩
    · have hl7 : d.xss.length = n7 := by rw [hlen, hc]; simp
      rw [← hl7]
      exact particleBlock_last (pre ++ [n + 1, n1 + 1, n2 + 1, n3 + 1, n3 + p.mtrh.n + 1, n4 + 1,
        n4 + p.mtrh.n + 1, n5 + 1, n5 + p.mtrh.n + 1]) w0 n6 _ _ (by rw [hx, hp]; simp)
        (by simp; omega) (hw _ (by omega)) (fit _ (by omega)) (le _ (by omega))
    · exact particleBlock_next _ (pre ++ [n + 1, n1 + 1, n2 + 1, n3 + 1, n3 + p.mtrh.n + 1, n4 + 1,
        n4 + p.mtrh.n + 1, n5 + 1, n5 + p.mtrh.n + 1]) r [w0] n6 n7 _ _ hx
        (by rw [hp, List.append_assoc, List.append_assoc]; rfl)
        (by simp; omega) (by omega) (fit _ (by omega)) (le _ (by omega))
  have w1 : sub d.xss n n1 = .ok p.hpd.xss :=
    sub_of_eq (a := a) (c := p.mtrh.xss ++ (frameTyr (framesOf p)).xss ++ p.sigh.xss ++
      p.andh.xss ++ p.dlwh.block.xss ++ p.yh.xss ++ c) (by rw [hdw]; simp) (by omega) (by omega)
  have w2 : sub d.xss n1 n2 = .ok p.mtrh.xss :=
    sub_of_eq (a := a ++ p.hpd.xss) (c := (frameTyr (framesOf p)).xss ++ p.sigh.xss ++
      p.andh.xss ++ p.dlwh.block.xss ++ p.yh.xss ++ c) (by rw [hdw]; simp) (by simp; omega)
      (by simp; omega)
  have w3 : sub d.xss n2 n3 = .ok (frameTyr (framesOf p)).xss :=
    sub_of_eq (a := a ++ p.hpd.xss ++ p.mtrh.xss) (c := p.sigh.xss ++
      p.andh.xss ++ p.dlwh.block.xss ++ p.yh.xss ++ c) (by rw [hdw]; simp) (by simp; omega)
      (by simp; omega)
  have w4 : sub d.xss n3 n4 = .ok p.sigh.xss :=
    sub_of_eq (a := a ++ p.hpd.xss ++ p.mtrh.xss ++ (frameTyr (framesOf p)).xss) (c :=
      p.andh.xss ++ p.dlwh.block.xss ++ p.yh.xss ++ c) (by rw [hdw]; simp) (by simp; omega)
      (by simp; omega)
  have w6 : sub d.xss n4 n5 = .ok p.andh.xss :=
    sub_of_eq (a := a ++ p.hpd.xss ++ p.mtrh.xss ++ (frameTyr (framesOf p)).xss ++ p.sigh.xss) (c :=
      p.dlwh.block.xss ++ p.yh.xss ++ c) (by rw [hdw]; simp) (by simp; omega)
      (by simp; omega)
  have w8 : sub d.xss n5 n6 = .ok p.dlwh.block.xss :=
    sub_of_eq (a := a ++ p.hpd.xss ++ p.mtrh.xss ++ (frameTyr (framesOf p)).xss ++ p.sigh.xss ++
      p.andh.xss) (c := p.yh.xss ++ c) (by rw [hdw]; simp) (by simp; omega) (by simp; omega)
  have w10 : sub d.xss n6 n7 = .ok p.yh.xss :=
    sub_of_eq (a := a ++ p.hpd.xss ++ p.mtrh.xss ++ (frameTyr (framesOf p)).xss ++ p.sigh.xss ++
      p.andh.xss ++ p.dlwh.block.xss) (c := c) (by rw [hdw]) (by simp; omega) (by simp; omega)
  have t1 : TYR.ofRange (frameTyr (framesOf p)).xss p.mtrh.n = .ok (frameTyr (framesOf p)) := by
    have := tyr_again _ (frames_ok fs)
    rw [List.length_map, hfl] at this
    rw [hft, frameTyr_eq]; exact this
  have t2 : DLWH.ofRange p.dlwh.block.xss p.mtrh.n (some (frameTyr (framesOf p))) p.mtrh.n =
      .ok ⟨p.dlwh.block, some (frameTyr (framesOf p)), p.dlwh.frames⟩ := by
    have h := hs.dlwh
    unfold SoundDLWH at h
    rw [hs.ndlwh] at h
    unfold DLWH.ofRange DLWH.generateFrames
    rw [h, ok_bind]
    simp only
    have : (frameTyr (framesOf p)).frames = fs := by rw [hft]; rfl
    rw [this, if_pos (by omega), hfs, ← hfl, List.take_length]; rfl
  unfold readParticle TableData.words
  simp only [b1, b2, b3, b4, b5, b6, b7, b8, b9, b10, ok_bind, w1, w2, w3, w10, hs.hpd, hn, hs.mtrh,
    t1, hs.yh]
  rw [show located d (n3, n3 + p.mtrh.n) (n3 + p.mtrh.n, n4) = .ok (p.sigh.xss, p.mtrh.n) from
    located_of w4, ok_bind, hs.sigh, ok_bind,
    show located d (n4, n4 + p.mtrh.n) (n4 + p.mtrh.n, n5) = .ok (p.andh.xss, p.mtrh.n) from
    located_of w6, ok_bind, hs.andh, ok_bind,
    show located d (n5, n5 + p.mtrh.n) (n5 + p.mtrh.n, n6) = .ok (p.dlwh.block.xss, p.mtrh.n) from
    located_of w8, ok_bind, t2]
  rfl

end CE
end ACE

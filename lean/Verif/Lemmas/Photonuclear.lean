import Verif.Model.Photonuclear
import Verif.Lemmas.Photoatomic
import Verif.Lemmas.ContinuousSecondary
import Verif.Lemmas.ContinuousTable
import Verif.Lemmas.ContinuousData

/-! # The data and blocks of a photonuclear table -/

namespace ACE.PN
open ACE.Props

/-! ## The locator block -/

theorem LLOC_of {ixs : IXSU} {k pre post : List Nat} {s p j : Nat}
    (hx : ixs.xss = k.map Dbl.ofNat) (hk : k = pre ++ s :: post)
    (hi : (p - 1) * 12 + j = pre.length + 1) (hs : FitsN s)
    (hp : 1 ≤ p := by omega) : ixs.LLOC p j = .ok s := by
  subst hk
  unfold IXSU.LLOC
  rw [position_pos hp]
  have : Base.IXSS ixs.xss ((p - 1) * 12 + j) = .ok (s : Int) :=
    Base.IXSS_ofNat (a := pre.map Dbl.ofNat) (c := post.map Dbl.ofNat)
      (by rw [hx]; simp) (by simpa using hi) hs
  rw [this, ok_bind, sizeOfInt_natCast hs]; rfl

/-- The first locator that is not before the block. -/
theorem particleEnd_next {ixs : IXSU} {k pre small post : List Nat} {s e p j : Nat}
    (hx : ixs.xss = k.map Dbl.ofNat) (hk : k = pre ++ s :: (small ++ e :: post))
    (hi : (p - 1) * 12 + j = pre.length + 1) (hsm : ∀ v ∈ small, v < s) (hle : s ≤ e) (he : FitsN e) :
    particleEnd ixs p j s = .ok e := by
  subst hk
  unfold particleEnd
  have : sub ixs.xss ((p - 1) * 12 + j) ixs.xss.length = .ok ((small ++ e :: post).map Dbl.ofNat) :=
    sub_of_eq (a := (pre ++ [s]).map Dbl.ofNat) (c := []) (by rw [hx]; simp) (by simpa using hi)
      (by rw [hx]; simp; omega)
  rw [this]
  have hf : ∀ small : List Nat, (∀ v ∈ small, v < s) →
      ((small ++ e :: post).map Dbl.ofNat).find? (fun value => value.geNat s) = some (Dbl.ofNat e) := by
    intro l
    induction l with
    | nil => intro _; simp [hle]
    | cons v l ih =>
      intro h
      have hv := h v (by simp)
      rw [List.cons_append, List.map_cons, List.find?_cons_of_neg (by rw [geNat_ofNat]; simpa using hv)]
      exact ih fun w hw => h w (by simp [hw])
  simp only [ok_bind, hf small hsm, Dbl.trunc?_ofNat]
  exact toSize_natCast he

theorem particleEnd_last {ixs : IXSU} {k pre : List Nat} {s p j : Nat}
    (hx : ixs.xss = k.map Dbl.ofNat) (hk : k = pre ++ [s]) (hi : (p - 1) * 12 + j = pre.length + 1) :
    particleEnd ixs p j s = .ok 0 := by
  subst hk
  unfold particleEnd
  have : sub ixs.xss ((p - 1) * 12 + j) ixs.xss.length = .ok [] :=
    sub_of_eq (a := (pre ++ [s]).map Dbl.ofNat) (c := []) (by rw [hx]; simp) (by simpa using hi)
      (by rw [hx]; simp)
  rw [this]
  rfl

theorem particleBlock_next {d : TableData} {ixs : IXSU} (k pre small post : List Nat) (s e p j : Nat)
    (hx : ixs.xss = k.map Dbl.ofNat) (hk : k = pre ++ (s + 1) :: (small ++ (e + 1) :: post))
    (hi : (p - 1) * 12 + j = pre.length + 1) (hsm : ∀ v ∈ small, v ≤ s) (hle : s ≤ e)
    (hf : FitsN (d.xss.length + 1)) (hl : e ≤ d.xss.length)
    (hp : 1 ≤ p := by omega) : particleBlock d ixs p j = .ok (s, e) := by
  unfold FitsN at hf
  unfold particleBlock
  rw [LLOC_of hx hk hi (by unfold FitsN; omega), ok_bind,
    particleEnd_next hx hk hi (fun v hv => by have := hsm v hv; omega) (by omega) (by unfold FitsN; omega),
    ok_bind, CE.range_ok d _ _ (by omega) (by omega) (by omega) (by omega)]
  rfl

theorem particleBlock_last {d : TableData} {ixs : IXSU} (k pre : List Nat) (s p j : Nat)
    (hx : ixs.xss = k.map Dbl.ofNat) (hk : k = pre ++ [s + 1])
    (hi : (p - 1) * 12 + j = pre.length + 1) (hf : FitsN (d.xss.length + 1))
    (hl : s ≤ d.xss.length)
    (hp : 1 ≤ p := by omega) : particleBlock d ixs p j = .ok (s, d.xss.length) := by
  unfold FitsN at hf
  unfold particleBlock
  rw [LLOC_of (post := []) hx hk hi (by unfold FitsN; omega), ok_bind,
    particleEnd_last hx hk hi, ok_bind, CE.range_end d _ (by omega) (by omega)]
  rfl

/-! ## Several particles -/

/-- The locators of particles in a row. -/
def locs : Nat → List Particle → List (List Nat)
  | _, [] => []
  | n, p :: ps => particleLocators n p :: locs (n + (particleWords p).length) ps

/-- The words of the particles. -/
def bodies (ps : List Particle) : Words := (ps.map particleWords).flatten

/-- The numbers in the locator block: the particle types go with the particles. -/
def flat : Nat → List (Nat × Particle) → List Nat
  | _, [] => []
  | n, p :: ps => p.1 :: p.2.mtrh.n :: particleLocators n p.2 ++ flat (n + (particleWords p.2).length) ps

theorem locs_length (n : Nat) (ps : List Particle) : (locs n ps).length = ps.length := by
  induction ps generalizing n with
  | nil => rfl
  | cons p ps ih => simp [locs, ih]

theorem particleLocators_length (n : Nat) (p : Particle) : (particleLocators n p).length = 10 := rfl

theorem flat_length (n : Nat) (ps : List (Nat × Particle)) : (flat n ps).length = 12 * ps.length := by
  induction ps generalizing n with
  | nil => rfl
  | cons p ps ih =>
    simp only [flat, List.length_append, List.length_cons, ih, particleLocators_length]; omega

theorem flat_append (n : Nat) (a b : List (Nat × Particle)) :
    flat n (a ++ b) = flat n a ++ flat (n + (bodies (a.map (·.2))).length) b := by
  induction a generalizing n with
  | nil => simp [flat, bodies]
  | cons p a ih =>
    simp only [List.cons_append, flat, ih, bodies, List.map_cons, List.flatten_cons, List.length_append,
      List.append_assoc, Nat.add_assoc]

theorem bodies_append (a b : List Particle) : bodies (a ++ b) = bodies a ++ bodies b := by
  simp [bodies]

theorem rows_eq (n : Nat) (ps : List (Nat × Particle)) :
    IXSU.rows (ps.map (·.1)) (ps.map (·.2.mtrh.n)) (locs n (ps.map (·.2))) = (flat n ps).map Dbl.ofNat := by
  induction ps generalizing n with
  | nil => rfl
  | cons p ps ih =>
    simp only [List.map_cons, locs, IXSU.rows, flat, ih, List.map_append, List.cons_append]

theorem particleLoop_eq (size : Nat) (ps : List Particle) (xss : Words) (ixs : List (List Nat)) :
    particleLoop size ps xss ixs = (xss ++ bodies ps, ixs ++ locs (xss.length + size) ps) := by
  induction ps generalizing xss ixs with
  | nil => simp [particleLoop, bodies, locs]
  | cons p ps ih =>
    unfold particleLoop
    rw [ih]
    simp only [bodies, locs, List.map_cons, List.flatten_cons, List.append_assoc,
      List.length_append, List.singleton_append]
    rw [Nat.add_right_comm]

/-! ## One particle -/

/-- The blocks of a particle read back from their own words; the numbers of reactions agree. The TYRH
block is that of the frames. -/
structure ParticleRead (p : Particle) (fs : List Frame) : Prop where
  pxs : CrossSectionData.ofRange p.pxs.xss = .ok p.pxs
  phn : CrossSectionData.ofRange p.phn.xss = .ok p.phn
  mtrh : MTR.ofRange p.mtrh.xss p.mtrh.n = .ok p.mtrh
  tyrh : p.tyrh = CE.frameTyr fs
  sigh : SIGH.ofRange p.sigh.xss p.mtrh.n p.mtrh.n = .ok p.sigh
  andh : AngularBlock.ofRange p.andh.xss p.mtrh.n p.mtrh.n false = .ok p.andh
  dlwh : SoundDLWH p.dlwh
  ndlwh : p.dlwh.block.n = p.mtrh.n
  frames : p.dlwh.frames = fs.map some
  nframes : fs.length = p.mtrh.n

/-- The particle that is read: the DLWH block refers to the TYRH block. -/
def readOf (p : Particle) : Particle :=
  { p with dlwh := ⟨p.dlwh.block, some p.tyrh, p.dlwh.frames⟩ }

theorem readParticle_eq {d : TableData} {ixs : IXSU} {i n t : Nat} {pre post : List Nat} {p : Particle}
    {fs : List Frame} {a c : Words} (hs : ParticleRead p fs)
    (hx : ixs.xss = (pre ++ (t :: p.mtrh.n :: particleLocators n p ++ post)).map Dbl.ofNat)
    (hpre : pre.length = 12 * i)
    (hd : d.xss = a ++ particleWords p ++ c) (ha : a.length = n)
    (hpost : (post = [] ∧ c = []) ∨
      ∃ small r, post = small ++ (n + (particleWords p).length + 1) :: r ∧ ∀ v ∈ small, v ≤ n)
    (hf : FitsN (d.xss.length + 1)) : readParticle d ixs (i + 1) = .ok (readOf p) := by
  have hty : p.tyrh.xss.length = p.mtrh.n := by
    rw [hs.tyrh]; simp [CE.frameTyr, hs.nframes]
  have l4 := CE.locBlock_length hs.sigh
  have l6 : p.mtrh.n ≤ p.andh.xss.length := by simpa using CE.angular_length hs.andh
  have l8 : p.mtrh.n ≤ p.dlwh.block.xss.length := by
    have := CE.locBlock_length hs.dlwh; rw [hs.ndlwh] at this; exact this
  have hlen : d.xss.length = n + (particleWords p).length + c.length := by
    rw [hd]; simp [ha]; omega
  have hpw : (particleWords p).length = p.pxs.xss.length + p.phn.xss.length + p.mtrh.xss.length + p.mtrh.n +
      p.sigh.xss.length + p.andh.xss.length + p.dlwh.block.xss.length := by
    simp only [particleWords, List.length_append, hty]
  have hplen : particleLocators n p =
      let n1 := n + p.pxs.xss.length
      let n2 := n1 + p.phn.xss.length
      let n3 := n2 + p.mtrh.xss.length
      let n4 := n3 + p.mtrh.n
      let n5 := n4 + p.sigh.xss.length
      let n6 := n5 + p.andh.xss.length
      [n + 1, n1 + 1, n2 + 1, n3 + 1, n4 + 1, n4 + p.mtrh.n + 1, n5 + 1, n5 + p.mtrh.n + 1, n6 + 1,
        n6 + p.mtrh.n + 1] := by
    simp only [particleLocators, hty]
  simp only at hplen
  rw [hplen] at hx
  have hdw : d.xss = a ++ p.pxs.xss ++ p.phn.xss ++ p.mtrh.xss ++ p.tyrh.xss ++ p.sigh.xss ++ p.andh.xss ++
      p.dlwh.block.xss ++ c := by
    rw [hd, particleWords]; simp only [List.append_assoc]
  generalize e1 : n + p.pxs.xss.length = n1 at *
  generalize e2 : n1 + p.phn.xss.length = n2 at *
  generalize e3 : n2 + p.mtrh.xss.length = n3 at *
  generalize e4 : n3 + p.mtrh.n = n4 at *
  generalize e5 : n4 + p.sigh.xss.length = n5 at *
  generalize e6 : n5 + p.andh.xss.length = n6 at *
  have e7 : n + (particleWords p).length = n6 + p.dlwh.block.xss.length := by omega
  generalize hN : n + (particleWords p).length = n7 at *
  have nofew : ∀ s : Nat, ∀ v ∈ ([] : List Nat), v ≤ s := by simp
  have b3 : particleBlock d ixs (i + 1) 3 = .ok (n, n1) :=
    particleBlock_next _ (pre ++ [t, p.mtrh.n]) [] _ n n1 _ _ hx (by rw [List.append_assoc]; rfl)
      (by simp; omega) (nofew _) (by omega) hf (by omega)
  have b4 : particleBlock d ixs (i + 1) 4 = .ok (n1, n2) :=
    particleBlock_next _ (pre ++ [t, p.mtrh.n, n + 1]) [] _ _ _ _ _ hx (by rw [List.append_assoc]; rfl)
      (by simp; omega) (nofew _) (by omega) hf (by omega)
  have b5 : particleBlock d ixs (i + 1) 5 = .ok (n2, n3) :=
    particleBlock_next _ (pre ++ [t, p.mtrh.n, n + 1, n1 + 1]) [] _ _ _ _ _ hx (by rw [List.append_assoc]; rfl)
      (by simp; omega) (nofew _) (by omega) hf (by omega)
  have b6 : particleBlock d ixs (i + 1) 6 = .ok (n3, n4) :=
    particleBlock_next _ (pre ++ [t, p.mtrh.n, n + 1, n1 + 1, n2 + 1]) [] _ _ _ _ _ hx
      (by rw [List.append_assoc]; rfl) (by simp; omega) (nofew _) (by omega) hf (by omega)
  have b7 : particleBlock d ixs (i + 1) 7 = .ok (n4, n4 + p.mtrh.n) :=
    particleBlock_next _ (pre ++ [t, p.mtrh.n, n + 1, n1 + 1, n2 + 1, n3 + 1]) [] _ _ _ _ _ hx
      (by rw [List.append_assoc]; rfl) (by simp; omega) (nofew _) (by omega) hf (by omega)
  have b8 : particleBlock d ixs (i + 1) 8 = .ok (n4 + p.mtrh.n, n5) :=
    particleBlock_next _ (pre ++ [t, p.mtrh.n, n + 1, n1 + 1, n2 + 1, n3 + 1, n4 + 1]) [] _ _ _ _ _ hx
      (by rw [List.append_assoc]; rfl) (by simp; omega) (nofew _) (by omega) hf (by omega)
  have b9 : particleBlock d ixs (i + 1) 9 = .ok (n5, n5 + p.mtrh.n) :=
    particleBlock_next _ (pre ++ [t, p.mtrh.n, n + 1, n1 + 1, n2 + 1, n3 + 1, n4 + 1, n4 + p.mtrh.n + 1]) []
      _ _ _ _ _ hx (by rw [List.append_assoc]; rfl) (by simp; omega) (nofew _) (by omega) hf (by omega)
  have b10 : particleBlock d ixs (i + 1) 10 = .ok (n5 + p.mtrh.n, n6) :=
    particleBlock_next _ (pre ++ [t, p.mtrh.n, n + 1, n1 + 1, n2 + 1, n3 + 1, n4 + 1, n4 + p.mtrh.n + 1,
      n5 + 1]) []
      _ _ _ _ _ hx (by rw [List.append_assoc]; rfl) (by simp; omega) (nofew _) (by omega) hf (by omega)
  have b11 : particleBlock d ixs (i + 1) 11 = .ok (n6, n6 + p.mtrh.n) :=
    particleBlock_next _ (pre ++ [t, p.mtrh.n, n + 1, n1 + 1, n2 + 1, n3 + 1, n4 + 1, n4 + p.mtrh.n + 1,
      n5 + 1, n5 + p.mtrh.n + 1]) []
      _ _ _ _ _ hx (by rw [List.append_assoc]; rfl) (by simp; omega) (nofew _) (by omega) hf (by omega)
  have b12 : particleBlock d ixs (i + 1) 12 = .ok (n6 + p.mtrh.n, n7) := by
    rcases hpost with ⟨hp, hc⟩ | ⟨small, r, hp, hsm⟩
    · have hl7 : d.xss.length = n7 := by rw [hlen, hc]; simp
      rw [← hl7]
      exact particleBlock_last _ (pre ++ [t, p.mtrh.n, n + 1, n1 + 1, n2 + 1, n3 + 1, n4 + 1,
        n4 + p.mtrh.n + 1, n5 + 1, n5 + p.mtrh.n + 1, n6 + 1]) _ _ _ hx
        (by rw [hp, List.append_assoc]; rfl) (by simp; omega) hf (by omega)
    · exact particleBlock_next _ (pre ++ [t, p.mtrh.n, n + 1, n1 + 1, n2 + 1, n3 + 1, n4 + 1,
        n4 + p.mtrh.n + 1, n5 + 1, n5 + p.mtrh.n + 1, n6 + 1]) small r _ _ _ _ hx
        (by rw [hp, List.append_assoc]; rfl) (by simp; omega)
        (fun v hv => by have := hsm v hv; omega) (by omega) hf (by omega)
  have w3 : sub d.xss n n1 = .ok p.pxs.xss :=
    sub_of_eq (a := a) (c := p.phn.xss ++ p.mtrh.xss ++ p.tyrh.xss ++ p.sigh.xss ++ p.andh.xss ++
      p.dlwh.block.xss ++ c) (by rw [hdw]; simp) (by omega) (by omega)
  have w4 : sub d.xss n1 n2 = .ok p.phn.xss :=
    sub_of_eq (a := a ++ p.pxs.xss) (c := p.mtrh.xss ++ p.tyrh.xss ++ p.sigh.xss ++ p.andh.xss ++
      p.dlwh.block.xss ++ c) (by rw [hdw]; simp) (by simp; omega) (by simp; omega)
  have w5 : sub d.xss n2 n3 = .ok p.mtrh.xss :=
    sub_of_eq (a := a ++ p.pxs.xss ++ p.phn.xss) (c := p.tyrh.xss ++ p.sigh.xss ++ p.andh.xss ++
      p.dlwh.block.xss ++ c) (by rw [hdw]; simp) (by simp; omega) (by simp; omega)
  have w6 : sub d.xss n3 n4 = .ok p.tyrh.xss :=
    sub_of_eq (a := a ++ p.pxs.xss ++ p.phn.xss ++ p.mtrh.xss) (c := p.sigh.xss ++ p.andh.xss ++
      p.dlwh.block.xss ++ c) (by rw [hdw]; simp) (by simp; omega) (by simp; omega)
  have w7 : sub d.xss n4 n5 = .ok p.sigh.xss :=
    sub_of_eq (a := a ++ p.pxs.xss ++ p.phn.xss ++ p.mtrh.xss ++ p.tyrh.xss) (c := p.andh.xss ++
      p.dlwh.block.xss ++ c) (by rw [hdw]; simp) (by simp; omega) (by simp; omega)
  have w9 : sub d.xss n5 n6 = .ok p.andh.xss :=
    sub_of_eq (a := a ++ p.pxs.xss ++ p.phn.xss ++ p.mtrh.xss ++ p.tyrh.xss ++ p.sigh.xss)
      (c := p.dlwh.block.xss ++ c) (by rw [hdw]; simp) (by simp; omega) (by simp; omega)
  have w11 : sub d.xss n6 n7 = .ok p.dlwh.block.xss :=
    sub_of_eq (a := a ++ p.pxs.xss ++ p.phn.xss ++ p.mtrh.xss ++ p.tyrh.xss ++ p.sigh.xss ++ p.andh.xss)
      (c := c) (by rw [hdw]) (by simp; omega) (by simp; omega)
  have hnp : ixs.NP (i + 1) = .ok p.mtrh.n := by
    unfold FitsN at hf
    unfold IXSU.NP
    rw [LLOC_of hx (pre := pre ++ [t]) (s := p.mtrh.n) (by rw [List.append_assoc]; rfl) (by simp; omega)
      (by unfold FitsN; omega), ok_bind]
    unfold u32OfInt
    simp only [pure_eq_ok]
    congr 1
    omega
  have t1 : TYR.ofRange p.tyrh.xss p.mtrh.n = .ok p.tyrh := by
    have := CE.tyr_again _ (CE.frames_ok fs)
    rw [List.length_map, hs.nframes] at this
    rw [hs.tyrh, CE.frameTyr_eq]; exact this
  have t2 : ACE.DLWH.ofRange p.dlwh.block.xss p.mtrh.n (some p.tyrh) p.mtrh.n =
      .ok ⟨p.dlwh.block, some p.tyrh, p.dlwh.frames⟩ := by
    have h := hs.dlwh
    unfold SoundDLWH at h
    rw [hs.ndlwh] at h
    unfold ACE.DLWH.ofRange ACE.DLWH.generateFrames
    rw [h, ok_bind]
    simp only
    have : p.tyrh.frames = fs := by rw [hs.tyrh]; rfl
    rw [this, if_pos (by have := hs.nframes; omega), hs.frames, ← hs.nframes, List.take_length]; rfl
  unfold readParticle TableData.words
  simp only [b3, b4, b5, b6, b7, b8, b9, b10, b11, b12, ok_bind, w3, w4, w5, w6, hs.pxs, hs.phn, hnp, hs.mtrh, t1]
  rw [show CE.located d (n4, n4 + p.mtrh.n) (n4 + p.mtrh.n, n5) = .ok (p.sigh.xss, p.mtrh.n) from
    CE.located_of w7, ok_bind, hs.sigh, ok_bind,
    show CE.located d (n5, n5 + p.mtrh.n) (n5 + p.mtrh.n, n6) = .ok (p.andh.xss, p.mtrh.n) from
    CE.located_of w9, ok_bind, hs.andh, ok_bind,
    show CE.located d (n6, n6 + p.mtrh.n) (n6 + p.mtrh.n, n7) = .ok (p.dlwh.block.xss, p.mtrh.n) from
    CE.located_of w11, ok_bind, t2]
  rfl

/-- All particles: `n` words precede them, and their types and numbers of reactions are not more than
`n`. -/
theorem readParticles_eq {d : TableData} {ixs : IXSU} {n : Nat} (ps : List (Nat × Particle))
    (fs : Nat × Particle → List Frame) {a : Words}
    (hs : ∀ p ∈ ps, ParticleRead p.2 (fs p)) (hsm : ∀ p ∈ ps, p.1 ≤ n ∧ p.2.mtrh.n ≤ n)
    (hx : ixs.xss = (flat n ps).map Dbl.ofNat) (hd : d.xss = a ++ bodies (ps.map (·.2)))
    (ha : a.length = n) (hf : FitsN (d.xss.length + 1)) :
    (List.range' 1 ps.length).mapM (readParticle d ixs) = .ok (ps.map fun p => readOf p.2) := by
  have := mapM_range'_eq (readParticle d ixs) (ps.map fun p => readOf p.2) (fun i hi => by
    rw [List.length_map] at hi
    have hsplit : ps = ps.take i ++ ps[i] :: ps.drop (i + 1) := by simp
    rw [List.getElem_map]
    have hfl : flat n ps = flat n (ps.take i) ++
        (ps[i].1 :: ps[i].2.mtrh.n :: particleLocators (n + (bodies ((ps.take i).map (·.2))).length) ps[i].2 ++
          flat (n + (bodies ((ps.take i).map (·.2))).length + (particleWords ps[i].2).length)
            (ps.drop (i + 1))) := by
      conv => lhs; rw [hsplit, flat_append]
      rfl
    have hbd : d.xss = (a ++ bodies ((ps.take i).map (·.2))) ++ particleWords ps[i].2 ++
        bodies ((ps.drop (i + 1)).map (·.2)) := by
      rw [hd]
      conv => lhs; rw [hsplit, List.map_append, bodies_append]
      simp only [bodies, List.map_cons, List.flatten_cons, List.append_assoc]
    rw [hfl] at hx
    refine readParticle_eq (hs _ (List.getElem_mem hi)) hx
      (by rw [flat_length, List.length_take]; congr 1; omega) hbd (by simp [ha]) ?_ hf
    cases hr : ps.drop (i + 1) with
    | nil => exact .inl ⟨rfl, rfl⟩
    | cons q qs =>
      refine .inr ⟨[q.1, q.2.mtrh.n], _, rfl, ?_⟩
      have hq : q ∈ ps := List.mem_of_mem_drop (i := i + 1) (by rw [hr]; simp)
      have := hsm q hq
      intro v hv
      simp at hv
      rcases hv with rfl | rfl <;> omega)
  rwa [List.length_map] at this

end ACE.PN

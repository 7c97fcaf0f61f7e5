import Verif.Props.C09

/-!
# C25: photon production cross sections (SIGP), both representations

An entry is either a yield (MFTYPE 12 or 16, any value but 13) or a cross section (MFTYPE 13).
`IsPhoton` says that a data block found has the same representation and content.
-/

namespace ACE.Props
open ACE LocBlock

/-- The two representations: energy index and values of a cross section, or a yield. -/
inductive PhotonSpec where
  | xs (index : Nat) (values : Words)
  | yields (v : MultSpec)

/-- What a data block gives. -/
def IsPhoton : PhotonSpec → PhotonData → Prop
  | .xs index values, .xs d => d.MFTYPE = .ok 13 ∧ d.energyIndex = .ok index ∧
      d.numberValues = .ok values.length ∧ d.crossSections = .ok values
  | .yields v, .mult d => IsMult v d
  | _, _ => False

/-- Built from its specification. -/
def mkPhoton : PhotonSpec → Res PhotonData
  | .xs index values => .ok (.xs (PhotonXS.mk' index values))
  | .yields v => do return .mult (← mkMult v)

/-- The integers of the entry fit an `int` and a yield does not claim MFTYPE 13. -/
def PhotonSpec.Ok : PhotonSpec → Prop
  | .xs index _ => FitsN index
  | .yields v => FitsN v.1 ∧ FitsN v.2.1 ∧ v.1 ≠ 13

theorem photonXS_words (index : Nat) (values rest : Words) (h1 : FitsN index)
    (h2 : FitsN values.length) :
    PhotonXS.ofRange ((PhotonXS.mk' index values).xss ++ rest) =
      .ok ⟨(PhotonXS.mk' index values).xss ++ rest⟩ ∧
    IsPhoton (.xs index values) (.xs ⟨(PhotonXS.mk' index values).xss ++ rest⟩) := by
  have e1 : Base.IXSS ((PhotonXS.mk' index values).xss ++ rest) 1 = .ok ((13 : Nat) : Int) :=
    Base.IXSS_ofNat (a := []) (by simp [PhotonXS.mk']; rfl) (by simp) (by decide)
  have e2 : Base.IXSS ((PhotonXS.mk' index values).xss ++ rest) 2 = .ok (index : Int) :=
    Base.IXSS_ofNat (a := [Dbl.ofNat 13]) (by simp [PhotonXS.mk']; rfl) (by simp) h1
  have e3 : Base.XSS ((PhotonXS.mk' index values).xss ++ rest) 3 = .ok (Dbl.ofNat values.length) :=
    Base.XSS_of_eq (a := [Dbl.ofNat 13, Dbl.ofNat index]) (by simp [PhotonXS.mk']; rfl) (by simp)
  have e4 : Base.XSSr ((PhotonXS.mk' index values).xss ++ rest) 4 values.length = .ok values :=
    Base.XSSr_of_eq (a := [Dbl.ofNat 13, Dbl.ofNat index, Dbl.ofNat values.length]) (c := rest)
      (by simp [PhotonXS.mk']) (by simp) rfl
  have hn : PhotonXS.numberValues ⟨(PhotonXS.mk' index values).xss ++ rest⟩ =
      .ok values.length := by
    unfold PhotonXS.numberValues
    rw [e3, ok_bind, Dbl.trunc?_ofNat, toSize_natCast h2]
  refine ⟨?_, ?_, ?_, hn, ?_⟩
  · unfold PhotonXS.ofRange
    rw [hn, ok_bind, guardThrow_not_lt_mod (by simp [PhotonXS.mk'])]; rfl
  · unfold PhotonXS.MFTYPE
    rw [e1, ok_bind, u32OfInt_natCast (by decide)]; rfl
  · unfold PhotonXS.energyIndex
    rw [e2, ok_bind, sizeOfInt_natCast h1]; rfl
  · unfold PhotonXS.crossSections
    rw [hn]; exact e4

/-- A data block built from its specification is read back with the same representation. -/
theorem photon_built (v : PhotonSpec) (d : PhotonData) (hd : mkPhoton v = .ok d)
    (hl : FitsN (d.xss.length + 1)) (ho : v.Ok) (l : Nat) (t : Words) :
    ∃ d', SIGP.gen l (d.xss ++ t) = .ok d' ∧ IsPhoton v d' := by
  cases v with
  | xs index values =>
    injection hd with hd; subst hd
    have hv : FitsN values.length := by simp [PhotonData.xss, PhotonXS.mk'] at hl; omega
    obtain ⟨h1, h2⟩ := photonXS_words index values t ho hv
    refine ⟨_, ?_, h2⟩
    unfold SIGP.gen PhotonData.xss
    have : deref ((PhotonXS.mk' index values).xss ++ t) 0 = .ok (Dbl.ofNat 13) :=
      deref_of_eq (a := []) (by simp [PhotonXS.mk']; rfl) rfl
    simp only [this, ok_bind, Dbl.round?_ofNat, toInt32_some (FitsN.fits (n := 13) (by decide))]
    rw [h1]; rfl
  | yields v =>
    obtain ⟨d, hd', hd⟩ := bind_eq_ok.mp hd
    injection hd with hd; subst hd
    obtain ⟨ho1, ho2, ho3⟩ := ho
    obtain ⟨⟨w, hw⟩, _, h3⟩ := mult_built v d hd' hl ho1 ho2
    obtain ⟨d', hd', hi⟩ := h3 t
    refine ⟨.mult d', ?_, hi⟩
    unfold SIGP.gen PhotonData.xss
    have : deref (d.xss ++ t) 0 = .ok (Dbl.ofNat v.1) :=
      deref_of_eq (a := []) (by rw [hw]; simp; rfl) rfl
    simp only [this, ok_bind, Dbl.round?_ofNat, toInt32_some (FitsN.fits ho1)]
    rw [if_neg (by omega), hd']; rfl

/-- SIGP built from entries gives the entries back, also when its words are read back. -/
theorem C25_SIGP (vs : List PhotonSpec) (bs : List PhotonData) (hb : vs.mapM mkPhoton = .ok bs)
    (rest : Words) (hf : FitsN ((bs.map (·.xss)).flatten.length + 1)) (ho : ∀ v ∈ vs, v.Ok) :
    ∃ b, SIGP.mk' bs = .ok b ∧
      Gives b (bs.map (·.xss)) (fun i d => ∀ v, vs[i]? = some v → IsPhoton v d) ∧
      ∀ gap, ∃ r, SIGP.ofRange (b.xss.take vs.length ++ gap ++ b.xss.drop vs.length ++ rest)
          (vs.length + gap.length) vs.length = .ok r ∧
        Gives r (bs.map (·.xss)) (fun i d => ∀ v, vs[i]? = some v → IsPhoton v d) := by
  have hq : ∀ v ∈ vs, ∀ d, mkPhoton v = .ok d →
      FitsN (d.xss.length + 1) → ∀ t ∈ [[], rest], ∀ l,
      ∃ d', SIGP.gen l (d.xss ++ t) = .ok d' ∧ IsPhoton v d' :=
    fun v hv d hd hl t _ l => photon_built v d hd hl (ho v hv) l t
  have := C09_built _ (·.xss) SIGP.gen true vs bs hb rest IsPhoton hf hq
  simpa only [SIGP.mk', SIGP.ofRange] using this

-- a cross section and a yield
example : ([.xs 4 [Dbl.ofNat 7], .yields (16, 18, [], [], [Dbl.ofNat 1], [Dbl.ofNat 2])].mapM
      mkPhoton >>= fun bs => SIGP.mk' bs >>= fun b => do
      return ((← b.LLOC 2), (← b.get 1) == .xs (PhotonXS.mk' 4 [Dbl.ofNat 7]))) = .ok (5, true) := by
  decide
example : ([.xs 4 [Dbl.ofNat 7], .yields (16, 18, [], [], [Dbl.ofNat 1], [Dbl.ofNat 2])].mapM
      mkPhoton >>= fun bs => SIGP.mk' bs >>= fun b => b.get 2 >>= fun d =>
      match d with
      | .mult m => m.MT
      | .xs _ => .error .thrown) = .ok 18 := by decide

/-- A yield that claims MFTYPE 13 is accepted by its own constructor, but the block built from it
holds a cross section (of "energy index" MT) instead: the hypothesis on MFTYPE is needed. -/
theorem C25_yield_13 :
    (mkMult (13, 18, [], [], [], []) >>= fun d => SIGP.mk' [.mult d] >>= fun b => b.get 1) =
      .ok (.xs ⟨[Dbl.ofNat 13, Dbl.ofNat 18, Dbl.ofNat 0, Dbl.ofNat 0]⟩) := by decide

example := C25_SIGP [.xs 4 [Dbl.ofNat 7], .yields (16, 18, [], [], [Dbl.ofNat 1], [Dbl.ofNat 2])] _ rfl [Dbl.ofNat 9] (by decide)
  (by intro v hv
      simp only [List.mem_cons, List.not_mem_nil, or_false] at hv
      rcases hv with rfl | rfl
      · exact (by decide : FitsN 4)
      · exact (by decide : FitsN 16 ∧ FitsN 18 ∧ 16 ≠ 13))

end ACE.Props

import Verif.Model.Fission
import Verif.Props.C09

/-!
# C19: the fission multiplicity block (NU) round trips

A set of multiplicities is either polynomial (coefficients) or tabulated. `IsNu` says that the
data found have the same representation and content. `rest` are any words behind the block.
-/

namespace ACE.Props
open ACE

/-- The two representations. -/
inductive NuSpec where
  | poly (coefficients : Words)
  | tab (v : TabSpec)

/-- Built from its specification. -/
def mkNu : NuSpec → Res NuData
  | .poly c => .ok (.poly (PolyNu.mk' c))
  | .tab v => do return .tab (← TabNu.mk' v.1 v.2.1 v.2.2.1 v.2.2.2)

/-- What a set of multiplicities gives. -/
def IsNu : NuSpec → NuData → Prop
  | .poly c, .poly d => d.LNU = .ok 1 ∧ d.NC = .ok c.length ∧ d.C = .ok c
  | .tab v, .tab d => d.LNU = .ok 2 ∧
      d.NB = .ok v.1.length ∧ d.NBT = .ok (v.1.map Dbl.ofInt) ∧ d.INT = .ok (v.2.1.map Dbl.ofInt) ∧
      d.NE = .ok v.2.2.1.length ∧ d.E = .ok v.2.2.1 ∧ d.NU = .ok v.2.2.2
  | _, _ => False

/-- What a block gives: one set, or a prompt and a total set. -/
def NuGives (b : NU) (prompt : NuSpec) (total : Option NuSpec) : Prop :=
  b.hasBoth = total.isSome ∧ IsNu prompt b.multiplicity ∧
  match total with
  | none => b.totalMultiplicity = none
  | some v => ∃ d, b.totalMultiplicity = some d ∧ IsNu v d

theorem poly_words (c rest : Words) (hf : FitsN c.length) :
    NuData.generateData ((PolyNu.mk' c).xss ++ rest) = .ok (.poly ⟨(PolyNu.mk' c).xss ++ rest⟩) ∧
    IsNu (.poly c) (.poly ⟨(PolyNu.mk' c).xss ++ rest⟩) := by
  have e0 : deref ((PolyNu.mk' c).xss ++ rest) 0 = .ok (Dbl.ofNat 1) :=
    deref_of_eq (a := []) (by simp [PolyNu.mk']; rfl) rfl
  have e1 : Base.IXSS ((PolyNu.mk' c).xss ++ rest) 1 = .ok ((1 : Nat) : Int) :=
    Base.IXSS_ofNat (a := []) (by simp [PolyNu.mk']; rfl) (by simp) (by decide)
  have e2 : Base.IXSS ((PolyNu.mk' c).xss ++ rest) 2 = .ok (c.length : Int) :=
    Base.IXSS_ofNat (a := [Dbl.ofNat 1]) (by simp [PolyNu.mk']; rfl) (by simp) hf
  have e3 : Base.XSSr ((PolyNu.mk' c).xss ++ rest) 3 c.length = .ok c :=
    Base.XSSr_of_eq (a := [Dbl.ofNat 1, Dbl.ofNat c.length]) (c := rest)
      (by simp [PolyNu.mk']) (by simp) rfl
  have hn : PolyNu.NC ⟨(PolyNu.mk' c).xss ++ rest⟩ = .ok c.length := by
    unfold PolyNu.NC
    rw [e2, ok_bind, sizeOfInt_natCast hf]; rfl
  have hl : PolyNu.LNU ⟨(PolyNu.mk' c).xss ++ rest⟩ = .ok 1 := by
    unfold PolyNu.LNU
    rw [e1, ok_bind, u32OfInt_natCast (by decide)]; rfl
  refine ⟨?_, hl, hn, ?_⟩
  · unfold NuData.generateData
    have hr : PolyNu.ofRange ((PolyNu.mk' c).xss ++ rest) = .ok ⟨(PolyNu.mk' c).xss ++ rest⟩ := by
      unfold PolyNu.ofRange
      simp only [hn, hl, ok_bind]
      rw [guardThrow_not_lt_mod (by simp [PolyNu.mk'])]; rfl
    have hu : toU32 (some ((1 : Nat) : Int)) = .ok 1 := toU32_natCast (by decide)
    simp only [e0, ok_bind, Dbl.round?_ofNat, hu, hr, if_true]
    rfl
  · unfold PolyNu.C
    rw [hn]; exact e3

theorem tabNu_words (v : TabSpec) (d : TabNu) (hd : TabNu.mk' v.1 v.2.1 v.2.2.1 v.2.2.2 = .ok d)
    (hl : FitsN (d.xss.length + 1)) :
    (∃ w, d.xss = Dbl.ofNat 2 :: w) ∧
    ∀ rest, ∃ d', NuData.generateData (d.xss ++ rest) = .ok (.tab d') ∧
      IsNu (.tab v) (.tab d') := by
  unfold TabNu.mk' at hd
  obtain ⟨td, htd, hd⟩ := bind_eq_ok.mp hd
  have hxss : d.xss = Dbl.ofNat 2 :: td.xss := by
    unfold TabNu.generateBlocks at hd
    obtain ⟨_, _, hd⟩ := bind_eq_ok.mp hd
    obtain ⟨_, _, hd⟩ := bind_eq_ok.mp hd
    injection hd with hd; subst hd; rfl
  have htl := tab_length v td htd
  have hb := tab_built v td htd (by rw [hxss] at hl; simp at hl; omega)
  refine ⟨⟨_, hxss⟩, fun rest => ?_⟩
  rw [hxss]
  obtain ⟨t, ht, hi⟩ := hb.2.2 rest
  have hsub : sub (Dbl.ofNat 2 :: td.xss ++ rest) 1 (Dbl.ofNat 2 :: td.xss ++ rest).length =
      .ok (td.xss ++ rest) :=
    sub_of_eq (a := [Dbl.ofNat 2]) (c := []) (by simp) (by simp) (by simp; omega)
  refine ⟨⟨Dbl.ofNat 2 :: td.xss ++ rest, t⟩, ?_, ?_, hi⟩
  · have e0 : deref (Dbl.ofNat 2 :: td.xss ++ rest) 0 = .ok (Dbl.ofNat 2) :=
      deref_of_eq (a := []) (by simp; rfl) rfl
    have hr : TabNu.ofRange (Dbl.ofNat 2 :: td.xss ++ rest) =
        .ok ⟨Dbl.ofNat 2 :: td.xss ++ rest, t⟩ := by
      unfold TabNu.ofRange TabNu.generateBlocks
      rw [hsub]
      simp only [ok_bind, ht, pure_eq_ok]
    have hu : toU32 (some ((2 : Nat) : Int)) = .ok 2 := toU32_natCast (by decide)
    unfold NuData.generateData
    simp only [e0, ok_bind, Dbl.round?_ofNat, hu, hr]
    rfl
  · have : Base.IXSS (Dbl.ofNat 2 :: td.xss ++ rest) 1 = .ok ((2 : Nat) : Int) :=
      Base.IXSS_ofNat (a := []) (by simp; rfl) (by simp) (by decide)
    unfold TabNu.LNU
    rw [this, ok_bind, u32OfInt_natCast (by decide)]; rfl

/-- A set built from its specification starts with a positive word and is read back. -/
theorem nu_words (v : NuSpec) (p : NuData) (hp : mkNu v = .ok p) (hf : FitsN (p.xss.length + 1)) :
    (∃ n w, p.xss = Dbl.ofNat n :: w) ∧
    ∀ rest, ∃ d, NuData.generateData (p.xss ++ rest) = .ok d ∧ IsNu v d := by
  cases v with
  | poly c =>
    injection hp with hp; subst hp
    refine ⟨⟨1, _, rfl⟩, fun rest => ?_⟩
    have := poly_words c rest (by simp [NuData.xss, PolyNu.mk'] at hf; omega)
    exact ⟨_, this.1, this.2⟩
  | tab v =>
    obtain ⟨d, hd, hp⟩ := bind_eq_ok.mp hp
    injection hp with hp; subst hp
    obtain ⟨⟨w, hw⟩, h⟩ := tabNu_words v d hd hf
    refine ⟨⟨2, w, hw⟩, fun rest => ?_⟩
    obtain ⟨d', h1, h2⟩ := h rest
    exact ⟨_, h1, h2⟩

theorem neg_ofNat {n : Nat} (h : 0 < n) : (Dbl.ofNat n).neg = Dbl.ofInt (-(n : Int)) := by
  have h1 : decide ((n : Int) < 0) = false := by simp
  have h2 : decide (-(n : Int) < 0) = true := by simp; omega
  simp only [Dbl.ofNat, Dbl.ofInt, Dbl.neg, h1, h2, Int.natAbs_neg]; rfl

/-- Sets are accepted iff their lists pair up. -/
theorem C19_accepts (v : NuSpec) :
    match v with
    | .poly c => mkNu (.poly c) = .ok (.poly (PolyNu.mk' c))
    | .tab (b, i, x, y) => FitsN b.length → FitsN x.length →
        ((i.length = b.length ∧ y.length = x.length) → ∃ d, mkNu (.tab (b, i, x, y)) = .ok d) ∧
        (¬ (i.length = b.length ∧ y.length = x.length) →
          mkNu (.tab (b, i, x, y)) = .error .thrown) := by
  cases v with
  | poly c => rfl
  | tab v =>
    obtain ⟨b, i, x, y⟩ := v
    intro fb fx
    constructor
    · intro h
      have hV : TabulatedData.Valid b i x y := ⟨h.1, h.2, fb, fx⟩
      have h1 := TabulatedData.mk'_ok hV
      obtain ⟨d, hd, _⟩ : ∃ d, TabNu.generateBlocks (Dbl.ofNat 2 :: (TabulatedData.tab b i x y []).xss)
          = .ok d ∧ True := by
        refine ⟨⟨Dbl.ofNat 2 :: (TabulatedData.tab b i x y []).xss, TabulatedData.tab b i x y []⟩, ?_,
          trivial⟩
        unfold TabNu.generateBlocks
        have hs : sub (Dbl.ofNat 2 :: (TabulatedData.tab b i x y []).xss) 1
            (Dbl.ofNat 2 :: (TabulatedData.tab b i x y []).xss).length =
            .ok (TabulatedData.words b i x y ++ []) :=
          sub_of_eq (a := [Dbl.ofNat 2]) (c := []) (by simp [TabulatedData.tab]) rfl
            (by simp [TabulatedData.tab]; omega)
        rw [hs, ok_bind, TabulatedData.ofRange_ok hV]
        rfl
      refine ⟨.tab d, ?_⟩
      unfold mkNu TabNu.mk'
      simp only [h1, ok_bind, hd, pure_eq_ok]
    · intro h
      unfold mkNu TabNu.mk'
      simp only [TabulatedData.mk'_error h, error_bind]

/-- A block with one set of multiplicities. -/
theorem C19_one (v : NuSpec) (p : NuData) (hp : mkNu v = .ok p) (hf : FitsN (p.xss.length + 1)) :
    ∃ b, NU.mk1 p = .ok b ∧ b.xss = p.xss ∧ NuGives b v none ∧
      ∀ rest, ∃ r, NU.ofRange (b.xss ++ rest) = .ok r ∧ NuGives r v none := by
  obtain ⟨⟨n, w, hw⟩, h⟩ := nu_words v p hp hf
  have key : ∀ rest, ∃ r, NU.ofRange (p.xss ++ rest) = .ok r ∧ r.xss = p.xss ++ rest ∧
      NuGives r v none := by
    intro rest
    obtain ⟨d, h1, h2⟩ := h rest
    refine ⟨⟨_, d, none⟩, ?_, rfl, rfl, h2, rfl⟩
    have e1 : Base.XSS (p.xss ++ rest) 1 = .ok (Dbl.ofNat n) :=
      Base.XSS_of_eq (a := []) (by rw [hw]; rfl) rfl
    have hneg : (Dbl.ofNat n).isNeg = false := by
      have := Dbl.isNeg_ofInt (n : Int)
      simpa [Dbl.ofNat] using this
    have hg : guardThrow (decide ((p.xss ++ rest).length > 0)) = .ok () :=
      guardThrow_ok (by rw [hw]; simp)
    unfold NU.ofRange NU.generateBlocks
    simp only [hg, e1, ok_bind, hneg, h1]
    rfl
  obtain ⟨b, b1, b2, b3⟩ := key []
  rw [List.append_nil] at b1 b2
  refine ⟨b, b1, b2, b3, fun rest => ?_⟩
  rw [b2]
  obtain ⟨r, r1, _, r3⟩ := key rest
  exact ⟨r, r1, r3⟩

/-- A block with a prompt and a total set. -/
theorem C19_both (v w : NuSpec) (p t : NuData) (hp : mkNu v = .ok p) (ht : mkNu w = .ok t)
    (hf : FitsN (p.xss.length + 1)) (hg : FitsN (t.xss.length + 1)) :
    ∃ b, NU.mk2 p t = .ok b ∧ b.xss = Dbl.ofInt (-(p.xss.length : Int)) :: p.xss ++ t.xss ∧
      NuGives b v (some w) ∧
      ∀ rest, ∃ r, NU.ofRange (b.xss ++ rest) = .ok r ∧ NuGives r v (some w) := by
  obtain ⟨⟨n, pw, hpw⟩, h⟩ := nu_words v p hp hf
  obtain ⟨_, g⟩ := nu_words w t ht hg
  have hpos : 0 < p.xss.length := by rw [hpw]; simp
  have hneg := neg_ofNat hpos
  have key : ∀ rest, ∃ r,
      NU.ofRange (Dbl.ofInt (-(p.xss.length : Int)) :: p.xss ++ t.xss ++ rest) = .ok r ∧
      r.xss = Dbl.ofInt (-(p.xss.length : Int)) :: p.xss ++ t.xss ++ rest ∧
      NuGives r v (some w) := by
    intro rest
    obtain ⟨d, h1, h2⟩ := h []
    rw [List.append_nil] at h1
    obtain ⟨e, g1, g2⟩ := g rest
    refine ⟨⟨_, d, some e⟩, ?_, rfl, rfl, h2, e, rfl, g2⟩
    generalize hX : Dbl.ofInt (-(p.xss.length : Int)) :: p.xss ++ t.xss ++ rest = X
    have e0 : deref X 0 = .ok (Dbl.ofInt (-(p.xss.length : Int))) :=
      deref_of_eq (a := []) (by rw [← hX]; simp; rfl) rfl
    have e1 : Base.XSS X 1 = .ok (Dbl.ofInt (-(p.xss.length : Int))) :=
      Base.XSS_of_eq (a := []) (by rw [← hX]; simp; rfl) rfl
    have hn : (Dbl.ofInt (-(p.xss.length : Int))).isNeg = true := by
      rw [Dbl.isNeg_ofInt]; simp; omega
    have hgd : guardThrow (decide (X.length > 0)) = .ok () :=
      guardThrow_ok (by rw [← hX]; simp)
    have hk : toU32 (some ((p.xss.length : Nat) : Int)) = .ok p.xss.length :=
      toU32_natCast (by unfold FitsN at hf; omega)
    have hm : (p.xss.length + 1) % 4294967296 = p.xss.length + 1 :=
      Nat.mod_eq_of_lt (by unfold FitsN at hf; omega)
    have s1 : sub X 1 (p.xss.length + 1) = .ok p.xss :=
      sub_of_eq (a := [Dbl.ofInt (-(p.xss.length : Int))]) (c := t.xss ++ rest)
        (by rw [← hX]; simp) rfl (by simp; omega)
    have s2 : sub X (p.xss.length + 1) X.length = .ok (t.xss ++ rest) :=
      sub_of_eq (a := Dbl.ofInt (-(p.xss.length : Int)) :: p.xss) (c := [])
        (by rw [← hX]; simp) rfl (by rw [← hX]; simp; omega)
    unfold NU.ofRange NU.generateBlocks
    simp only [hgd, e1, ok_bind, hn, if_true]
    unfold NU.generateBoth
    simp only [e0, ok_bind, Dbl.round?_ofInt, Option.map_some, Int.natAbs_neg, Int.natAbs_natCast,
      hk, hm, s1, h1, s2, g1, pure_eq_ok]
  obtain ⟨b, b1, b2, b3⟩ := key []
  rw [List.append_nil] at b1 b2
  refine ⟨b, ?_, b2, b3, fun rest => ?_⟩
  · unfold NU.mk2
    rw [hneg]; exact b1
  rw [b2]
  obtain ⟨r, r1, _, r3⟩ := key rest
  exact ⟨r, r1, r3⟩

/-- Any other representation number is refused. -/
theorem C19_illegal (n : Nat) (w : Words) (hn : n < 4294967296) (h1 : n ≠ 1) (h2 : n ≠ 2) :
    NU.ofRange (Dbl.ofNat n :: w) = .error .thrown := by
  have e0 : deref (Dbl.ofNat n :: w) 0 = .ok (Dbl.ofNat n) := rfl
  have e1 : Base.XSS (Dbl.ofNat n :: w) 1 = .ok (Dbl.ofNat n) :=
    Base.XSS_of_eq (a := []) rfl rfl
  have hneg : (Dbl.ofNat n).isNeg = false := by
    have := Dbl.isNeg_ofInt (n : Int)
    simpa [Dbl.ofNat] using this
  unfold NU.ofRange NU.generateBlocks NuData.generateData
  simp only [e0, e1, ok_bind, hneg, Dbl.round?_ofNat, toU32_natCast hn]
  simp [h1, h2]

-- the hypotheses are met: polynomial prompt and tabulated total
example : (do
    let p ← mkNu (.poly [Dbl.ofNat 2, Dbl.ofNat 3])
    let t ← mkNu (.tab ([2], [2], [Dbl.ofNat 1, Dbl.ofNat 20], [Dbl.ofNat 2, Dbl.ofNat 4]))
    let b ← NU.mk2 p t
    return (b.hasBoth, b.xss.length, b.multiplicity == p, b.totalMultiplicity == some t)) =
    .ok (true, 14, true, true) := by decide
example : (do
    let p ← mkNu (.poly [Dbl.ofNat 2, Dbl.ofNat 3])
    let b ← NU.mk1 p
    let r ← NU.ofRange (b.xss ++ [Dbl.ofNat 9])
    return (b.hasBoth, b.multiplicity == p, r.hasBoth)) = .ok (false, true, false) := by decide
example : NU.ofRange [Dbl.ofNat 3] = .error .thrown := by decide

/-- The hypotheses of `C19_one`, `C19_both` and `C19_illegal`. -/
example := C19_one (.poly [Dbl.ofNat 2, Dbl.ofNat 3]) _ rfl (by decide)
example := C19_both (.poly [Dbl.ofNat 2, Dbl.ofNat 3])
  (.tab ([2], [2], [Dbl.ofNat 1, Dbl.ofNat 20], [Dbl.ofNat 2, Dbl.ofNat 4])) _ _ rfl rfl (by decide) (by decide)
example := C19_illegal 3 [Dbl.ofNat 7] (by decide) (by decide) (by decide)

end ACE.Props

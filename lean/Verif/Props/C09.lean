import Verif.Lemmas.Located

/-!
# C09: blocks with locators (SIG, SIGD, SIGH, SWD, XPROB; SIGP is C25)

`Gives b bs P`: the block has one data block per element of `bs`; locator `i` is one plus the
number of words of the data blocks before it; the data block at index `i` satisfies `P i`; other
indices are refused. Each theorem shows this for the block built from data and for a reader of
its words, whatever gap there is between the locators and the data and whatever words follow.
-/

namespace ACE.Props
open ACE LocBlock

variable {D : Type}

/-- See above; `wordsBefore` is stated with the words of the data blocks supplied. -/
structure Gives (b : LocBlock D) (parts : List Words) (P : Nat → D → Prop) : Prop where
  count : b.n = parts.length
  locator : ∀ i, i < parts.length → b.LLOC (i + 1) = .ok (1 + (parts.take i).flatten.length)
  block : ∀ i, i < parts.length → ∃ d, b.get (i + 1) = .ok d ∧ P i d
  refused : ∀ i, i = 0 ∨ parts.length < i → b.get i = .error .range ∧ b.LLOC i = .error .range

theorem exists_list {α : Type} (n : Nat) (P : Nat → α → Prop) (h : ∀ i, i < n → ∃ a, P i a) :
    ∃ l : List α, l.length = n ∧ ∀ (i : Nat) (hi : i < l.length), P i l[i] := by
  induction n with
  | zero => exact ⟨[], rfl, fun i hi => by simp at hi⟩
  | succ n ih =>
    obtain ⟨l, hl, hp⟩ := ih (fun i hi => h i (by omega))
    obtain ⟨a, ha⟩ := h n (by omega)
    refine ⟨l ++ [a], by simp [hl], fun i hi => ?_⟩
    by_cases hi' : i < l.length
    · rw [List.getElem_append_left hi']; exact hp i hi'
    · have : i = n := by simp at hi; omega
      subst this
      rw [List.getElem_append_right (by omega)]
      simpa using ha

theorem gives_of (flag : Bool) (parts : List Words) (tail : Words) (iter : Nat) (ds : List D)
    (P : Nat → D → Prop) (hl : ds.length = parts.length) (hf : FitsN (parts.flatten.length + 1))
    (hp : ∀ (i : Nat) (hi : i < ds.length), P i ds[i]) :
    Gives ⟨header flag parts ++ tail, parts.length, flag, iter, ds⟩ parts P := by
  refine ⟨rfl, fun i hi => ?_, fun i hi => ?_, fun i hi => ?_⟩
  · have := startOf_le parts i
    have := LLOCof_header flag parts tail i hi (by omega)
    unfold LLOC
    rw [this, Nat.add_comm]; rfl
  · exact ⟨ds[i]'(by omega), get_ok _ hl.symm i (by simpa [hl] using hi), hp i (by omega)⟩
  · constructor
    · unfold LocBlock.get verifyDataIndex
      rw [if_pos (by simp only; omega)]; rfl
    · unfold LLOC LLOCof verifyDataIndex
      rw [if_pos (by simp only; omega)]; rfl

/-- Round trip for any kind of data block whose own words (followed by `rest` for the last one)
are read by `gen` as something with property `P`. -/
theorem C09_generic (wordsOf : D → Words) (gen : Nat → Words → Res D) (flag : Bool) (bs : List D)
    (rest : Words) (P : Nat → D → Prop) (hf : FitsN ((bs.map wordsOf).flatten.length + 1))
    (h0 : ∀ (i : Nat) (hi : i < bs.length) (l : Nat), ∃ d, gen l (wordsOf bs[i]) = .ok d ∧ P i d)
    (h1 : ∀ (i : Nat) (hi : i < bs.length) (l : Nat), i + 1 = bs.length →
      ∃ d, gen l (wordsOf bs[i] ++ rest) = .ok d ∧ P i d) :
    ∃ b, ofData wordsOf gen flag bs = .ok b ∧
      Gives b (bs.map wordsOf) P ∧
      ∀ gap, ∃ r, ofRange gen (b.xss.take bs.length ++ gap ++ b.xss.drop bs.length ++ rest)
          (bs.length + gap.length) bs.length flag = .ok r ∧ Gives r (bs.map wordsOf) P := by
  have hlp : (bs.map wordsOf).length = bs.length := by simp
  obtain ⟨ds, hds, hdp⟩ := exists_list bs.length
    (fun i d => ∀ hi : i < bs.length,
      gen (startOf (bs.map wordsOf) i + 1) (wordsOf bs[i]) = .ok d ∧ P i d)
    (fun i hi => by
      obtain ⟨d, hd⟩ := h0 i hi (startOf (bs.map wordsOf) i + 1)
      exact ⟨d, fun _ => hd⟩)
  obtain ⟨es, hes, hep⟩ := exists_list bs.length
    (fun i d => ∀ hi : i < bs.length,
      gen (startOf (bs.map wordsOf) i + 1) (cut (bs.map wordsOf) rest i (by simpa using hi)) = .ok d
        ∧ P i d)
    (fun i hi => by
      by_cases hlast : i + 1 = bs.length
      · obtain ⟨d, hd⟩ := h1 i hi (startOf (bs.map wordsOf) i + 1) hlast
        exact ⟨d, fun _ => by simpa [cut, hlast] using hd⟩
      · obtain ⟨d, hd⟩ := h0 i hi (startOf (bs.map wordsOf) i + 1)
        exact ⟨d, fun _ => by simpa [cut, hlast] using hd⟩)
  have hb := ofData_ok wordsOf gen flag bs ds hds hf (fun i hi => (hdp i (by omega) hi).1)
  refine ⟨_, hb, ?_, fun gap => ?_⟩
  · have := gives_of flag (bs.map wordsOf) (bs.map wordsOf).flatten bs.length ds P
      (by simpa using hds) hf (fun i hi => (hdp i hi (by omega)).2)
    simpa using this
  · have hr := ofRange_ok gen flag (bs.map wordsOf) gap rest es (by simpa using hes) hf
      (fun i hi => (hep i (by simpa [hes] using hi) (by simpa using hi)).1)
    have ht : (header flag (bs.map wordsOf) ++ (bs.map wordsOf).flatten).take bs.length =
        header flag (bs.map wordsOf) := by
      rw [← hlp]
      exact List.take_left' (by simp)
    have hd : (header flag (bs.map wordsOf) ++ (bs.map wordsOf).flatten).drop bs.length =
        (bs.map wordsOf).flatten := by
      rw [← hlp]
      exact List.drop_left' (by simp)
    simp only [ht, hd]
    rw [hlp] at hr
    refine ⟨_, hr, ?_⟩
    have := gives_of flag (bs.map wordsOf) (gap ++ (bs.map wordsOf).flatten ++ rest)
      (bs.length + gap.length) es P (by simpa using hes) hf (fun i hi => (hep i hi (by omega)).2)
    simpa using this

theorem mapM_ok_iff {V : Type} (mk : V → Res D) (vs : List V) (bs : List D)
    (h : vs.mapM mk = .ok bs) :
    bs.length = vs.length ∧
      ∀ (i : Nat) (h1 : i < vs.length) (h2 : i < bs.length), mk vs[i] = .ok bs[i] := by
  induction vs generalizing bs with
  | nil =>
    injection h with h; subst h
    exact ⟨rfl, fun i h1 => by simp at h1⟩
  | cons v vs ih =>
    rw [List.mapM_cons] at h
    obtain ⟨b, hb, h⟩ := bind_eq_ok.mp h
    obtain ⟨cs, hcs, h⟩ := bind_eq_ok.mp h
    injection h with h; subst h
    obtain ⟨h1, h2⟩ := ih cs hcs
    refine ⟨by simp [h1], fun i => ?_⟩
    cases i with
    | zero => intro _ _; simpa using hb
    | succ i => intro a c; simpa using h2 i (by simpa using a) (by simpa using c)

/-- The same for data blocks built by `mk` from specifications `vs`: the data block found at
index `i` satisfies `Q` of the specification at that index. -/
theorem C09_built {V : Type} (mk : V → Res D) (wordsOf : D → Words) (gen : Nat → Words → Res D)
    (flag : Bool) (vs : List V) (bs : List D) (hb : vs.mapM mk = .ok bs) (rest : Words)
    (Q : V → D → Prop) (hf : FitsN ((bs.map wordsOf).flatten.length + 1))
    (hq : ∀ v ∈ vs, ∀ d, mk v = .ok d → FitsN ((wordsOf d).length + 1) →
      ∀ t ∈ [[], rest], ∀ l, ∃ d', gen l (wordsOf d ++ t) = .ok d' ∧ Q v d') :
    ∃ b, ofData wordsOf gen flag bs = .ok b ∧
      Gives b (bs.map wordsOf) (fun i d => ∀ v, vs[i]? = some v → Q v d) ∧
      ∀ gap, ∃ r, ofRange gen (b.xss.take vs.length ++ gap ++ b.xss.drop vs.length ++ rest)
          (vs.length + gap.length) vs.length flag = .ok r ∧
        Gives r (bs.map wordsOf) (fun i d => ∀ v, vs[i]? = some v → Q v d) := by
  obtain ⟨hlen, hmk⟩ := mapM_ok_iff mk vs bs hb
  have key : ∀ t ∈ [[], rest], ∀ (i : Nat) (hi : i < bs.length) (l : Nat),
      ∃ d, gen l (wordsOf bs[i] ++ t) = .ok d ∧ ∀ v, vs[i]? = some v → Q v d := by
    intro t ht i hi l
    have hv : i < vs.length := by omega
    have hsmall : FitsN ((wordsOf bs[i]).length + 1) := by
      have := startOf_add_le (bs.map wordsOf) i (by simpa using hi)
      rw [List.getElem_map] at this
      omega
    obtain ⟨d, hd, hqd⟩ := hq vs[i] (List.getElem_mem hv) bs[i] (hmk i hv hi) hsmall t ht l
    refine ⟨d, hd, fun v hv' => ?_⟩
    rw [List.getElem?_eq_getElem hv] at hv'
    injection hv' with hv'; subst hv'
    exact hqd
  have := C09_generic wordsOf gen flag bs rest (fun i d => ∀ v, vs[i]? = some v → Q v d) hf
    (fun i hi l => by simpa using key [] (by simp) i hi l)
    (fun i hi l _ => key rest (by simp) i hi l)
  rw [hlen] at this
  exact this

/-! ## SIG -/

/-- What a cross section data block for an energy index and values gives. -/
def IsXS (v : Nat × Words) (d : CrossSectionData) : Prop :=
  d.energyIndex = .ok v.1 ∧ d.numberValues = .ok v.2.length ∧ d.crossSections = .ok v.2

theorem xs_words (index : Nat) (values rest : Words) (h1 : FitsN index) (h2 : FitsN values.length) :
    CrossSectionData.ofRange ((CrossSectionData.mk' index values).xss ++ rest) =
      .ok ⟨(CrossSectionData.mk' index values).xss ++ rest⟩ ∧
    IsXS (index, values) ⟨(CrossSectionData.mk' index values).xss ++ rest⟩ := by
  have e1 : Base.IXSS ((CrossSectionData.mk' index values).xss ++ rest) 1 = .ok (index : Int) :=
    Base.IXSS_ofNat (a := []) (by simp [CrossSectionData.mk']; rfl) (by simp) h1
  have e2 : Base.IXSS ((CrossSectionData.mk' index values).xss ++ rest) 2 = .ok (values.length : Int) :=
    Base.IXSS_ofNat (a := [Dbl.ofNat index]) (by simp [CrossSectionData.mk']; rfl) (by simp) h2
  have e3 : Base.XSSr ((CrossSectionData.mk' index values).xss ++ rest) 3 values.length = .ok values :=
    Base.XSSr_of_eq (a := [Dbl.ofNat index, Dbl.ofNat values.length]) (c := rest)
      (by simp [CrossSectionData.mk']) (by simp) rfl
  have hn : CrossSectionData.numberValues ⟨(CrossSectionData.mk' index values).xss ++ rest⟩ =
      .ok values.length := by
    simp [CrossSectionData.numberValues, e2, sizeOfInt_natCast h2]
  refine ⟨?_, ?_, hn, ?_⟩
  · unfold CrossSectionData.ofRange
    rw [hn, ok_bind, guardThrow_not_lt_mod (by simp [CrossSectionData.mk'])]; rfl
  · simp [CrossSectionData.energyIndex, e1, sizeOfInt_natCast h1]
  · unfold CrossSectionData.crossSections
    rw [hn]; exact e3

theorem C09_SIG (vs : List (Nat × Words)) (rest : Words) (hi : ∀ v ∈ vs, FitsN v.1)
    (hf : FitsN ((vs.map (fun v => (CrossSectionData.mk' v.1 v.2).xss)).flatten.length + 1)) :
    ∃ b, SIG.mk' (vs.map (fun v => CrossSectionData.mk' v.1 v.2)) = .ok b ∧
      Gives b (vs.map (fun v => (CrossSectionData.mk' v.1 v.2).xss))
        (fun i d => ∀ v, vs[i]? = some v → IsXS v d) ∧
      ∀ gap, ∃ r, SIG.ofRange (b.xss.take vs.length ++ gap ++ b.xss.drop vs.length ++ rest)
          (vs.length + gap.length) vs.length = .ok r ∧
        Gives r (vs.map (fun v => (CrossSectionData.mk' v.1 v.2).xss))
          (fun i d => ∀ v, vs[i]? = some v → IsXS v d) := by
  have hm : vs.mapM (fun v => (.ok (CrossSectionData.mk' v.1 v.2) : Res CrossSectionData)) =
      .ok (vs.map (fun v => CrossSectionData.mk' v.1 v.2)) := by
    induction vs with
    | nil => rfl
    | cons v vs ih =>
      have hf' : FitsN ((vs.map (fun v => (CrossSectionData.mk' v.1 v.2).xss)).flatten.length + 1) := by
        simp only [List.map_cons, List.flatten_cons, List.length_append] at hf; omega
      simp [List.mapM_cons, ih (fun v hv => hi v (by simp [hv])) hf']
  have := C09_built _ (·.xss) SIG.gen true vs _ hm rest IsXS
    (by simpa only [List.map_map, Function.comp_def] using hf)
    (fun v hv d hd hl t _ l => by
      injection hd with hd; subst hd
      have := xs_words v.1 v.2 t (hi v hv) (by simp [CrossSectionData.mk'] at hl; omega)
      exact ⟨_, this.1, this.2⟩)
  simpa only [SIG.mk', SIG.ofRange, List.map_map, Function.comp_def] using this

/-! ## SIGD -/

/-- Interpolation boundaries and interpolants, x and y values. -/
abbrev TabSpec := List Int × List Int × Words × Words

/-- What a tabulated data block gives. -/
def IsTab (v : TabSpec) (d : TabulatedData) : Prop :=
  d.NB = .ok v.1.length ∧ d.NBT = .ok (v.1.map Dbl.ofInt) ∧ d.INT = .ok (v.2.1.map Dbl.ofInt) ∧
  d.N = .ok v.2.2.1.length ∧ d.x = .ok v.2.2.1 ∧ d.y = .ok v.2.2.2

theorem tab_built (v : TabSpec) (d : TabulatedData)
    (hd : TabulatedData.mk' v.1 v.2.1 v.2.2.1 v.2.2.2 = .ok d)
    (hl : FitsN (v.1.length + v.2.2.1.length)) :
    d.xss = TabulatedData.words v.1 v.2.1 v.2.2.1 v.2.2.2 ∧ IsTab v d ∧
    ∀ t, ∃ d', TabulatedData.ofRange (d.xss ++ t) = .ok d' ∧ IsTab v d' := by
  obtain ⟨b, i, x, y⟩ := v
  simp only at hd hl
  have hv : i.length = b.length ∧ y.length = x.length := by
    refine Classical.byContradiction (fun hc => ?_)
    rw [TabulatedData.mk'_error hc] at hd; cases hd
  have hV : TabulatedData.Valid b i x y := ⟨hv.1, hv.2, by omega, by omega⟩
  rw [TabulatedData.mk'_ok hV] at hd
  injection hd with hd; subst hd
  have e : (TabulatedData.tab b i x y []).xss = TabulatedData.words b i x y := by
    simp [TabulatedData.tab]
  refine ⟨e, TabulatedData.tab_accessors hV [], fun t => ?_⟩
  exact ⟨_, by rw [e]; exact TabulatedData.ofRange_ok hV t, TabulatedData.tab_accessors hV t⟩

theorem tab_length (v : TabSpec) (d : TabulatedData)
    (hd : TabulatedData.mk' v.1 v.2.1 v.2.2.1 v.2.2.2 = .ok d) :
    v.1.length + v.2.2.1.length ≤ d.xss.length := by
  obtain ⟨b, i, x, y⟩ := v
  simp only at hd ⊢
  unfold TabulatedData.mk' TabulatedData.generateXSS InterpolationData.mk' at hd
  by_cases hi : i.length = b.length
  · rw [ColumnData.ofColumns_ok [b.map Dbl.ofInt, i.map Dbl.ofInt] b.length (by simp)
      (by simp [hi])] at hd
    by_cases hy : y.length = x.length
    · rw [ColumnData.ofColumns_ok [x, y] x.length (by simp) (by simp [hy])] at hd
      simp only [ok_bind, pure_eq_ok] at hd
      unfold TabulatedData.generateBlocks at hd
      obtain ⟨_, _, hd⟩ := bind_eq_ok.mp hd
      obtain ⟨_, _, hd⟩ := bind_eq_ok.mp hd
      obtain ⟨_, _, hd⟩ := bind_eq_ok.mp hd
      obtain ⟨_, _, hd⟩ := bind_eq_ok.mp hd
      obtain ⟨_, _, hd⟩ := bind_eq_ok.mp hd
      obtain ⟨_, _, hd⟩ := bind_eq_ok.mp hd
      injection hd with hd; subst hd
      simp [ColumnData.words]; omega
    · rw [ColumnData.ofColumns_error x [y] (by simpa using hy)] at hd
      cases hd
  · rw [ColumnData.ofColumns_error _ _ (by simpa using hi)] at hd
    cases hd

theorem C09_SIGD (vs : List TabSpec) (bs : List TabulatedData)
    (hb : vs.mapM (fun v => TabulatedData.mk' v.1 v.2.1 v.2.2.1 v.2.2.2) = .ok bs) (rest : Words)
    (hf : FitsN ((bs.map (·.xss)).flatten.length + 1)) :
    ∃ b, SIGD.mk' bs = .ok b ∧
      Gives b (bs.map (·.xss)) (fun i d => ∀ v, vs[i]? = some v → IsTab v d) ∧
      ∀ gap, ∃ r, SIGD.ofRange (b.xss.take vs.length ++ gap ++ b.xss.drop vs.length ++ rest)
          (vs.length + gap.length) vs.length = .ok r ∧
        Gives r (bs.map (·.xss)) (fun i d => ∀ v, vs[i]? = some v → IsTab v d) := by
  have hq : ∀ v ∈ vs, ∀ d, TabulatedData.mk' v.1 v.2.1 v.2.2.1 v.2.2.2 = .ok d →
      FitsN (d.xss.length + 1) → ∀ t ∈ [[], rest], ∀ l,
      ∃ d', SIGD.gen l (d.xss ++ t) = .ok d' ∧ IsTab v d' := by
    intro v _ d hd hl t _ l
    have := tab_length v d hd
    have := (tab_built v d hd (by omega)).2.2 t
    unfold SIGD.gen
    exact this
  have := C09_built _ (·.xss) SIGD.gen true vs bs hb rest IsTab hf hq
  simpa only [SIGD.mk', SIGD.ofRange] using this

/-! ## SIGH -/

/-- MFTYPE, MT and the tabulated multiplicity. -/
abbrev MultSpec := Nat × Nat × TabSpec

/-- What a tabulated secondary particle multiplicity gives. -/
def IsMult (v : MultSpec) (d : TabMult) : Prop :=
  d.MFTYPE = .ok v.1 ∧ d.MT = .ok v.2.1 ∧
  d.NB = .ok v.2.2.1.length ∧ d.NBT = .ok (v.2.2.1.map Dbl.ofInt) ∧ d.INT = .ok (v.2.2.2.1.map Dbl.ofInt) ∧
  d.NE = .ok v.2.2.2.2.1.length ∧ d.E = .ok v.2.2.2.2.1 ∧ d.NU = .ok v.2.2.2.2.2

/-- Built from its specification. -/
def mkMult (v : MultSpec) : Res TabMult :=
  TabMult.mk' v.1 v.2.1 v.2.2.1 v.2.2.2.1 v.2.2.2.2.1 v.2.2.2.2.2

theorem mult_built (v : MultSpec) (d : TabMult) (hd : mkMult v = .ok d)
    (hl : FitsN (d.xss.length + 1)) (h1 : FitsN v.1) (h2 : FitsN v.2.1) :
    (∃ w, d.xss = Dbl.ofNat v.1 :: Dbl.ofNat v.2.1 :: w) ∧ IsMult v d ∧
    ∀ t, ∃ d', TabMult.ofRange (d.xss ++ t) = .ok d' ∧ IsMult v d' := by
  obtain ⟨mf, mt, v⟩ := v
  simp only at h1 h2
  unfold mkMult TabMult.mk' at hd
  obtain ⟨td, htd, hd⟩ := bind_eq_ok.mp hd
  have htl := tab_length v td htd
  have hsub : ∀ t, sub (Dbl.ofNat mf :: Dbl.ofNat mt :: td.xss ++ t) 2
      (Dbl.ofNat mf :: Dbl.ofNat mt :: td.xss ++ t).length = .ok (td.xss ++ t) := by
    intro t
    exact sub_of_eq (a := [Dbl.ofNat mf, Dbl.ofNat mt]) (c := []) (by simp) (by simp)
      (by simp; omega)
  have hxss : d.xss = Dbl.ofNat mf :: Dbl.ofNat mt :: td.xss := by
    unfold TabMult.generateBlocks at hd
    obtain ⟨_, _, hd⟩ := bind_eq_ok.mp hd
    obtain ⟨_, _, hd⟩ := bind_eq_ok.mp hd
    injection hd with hd; subst hd; rfl
  have hb := tab_built v td htd (by rw [hxss] at hl; simp at hl; omega)
  have key : ∀ t, ∃ d', TabMult.ofRange (Dbl.ofNat mf :: Dbl.ofNat mt :: td.xss ++ t) = .ok d' ∧
      IsMult (mf, mt, v) d' := by
    intro t
    obtain ⟨d', hd', hi⟩ := hb.2.2 t
    refine ⟨⟨Dbl.ofNat mf :: Dbl.ofNat mt :: td.xss ++ t, d'⟩, ?_, ?_, ?_, hi⟩
    · unfold TabMult.ofRange TabMult.generateBlocks
      rw [hsub t]
      simp only [ok_bind, hd', pure_eq_ok]
    · have : Base.IXSS (Dbl.ofNat mf :: Dbl.ofNat mt :: td.xss ++ t) 1 = .ok (mf : Int) :=
        Base.IXSS_ofNat (a := []) (by simp; rfl) (by simp) h1
      unfold TabMult.MFTYPE
      rw [this, ok_bind, u32OfInt_natCast (by omega)]; rfl
    · have : Base.IXSS (Dbl.ofNat mf :: Dbl.ofNat mt :: td.xss ++ t) 2 = .ok (mt : Int) :=
        Base.IXSS_ofNat (a := [Dbl.ofNat mf]) (by simp; rfl) (by simp) h2
      unfold TabMult.MT
      rw [this, ok_bind, u32OfInt_natCast (by omega)]; rfl
  refine ⟨⟨_, hxss⟩, ?_, fun t => by rw [hxss]; exact key t⟩
  obtain ⟨d', hd', hi⟩ := key []
  rw [List.append_nil] at hd'
  have : TabMult.ofRange (Dbl.ofNat mf :: Dbl.ofNat mt :: td.xss) = .ok d := hd
  rw [this] at hd'
  injection hd' with hd'; subst hd'
  exact hi

theorem C09_SIGH (vs : List MultSpec) (bs : List TabMult) (hb : vs.mapM mkMult = .ok bs)
    (rest : Words) (hf : FitsN ((bs.map (·.xss)).flatten.length + 1))
    (h1 : ∀ v ∈ vs, FitsN v.1) (h2 : ∀ v ∈ vs, FitsN v.2.1) :
    ∃ b, SIGH.mk' bs = .ok b ∧
      Gives b (bs.map (·.xss)) (fun i d => ∀ v, vs[i]? = some v → IsMult v d) ∧
      ∀ gap, ∃ r, SIGH.ofRange (b.xss.take vs.length ++ gap ++ b.xss.drop vs.length ++ rest)
          (vs.length + gap.length) vs.length = .ok r ∧
        Gives r (bs.map (·.xss)) (fun i d => ∀ v, vs[i]? = some v → IsMult v d) := by
  have hq : ∀ v ∈ vs, ∀ d, mkMult v = .ok d →
      FitsN (d.xss.length + 1) → ∀ t ∈ [[], rest], ∀ l,
      ∃ d', SIGH.gen l (d.xss ++ t) = .ok d' ∧ IsMult v d' := by
    intro v hv d hd hl t _ l
    have := (mult_built v d hd hl (h1 v hv) (h2 v hv)).2.2 t
    unfold SIGH.gen
    exact this
  have := C09_built _ (·.xss) SIGH.gen true vs bs hb rest IsMult hf hq
  simpa only [SIGH.mk', SIGH.ofRange] using this

/-! ## SWD -/

/-- Interpolation flag, momentum, pdf and cdf. -/
abbrev ProfileSpec := Int × Words × Words × Words

/-- What a Compton profile gives. -/
def IsProfile (v : ProfileSpec) (d : TabProb) : Prop :=
  d.interpolation = .ok v.1 ∧ d.numberValues = .ok v.2.1.length ∧ d.values = .ok v.2.1 ∧
  d.pdf = .ok v.2.2.1 ∧ d.cdf = .ok v.2.2.2

/-- Built from its specification. -/
def mkProfile (v : ProfileSpec) : Res TabProb := TabProb.mk' v.1 v.2.1 v.2.2.1 v.2.2.2 []

theorem profile_built (v : ProfileSpec) (d : TabProb) (hd : mkProfile v = .ok d)
    (hl : FitsN (d.xss.length + 1)) (h1 : Fits v.1) (t : Words) :
    ∃ d', TabProb.ofRange (d.xss ++ t) = .ok d' ∧ IsProfile v d' := by
  obtain ⟨flag, m, p, c⟩ := v
  unfold mkProfile at hd
  simp only at hd h1
  by_cases hc : ∀ x ∈ [p, c], x.length = m.length
  · have hall : ∀ x ∈ [m, p, c], x.length = m.length := by
      intro x hx
      rcases List.mem_cons.mp hx with rfl | hx
      · rfl
      · exact hc x hx
    rw [TabProb.mk'_ok flag m p c [] m.length hall] at hd
    injection hd with hd; subst hd
    have hm : FitsN m.length := by
      rw [TabProb.words_length flag m.length _ hall] at hl
      simp at hl; omega
    have hh : TabProb.Holds ⟨TabProb.words flag m.length [m, p, c] ++ t⟩ flag m.length [m, p, c] :=
      ⟨h1, hall, hm, t, rfl⟩
    exact ⟨_, TabProb.ofRange_ok flag m.length m p c [] t h1 hall hm,
      hh.interpolation, hh.numberValues, hh.values, hh.pdf, hh.cdf⟩
  · rw [TabProb.mk'_error flag m p c [] hc] at hd; cases hd

theorem C09_SWD (vs : List ProfileSpec) (bs : List TabProb) (hb : vs.mapM mkProfile = .ok bs)
    (rest : Words) (hf : FitsN ((bs.map (·.xss)).flatten.length + 1)) (h1 : ∀ v ∈ vs, Fits v.1) :
    ∃ b, SWD.mk' bs = .ok b ∧
      Gives b (bs.map (·.xss)) (fun i d => ∀ v, vs[i]? = some v → IsProfile v d) ∧
      ∀ gap, ∃ r, SWD.ofRange (b.xss.take vs.length ++ gap ++ b.xss.drop vs.length ++ rest)
          (vs.length + gap.length) vs.length = .ok r ∧
        Gives r (bs.map (·.xss)) (fun i d => ∀ v, vs[i]? = some v → IsProfile v d) := by
  have hq : ∀ v ∈ vs, ∀ d, mkProfile v = .ok d →
      FitsN (d.xss.length + 1) → ∀ t ∈ [[], rest], ∀ l,
      ∃ d', SWD.gen l (d.xss ++ t) = .ok d' ∧ IsProfile v d' := by
    intro v hv d hd hl t _ l
    have := profile_built v d hd hl (h1 v hv) t
    unfold SWD.gen
    exact this
  have := C09_built _ (·.xss) SWD.gen true vs bs hb rest IsProfile hf hq
  simpa only [SWD.mk', SWD.ofRange] using this

/-! ## XPROB -/

/-- The transitions of one subshell: primary and secondary designator, energy, probability. -/
abbrev TransSpec := List (Nat × Nat × Dbl × Dbl)

/-- What the transition data of a subshell give. -/
def IsTrans (v : TransSpec) (d : TRAN) : Prop :=
  TRAN.NT d = v.length ∧ ∀ i x, v[i]? = some x →
    TRAN.primaryDesignator d (i + 1) = .ok (x.1 : Int) ∧
    TRAN.secondaryDesignator d (i + 1) = .ok (x.2.1 : Int) ∧
    TRAN.energy d (i + 1) = .ok x.2.2.1 ∧ TRAN.probability d (i + 1) = .ok x.2.2.2

/-- Built from its specification. -/
def mkTrans (v : TransSpec) : Res TRAN :=
  TRAN.mk' (v.map (·.1)) (v.map (·.2.1)) (v.map (·.2.2.1)) (v.map (·.2.2.2))

theorem zip4_map (v : TransSpec) :
    TRAN.zip4 (v.map (·.1)) (v.map (·.2.1)) (v.map (·.2.2.1)) (v.map (·.2.2.2)) =
      v.map (fun x => [Dbl.ofNat x.1, Dbl.ofNat x.2.1, x.2.2.1, x.2.2.2]) := by
  induction v with
  | nil => rfl
  | cons a v ih => simp [TRAN.zip4, ih]

theorem trans_built (v : TransSpec) (d : TRAN) (hd : mkTrans v = .ok d)
    (h1 : ∀ x ∈ v, FitsN x.1 ∧ FitsN x.2.1) :
    ∃ d', TRAN.ofRange d.xss = .ok d' ∧ IsTrans v d' := by
  let as := v.map (fun x => [Dbl.ofNat x.1, Dbl.ofNat x.2.1, x.2.2.1, x.2.2.2])
  have hall : ∀ x ∈ as, x.length = 4 := by
    intro x hx
    obtain ⟨y, _, rfl⟩ := List.mem_map.mp hx
    rfl
  have hmk : ArrayData.ofArrays as = .ok d := by
    have : mkTrans v = ArrayData.ofArrays as := by
      simp [mkTrans, TRAN.mk', TRAN.generateArrays, zip4_map, as]
    rw [← this]; exact hd
  obtain ⟨-, hx⟩ := ArrayData.ofArrays_holds hmk
  have hlen : d.xss.length = as.length * 4 := by rw [hx, length_flatten_const as 4 hall]
  obtain ⟨d', hd', hh, -⟩ := ArrayData.ofRange_holds as 4 [] hall
  have hav : as.length = v.length := by simp [as]
  refine ⟨d', ?_, ?_, ?_⟩
  · unfold TRAN.ofRange
    have h4 : as.length * 4 / 4 = as.length := by omega
    have h5 : as.length * 4 % 4 = 0 := by omega
    rw [hlen, h4, h5, hx]
    simpa using hd'
  · rw [← hav]; exact hh.hm
  · intro i x hxi
    obtain ⟨hi, hxe⟩ := List.getElem?_eq_some_iff.mp hxi
    have hia : i < as.length := by omega
    have e : as[i] = [Dbl.ofNat x.1, Dbl.ofNat x.2.1, x.2.2.1, x.2.2.2] := by simp [as, hxe]
    have hl4 := hall _ (List.getElem_mem hia)
    have hxm : x ∈ v := List.mem_of_getElem? hxi
    refine ⟨?_, ?_, ?_, ?_⟩
    · exact hh.ivalue i 0 hia (by omega) _ (by simp [e, Dbl.ofNat]) (h1 x hxm).1.fits
    · exact hh.ivalue i 1 hia (by omega) _ (by simp [e, Dbl.ofNat]) (h1 x hxm).2.fits
    · have := hh.dvalue i 2 hia (by omega)
      simp only [e] at this; simpa [TRAN.energy] using this
    · have := hh.dvalue i 3 hia (by omega)
      simp only [e] at this; simpa [TRAN.probability] using this

/-- XPROB: offsets instead of locators. The number of transitions of the last subshell follows
from the number of words, so the range has to end with the block. -/
theorem C09_XPROB (vs : List TransSpec) (bs : List TRAN) (hb : vs.mapM mkTrans = .ok bs)
    (hf : FitsN ((bs.map (·.xss)).flatten.length + 1))
    (h1 : ∀ v ∈ vs, ∀ x ∈ v, FitsN x.1 ∧ FitsN x.2.1) :
    ∃ b, XPROB.mk' bs = .ok b ∧
      Gives b (bs.map (·.xss)) (fun i d => ∀ v, vs[i]? = some v → IsTrans v d) ∧
      ∀ gap, ∃ r, XPROB.ofRange (b.xss.take vs.length ++ gap ++ b.xss.drop vs.length)
          (vs.length + gap.length) vs.length = .ok r ∧
        Gives r (bs.map (·.xss)) (fun i d => ∀ v, vs[i]? = some v → IsTrans v d) := by
  have := C09_built _ (·.xss) XPROB.gen false vs bs hb [] IsTrans hf
    (fun v hv d hd hl t ht l => by
      have : t = [] := by simpa using ht
      subst this
      simpa [XPROB.gen] using trans_built v d hd (h1 v hv))
  unfold XPROB.mk' XPROB.ofRange
  simpa only [List.append_nil] using this

-- concrete cases
example : (SIG.mk' [CrossSectionData.mk' 3 [Dbl.ofNat 7, Dbl.ofNat 8],
    CrossSectionData.mk' 1 [Dbl.ofNat 9]] >>= fun b => b.LLOC 2) = .ok 5 := by decide
example : (SIG.mk' [CrossSectionData.mk' 3 [Dbl.ofNat 7, Dbl.ofNat 8],
    CrossSectionData.mk' 1 [Dbl.ofNat 9]] >>= fun b => b.get 2 >>= fun d => d.crossSections) =
    .ok [Dbl.ofNat 9] := by decide
example : ([(([], [], [Dbl.ofNat 1], [Dbl.ofNat 2]) : TabSpec),
      ([2], [5], [Dbl.ofNat 3, Dbl.ofNat 4], [Dbl.ofNat 5, Dbl.ofNat 6])].mapM
      (fun v => TabulatedData.mk' v.1 v.2.1 v.2.2.1 v.2.2.2) >>= fun bs =>
    SIGD.mk' bs >>= fun b => b.LLOC 2) = .ok 5 := by decide
example : ([(([(1, 0, Dbl.ofNat 1, Dbl.ofNat 1)]) : TransSpec), [],
      [(2, 3, Dbl.ofNat 1, Dbl.ofNat 1)]].mapM mkTrans >>= fun bs =>
    XPROB.mk' bs >>= fun b => do return ((← b.LLOC 2), (← b.LLOC 3))) = .ok (5, 5) := by decide
example : ([((12, 18, [], [], [Dbl.ofNat 1], [Dbl.ofNat 2]) : MultSpec)].mapM mkMult >>= fun bs =>
    SIGH.mk' bs >>= fun b => b.get 1 >>= fun d => d.MT) = .ok 18 := by decide
example : ([((1, [Dbl.ofNat 1], [Dbl.ofNat 2], [Dbl.ofNat 3]) : ProfileSpec)].mapM mkProfile >>=
    fun bs => SWD.mk' bs >>= fun b => b.get 1 >>= fun d => d.cdf) = .ok [Dbl.ofNat 3] := by decide

/-- The hypotheses of the theorems are met by the blocks of the examples above. -/
example := C09_generic (fun d : CrossSectionData => d.xss) (fun _ ws => CrossSectionData.ofRange ws) true
  [CrossSectionData.mk' 3 [Dbl.ofNat 7, Dbl.ofNat 8], CrossSectionData.mk' 1 [Dbl.ofNat 9]] [Dbl.ofNat 4]
  (fun _ _ => True) (by decide)
  (by intro i hi l; match i, hi with
      | 0, _ => exact ⟨⟨_⟩, rfl, trivial⟩
      | 1, _ => exact ⟨⟨_⟩, rfl, trivial⟩)
  (by intro i hi l _; match i, hi with
      | 0, _ => exact ⟨⟨_⟩, rfl, trivial⟩
      | 1, _ => exact ⟨⟨_⟩, rfl, trivial⟩)
example := C09_SIG [(3, [Dbl.ofNat 7, Dbl.ofNat 8]), (1, [Dbl.ofNat 9])] [Dbl.ofNat 4] (by decide) (by decide)
example := C09_SIGD [([], [], [Dbl.ofNat 1], [Dbl.ofNat 2]),
  ([2], [5], [Dbl.ofNat 3, Dbl.ofNat 4], [Dbl.ofNat 5, Dbl.ofNat 6])] _ rfl [Dbl.ofNat 4] (by decide)
example := C09_SIGH [(12, 18, [], [], [Dbl.ofNat 1], [Dbl.ofNat 2]),
  (13, 102, [2], [5], [Dbl.ofNat 3, Dbl.ofNat 4], [Dbl.ofNat 5, Dbl.ofNat 6])] _ rfl [Dbl.ofNat 4] (by decide)
  (by decide) (by decide)
example := C09_SWD [(1, [Dbl.ofNat 1], [Dbl.ofNat 2], [Dbl.ofNat 3]),
  (2, [Dbl.ofNat 1, Dbl.ofNat 4], [Dbl.ofNat 2, Dbl.ofNat 3], [Dbl.ofNat 3, Dbl.ofNat 4])] _ rfl [Dbl.ofNat 4] (by decide)
  (by decide)
example := C09_XPROB [[(1, 0, Dbl.ofNat 1, Dbl.ofNat 1)], [], [(2, 3, Dbl.ofNat 1, Dbl.ofNat 1)]] _ rfl (by decide)
  (by decide)

end ACE.Props

import Verif.Lemmas.Distribution
import Verif.Props.C08
import Verif.Props.C09

/-!
# C11: distribution tables with absolute locators (laws 4 and 44)

`DistGives d locb b i es ws P`: `d` gives back the interpolation table `b`, `i`, the incident
energies `es`; the stored locator of distribution `k` is `locb` plus the number of words of the
data before that distribution, its relative locator is one plus that number; the distribution at
index `k` satisfies `P k`; other indices are refused. The words before distribution `k` are
`2 + 2 NR + 2 NE` header words and the words `ws` of the distributions before it.
-/

namespace ACE.Props
open ACE

/-- The number of words before distribution `k`. -/
def wordsBefore (b : List Int) (ws : List Words) (k : Nat) : Nat :=
  2 + 2 * b.length + 2 * ws.length + (ws.take k).flatten.length

structure DistGives {D : Type} (d : DistData D) (locb : Nat) (b i : List Int) (es : Words)
    (ws : List Words) (P : Nat → D → Prop) : Prop where
  regions : d.NB = .ok b.length ∧ d.NBT = .ok (b.map Dbl.ofInt) ∧ d.INT = .ok (i.map Dbl.ofInt)
  count : d.NE = .ok es.length
  energies : d.incidentEnergies = .ok es
  energy : ∀ (k : Nat) (hk : k < es.length), d.incidentEnergy (k + 1) = .ok es[k]
  locator : ∀ k, k < es.length → d.LOCC (k + 1) = .ok ((locb + wordsBefore b ws k : Nat) : Int)
  relative : ∀ k, k < es.length →
    d.relativeDistributionLocator (k + 1) = .ok (wordsBefore b ws k + 1)
  distribution : ∀ k, k < es.length → ∃ x, d.distribution (k + 1) = .ok x ∧ P k x
  refused : ∀ k, k = 0 ∨ es.length < k → d.incidentEnergy k = .error .range ∧
    d.LOCC k = .error .range ∧ d.relativeDistributionLocator k = .error .range ∧
    d.distribution k = .error .range

/-- The words of distribution data. -/
def distWords (locb : Nat) (b i : List Int) (es : Words) (ws : List Words) : Words :=
  ColumnData.words b.length [b.map Dbl.ofInt, i.map Dbl.ofInt] ++
    tableWords locb (1 + 2 * b.length) [es] ws

theorem distWords_length (locb : Nat) (b i : List Int) (es : Words) (ws : List Words)
    (hi : i.length = b.length) (he : es.length = ws.length) :
    (distWords locb b i es ws).length = wordsBefore b ws ws.length := by
  unfold distWords wordsBefore
  rw [List.length_append, tableWords_length _ _ _ _ (by simpa using he)]
  simp [hi]; omega

/-- Words of distribution data, whatever follows, are read as the distribution data, provided
that the words of each distribution, whatever follows, are read as that distribution. -/
theorem distData_read' {D : Type} (gen : Dbl → Nat → Words → Res D) (locb : Nat) (b i : List Int)
    (es : Words) (ws : List Words) (P : Nat → D → Prop) (rest : Words)
    (hi : i.length = b.length) (he : es.length = ws.length) (hne : ∀ w ∈ ws, w ≠ [])
    (hf : FitsN (locb + wordsBefore b ws ws.length + 1))
    (hg : ∀ (k : Nat) (h1 : k < es.length) (h2 : k < ws.length) (t : Words),
      ∃ d, gen es[k] (locb + wordsBefore b ws k) (ws[k] ++ t) = .ok d ∧ P k d) :
    ∃ d, DistData.generateBlocks gen (distWords locb b i es ws ++ rest) locb = .ok d ∧
      DistData.ofRange gen locb (distWords locb b i es ws ++ rest) = .ok d ∧
      d.xss = distWords locb b i es ws ++ rest ∧ DistGives d locb b i es ws P ∧
      d.distributions.length = ws.length ∧
      ∀ (k : Nat) (h1 : k < es.length) (h2 : k < ws.length) (h3 : k < d.distributions.length),
        gen es[k] (locb + wordsBefore b ws k) (LocBlock.cut ws rest k h2) =
          .ok d.distributions[k] := by
  have hlen : ∀ k, dataStart (1 + 2 * b.length) (([es] : List Words).length + 1) ws.length + startOf ws k =
      wordsBefore b ws k := by
    intro k; simp [dataStart, wordsBefore, startOf]; omega
  have hle : ∀ k, startOf ws k ≤ ws.flatten.length := startOf_le ws
  have hwl : wordsBefore b ws ws.length = 2 + 2 * b.length + 2 * ws.length + ws.flatten.length := by
    simp [wordsBefore]
  have hcl : ∀ x ∈ [b.map Dbl.ofInt, i.map Dbl.ofInt], x.length = b.length := by simp [hi]
  have hec : ∀ c ∈ ([es] : List Words), c.length = ws.length := by simpa using he
  have hil : (ColumnData.words b.length [b.map Dbl.ofInt, i.map Dbl.ofInt]).length =
      1 + 2 * b.length := by simp [hi]; omega
  have htl := tableHead_length locb (1 + 2 * b.length) [es] ws hec
  have hH : ColumnData.Holds
      ⟨ColumnData.words ws.length (tableCols locb (1 + 2 * b.length) [es] ws), 2⟩ ws.length
      (tableCols locb (1 + 2 * b.length) [es] ws) :=
    ⟨tableCols_len _ _ _ _ hec, by omega, [], by simp⟩
  have hIH : ColumnData.Holds ⟨ColumnData.words b.length [b.map Dbl.ofInt, i.map Dbl.ofInt], 2⟩
      b.length [b.map Dbl.ofInt, i.map Dbl.ofInt] := ⟨hcl, by omega, [], by simp⟩
  let A : Words := ColumnData.words b.length [b.map Dbl.ofInt, i.map Dbl.ofInt] ++
    ColumnData.words ws.length (tableCols locb (1 + 2 * b.length) [es] ws)
  have hA : A.length = dataStart (1 + 2 * b.length) (([es] : List Words).length + 1) ws.length := by
    simp only [A, List.length_append, hil, htl, dataStart]
  have hAl : A.length = 2 + 2 * b.length + 2 * ws.length := by
    rw [hA]; simp [dataStart]; omega
  have hx : distWords locb b i es ws ++ rest = A ++ ws.flatten ++ rest := by
    simp only [distWords, tableWords_eq, A, List.append_assoc]
  have hx1 : distWords locb b i es ws ++ rest = [] ++ Dbl.ofNat b.length ::
      ([b.map Dbl.ofInt, i.map Dbl.ofInt].flatten ++
        (tableWords locb (1 + 2 * b.length) [es] ws ++ rest)) := by
    simp [distWords]
  have hx2 : distWords locb b i es ws ++ rest =
      ColumnData.words b.length [b.map Dbl.ofInt, i.map Dbl.ofInt] ++ Dbl.ofNat ws.length ::
      ((tableCols locb (1 + 2 * b.length) [es] ws).flatten ++ ws.flatten ++ rest) := by
    simp [distWords, tableWords]
  have i1 : Base.IXSS (distWords locb b i es ws ++ rest) 1 = .ok (b.length : Int) :=
    Base.IXSS_ofNat hx1 (by simp) (by omega)
  have i2 : Base.IXSS (distWords locb b i es ws ++ rest) (2 + 2 * b.length) = .ok (ws.length : Int) :=
    Base.IXSS_ofNat hx2 (by omega) (by omega)
  have x1 : Base.XSS (distWords locb b i es ws ++ rest) 1 = .ok (Dbl.ofNat b.length) :=
    Base.XSS_of_eq hx1 (by simp)
  have x2 : Base.XSS (distWords locb b i es ws ++ rest) (1 + 2 * b.length + 1) = .ok (Dbl.ofNat ws.length) :=
    Base.XSS_of_eq hx2 (by omega)
  have hxl : (distWords locb b i es ws ++ rest).length =
      2 + 2 * b.length + 2 * ws.length + ws.flatten.length + rest.length := by
    rw [hx]; simp only [List.length_append, hAl]
  -- the distributions
  obtain ⟨ds, hds, hdp⟩ := exists_list ws.length
    (fun k d => ∀ (h1 : k < es.length) (h2 : k < ws.length),
      gen es[k] (locb + wordsBefore b ws k) (LocBlock.cut ws rest k h2) = .ok d ∧ P k d)
    (fun k hk => by
      by_cases hlast : k + 1 = ws.length
      · obtain ⟨d, hd⟩ := hg k (by omega) hk rest
        exact ⟨d, fun _ _ => by simpa [LocBlock.cut, hlast] using hd⟩
      · obtain ⟨d, hd⟩ := hg k (by omega) hk []
        exact ⟨d, fun _ _ => by simpa [LocBlock.cut, hlast] using hd⟩)
  let vals : ColumnData :=
    ⟨ColumnData.words ws.length (tableCols locb (1 + 2 * b.length) [es] ws), 2⟩
  have hloc : ∀ k, k < ws.length → Dist.LOCC vals (k + 1) =
      .ok ((locb + wordsBefore b ws k : Nat) : Int) := by
    intro k hk
    have := hle k
    have := Dist.LOCC_ok (values := vals) hH rfl k hk
      (by rw [Nat.add_assoc, hlen]; simp [wordsBefore, startOf] at this ⊢; simp at hwl; omega)
    rw [Nat.add_assoc, hlen] at this
    exact this
  have hrel : ∀ k, k < ws.length → Dist.relInt vals locb (k + 1) =
      .ok ((wordsBefore b ws k + 1 : Nat) : Int) := by
    intro k hk
    have := hle k
    have := Dist.relInt_ok (values := vals) hH rfl k hk
      (by rw [Nat.add_assoc locb, hlen]; simp [wordsBefore, startOf] at this ⊢; simp at hwl; omega)
    rw [hlen] at this
    exact this
  have hval : ∀ (k : Nat) (hk : k < es.length), Dist.value vals 1 (k + 1) = .ok es[k] := by
    intro k hk
    exact Dist.value_ok (values := vals) (cols := [es]) hH 0 k (by simp) (by simpa using hk)
  have hwk : ∀ k, wordsBefore b ws k = A.length + startOf ws k := by
    intro k; rw [hAl]; simp [wordsBefore, startOf]
  have hgb : DistData.generateBlocks gen (distWords locb b i es ws ++ rest) locb =
      .ok ⟨distWords locb b i es ws ++ rest, locb,
        ⟨ColumnData.words b.length [b.map Dbl.ofInt, i.map Dbl.ofInt], 2⟩, vals, ds⟩ := by
    unfold DistData.generateBlocks
    simp only [i1, ok_bind]
    rw [sizeOfInt_natCast (by omega), i2]
    simp only [ok_bind]
    rw [sizeOfInt_natCast (by omega), Base.iterator_ok (by omega) (by omega), ok_bind,
      Base.iterator_ok (by omega) (by omega), ok_bind]
    have s1 : sub (distWords locb b i es ws ++ rest) 0 (2 + 2 * b.length - 1) =
        .ok (ColumnData.words b.length [b.map Dbl.ofInt, i.map Dbl.ofInt]) :=
      sub_of_eq (a := []) (c := tableWords locb (1 + 2 * b.length) [es] ws ++ rest)
        (by simp [distWords]) rfl (by rw [hil]; simp)
    have s2 : sub (distWords locb b i es ws ++ rest) (2 + 2 * b.length - 1)
        (2 + 2 * b.length + 2 * ws.length + 1 - 1) = .ok vals.xss :=
      sub_of_eq (a := ColumnData.words b.length [b.map Dbl.ofInt, i.map Dbl.ofInt])
        (c := ws.flatten ++ rest)
        (by simp only [distWords, tableWords_eq, vals, List.append_assoc])
        (by omega) (by simp only [vals, hil, htl, List.length_singleton]; omega)
    rw [s1, ok_bind]
    have r1 := ColumnData.ofRange_ok [b.map Dbl.ofInt, i.map Dbl.ofInt] b.length 2 [] rfl hcl (by omega)
    rw [List.append_nil] at r1
    unfold InterpolationData.ofRange
    rw [r1, ok_bind, s2, ok_bind]
    have r2 := ColumnData.ofRange_ok (tableCols locb (1 + 2 * b.length) [es] ws) ws.length 2 [] rfl
      (tableCols_len _ _ _ _ hec) (by omega)
    rw [List.append_nil] at r2
    rw [r2, ok_bind, hH.N, ok_bind]
    have hm : (List.range ws.length).mapM
        (Dist.generateBlock gen (Dist.relInt vals locb) (distWords locb b i es ws ++ rest) vals
          ws.length) = .ok ds := by
      refine mapM_range_eq _ ds _ hds.symm (fun k hk => ?_)
      have hk' : k < ws.length := by omega
      have hke : k < es.length := by omega
      have hk2 := hle k
      rw [hx, Dist.generateBlock_ok gen (Dist.relInt vals locb) A rest es[k]
        (locb + wordsBefore b ws k) k hk' hne (by omega) (hval k hke) (hloc k hk')
        (by rw [hwk]; omega) (fun j hj => by rw [← hwk]; exact hrel j hj)]
      exact (hdp k hk hke hk').1
    rw [hm]; rfl
  refine ⟨_, hgb, ?_, rfl, ?_, hds, fun k h1 h2 h3 => (hdp k h3 h1 h2).1⟩
  · unfold DistData.ofRange
    rw [x1, ok_bind, Dbl.round?_ofNat, toSize_natCast (by omega), ok_bind, x2, ok_bind,
      Dbl.round?_ofNat, toSize_natCast (by omega), ok_bind, guardThrow_not_lt (by omega), ok_bind]
    exact hgb
  · refine ⟨⟨hIH.N, hIH.column 0 (by simp), hIH.column 1 (by simp)⟩, ?_, ?_, hval, ?_, ?_, ?_, ?_⟩
    · rw [he]; exact hH.N
    · exact hH.column 0 (by simp)
    · intro k hk; exact hloc k (by omega)
    · intro k hk
      unfold DistData.relativeDistributionLocator
      have := hle k
      rw [hrel k (by omega), ok_bind, sizeOfInt_natCast (by rw [hwk]; omega)]; rfl
    · intro k hk
      refine ⟨ds[k]'(by omega), ?_, (hdp k (by omega) hk (by omega)).2⟩
      unfold DistData.distribution
      rw [Dist.verifyValueIndex_ok hH.N k (by omega), ok_bind]
      simp [List.getElem?_eq_getElem (show k < ds.length by omega)]
    · intro k hk
      have hr := Dist.verifyValueIndex_range hH.N k (by omega)
      unfold DistData.incidentEnergy DistData.LOCC DistData.relativeDistributionLocator
        DistData.distribution Dist.relInt Dist.LOCC Dist.value
      simp only [vals, hr, error_bind, and_self]

theorem distData_read {D : Type} (gen : Dbl → Nat → Words → Res D) (locb : Nat) (b i : List Int)
    (es : Words) (ws : List Words) (P : Nat → D → Prop) (rest : Words)
    (hi : i.length = b.length) (he : es.length = ws.length) (hne : ∀ w ∈ ws, w ≠ [])
    (hf : FitsN (locb + wordsBefore b ws ws.length + 1))
    (hg : ∀ (k : Nat) (h1 : k < es.length) (h2 : k < ws.length) (t : Words),
      ∃ d, gen es[k] (locb + wordsBefore b ws k) (ws[k] ++ t) = .ok d ∧ P k d) :
    ∃ d, DistData.generateBlocks gen (distWords locb b i es ws ++ rest) locb = .ok d ∧
      DistData.ofRange gen locb (distWords locb b i es ws ++ rest) = .ok d ∧
      d.xss = distWords locb b i es ws ++ rest ∧ DistGives d locb b i es ws P := by
  obtain ⟨d, h1, h2, h3, h4, _⟩ := distData_read' gen locb b i es ws P rest hi he hne hf hg
  exact ⟨d, h1, h2, h3, h4⟩

/-- `generateXSS` writes those words. -/
theorem distData_generateXSS (b i : List Int) (ds : List (Dbl × (Nat → Res Words))) (locb : Nat)
    (ws : List Words) (hi : i.length = b.length) (hl : ws.length = ds.length)
    (h : ∀ (k : Nat) (h1 : k < ds.length) (h2 : k < ws.length),
      ds[k].2 (locb + wordsBefore b ws k) = .ok ws[k]) :
    DistData.generateXSS b i ds locb = .ok (distWords locb b i (ds.map (·.1)) ws) := by
  unfold DistData.generateXSS
  rw [dist2XSS_ok locb (1 + 2 * b.length) ds ws hl (fun k h1 h2 => by
    have := h k h1 h2
    have e : locb + (1 + 2 * b.length) + (1 + 2 * ws.length) + startOf ws k =
        locb + wordsBefore b ws k := by simp [wordsBefore, startOf]; omega
    rw [e]; exact this), ok_bind]
  unfold InterpolationData.mk'
  rw [ColumnData.ofColumns_ok _ b.length (by simp) (by simp [hi])]
  rfl

theorem distData_mismatch (b i : List Int) (ds : List (Dbl × (Nat → Res Words))) (locb : Nat)
    (ws : List Words) (hi : i.length ≠ b.length) (hl : ws.length = ds.length)
    (h : ∀ (k : Nat) (h1 : k < ds.length) (h2 : k < ws.length),
      ds[k].2 (locb + wordsBefore b ws k) = .ok ws[k]) :
    DistData.generateXSS b i ds locb = .error .thrown := by
  unfold DistData.generateXSS
  rw [dist2XSS_ok locb (1 + 2 * b.length) ds ws hl (fun k h1 h2 => by
    have := h k h1 h2
    have e : locb + (1 + 2 * b.length) + (1 + 2 * ws.length) + startOf ws k =
        locb + wordsBefore b ws k := by simp [wordsBefore, startOf]; omega
    rw [e]; exact this), ok_bind]
  unfold InterpolationData.mk'
  rw [ColumnData.ofColumns_error _ _ (by simpa using hi)]
  rfl

theorem tabDist_ofRange_eq {v : Dbl} {xs : Words} {d : TabDist} (h : TabDist.ofRange v xs = .ok d) :
    d = ⟨v, ⟨xs⟩⟩ := by
  obtain ⟨t, ht, h⟩ := bind_eq_ok.mp h
  injection h with h; subst h
  unfold TabProb.ofRange at ht
  obtain ⟨n, hn, ht⟩ := bind_eq_ok.mp ht
  obtain ⟨_, _, ht⟩ := bind_eq_ok.mp ht
  injection ht with ht; subst ht
  rfl

/-- Laws 4 and 44 from distributions that are read back from their words as satisfying `Q`. -/
theorem law4_generic (locb : Nat) (b i : List Int) (bs : List TabDist) (Q : Nat → TabDist → Prop)
    (hi : i.length = b.length) (hne : ∀ d ∈ bs, d.xss ≠ [])
    (hf : FitsN (locb + wordsBefore b (bs.map (·.xss)) bs.length + 1))
    (hg : ∀ (k : Nat) (h : k < bs.length) (t : Words),
      ∃ d, TabDist.ofRange bs[k].value (bs[k].xss ++ t) = .ok d ∧ Q k d) :
    ∃ d, Law4.mk' b i bs locb = .ok d ∧ d.distributions = bs ∧
      d.xss.length = wordsBefore b (bs.map (·.xss)) bs.length ∧
      DistGives d locb b i (bs.map (·.value)) (bs.map (·.xss)) Q ∧
      ∀ rest, ∃ r, Law4.ofRange locb (d.xss ++ rest) = .ok r ∧
        DistGives r locb b i (bs.map (·.value)) (bs.map (·.xss)) Q := by
  have hgx := distData_generateXSS b i (bs.map Law4.part) locb (bs.map (·.xss)) hi (by simp)
    (fun k h1 h2 => by simp [Law4.part])
  have hm : (bs.map Law4.part).map (·.1) = bs.map (·.value) := by
    simp [Law4.part, Function.comp_def]
  rw [hm] at hgx
  have hrd := fun rest => distData_read' Law4.gen locb b i (bs.map (·.value)) (bs.map (·.xss)) Q rest
    hi (by simp) (by simpa using hne) (by simpa using hf)
    (fun k h1 h2 t => by
      obtain ⟨d, hd, hq⟩ := hg k (by simpa using h1) t
      refine ⟨d, ?_, hq⟩
      simpa [Law4.gen] using hd)
  obtain ⟨d, hd, _, hdx, hdg, hdl, hdd⟩ := hrd []
  rw [List.append_nil] at hd hdx
  refine ⟨d, ?_, ?_, ?_, hdg, fun rest => ?_⟩
  · unfold Law4.mk' DistData.mk'
    rw [hgx, ok_bind, hd]
  · refine List.ext_getElem (by simpa using hdl) (fun k hk1 hk2 => ?_)
    have h := hdd k (by simpa using hk2) (by simpa using hk2) hk1
    have hcut : LocBlock.cut (bs.map (·.xss)) [] k (by simpa using hk2) = bs[k].xss := by
      simp [LocBlock.cut]
    rw [hcut] at h
    have := tabDist_ofRange_eq h
    rw [this]
    simp [TabDist.xss]
  · rw [hdx, distWords_length _ _ _ _ _ hi (by simp)]; simp
  · obtain ⟨r, _, hr, _, hrg, _⟩ := hrd rest
    exact ⟨r, by unfold Law4.ofRange; rw [hdx]; exact hr, hrg⟩

/-- An outgoing energy distribution as the user gives it. -/
structure EnergySpec where
  incident : Dbl
  int : Nat
  outgoing : Words
  pdf : Words
  cdf : Words
  discrete : Nat

/-- The interpolation type is a digit and the packed flag fits an `int`. -/
def EnergySpec.Ok (v : EnergySpec) : Prop :=
  v.int < 10 ∧ Fits ((v.discrete : Int) * 10 + v.int)

/-- Law 4. -/
def mkEnergySpec (v : EnergySpec) : Res TabDist :=
  TabDist.mkEnergy v.incident v.int v.outgoing v.pdf v.cdf v.discrete

/-- Law 44 has two more columns. -/
def mkKalbachSpec (v : EnergySpec × Words × Words) : Res TabDist :=
  TabDist.mkKalbach v.1.incident v.1.int v.1.outgoing v.1.pdf v.1.cdf v.2.1 v.2.2 v.1.discrete

/-- What the distribution gives. -/
def IsEnergy (v : EnergySpec) (d : TabDist) : Prop :=
  GivesPacked d v.incident v.int v.discrete v.outgoing v.pdf v.cdf

/-- What a Kalbach-Mann distribution gives. -/
def IsKalbach (v : EnergySpec × Words × Words) (d : TabDist) : Prop :=
  IsEnergy v.1 d ∧ d.r = .ok v.2.1 ∧ d.a = .ok v.2.2

theorem tabProb_nonempty {flag : Int} {v p c : Words} {cols : List Words} {d : TabProb}
    (h : TabProb.mk' flag v p c cols = .ok d) : v.length < d.xss.length := by
  unfold TabProb.mk' TabProb.generateXSS at h
  obtain ⟨x, hx, h⟩ := bind_eq_ok.mp h
  injection h with h; subst h
  obtain ⟨y, hy, hx⟩ := bind_eq_ok.mp hx
  injection hx with hx; subst hx
  by_cases hall : ∀ x ∈ p :: c :: cols, x.length = v.length
  · rw [ColumnData.ofColumns_ok _ v.length (by simp) (by
      intro x hx
      rcases List.mem_cons.mp hx with rfl | hx
      · rfl
      · exact hall x hx)] at hy
    injection hy with hy; subst hy
    simp; omega
  · rw [ColumnData.ofColumns_error _ _ hall] at hy; cases hy

theorem energySpec_xss (v : EnergySpec) (d : TabDist) (h : mkEnergySpec v = .ok d) :
    d.value = v.incident ∧ v.outgoing.length < d.xss.length := by
  obtain ⟨t, ht, h⟩ := bind_eq_ok.mp h
  injection h with h; subst h
  exact ⟨rfl, tabProb_nonempty ht⟩

theorem kalbachSpec_xss (v : EnergySpec × Words × Words) (d : TabDist) (h : mkKalbachSpec v = .ok d) :
    d.value = v.1.incident ∧ v.1.outgoing.length < d.xss.length := by
  obtain ⟨t, ht, h⟩ := bind_eq_ok.mp h
  injection h with h; subst h
  exact ⟨rfl, tabProb_nonempty ht⟩

theorem flatten_length_ge {D : Type} (bs : List D) (f : D → Words) (d : D) (h : d ∈ bs) :
    (f d).length ≤ (bs.map f).flatten.length := by
  obtain ⟨i, hi, rfl⟩ := List.getElem_of_mem h
  have := startOf_add_le (bs.map f) i (by simpa using hi)
  rw [List.getElem_map] at this
  omega

/-- Laws 4 and 44 from specifications. -/
theorem law4_spec' {V : Type} (mk : V → Res TabDist) (energy : V → Dbl) (outgoing : V → Words)
    (Is : V → TabDist → Prop) (vs : List V) (bs : List TabDist) (hb : vs.mapM mk = .ok bs)
    (hx : ∀ v ∈ vs, ∀ d, mk v = .ok d → d.value = energy v ∧ (outgoing v).length < d.xss.length)
    (hr : ∀ v ∈ vs, ∀ d, mk v = .ok d → FitsN (outgoing v).length → ∀ rest,
      ∃ d', TabDist.ofRange (energy v) (d.xss ++ rest) = .ok d' ∧ Is v d')
    (locb : Nat) (b i : List Int) (hi : i.length = b.length)
    (hf : FitsN (locb + wordsBefore b (bs.map (·.xss)) bs.length + 1)) :
    ∃ d, Law4.mk' b i bs locb = .ok d ∧ d.distributions = bs ∧
      d.xss.length = wordsBefore b (bs.map (·.xss)) bs.length ∧
      DistGives d locb b i (vs.map energy) (bs.map (·.xss)) (fun k x => ∀ v, vs[k]? = some v → Is v x) ∧
      ∀ rest, ∃ r, Law4.ofRange locb (d.xss ++ rest) = .ok r ∧
        DistGives r locb b i (vs.map energy) (bs.map (·.xss))
          (fun k x => ∀ v, vs[k]? = some v → Is v x) := by
  obtain ⟨hlen, hmk⟩ := mapM_ok_iff mk vs bs hb
  have hval : bs.map (·.value) = vs.map energy := by
    refine List.ext_getElem (by simp [hlen]) (fun k h1 h2 => ?_)
    have hk : k < vs.length := by simpa using h2
    have hk' : k < bs.length := by omega
    simp only [List.getElem_map]
    exact (hx _ (List.getElem_mem hk) _ (hmk k hk hk')).1
  have := law4_generic locb b i bs (fun k x => ∀ v, vs[k]? = some v → Is v x) hi
    (fun d hd => by
      obtain ⟨k, hk, rfl⟩ := List.getElem_of_mem hd
      have hk' : k < vs.length := by omega
      have := (hx _ (List.getElem_mem hk') _ (hmk k hk' hk)).2
      intro hc; rw [hc] at this; simp at this) hf
    (fun k hk t => by
      have hk' : k < vs.length := by omega
      have h1 := hx _ (List.getElem_mem hk') _ (hmk k hk' hk)
      have h2 := flatten_length_ge bs (·.xss) bs[k] (List.getElem_mem hk)
      have h3 : FitsN (outgoing vs[k]).length := by
        have : wordsBefore b (bs.map (·.xss)) bs.length =
            2 + 2 * b.length + 2 * bs.length + (bs.map (·.xss)).flatten.length := by
          have : (bs.map (·.xss)).take bs.length = bs.map (·.xss) :=
            List.take_of_length_le (by simp)
          unfold wordsBefore
          rw [this]
          simp
        omega
      obtain ⟨d, hd, hq⟩ := hr _ (List.getElem_mem hk') _ (hmk k hk' hk) h3 t
      refine ⟨d, by rw [h1.1]; exact hd, fun v hv => ?_⟩
      rw [List.getElem?_eq_getElem hk'] at hv
      injection hv with hv; subst hv
      exact hq)
  rw [hval] at this
  exact this

theorem law4_spec {V : Type} (mk : V → Res TabDist) (energy : V → Dbl) (outgoing : V → Words)
    (Is : V → TabDist → Prop) (vs : List V) (bs : List TabDist) (hb : vs.mapM mk = .ok bs)
    (hx : ∀ v ∈ vs, ∀ d, mk v = .ok d → d.value = energy v ∧ (outgoing v).length < d.xss.length)
    (hr : ∀ v ∈ vs, ∀ d, mk v = .ok d → FitsN (outgoing v).length → ∀ rest,
      ∃ d', TabDist.ofRange (energy v) (d.xss ++ rest) = .ok d' ∧ Is v d')
    (locb : Nat) (b i : List Int) (hi : i.length = b.length)
    (hf : FitsN (locb + wordsBefore b (bs.map (·.xss)) bs.length + 1)) :
    ∃ d, Law4.mk' b i bs locb = .ok d ∧
      DistGives d locb b i (vs.map energy) (bs.map (·.xss)) (fun k x => ∀ v, vs[k]? = some v → Is v x) ∧
      ∀ rest, ∃ r, Law4.ofRange locb (d.xss ++ rest) = .ok r ∧
        DistGives r locb b i (vs.map energy) (bs.map (·.xss))
          (fun k x => ∀ v, vs[k]? = some v → Is v x) := by
  obtain ⟨d, h1, _, _, h⟩ := law4_spec' mk energy outgoing Is vs bs hb hx hr locb b i hi hf
  exact ⟨d, h1, h⟩

/-- Law 4: what was given is given back, at every base locator, directly and when the words (with
anything following) are read with the same base locator. -/
theorem C11_law4 (vs : List EnergySpec) (bs : List TabDist) (hb : vs.mapM mkEnergySpec = .ok bs)
    (hv : ∀ v ∈ vs, v.Ok) (locb : Nat) (b i : List Int) (hi : i.length = b.length)
    (hf : FitsN (locb + wordsBefore b (bs.map (·.xss)) bs.length + 1)) :
    ∃ d, Law4.mk' b i bs locb = .ok d ∧
      DistGives d locb b i (vs.map (·.incident)) (bs.map (·.xss))
        (fun k x => ∀ v, vs[k]? = some v → IsEnergy v x) ∧
      ∀ rest, ∃ r, Law4.ofRange locb (d.xss ++ rest) = .ok r ∧
        DistGives r locb b i (vs.map (·.incident)) (bs.map (·.xss))
          (fun k x => ∀ v, vs[k]? = some v → IsEnergy v x) :=
  law4_spec mkEnergySpec (·.incident) (·.outgoing) IsEnergy vs bs hb
    (fun v _ d hd => energySpec_xss v d hd)
    (fun v hm d hd hfv rest => (C08_energy v.incident v.int v.discrete v.outgoing v.pdf v.cdf d
      (hv v hm).1 (hv v hm).2 hfv hd rest).2)
    locb b i hi hf

/-- Law 44. -/
theorem C11_law44 (vs : List (EnergySpec × Words × Words)) (bs : List TabDist)
    (hb : vs.mapM mkKalbachSpec = .ok bs)
    (hv : ∀ v ∈ vs, v.1.Ok) (locb : Nat) (b i : List Int) (hi : i.length = b.length)
    (hf : FitsN (locb + wordsBefore b (bs.map (·.xss)) bs.length + 1)) :
    ∃ d, Law4.mk' b i bs locb = .ok d ∧
      DistGives d locb b i (vs.map (·.1.incident)) (bs.map (·.xss))
        (fun k x => ∀ v, vs[k]? = some v → IsKalbach v x) ∧
      ∀ rest, ∃ r, Law4.ofRange locb (d.xss ++ rest) = .ok r ∧
        DistGives r locb b i (vs.map (·.1.incident)) (bs.map (·.xss))
          (fun k x => ∀ v, vs[k]? = some v → IsKalbach v x) :=
  law4_spec mkKalbachSpec (·.1.incident) (·.1.outgoing) IsKalbach vs bs hb
    (fun v _ d hd => kalbachSpec_xss v d hd)
    (fun v hm d hd hfv rest => by
      obtain ⟨_, d', h1, h2, h3⟩ := C08_kalbach v.1.incident v.1.int v.1.discrete v.1.outgoing
        v.1.pdf v.1.cdf v.2.1 v.2.2 d (hv v hm).1 (hv v hm).2 hfv hd rest
      exact ⟨d', h1, h2, h3⟩)
    locb b i hi hf

/-- Boundaries and interpolants that do not pair up are refused. -/
theorem C11_mismatch (bs : List TabDist) (locb : Nat) (b i : List Int) (hi : i.length ≠ b.length) :
    Law4.mk' b i bs locb = .error .thrown := by
  unfold Law4.mk' DistData.mk'
  rw [distData_mismatch b i (bs.map Law4.part) locb (bs.map (·.xss)) hi (by simp)
    (fun k h1 h2 => by simp [Law4.part])]
  rfl

-- two distributions at base locator 21 behind one interpolation region
example : ([(⟨Dbl.ofNat 1, 2, [Dbl.ofNat 3], [Dbl.ofNat 4], [Dbl.ofNat 5], 0⟩ : EnergySpec),
      ⟨Dbl.ofNat 2, 1, [Dbl.ofNat 6, Dbl.ofNat 7], [Dbl.ofNat 8, Dbl.ofNat 9],
        [Dbl.ofNat 0, Dbl.ofNat 1], 3⟩].mapM mkEnergySpec >>= fun bs =>
    Law4.mk' [2] [2] bs 21 >>= fun d => do
      return ((← d.LOCC 1), (← d.LOCC 2), (← d.relativeDistributionLocator 2),
        (← (← d.distribution 2).numberDiscretePhotonLines))) = .ok (29, 34, 14, 3) := by decide

namespace C11
/-- Two distributions in energy. -/
def exSpecs : List EnergySpec := [⟨Dbl.ofNat 1, 2, [Dbl.ofNat 3], [Dbl.ofNat 4], [Dbl.ofNat 5], 0⟩,
  ⟨Dbl.ofNat 2, 1, [Dbl.ofNat 6, Dbl.ofNat 7], [Dbl.ofNat 8, Dbl.ofNat 9], [Dbl.ofNat 0, Dbl.ofNat 1], 3⟩]
theorem exOk : ∀ v ∈ exSpecs, v.Ok := by
  intro v hv
  simp only [exSpecs, List.mem_cons, List.not_mem_nil, or_false] at hv
  rcases hv with rfl | rfl <;> exact ⟨by decide, by decide⟩
end C11

/-- The hypotheses are met by two distributions at base locator 21. -/
example := C11_law4 C11.exSpecs _ rfl C11.exOk 21 [2] [2] rfl (by decide)
example := C11_law44 [(⟨Dbl.ofNat 1, 2, [Dbl.ofNat 3], [Dbl.ofNat 4], [Dbl.ofNat 5], 0⟩, [Dbl.ofNat 6], [Dbl.ofNat 7])] _ rfl
  (by intro v hv
      simp only [List.mem_cons, List.not_mem_nil, or_false] at hv
      subst hv; exact ⟨by decide, by decide⟩) 21 [2] [2] rfl (by decide)
example := C11_mismatch [] 21 [2, 3] [2] (by decide)

end ACE.Props

import Verif.Props.C11

/-!
# C12: nested distribution tables (laws 61 and 67)

`InnerGives d e int locb cols ws P`: the inner table `d` is for incident energy `e`, has
interpolation type `int` and the columns `cols` (cosines for law 67; outgoing energies, pdf and cdf
for law 61); the stored locator of distribution `k` is `locb` plus the number of words of the
table before that distribution, the relative locator one plus that number; the distribution at
index `k` satisfies `P k`; other indices are refused.
-/

namespace ACE.Props
open ACE

/-- Words before distribution `k` of an inner table with `nc` columns besides the locators. -/
def innerBefore (nc : Nat) (ws : List Words) (k : Nat) : Nat :=
  2 + (nc + 1) * ws.length + (ws.take k).flatten.length

structure InnerGives {D : Type} (d : DistDataI D) (e : Dbl) (int : Nat) (locb : Nat)
    (cols : List Words) (ws : List Words) (P : Nat → D → Prop) : Prop where
  incident : d.incident = e
  interpolation : d.interpolation = .ok (int : Int)
  count : d.N = .ok ws.length
  columns : ∀ (a : Nat) (ha : a < cols.length), d.column (a + 1) = .ok cols[a]
  value : ∀ (a k : Nat) (ha : a < cols.length) (hk : k < cols[a].length),
    d.value (a + 1) (k + 1) = .ok cols[a][k]
  locator : ∀ k, k < ws.length → d.LOCC (k + 1) = .ok ((locb + innerBefore cols.length ws k : Nat) : Int)
  relative : ∀ k, k < ws.length →
    d.relativeDistributionLocator (k + 1) = .ok (innerBefore cols.length ws k + 1)
  distribution : ∀ k, k < ws.length → ∃ x, d.distribution (k + 1) = .ok x ∧ P k x
  refused : ∀ k, k = 0 ∨ ws.length < k → d.LOCC k = .error .range ∧
    d.relativeDistributionLocator k = .error .range ∧ d.distribution k = .error .range ∧
    ∀ a, d.value a k = .error .range

/-- The words of an inner table. -/
def innerWords (int locb : Nat) (cols ws : List Words) : Words :=
  Dbl.ofNat int :: tableWords locb 1 cols ws

theorem innerWords_length (int locb : Nat) (cols ws : List Words)
    (hc : ∀ c ∈ cols, c.length = ws.length) :
    (innerWords int locb cols ws).length = innerBefore cols.length ws ws.length := by
  unfold innerWords innerBefore
  rw [List.length_cons, tableWords_length _ _ _ _ hc]
  simp; omega

/-- The column data of an inner table. -/
abbrev innerVals (locb : Nat) (cols ws : List Words) : ColumnData :=
  ⟨ColumnData.words ws.length (tableCols locb 1 cols ws), cols.length + 1⟩

theorem inner_gives {D : Type} (e : Dbl) (int locb : Nat) (cols ws : List Words) (rest : Words)
    (P : Nat → D → Prop) (ds : List D) (hc : ∀ c ∈ cols, c.length = ws.length)
    (hint : FitsN int) (hf : FitsN (locb + innerBefore cols.length ws ws.length + 1))
    (hds : ds.length = ws.length) (hp : ∀ (k : Nat) (hk : k < ds.length), P k ds[k]) :
    InnerGives ⟨e, innerWords int locb cols ws ++ rest, locb, innerVals locb cols ws, ds⟩
      e int locb cols ws P := by
  have hle : ∀ k, startOf ws k ≤ ws.flatten.length := startOf_le ws
  have hbe : ∀ k, dataStart 1 (cols.length + 1) ws.length + startOf ws k = innerBefore cols.length ws k := by
    intro k; simp only [dataStart, innerBefore, startOf]; omega
  have hmono : ∀ k, innerBefore cols.length ws k ≤ innerBefore cols.length ws ws.length := by
    intro k
    have := hle k
    rw [← hbe, ← hbe, startOf_length]; omega
  have hn : FitsN ws.length := by
    have : ws.length ≤ (cols.length + 1) * ws.length := Nat.le_mul_of_pos_left _ (by omega)
    simp only [innerBefore] at hf; omega
  have hH : ColumnData.Holds (innerVals locb cols ws) ws.length (tableCols locb 1 cols ws) :=
    ⟨tableCols_len _ _ _ _ hc, hn, [], by simp⟩
  refine ⟨rfl, ?_, hH.N, ?_, ?_, ?_, ?_, ?_, ?_⟩
  · exact Base.IXSS_ofNat (a := []) (by simp [innerWords]; rfl) (by simp) hint
  · intro a ha
    have := hH.column a (by simp; omega)
    have e : (tableCols locb 1 cols ws)[a]'(by simp; omega) = cols[a] := List.getElem_append_left ha
    rw [e] at this
    exact this
  · intro a k ha hk
    exact Dist.value_ok (values := innerVals locb cols ws) hH a k ha hk
  · intro k hk
    have := hmono k
    have h := Dist.LOCC_ok (values := innerVals locb cols ws) hH rfl k hk
      (by rw [Nat.add_assoc, hbe]; omega)
    rw [Nat.add_assoc, hbe] at h
    exact h
  · intro k hk
    have := hmono k
    have h := Dist.relSize_ok (values := innerVals locb cols ws) hH rfl k hk
      (by rw [Nat.add_assoc locb, hbe]; omega)
    rw [hbe] at h
    exact h
  · intro k hk
    refine ⟨ds[k]'(by omega), ?_, hp k (by omega)⟩
    unfold DistDataI.distribution
    rw [Dist.verifyValueIndex_ok hH.N k (by omega), ok_bind]
    simp [List.getElem?_eq_getElem (show k < ds.length by omega)]
  · intro k hk
    have hr := Dist.verifyValueIndex_range hH.N k (by omega)
    unfold DistDataI.LOCC DistDataI.relativeDistributionLocator DistDataI.distribution DistDataI.value
      Dist.relSize Dist.LOCC Dist.value
    simp only [hr, error_bind, implies_true, and_self]

/-! ## Law 67: the inner table -/

theorem angleEnergy_read (e : Dbl) (int locb : Nat) (cosines : Words) (ws : List Words)
    (rest : Words) (P : Nat → TabDist → Prop) (hc : cosines.length = ws.length)
    (hne : ∀ w ∈ ws, w ≠ []) (hint : FitsN int) (hf : FitsN (locb + innerBefore 1 ws ws.length + 1))
    (hg : ∀ (k : Nat) (h1 : k < cosines.length) (h2 : k < ws.length) (t : Words),
      ∃ d, TabDist.ofRange cosines[k] (ws[k] ++ t) = .ok d ∧ P k d) :
    ∃ ds, AngleEnergy.generateBlocks e (innerWords int locb [cosines] ws ++ rest) locb =
        .ok ⟨e, innerWords int locb [cosines] ws ++ rest, locb, innerVals locb [cosines] ws, ds⟩ ∧
      AngleEnergy.ofRange e locb (innerWords int locb [cosines] ws ++ rest) =
        .ok ⟨e, innerWords int locb [cosines] ws ++ rest, locb, innerVals locb [cosines] ws, ds⟩ ∧
      InnerGives ⟨e, innerWords int locb [cosines] ws ++ rest, locb, innerVals locb [cosines] ws, ds⟩
        e int locb [cosines] ws P ∧
      ds.length = ws.length ∧
      ∀ (k : Nat) (h1 : k < cosines.length) (h2 : k < ws.length) (h3 : k < ds.length),
        TabDist.ofRange cosines[k] (LocBlock.cut ws rest k h2) = .ok ds[k] := by
  have hle : ∀ k, startOf ws k ≤ ws.flatten.length := startOf_le ws
  have hcc : ∀ c ∈ ([cosines] : List Words), c.length = ws.length := by simpa using hc
  have hwl : innerBefore 1 ws ws.length = 2 + 2 * ws.length + ws.flatten.length := by
    simp [innerBefore]
  have htl := tableHead_length locb 1 [cosines] ws hcc
  simp only [List.length_singleton] at htl
  have hH : ColumnData.Holds (innerVals locb [cosines] ws) ws.length (tableCols locb 1 [cosines] ws) :=
    ⟨tableCols_len _ _ _ _ hcc, by omega, [], by simp⟩
  let A : Words := Dbl.ofNat int :: (innerVals locb [cosines] ws).xss
  have hAl : A.length = 2 + 2 * ws.length := by
    simp only [A, List.length_cons, htl]; omega
  have hx : innerWords int locb [cosines] ws ++ rest = A ++ ws.flatten ++ rest := by
    simp only [innerWords, tableWords_eq, A, List.append_assoc, List.cons_append]
  have hx2 : innerWords int locb [cosines] ws ++ rest = [Dbl.ofNat int] ++ Dbl.ofNat ws.length ::
      ((tableCols locb 1 [cosines] ws).flatten ++ ws.flatten ++ rest) := by
    simp [innerWords, tableWords]
  have i2 : Base.IXSS (innerWords int locb [cosines] ws ++ rest) 2 = .ok (ws.length : Int) :=
    Base.IXSS_ofNat hx2 (by simp) (by omega)
  have x2 : Base.XSS (innerWords int locb [cosines] ws ++ rest) 2 = .ok (Dbl.ofNat ws.length) :=
    Base.XSS_of_eq hx2 (by simp)
  have hxl : (innerWords int locb [cosines] ws ++ rest).length =
      2 + 2 * ws.length + ws.flatten.length + rest.length := by
    rw [hx]; simp only [List.length_append, hAl]
  obtain ⟨ds, hds, hdp⟩ := exists_list ws.length
    (fun k d => ∀ (h1 : k < cosines.length) (h2 : k < ws.length),
      TabDist.ofRange cosines[k] (LocBlock.cut ws rest k h2) = .ok d ∧ P k d)
    (fun k hk => by
      by_cases hlast : k + 1 = ws.length
      · obtain ⟨d, hd⟩ := hg k (by omega) hk rest
        exact ⟨d, fun _ _ => by simpa [LocBlock.cut, hlast] using hd⟩
      · obtain ⟨d, hd⟩ := hg k (by omega) hk []
        exact ⟨d, fun _ _ => by simpa [LocBlock.cut, hlast] using hd⟩)
  have hgives := inner_gives e int locb [cosines] ws rest P ds hcc hint hf hds
    (fun k hk => (hdp k hk (by omega) (by omega)).2)
  have hbe : ∀ k, innerBefore 1 ws k = A.length + startOf ws k := by
    intro k; rw [hAl]; simp [innerBefore, startOf]
  have hgb : AngleEnergy.generateBlocks e (innerWords int locb [cosines] ws ++ rest) locb =
      .ok ⟨e, innerWords int locb [cosines] ws ++ rest, locb, innerVals locb [cosines] ws, ds⟩ := by
    unfold AngleEnergy.generateBlocks
    simp only [i2, ok_bind]
    rw [sizeOfInt_natCast (by omega), Base.iterator_ok (by omega) (by omega), ok_bind,
      Base.iterator_ok (by omega) (by omega), ok_bind]
    have s2 : sub (innerWords int locb [cosines] ws ++ rest) (2 - 1) (2 + 2 * ws.length + 1 - 1) =
        .ok (innerVals locb [cosines] ws).xss :=
      sub_of_eq (a := [Dbl.ofNat int]) (c := ws.flatten ++ rest)
        (by simp only [innerWords, tableWords_eq, List.append_assoc, List.cons_append,
              List.nil_append])
        rfl (by simp only [htl, List.length_singleton]; omega)
    rw [s2, ok_bind]
    have r2 := ColumnData.ofRange_ok (tableCols locb 1 [cosines] ws) ws.length 2 [] rfl
      (tableCols_len _ _ _ _ hcc) (by omega)
    rw [List.append_nil] at r2
    rw [r2, ok_bind]
    have hN : ColumnData.N ⟨ColumnData.words ws.length (tableCols locb 1 [cosines] ws), 2⟩ =
        .ok ws.length := hH.N
    rw [hN, ok_bind]
    have hm : (List.range ws.length).mapM
        (Dist.generateBlock Law4.gen
          (fun i => do
            return ((← Dist.relSize (innerVals locb [cosines] ws) locb i : Nat) : Int))
          (innerWords int locb [cosines] ws ++ rest) (innerVals locb [cosines] ws) ws.length) =
        .ok ds := by
      refine mapM_range_eq _ ds _ hds.symm (fun k hk => ?_)
      have hk' : k < ws.length := by omega
      have hke : k < cosines.length := by omega
      have hk2 := hle k
      have hv : Dist.value (innerVals locb [cosines] ws) 1 (k + 1) = .ok cosines[k] :=
        hgives.value 0 k (by simp) (by simpa using hke)
      have hl : Dist.LOCC (innerVals locb [cosines] ws) (k + 1) =
          .ok ((locb + innerBefore 1 ws k : Nat) : Int) := hgives.locator k hk'
      rw [hx, Dist.generateBlock_ok Law4.gen _ A rest cosines[k]
        (locb + innerBefore 1 ws k) k hk' hne (by omega) hv hl
        (by rw [hbe]; omega) (fun j hj => by
          have hr : Dist.relSize (innerVals locb [cosines] ws) locb (j + 1) =
            .ok (innerBefore 1 ws j + 1) := hgives.relative j hj
          rw [hr, ok_bind, hbe]; rfl)]
      exact (hdp k hk hke hk').1
    have hm' := hm
    simp only [innerVals, List.length_singleton] at hm'
    rw [hm']; rfl
  refine ⟨ds, hgb, ?_, hgives, hds, fun k h1 h2 h3 => (hdp k h3 h1 h2).1⟩
  unfold AngleEnergy.ofRange DistDataI.verifySize
  rw [x2, ok_bind, Dbl.round?_ofNat, toSize_natCast (by omega), ok_bind,
    guardThrow_not_lt (by omega), ok_bind]
  exact hgb


/-! ## Relocation -/

theorem wordsBefore_congr (b : List Int) (ws ws' : List Words)
    (h : ws.map List.length = ws'.map List.length) (k : Nat) :
    wordsBefore b ws k = wordsBefore b ws' k := by
  have h1 : ws.length = ws'.length := by simpa using congrArg List.length h
  have h2 : (ws.take k).flatten.length = (ws'.take k).flatten.length := by
    rw [List.length_flatten, List.length_flatten, List.map_take, List.map_take, h]
  unfold wordsBefore
  rw [h1, h2]

theorem distGives_congr {D : Type} {d : DistData D} {locb : Nat} {b i : List Int} {es : Words}
    {ws ws' : List Words} {P : Nat → D → Prop}
    (h : ws.map List.length = ws'.map List.length) (hd : DistGives d locb b i es ws P) :
    DistGives d locb b i es ws' P := by
  have hw := fun k => wordsBefore_congr b ws ws' h k
  obtain ⟨h1, h2, h3, h4, h5, h6, h7, h8⟩ := hd
  refine ⟨h1, h2, h3, h4, fun k hk => ?_, fun k hk => ?_, h7, h8⟩
  · rw [← hw]; exact h5 k hk
  · rw [← hw]; exact h6 k hk

/-- Distribution data of inner tables `ds`, which `part` writes for any locator as words `W` that
`gen` reads. -/
theorem nested_generic {D : Type} (part : DistDataI D → Dbl × (Nat → Res Words))
    (gen : Dbl → Nat → Words → Res (DistDataI D)) (ds : List (DistDataI D)) (locb : Nat)
    (b i : List Int) (W : Nat → Nat → Words) (P : Nat → Nat → DistDataI D → Prop)
    (hi : i.length = b.length)
    (hp1 : ∀ d ∈ ds, (part d).1 = d.incident)
    (hlen : ∀ (k : Nat) (h : k < ds.length) (loc : Nat), (W k loc).length = ds[k].xss.length)
    (hne : ∀ d ∈ ds, d.xss ≠ [])
    (hp2 : ∀ (k : Nat) (h : k < ds.length) (loc : Nat), FitsN (loc + ds[k].xss.length + 1) →
      (part ds[k]).2 loc = .ok (W k loc))
    (hg : ∀ (k : Nat) (h : k < ds.length) (loc : Nat) (t : Words),
      FitsN (loc + ds[k].xss.length + 1) →
      ∃ d, gen ds[k].incident loc (W k loc ++ t) = .ok d ∧ P k loc d)
    (hf : FitsN (locb + wordsBefore b (ds.map (·.xss)) ds.length + 1)) :
    ∃ d, DistData.mk' gen b i (ds.map part) locb = .ok d ∧
      d.xss.length = wordsBefore b (ds.map (·.xss)) ds.length ∧
      (d.distributions.length = ds.length ∧
        ∀ (k : Nat) (h : k < ds.length) (h' : k < d.distributions.length),
          gen ds[k].incident (locb + wordsBefore b (ds.map (·.xss)) k)
            (W k (locb + wordsBefore b (ds.map (·.xss)) k)) = .ok d.distributions[k]) ∧
      DistGives d locb b i (ds.map (·.incident)) (ds.map (·.xss))
        (fun k => P k (locb + wordsBefore b (ds.map (·.xss)) k)) ∧
      ∀ rest, ∃ r, DistData.ofRange gen locb (d.xss ++ rest) = .ok r ∧
        DistGives r locb b i (ds.map (·.incident)) (ds.map (·.xss))
          (fun k => P k (locb + wordsBefore b (ds.map (·.xss)) k)) := by
  let ws0 := ds.map (·.xss)
  let ws := (List.range ds.length).map (fun k => W k (locb + wordsBefore b ws0 k))
  have hwl : ws.length = ds.length := by simp [ws]
  have hlens : ws.map List.length = ws0.map List.length := by
    refine List.ext_getElem (by simp [ws, ws0]) (fun k h1 h2 => ?_)
    simp only [ws, ws0, List.getElem_map, List.getElem_range]
    exact hlen k (by simpa [ws0] using h2) _
  have hw := fun k => wordsBefore_congr b ws ws0 hlens k
  have hfit : ∀ (k : Nat) (h : k < ds.length),
      FitsN (locb + wordsBefore b ws0 k + ds[k].xss.length + 1) := by
    intro k h
    have h1 := startOf_add_le ws0 k (by simpa [ws0] using h)
    have e : ws0[k]'(by simpa [ws0] using h) = ds[k].xss := by simp [ws0]
    rw [e] at h1
    have h2 : wordsBefore b ws0 ds.length = 2 + 2 * b.length + 2 * ws0.length + ws0.flatten.length := by
      have : ws0.take ds.length = ws0 := List.take_of_length_le (by simp [ws0])
      unfold wordsBefore; rw [this]
    have h3 : wordsBefore b ws0 k = 2 + 2 * b.length + 2 * ws0.length + startOf ws0 k := rfl
    have h4 : FitsN (locb + wordsBefore b ws0 ds.length + 1) := hf
    omega
  have hgx := distData_generateXSS b i (ds.map part) locb ws hi (by simpa using hwl)
    (fun k h1 h2 => by
      have hk : k < ds.length := by omega
      rw [hw, List.getElem_map, hp2 k hk _ (hfit k hk)]
      simp [ws])
  have hm : (ds.map part).map (·.1) = ds.map (·.incident) := by
    rw [List.map_map]
    exact List.map_congr_left hp1
  rw [hm] at hgx
  have hrd := fun rest => distData_read' gen locb b i (ds.map (·.incident)) ws
    (fun k => P k (locb + wordsBefore b ws0 k)) rest hi (by simpa using hwl.symm)
    (fun w hw' => by
      obtain ⟨k, hk, rfl⟩ := List.getElem_of_mem hw'
      have hk' : k < ds.length := by omega
      have h1 := hlen k hk' (locb + wordsBefore b ws0 k)
      have h2 : ws[k] = W k (locb + wordsBefore b ws0 k) := by simp [ws]
      rw [h2]
      intro hc
      rw [hc] at h1
      exact hne _ (List.getElem_mem hk') (List.eq_nil_of_length_eq_zero h1.symm))
    (by rw [hw, hwl]; exact hf)
    (fun k h1 h2 t => by
      have hk : k < ds.length := by omega
      obtain ⟨d, hd, hq⟩ := hg k hk (locb + wordsBefore b ws0 k) t (hfit k hk)
      refine ⟨d, ?_, hq⟩
      have e : ws[k] = W k (locb + wordsBefore b ws0 k) := by simp [ws]
      rw [hw, e, List.getElem_map]
      exact hd)
  obtain ⟨d, hd, _, hdx, hdg, hdl, hdd⟩ := hrd []
  rw [List.append_nil] at hd hdx
  refine ⟨d, ?_, ?_, ⟨by rw [hdl, hwl], fun k h h' => ?_⟩, distGives_congr hlens hdg, fun rest => ?_⟩
  · unfold DistData.mk'
    rw [hgx, ok_bind, hd]
  · rw [hdx, distWords_length _ _ _ _ _ hi (by simpa using hwl.symm), hw, hwl]
  · have hh := hdd k (by simpa using h) (by omega) h'
    have hcut : LocBlock.cut ws [] k (by omega) = W k (locb + wordsBefore b ws0 k) := by
      simp [LocBlock.cut, ws]
    rw [hcut, hw, List.getElem_map] at hh
    exact hh
  · obtain ⟨r, _, hr, _, hrg, _⟩ := hrd rest
    exact ⟨r, by rw [hdx]; exact hr, distGives_congr hlens hrg⟩

/-! ## Law 67 -/

theorem angleEnergy_xss (int locb : Nat) (bs : List TabDist) (hint : FitsN int) :
    AngleEnergy.generateXSS int bs locb =
      .ok (innerWords int locb [bs.map (·.value)] (bs.map (·.xss))) := by
  unfold AngleEnergy.generateXSS
  rw [dist2XSS_ok locb 1 (bs.map Law4.part) (bs.map (·.xss)) (by simp)
    (fun k h1 h2 => by simp [Law4.part]), ok_bind, u32OfInt_natCast (by unfold FitsN at hint; omega)]
  have hm : (bs.map Law4.part).map (·.1) = bs.map (·.value) := by
    simp [Law4.part, Function.comp_def]
  rw [hm]; rfl

/-- Reading the words of an inner table is making it. -/
theorem angleEnergy_ofRange_mk (e : Dbl) (int locb : Nat) (bs : List TabDist) (hint : FitsN int)
    (d : AngleEnergy)
    (h : AngleEnergy.ofRange e locb (innerWords int locb [bs.map (·.value)] (bs.map (·.xss))) = .ok d) :
    AngleEnergy.mk' e int bs locb = .ok d := by
  obtain ⟨_, _, h⟩ := bind_eq_ok.mp h
  unfold AngleEnergy.mk'
  rw [angleEnergy_xss _ _ _ hint, ok_bind, h]

/-- An inner table of law 67 made for any locator: its words and fields. -/
theorem angleEnergy_mk (e : Dbl) (int locb : Nat) (bs : List TabDist)
    (hne : ∀ d ∈ bs, d.xss ≠ []) (hint : FitsN int)
    (hf : FitsN (locb + innerBefore 1 (bs.map (·.xss)) bs.length + 1))
    (hg : ∀ (k : Nat) (h : k < bs.length) (t : Words),
      ∃ d, TabDist.ofRange bs[k].value (bs[k].xss ++ t) = .ok d) :
    AngleEnergy.mk' e int bs locb =
      .ok ⟨e, innerWords int locb [bs.map (·.value)] (bs.map (·.xss)), locb,
        innerVals locb [bs.map (·.value)] (bs.map (·.xss)), bs⟩ := by
  have hx : AngleEnergy.generateXSS int bs locb =
      .ok (innerWords int locb [bs.map (·.value)] (bs.map (·.xss))) := by
    unfold AngleEnergy.generateXSS
    rw [dist2XSS_ok locb 1 (bs.map Law4.part) (bs.map (·.xss)) (by simp)
      (fun k h1 h2 => by simp [Law4.part]), ok_bind, u32OfInt_natCast (by unfold FitsN at hint; omega)]
    have hm : (bs.map Law4.part).map (·.1) = bs.map (·.value) := by
      simp [Law4.part, Function.comp_def]
    rw [hm]; rfl
  obtain ⟨ds, h1, _, _, h4, h5⟩ := angleEnergy_read e int locb (bs.map (·.value)) (bs.map (·.xss)) []
    (fun _ _ => True) (by simp) (by simpa using hne) hint (by simpa using hf)
    (fun k h1 h2 t => by
      obtain ⟨d, hd⟩ := hg k (by simpa using h1) t
      exact ⟨d, by simpa using hd, trivial⟩)
  rw [List.append_nil] at h1
  unfold AngleEnergy.mk'
  rw [hx, ok_bind, h1]
  have : ds = bs := by
    refine List.ext_getElem (by simpa using h4) (fun k hk1 hk2 => ?_)
    have h := h5 k (by simpa using hk2) (by simpa using hk2) hk1
    have hcut : LocBlock.cut (bs.map (·.xss)) [] k (by simpa using hk2) = bs[k].xss := by
      simp [LocBlock.cut]
    rw [hcut] at h
    have := tabDist_ofRange_eq h
    rw [this]
    simp [TabDist.xss]
  rw [this]

/-- An inner table as the user gives it: the base locator it is made for does not matter. -/
structure NestedSpec (V : Type) where
  incident : Dbl
  int : Nat
  inner : List V
  locb : Nat

/-- Law 67: the incident energy of the inner distributions is the cosine. -/
def mkAngleEnergySpec (v : NestedSpec EnergySpec) : Res AngleEnergy := do
  AngleEnergy.mk' v.incident v.int (← v.inner.mapM mkEnergySpec) v.locb

/-- What the inner table gives at locator `loc`. -/
def IsAngleEnergy (v : NestedSpec EnergySpec) (loc : Nat) (d : AngleEnergy) : Prop :=
  ∃ bs, v.inner.mapM mkEnergySpec = .ok bs ∧
    InnerGives d v.incident v.int loc [v.inner.map (·.incident)] (bs.map (·.xss))
      (fun j x => ∀ u, v.inner[j]? = some u → IsEnergy u x)

theorem mapM_energy_values (vs : List EnergySpec) (bs : List TabDist)
    (hb : vs.mapM mkEnergySpec = .ok bs) : bs.map (·.value) = vs.map (·.incident) ∧
      (∀ d ∈ bs, d.xss ≠ []) ∧
      ∀ (k : Nat) (h : k < bs.length), ∃ v, vs[k]? = some v ∧ mkEnergySpec v = .ok bs[k] ∧ v ∈ vs ∧
        v.outgoing.length < bs[k].xss.length := by
  obtain ⟨hlen, hmk⟩ := mapM_ok_iff mkEnergySpec vs bs hb
  refine ⟨?_, ?_, ?_⟩
  · refine List.ext_getElem (by simp [hlen]) (fun k h1 h2 => ?_)
    have hk : k < vs.length := by simpa using h2
    have hk' : k < bs.length := by omega
    simp only [List.getElem_map]
    exact (energySpec_xss _ _ (hmk k hk hk')).1
  · intro d hd
    obtain ⟨k, hk, rfl⟩ := List.getElem_of_mem hd
    have := (energySpec_xss _ _ (hmk k (by omega) hk)).2
    intro hc; rw [hc] at this; simp at this
  · intro k h
    have hk : k < vs.length := by omega
    exact ⟨vs[k], by simp [hk], hmk k hk h, List.getElem_mem hk, (energySpec_xss _ _ (hmk k hk h)).2⟩

theorem innerBefore_full (nc : Nat) (ws : List Words) :
    innerBefore nc ws ws.length = 2 + (nc + 1) * ws.length + ws.flatten.length := by
  simp [innerBefore]

theorem law67_full (vs : List (NestedSpec EnergySpec)) (ds : List AngleEnergy)
    (hb : vs.mapM mkAngleEnergySpec = .ok ds)
    (hv : ∀ v ∈ vs, FitsN v.int ∧ (∀ u ∈ v.inner, u.Ok) ∧
      ∀ bs, v.inner.mapM mkEnergySpec = .ok bs →
        FitsN (v.locb + innerBefore 1 (bs.map (·.xss)) bs.length + 1))
    (locb : Nat) (b i : List Int) (hi : i.length = b.length)
    (hf : FitsN (locb + wordsBefore b (ds.map (·.xss)) ds.length + 1)) :
    ∃ d, Law67.mk' b i ds locb = .ok d ∧
      d.xss.length = wordsBefore b (ds.map (·.xss)) ds.length ∧
      (d.distributions.length = vs.length ∧
        ∀ (k : Nat) (h : k < vs.length) (h' : k < d.distributions.length),
          mkAngleEnergySpec { vs[k] with locb := locb + wordsBefore b (ds.map (·.xss)) k } =
            .ok d.distributions[k]) ∧
      DistGives d locb b i (vs.map (·.incident)) (ds.map (·.xss))
        (fun k x => ∀ v, vs[k]? = some v →
          IsAngleEnergy v (locb + wordsBefore b (ds.map (·.xss)) k) x) ∧
      ∀ rest, ∃ r, Law67.ofRange locb (d.xss ++ rest) = .ok r ∧
        DistGives r locb b i (vs.map (·.incident)) (ds.map (·.xss))
          (fun k x => ∀ v, vs[k]? = some v →
            IsAngleEnergy v (locb + wordsBefore b (ds.map (·.xss)) k) x) := by
  obtain ⟨hlen, hmk⟩ := mapM_ok_iff mkAngleEnergySpec vs ds hb
  -- the inner distributions of each table
  have hin : ∀ (k : Nat) (h1 : k < vs.length) (h2 : k < ds.length), ∃ bs,
      vs[k].inner.mapM mkEnergySpec = .ok bs ∧
      ds[k] = ⟨vs[k].incident, innerWords vs[k].int vs[k].locb [bs.map (·.value)] (bs.map (·.xss)),
        vs[k].locb, innerVals vs[k].locb [bs.map (·.value)] (bs.map (·.xss)), bs⟩ := by
    intro k h1 h2
    obtain ⟨bs, hbs, hd⟩ := bind_eq_ok.mp (hmk k h1 h2)
    refine ⟨bs, hbs, ?_⟩
    obtain ⟨hv1, hv2, hv3⟩ := hv _ (List.getElem_mem h1)
    obtain ⟨hb1, hb2, hb3⟩ := mapM_energy_values _ _ hbs
    have hv3' := hv3 bs hbs
    rw [angleEnergy_mk _ _ _ _ hb2 hv1 hv3' (fun j hj t => by
      obtain ⟨u, _, hu2, hu3, hu4⟩ := hb3 j hj
      have hfl := flatten_length_ge bs (·.xss) bs[j] (List.getElem_mem hj)
      have hwl := innerBefore_full 1 (bs.map (·.xss))
      rw [List.length_map] at hwl
      obtain ⟨_, d', hd', _⟩ := C08_energy u.incident u.int u.discrete u.outgoing u.pdf u.cdf bs[j]
        (hv2 u hu3).1 (hv2 u hu3).2 (by omega) hu2 t
      have := (energySpec_xss _ _ hu2).1
      exact ⟨d', by rw [this]; exact hd'⟩)] at hd
    injection hd with hd; exact hd.symm
  let B : Nat → List TabDist := fun k => (ds[k]?.map (·.distributions)).getD []
  let W : Nat → Nat → Words := fun k loc =>
    innerWords ((vs[k]?.map (·.int)).getD 0) loc [(B k).map (·.value)] ((B k).map (·.xss))
  have hW : ∀ (k : Nat) (h1 : k < vs.length) (h2 : k < ds.length) (bs : List TabDist),
      ds[k] = ⟨vs[k].incident, innerWords vs[k].int vs[k].locb [bs.map (·.value)] (bs.map (·.xss)),
        vs[k].locb, innerVals vs[k].locb [bs.map (·.value)] (bs.map (·.xss)), bs⟩ →
      ∀ loc, W k loc = innerWords vs[k].int loc [bs.map (·.value)] (bs.map (·.xss)) := by
    intro k h1 h2 bs hd loc
    have hB : B k = bs := by simp only [B, List.getElem?_eq_getElem h2, Option.map_some, Option.getD_some, hd]
    simp only [W, hB, List.getElem?_eq_getElem h1, Option.map_some, Option.getD_some]
  have hWl : ∀ (bs : List TabDist) (int loc : Nat),
      (innerWords int loc [bs.map (·.value)] (bs.map (·.xss))).length =
        innerBefore 1 (bs.map (·.xss)) bs.length := by
    intro bs int loc
    have := innerWords_length int loc [bs.map (·.value)] (bs.map (·.xss)) (by simp)
    simpa using this
  have hes : ds.map (·.incident) = vs.map (·.incident) := by
    refine List.ext_getElem (by simp [hlen]) (fun k h1 h2 => ?_)
    have hk : k < vs.length := by simpa using h2
    have hk' : k < ds.length := by omega
    obtain ⟨bs, _, hd⟩ := hin k hk hk'
    simp only [List.getElem_map, hd]
  have := nested_generic Law67.part AngleEnergy.ofRange ds locb b i W
    (fun k loc x => ∀ v, vs[k]? = some v → IsAngleEnergy v loc x) hi (fun d _ => rfl)
    (fun k h loc => by
      obtain ⟨bs, _, hd⟩ := hin k (by omega) h
      rw [hW k (by omega) h bs hd, hWl, hd]
      exact (hWl bs _ _).symm)
    (fun d hd => by
      obtain ⟨k, hk, rfl⟩ := List.getElem_of_mem hd
      obtain ⟨bs, _, hd⟩ := hin k (by omega) hk
      rw [hd]; simp [innerWords])
    (fun k h loc hfl => by
      have hk : k < vs.length := by omega
      obtain ⟨bs, hbs, hd⟩ := hin k hk h
      obtain ⟨hv1, hv2, hv3⟩ := hv _ (List.getElem_mem hk)
      obtain ⟨hb1, hb2, hb3⟩ := mapM_energy_values _ _ hbs
      have hl : ds[k].xss.length = innerBefore 1 (bs.map (·.xss)) bs.length := by
        rw [hd]; exact hWl bs _ _
      rw [hl] at hfl
      rw [hW k hk h bs hd]
      have hint : ds[k].interpolation = .ok (vs[k].int : Int) := by
        rw [hd]
        exact Base.IXSS_ofNat (a := []) (by simp [innerWords]; rfl) (by simp) hv1
      have hinc : ds[k].incident = vs[k].incident := by rw [hd]
      have hdis : ds[k].distributions = bs := by rw [hd]
      unfold Law67.part
      simp only [hint, ok_bind, hinc, hdis]
      rw [angleEnergy_mk _ _ _ _ hb2 hv1 hfl (fun j hj t => by
        obtain ⟨u, _, hu2, hu3, hu4⟩ := hb3 j hj
        have hfl := flatten_length_ge bs (·.xss) bs[j] (List.getElem_mem hj)
        have hwl := innerBefore_full 1 (bs.map (·.xss))
        rw [List.length_map] at hwl
        obtain ⟨_, d', hd', _⟩ := C08_energy u.incident u.int u.discrete u.outgoing u.pdf u.cdf bs[j]
          (hv2 u hu3).1 (hv2 u hu3).2 (by omega) hu2 t
        have := (energySpec_xss _ _ hu2).1
        exact ⟨d', by rw [this]; exact hd'⟩)]
      rfl)
    (fun k h loc t hfl => by
      have hk : k < vs.length := by omega
      obtain ⟨bs, hbs, hd⟩ := hin k hk h
      obtain ⟨hv1, hv2, hv3⟩ := hv _ (List.getElem_mem hk)
      obtain ⟨hb1, hb2, hb3⟩ := mapM_energy_values _ _ hbs
      have hl : ds[k].xss.length = innerBefore 1 (bs.map (·.xss)) bs.length := by
        rw [hd]; exact hWl bs _ _
      rw [hl] at hfl
      rw [hW k hk h bs hd]
      have hinc : ds[k].incident = vs[k].incident := by rw [hd]
      obtain ⟨r, _, h2, h3, _, _⟩ := angleEnergy_read vs[k].incident vs[k].int loc
        (bs.map (·.value)) (bs.map (·.xss)) t
        (fun j x => ∀ u, vs[k].inner[j]? = some u → IsEnergy u x) (by simp) (by simpa using hb2) hv1
        (by simpa using hfl)
        (fun j h1 h2 t' => by
          have hj : j < bs.length := by simpa using h1
          obtain ⟨u, hu1, hu2, hu3, hu4⟩ := hb3 j hj
          have hfl' := flatten_length_ge bs (·.xss) bs[j] (List.getElem_mem hj)
          have hwl := innerBefore_full 1 (bs.map (·.xss))
          rw [List.length_map] at hwl
          obtain ⟨_, d', hd', hg'⟩ := C08_energy u.incident u.int u.discrete u.outgoing u.pdf u.cdf
            bs[j] (hv2 u hu3).1 (hv2 u hu3).2 (by omega) hu2 t'
          have := (energySpec_xss _ _ hu2).1
          refine ⟨d', ?_, fun u' hu' => ?_⟩
          · simp only [List.getElem_map]; rw [this]; exact hd'
          · rw [hu1] at hu'; injection hu' with hu'; subst hu'; exact hg')
      rw [hinc]
      refine ⟨_, h2, fun v hv' => ?_⟩
      rw [List.getElem?_eq_getElem hk] at hv'
      injection hv' with hv'; subst hv'
      refine ⟨bs, hbs, ?_⟩
      rw [hb1] at h3
      rw [hb1]
      exact h3)
    hf
  rw [hes] at this
  obtain ⟨d, h1, h2, ⟨h3, h4⟩, h5⟩ := this
  refine ⟨d, h1, h2, ⟨by omega, fun k h h' => ?_⟩, h5⟩
  have hk : k < ds.length := by omega
  have h := h4 k hk h'
  obtain ⟨bs, hbs, hd⟩ := hin k (by omega) hk
  rw [hW k (by omega) hk bs hd] at h
  have hinc : ds[k].incident = vs[k].incident := by rw [hd]
  rw [hinc] at h
  unfold mkAngleEnergySpec
  simp only [hbs, ok_bind]
  exact angleEnergy_ofRange_mk _ _ _ _ (hv _ (List.getElem_mem _)).1 _ h

/-- Law 67: data built for any base locator from tables built for any other base locators give the
same tables, with the inner locators absolute with respect to the new base; also when read. -/
theorem C12_law67 (vs : List (NestedSpec EnergySpec)) (ds : List AngleEnergy)
    (hb : vs.mapM mkAngleEnergySpec = .ok ds)
    (hv : ∀ v ∈ vs, FitsN v.int ∧ (∀ u ∈ v.inner, u.Ok) ∧
      ∀ bs, v.inner.mapM mkEnergySpec = .ok bs →
        FitsN (v.locb + innerBefore 1 (bs.map (·.xss)) bs.length + 1))
    (locb : Nat) (b i : List Int) (hi : i.length = b.length)
    (hf : FitsN (locb + wordsBefore b (ds.map (·.xss)) ds.length + 1)) :
    ∃ d, Law67.mk' b i ds locb = .ok d ∧
      DistGives d locb b i (vs.map (·.incident)) (ds.map (·.xss))
        (fun k x => ∀ v, vs[k]? = some v →
          IsAngleEnergy v (locb + wordsBefore b (ds.map (·.xss)) k) x) ∧
      ∀ rest, ∃ r, Law67.ofRange locb (d.xss ++ rest) = .ok r ∧
        DistGives r locb b i (vs.map (·.incident)) (ds.map (·.xss))
          (fun k x => ∀ v, vs[k]? = some v →
            IsAngleEnergy v (locb + wordsBefore b (ds.map (·.xss)) k) x) := by
  obtain ⟨d, h1, _, _, h⟩ := law67_full vs ds hb hv locb b i hi hf
  exact ⟨d, h1, h⟩


/-! ## Law 61 -/

theorem energyAngle_read (e : Dbl) (int locb : Nat) (vals pdf cdf : Words) (ws : List Words)
    (rest : Words) (P : Nat → AngularProb → Prop) (h1c : vals.length = ws.length)
    (h2c : pdf.length = ws.length) (h3c : cdf.length = ws.length)
    (hint : FitsN int) (hf : FitsN (locb + innerBefore 3 ws ws.length + 1))
    (hg : ∀ (k : Nat) (h1 : k < vals.length) (h2 : k < pdf.length) (h3 : k < cdf.length)
      (h4 : k < ws.length) (t : Words),
      ∃ d, AngularProb.ofRange vals[k] pdf[k] cdf[k] (ws[k] ++ t) = .ok d ∧ P k d) :
    ∃ ds, EnergyAngle.generateBlocks e (innerWords int locb [vals, pdf, cdf] ws ++ rest) locb =
        .ok ⟨e, innerWords int locb [vals, pdf, cdf] ws ++ rest, locb,
          innerVals locb [vals, pdf, cdf] ws, ds⟩ ∧
      EnergyAngle.ofRange e locb (innerWords int locb [vals, pdf, cdf] ws ++ rest) =
        .ok ⟨e, innerWords int locb [vals, pdf, cdf] ws ++ rest, locb,
          innerVals locb [vals, pdf, cdf] ws, ds⟩ ∧
      InnerGives ⟨e, innerWords int locb [vals, pdf, cdf] ws ++ rest, locb,
          innerVals locb [vals, pdf, cdf] ws, ds⟩
        e int locb [vals, pdf, cdf] ws P ∧
      ds.length = ws.length ∧
      ∀ (k : Nat) (h1 : k < vals.length) (h2 : k < pdf.length) (h3 : k < cdf.length)
        (h4 : k < ws.length) (h5 : k < ds.length),
        AngularProb.ofRange vals[k] pdf[k] cdf[k] (LocBlock.cut ws rest k h4) = .ok ds[k] := by
  have hle : ∀ k, startOf ws k ≤ ws.flatten.length := startOf_le ws
  have hcc : ∀ c ∈ ([vals, pdf, cdf] : List Words), c.length = ws.length := by
    simp [h1c, h2c, h3c]
  have hwl : innerBefore 3 ws ws.length = 2 + 4 * ws.length + ws.flatten.length := by
    simp [innerBefore]
  have htl := tableHead_length locb 1 [vals, pdf, cdf] ws hcc
  simp only [List.length_cons, List.length_nil] at htl
  have hH : ColumnData.Holds (innerVals locb [vals, pdf, cdf] ws) ws.length
      (tableCols locb 1 [vals, pdf, cdf] ws) :=
    ⟨tableCols_len _ _ _ _ hcc, by omega, [], by simp⟩
  let A : Words := Dbl.ofNat int :: (innerVals locb [vals, pdf, cdf] ws).xss
  have hAl : A.length = 2 + 4 * ws.length := by
    simp only [A, List.length_cons, htl]; omega
  have hx : innerWords int locb [vals, pdf, cdf] ws ++ rest = A ++ ws.flatten ++ rest := by
    simp only [innerWords, tableWords_eq, A, List.append_assoc, List.cons_append]
  have hx2 : innerWords int locb [vals, pdf, cdf] ws ++ rest =
      [Dbl.ofNat int] ++ Dbl.ofNat ws.length ::
      ((tableCols locb 1 [vals, pdf, cdf] ws).flatten ++ ws.flatten ++ rest) := by
    simp [innerWords, tableWords]
  have i2 : Base.IXSS (innerWords int locb [vals, pdf, cdf] ws ++ rest) 2 = .ok (ws.length : Int) :=
    Base.IXSS_ofNat hx2 (by simp) (by omega)
  have x2 : Base.XSS (innerWords int locb [vals, pdf, cdf] ws ++ rest) 2 =
      .ok (Dbl.ofNat ws.length) :=
    Base.XSS_of_eq hx2 (by simp)
  have hxl : (innerWords int locb [vals, pdf, cdf] ws ++ rest).length =
      2 + 4 * ws.length + ws.flatten.length + rest.length := by
    rw [hx]; simp only [List.length_append, hAl]
  obtain ⟨ds, hds, hdp⟩ := exists_list ws.length
    (fun k d => ∀ (h1 : k < vals.length) (h2 : k < pdf.length) (h3 : k < cdf.length)
      (h4 : k < ws.length),
      AngularProb.ofRange vals[k] pdf[k] cdf[k] (LocBlock.cut ws rest k h4) = .ok d ∧ P k d)
    (fun k hk => by
      by_cases hlast : k + 1 = ws.length
      · obtain ⟨d, hd⟩ := hg k (by omega) (by omega) (by omega) hk rest
        exact ⟨d, fun _ _ _ _ => by simpa [LocBlock.cut, hlast] using hd⟩
      · obtain ⟨d, hd⟩ := hg k (by omega) (by omega) (by omega) hk []
        exact ⟨d, fun _ _ _ _ => by simpa [LocBlock.cut, hlast] using hd⟩)
  have hgives := inner_gives e int locb [vals, pdf, cdf] ws rest P ds hcc hint hf hds
    (fun k hk => (hdp k hk (by omega) (by omega) (by omega) (by omega)).2)
  have hbe : ∀ k, innerBefore 3 ws k = A.length + startOf ws k := by
    intro k; rw [hAl]; simp [innerBefore, startOf]
  have hgb : EnergyAngle.generateBlocks e (innerWords int locb [vals, pdf, cdf] ws ++ rest) locb =
      .ok ⟨e, innerWords int locb [vals, pdf, cdf] ws ++ rest, locb,
        innerVals locb [vals, pdf, cdf] ws, ds⟩ := by
    unfold EnergyAngle.generateBlocks
    simp only [i2, ok_bind]
    rw [sizeOfInt_natCast (by omega)]
    have s2 : sub (innerWords int locb [vals, pdf, cdf] ws ++ rest) 1 (1 + 4 * ws.length + 1) =
        .ok (innerVals locb [vals, pdf, cdf] ws).xss :=
      sub_of_eq (a := [Dbl.ofNat int]) (c := ws.flatten ++ rest)
        (by simp only [innerWords, tableWords_eq, List.append_assoc, List.cons_append,
              List.nil_append])
        rfl (by
          rw [List.length_singleton]
          have : (innerVals locb [vals, pdf, cdf] ws).xss.length = 1 + (0 + 1 + 1 + 1 + 1) * ws.length :=
            htl
          omega)
    rw [s2, ok_bind]
    have r2 := ColumnData.ofRange_ok (tableCols locb 1 [vals, pdf, cdf] ws) ws.length 4 [] rfl
      (tableCols_len _ _ _ _ hcc) (by omega)
    rw [List.append_nil] at r2
    rw [r2, ok_bind]
    have hN : ColumnData.N ⟨ColumnData.words ws.length (tableCols locb 1 [vals, pdf, cdf] ws), 4⟩ =
        .ok ws.length := hH.N
    rw [hN, ok_bind]
    have hm : (List.range ws.length).mapM
        (EnergyAngle.generateBlock (innerWords int locb [vals, pdf, cdf] ws ++ rest)
          (innerVals locb [vals, pdf, cdf] ws) locb ws.length) = .ok ds := by
      refine mapM_range_eq _ ds _ hds.symm (fun k hk => ?_)
      have hk' : k < ws.length := by omega
      have hk2 := hle k
      have hv : ∀ (a : Nat) (ha : a < 3), ColumnData.value (innerVals locb [vals, pdf, cdf] ws)
          (a + 1) (k + 1) = .ok (([vals, pdf, cdf] : List Words)[a][k]'(by
            have := hcc _ (List.getElem_mem (l := [vals, pdf, cdf]) ha)
            omega)) := by
        intro a ha
        have := hgives.value a k ha (by
          have := hcc _ (List.getElem_mem (l := [vals, pdf, cdf]) ha); omega)
        unfold DistDataI.value Dist.value at this
        rw [Dist.verifyValueIndex_ok hH.N k hk', ok_bind] at this
        exact this
      have hv1 : ColumnData.value (innerVals locb [vals, pdf, cdf] ws) 1 (k + 1) =
        .ok (vals[k]'(by omega)) := hv 0 (by omega)
      have hv2 : ColumnData.value (innerVals locb [vals, pdf, cdf] ws) 2 (k + 1) =
        .ok (pdf[k]'(by omega)) := hv 1 (by omega)
      have hv3 : ColumnData.value (innerVals locb [vals, pdf, cdf] ws) 3 (k + 1) =
        .ok (cdf[k]'(by omega)) := hv 2 (by omega)
      have hr : ∀ j, j < ws.length → Dist.relSize (innerVals locb [vals, pdf, cdf] ws) locb (j + 1) =
          .ok (innerBefore 3 ws j + 1) := hgives.relative
      have hsc := Dist.sub_cut A rest ws k hk'
      unfold EnergyAngle.generateBlock
      simp only [hv1, hv2, hv3, ok_bind, hr k hk']
      rw [hbe, Nat.add_sub_cancel]
      by_cases hlast : k + 1 = ws.length
      · rw [if_pos hlast] at hsc ⊢
        rw [pure_eq_ok, ok_bind, hx, hsc, ok_bind]
        exact (hdp k hk (by omega) (by omega) (by omega) hk').1
      · rw [if_neg hlast] at hsc ⊢
        rw [hr (k + 1) (by omega), ok_bind, pure_eq_ok, ok_bind, hbe, Nat.add_sub_cancel, hx, hsc,
          ok_bind]
        exact (hdp k hk (by omega) (by omega) (by omega) hk').1
    have hm' := hm
    simp only [innerVals, List.length_cons, List.length_nil] at hm'
    rw [hm']; rfl
  refine ⟨ds, hgb, ?_, hgives, hds, fun k h1 h2 h3 h4 h5 => (hdp k h5 h1 h2 h3 h4).1⟩
  unfold EnergyAngle.ofRange DistDataI.verifySize
  rw [x2, ok_bind, Dbl.round?_ofNat, toSize_natCast (by omega), ok_bind,
    guardThrow_not_lt (by omega), ok_bind]
  exact hgb

theorem energyAngle_xss (int locb : Nat) (bs : List AngularProb) (hint : FitsN int) :
    EnergyAngle.generateXSS int bs locb =
      innerWords int locb [bs.map (·.angular.value), bs.map (·.probability),
          bs.map (·.cumulative)] (bs.map (·.angular.xss)) := by
  unfold EnergyAngle.generateXSS
  rw [dist4XSS_ok locb 1, u32OfInt_natCast (by unfold FitsN at hint; omega)]
  simp only [List.map_map, Function.comp_def, innerWords]

theorem energyAngle_ofRange_mk (e : Dbl) (int locb : Nat) (bs : List AngularProb)
    (hint : FitsN int) (d : EnergyAngle)
    (h : EnergyAngle.ofRange e locb (innerWords int locb [bs.map (·.angular.value),
      bs.map (·.probability), bs.map (·.cumulative)] (bs.map (·.angular.xss))) = .ok d) :
    EnergyAngle.mk' e int bs locb = .ok d := by
  obtain ⟨_, _, h⟩ := bind_eq_ok.mp h
  unfold EnergyAngle.mk'
  rw [energyAngle_xss _ _ _ hint, h]

theorem energyAngle_mk (e : Dbl) (int locb : Nat) (bs : List AngularProb) (hint : FitsN int)
    (hf : FitsN (locb + innerBefore 3 (bs.map (·.angular.xss)) bs.length + 1))
    (hg : ∀ (k : Nat) (h : k < bs.length) (t : Words),
      ∃ d, TabDist.ofRange bs[k].angular.value (bs[k].angular.xss ++ t) = .ok d) :
    EnergyAngle.mk' e int bs locb =
      .ok ⟨e, innerWords int locb [bs.map (·.angular.value), bs.map (·.probability),
          bs.map (·.cumulative)] (bs.map (·.angular.xss)), locb,
        innerVals locb [bs.map (·.angular.value), bs.map (·.probability), bs.map (·.cumulative)]
          (bs.map (·.angular.xss)), bs⟩ := by
  have hx : EnergyAngle.generateXSS int bs locb =
      innerWords int locb [bs.map (·.angular.value), bs.map (·.probability),
          bs.map (·.cumulative)] (bs.map (·.angular.xss)) := by
    unfold EnergyAngle.generateXSS
    rw [dist4XSS_ok locb 1, u32OfInt_natCast (by unfold FitsN at hint; omega)]
    simp only [List.map_map, Function.comp_def, innerWords]
  obtain ⟨ds, h1, _, _, h4, h5⟩ := energyAngle_read e int locb (bs.map (·.angular.value))
    (bs.map (·.probability)) (bs.map (·.cumulative)) (bs.map (·.angular.xss)) []
    (fun _ _ => True) (by simp) (by simp) (by simp) hint (by simpa using hf)
    (fun k h1 h2 h3 h4 t => by
      obtain ⟨d, hd⟩ := hg k (by simpa using h1) t
      have hkb : k < bs.length := by simpa using h1
      refine ⟨⟨d, bs[k].probability, bs[k].cumulative⟩, ?_, trivial⟩
      · simp only [List.getElem_map, AngularProb.ofRange, hd, ok_bind]; rfl)
  rw [List.append_nil] at h1
  unfold EnergyAngle.mk'
  rw [hx, h1]
  have : ds = bs := by
    refine List.ext_getElem (by simpa using h4) (fun k hk1 hk2 => ?_)
    have h := h5 k (by simpa using hk2) (by simpa using hk2) (by simpa using hk2)
      (by simpa using hk2) hk1
    have hcut : LocBlock.cut (bs.map (·.angular.xss)) [] k (by simpa using hk2) =
        bs[k].angular.xss := by
      simp [LocBlock.cut]
    rw [hcut] at h
    obtain ⟨t, ht, h⟩ := bind_eq_ok.mp h
    have := tabDist_ofRange_eq ht
    have h := Except.ok.inj h
    have e1 : t = bs[k].angular := by
      refine Eq.trans this ?_
      simp only [List.getElem_map]
      rfl
    refine Eq.trans h.symm ?_
    rw [e1]
    simp only [List.getElem_map]
  rw [this]

/-- A cosine distribution with the probability of its outgoing energy, as the user gives it. -/
structure AngularSpec where
  energy : Dbl
  probability : Dbl
  cumulative : Dbl
  int : Int
  cosines : Words
  pdf : Words
  cdf : Words

def mkAngularSpec (v : AngularSpec) : Res AngularProb :=
  AngularProb.mk' v.energy v.probability v.cumulative v.int v.cosines v.pdf v.cdf

/-- What the distribution gives. -/
def IsAngularSpec (v : AngularSpec) (d : AngularProb) : Prop :=
  d.angular.value = v.energy ∧ d.probability = v.probability ∧ d.cumulative = v.cumulative ∧
  GivesDistribution d.angular.dist v.int v.cosines v.pdf v.cdf []

/-- Law 61: an inner table. -/
def mkEnergyAngleSpec (v : NestedSpec AngularSpec) : Res EnergyAngle := do
  EnergyAngle.mk' v.incident v.int (← v.inner.mapM mkAngularSpec) v.locb

/-- What the inner table gives at locator `loc`. -/
def IsEnergyAngle (v : NestedSpec AngularSpec) (loc : Nat) (d : EnergyAngle) : Prop :=
  ∃ bs, v.inner.mapM mkAngularSpec = .ok bs ∧
    InnerGives d v.incident v.int loc
      [v.inner.map (·.energy), v.inner.map (·.probability), v.inner.map (·.cumulative)]
      (bs.map (·.angular.xss)) (fun j x => ∀ u, v.inner[j]? = some u → IsAngularSpec u x)

theorem mapM_angular_values (vs : List AngularSpec) (bs : List AngularProb)
    (hb : vs.mapM mkAngularSpec = .ok bs) :
    bs.map (·.angular.value) = vs.map (·.energy) ∧
    bs.map (·.probability) = vs.map (·.probability) ∧
    bs.map (·.cumulative) = vs.map (·.cumulative) ∧
      ∀ (k : Nat) (h : k < bs.length), ∃ v, vs[k]? = some v ∧ v ∈ vs ∧
        TabDist.mkAngular v.energy v.int v.cosines v.pdf v.cdf = .ok bs[k].angular ∧
        bs[k].probability = v.probability ∧ bs[k].cumulative = v.cumulative ∧
        bs[k].angular.value = v.energy ∧ v.cosines.length < bs[k].angular.xss.length := by
  obtain ⟨hlen, hmk⟩ := mapM_ok_iff mkAngularSpec vs bs hb
  have hall : ∀ (k : Nat) (h : k < bs.length), ∃ v, vs[k]? = some v ∧ v ∈ vs ∧
        TabDist.mkAngular v.energy v.int v.cosines v.pdf v.cdf = .ok bs[k].angular ∧
        bs[k].probability = v.probability ∧ bs[k].cumulative = v.cumulative ∧
        bs[k].angular.value = v.energy ∧ v.cosines.length < bs[k].angular.xss.length := by
    intro k h
    have hk : k < vs.length := by omega
    obtain ⟨t, ht, h'⟩ := bind_eq_ok.mp (hmk k hk h)
    injection h' with h'
    refine ⟨vs[k], by simp [hk], List.getElem_mem hk, ?_⟩
    rw [← h']
    refine ⟨ht, rfl, rfl, ?_⟩
    obtain ⟨p, hp, ht⟩ := bind_eq_ok.mp ht
    injection ht with ht; subst ht
    exact ⟨rfl, tabProb_nonempty hp⟩
  refine ⟨?_, ?_, ?_, hall⟩ <;>
  · refine List.ext_getElem (by simp [hlen]) (fun k h1 h2 => ?_)
    have hk' : k < bs.length := by simpa using h1
    obtain ⟨v, h1, _, _, h3, h4, h5, _⟩ := hall k hk'
    have hk : k < vs.length := by omega
    rw [List.getElem?_eq_getElem hk] at h1
    injection h1 with h1
    simp only [List.getElem_map, h1]
    assumption

theorem law61_full (vs : List (NestedSpec AngularSpec)) (ds : List EnergyAngle)
    (hb : vs.mapM mkEnergyAngleSpec = .ok ds)
    (hv : ∀ v ∈ vs, FitsN v.int ∧ (∀ u ∈ v.inner, Fits u.int) ∧
      ∀ bs, v.inner.mapM mkAngularSpec = .ok bs →
        FitsN (v.locb + innerBefore 3 (bs.map (·.angular.xss)) bs.length + 1))
    (locb : Nat) (b i : List Int) (hi : i.length = b.length)
    (hf : FitsN (locb + wordsBefore b (ds.map (·.xss)) ds.length + 1)) :
    ∃ d, Law61.mk' b i ds locb = .ok d ∧
      d.xss.length = wordsBefore b (ds.map (·.xss)) ds.length ∧
      (d.distributions.length = vs.length ∧
        ∀ (k : Nat) (h : k < vs.length) (h' : k < d.distributions.length),
          mkEnergyAngleSpec { vs[k] with locb := locb + wordsBefore b (ds.map (·.xss)) k } =
            .ok d.distributions[k]) ∧
      DistGives d locb b i (vs.map (·.incident)) (ds.map (·.xss))
        (fun k x => ∀ v, vs[k]? = some v →
          IsEnergyAngle v (locb + wordsBefore b (ds.map (·.xss)) k) x) ∧
      ∀ rest, ∃ r, Law61.ofRange locb (d.xss ++ rest) = .ok r ∧
        DistGives r locb b i (vs.map (·.incident)) (ds.map (·.xss))
          (fun k x => ∀ v, vs[k]? = some v →
            IsEnergyAngle v (locb + wordsBefore b (ds.map (·.xss)) k) x) := by
  obtain ⟨hlen, hmk⟩ := mapM_ok_iff mkEnergyAngleSpec vs ds hb
  let C : List AngularProb → List Words := fun bs =>
    [bs.map (·.angular.value), bs.map (·.probability), bs.map (·.cumulative)]
  -- the inner distributions can be read back
  have hrd : ∀ (v : NestedSpec AngularSpec) (bs : List AngularProb) (loc : Nat),
      v.inner.mapM mkAngularSpec = .ok bs → (∀ u ∈ v.inner, Fits u.int) →
      FitsN (loc + innerBefore 3 (bs.map (·.angular.xss)) bs.length + 1) →
      ∀ (j : Nat) (hj : j < bs.length) (t : Words),
        ∃ d, TabDist.ofRange bs[j].angular.value (bs[j].angular.xss ++ t) = .ok d ∧
          ∀ u, v.inner[j]? = some u → d.value = u.energy ∧
            GivesDistribution d.dist u.int u.cosines u.pdf u.cdf [] := by
    intro v bs loc hbs hok hfl j hj t
    obtain ⟨_, _, _, hb3⟩ := mapM_angular_values _ _ hbs
    obtain ⟨u, hu1, hu2, hu3, _, _, hu4, hu5⟩ := hb3 j hj
    have hfl' := flatten_length_ge bs (·.angular.xss) bs[j] (List.getElem_mem hj)
    have hwl := innerBefore_full 3 (bs.map (·.angular.xss))
    rw [List.length_map] at hwl
    obtain ⟨_, d', hd', hg'⟩ := C08_angular u.energy u.int u.cosines u.pdf u.cdf bs[j].angular
      (hok u hu2) (by omega) hu3 t
    refine ⟨d', by rw [hu4]; exact hd', fun u' hu' => ?_⟩
    rw [hu1] at hu'; injection hu' with hu'; subst hu'
    exact hg'
  have hin : ∀ (k : Nat) (h1 : k < vs.length) (h2 : k < ds.length), ∃ bs,
      vs[k].inner.mapM mkAngularSpec = .ok bs ∧
      ds[k] = ⟨vs[k].incident, innerWords vs[k].int vs[k].locb (C bs) (bs.map (·.angular.xss)),
        vs[k].locb, innerVals vs[k].locb (C bs) (bs.map (·.angular.xss)), bs⟩ := by
    intro k h1 h2
    obtain ⟨bs, hbs, hd⟩ := bind_eq_ok.mp (hmk k h1 h2)
    refine ⟨bs, hbs, ?_⟩
    obtain ⟨hv1, hv2, hv3⟩ := hv _ (List.getElem_mem h1)
    rw [energyAngle_mk _ _ _ _ hv1 (hv3 bs hbs) (fun j hj t => by
      obtain ⟨d, hd, _⟩ := hrd vs[k] bs vs[k].locb hbs hv2 (hv3 bs hbs) j hj t
      exact ⟨d, hd⟩)] at hd
    injection hd with hd; exact hd.symm
  let B : Nat → List AngularProb := fun k => (ds[k]?.map (·.distributions)).getD []
  let W : Nat → Nat → Words := fun k loc =>
    innerWords ((vs[k]?.map (·.int)).getD 0) loc (C (B k)) ((B k).map (·.angular.xss))
  have hW : ∀ (k : Nat) (h1 : k < vs.length) (h2 : k < ds.length) (bs : List AngularProb),
      ds[k] = ⟨vs[k].incident, innerWords vs[k].int vs[k].locb (C bs) (bs.map (·.angular.xss)),
        vs[k].locb, innerVals vs[k].locb (C bs) (bs.map (·.angular.xss)), bs⟩ →
      ∀ loc, W k loc = innerWords vs[k].int loc (C bs) (bs.map (·.angular.xss)) := by
    intro k h1 h2 bs hd loc
    have hB : B k = bs := by simp only [B, List.getElem?_eq_getElem h2, Option.map_some, Option.getD_some, hd]
    simp only [W, hB, List.getElem?_eq_getElem h1, Option.map_some, Option.getD_some]
  have hWl : ∀ (bs : List AngularProb) (int loc : Nat),
      (innerWords int loc (C bs) (bs.map (·.angular.xss))).length =
        innerBefore 3 (bs.map (·.angular.xss)) bs.length := by
    intro bs int loc
    have := innerWords_length int loc (C bs) (bs.map (·.angular.xss)) (by simp [C])
    simpa [C] using this
  have hes : ds.map (·.incident) = vs.map (·.incident) := by
    refine List.ext_getElem (by simp [hlen]) (fun k h1 h2 => ?_)
    have hk : k < vs.length := by simpa using h2
    have hk' : k < ds.length := by omega
    obtain ⟨bs, _, hd⟩ := hin k hk hk'
    simp only [List.getElem_map, hd]
  have := nested_generic Law61.part EnergyAngle.ofRange ds locb b i W
    (fun k loc x => ∀ v, vs[k]? = some v → IsEnergyAngle v loc x) hi (fun d _ => rfl)
    (fun k h loc => by
      obtain ⟨bs, _, hd⟩ := hin k (by omega) h
      rw [hW k (by omega) h bs hd, hWl, hd]
      exact (hWl bs _ _).symm)
    (fun d hd => by
      obtain ⟨k, hk, rfl⟩ := List.getElem_of_mem hd
      obtain ⟨bs, _, hd⟩ := hin k (by omega) hk
      rw [hd]; simp [innerWords])
    (fun k h loc hfl => by
      have hk : k < vs.length := by omega
      obtain ⟨bs, hbs, hd⟩ := hin k hk h
      obtain ⟨hv1, hv2, hv3⟩ := hv _ (List.getElem_mem hk)
      have hl : ds[k].xss.length = innerBefore 3 (bs.map (·.angular.xss)) bs.length := by
        rw [hd]; exact hWl bs _ _
      rw [hl] at hfl
      rw [hW k hk h bs hd]
      have hint : ds[k].interpolation = .ok (vs[k].int : Int) := by
        rw [hd]
        exact Base.IXSS_ofNat (a := []) (by simp [innerWords]; rfl) (by simp) hv1
      have hinc : ds[k].incident = vs[k].incident := by rw [hd]
      have hdis : ds[k].distributions = bs := by rw [hd]
      unfold Law61.part
      simp only [hint, ok_bind, hinc, hdis]
      rw [energyAngle_mk _ _ _ _ hv1 hfl (fun j hj t => by
        obtain ⟨d, hd, _⟩ := hrd vs[k] bs loc hbs hv2 hfl j hj t
        exact ⟨d, hd⟩)]
      rfl)
    (fun k h loc t hfl => by
      have hk : k < vs.length := by omega
      obtain ⟨bs, hbs, hd⟩ := hin k hk h
      obtain ⟨hv1, hv2, hv3⟩ := hv _ (List.getElem_mem hk)
      obtain ⟨hb1, hb2, hb3, hb4⟩ := mapM_angular_values _ _ hbs
      have hl : ds[k].xss.length = innerBefore 3 (bs.map (·.angular.xss)) bs.length := by
        rw [hd]; exact hWl bs _ _
      rw [hl] at hfl
      rw [hW k hk h bs hd]
      have hinc : ds[k].incident = vs[k].incident := by rw [hd]
      obtain ⟨r, _, h2, h3, _, _⟩ := energyAngle_read vs[k].incident vs[k].int loc
        (bs.map (·.angular.value)) (bs.map (·.probability)) (bs.map (·.cumulative))
        (bs.map (·.angular.xss)) t
        (fun j x => ∀ u, vs[k].inner[j]? = some u → IsAngularSpec u x) (by simp) (by simp) (by simp)
        hv1 (by simpa using hfl)
        (fun j h1 h2 h3 h4 t' => by
          have hj : j < bs.length := by simpa using h1
          obtain ⟨d', hd', hg'⟩ := hrd vs[k] bs loc hbs hv2 hfl j hj t'
          obtain ⟨u, hu1, _, _, hu3, hu4, _, _⟩ := hb4 j hj
          refine ⟨⟨d', bs[j].probability, bs[j].cumulative⟩, ?_, fun u' hu' => ?_⟩
          · simp only [List.getElem_map, AngularProb.ofRange, hd', ok_bind]; rfl
          · have := hg' u' hu'
            rw [hu1] at hu'; injection hu' with hu'; subst hu'
            exact ⟨this.1, hu3, hu4, this.2⟩)
      rw [hinc]
      refine ⟨_, h2, fun v hv' => ?_⟩
      rw [List.getElem?_eq_getElem hk] at hv'
      injection hv' with hv'; subst hv'
      refine ⟨bs, hbs, ?_⟩
      rw [hb1, hb2, hb3] at h3
      have hC : C bs = [vs[k].inner.map (·.energy), vs[k].inner.map (·.probability),
          vs[k].inner.map (·.cumulative)] := by simp only [C, hb1, hb2, hb3]
      rw [← hC] at h3
      simp only [C, hb1, hb2, hb3] at h3 ⊢
      exact h3)
    hf
  rw [hes] at this
  obtain ⟨d, h1, h2, ⟨h3, h4⟩, h5⟩ := this
  refine ⟨d, h1, h2, ⟨by omega, fun k h h' => ?_⟩, h5⟩
  have hk : k < ds.length := by omega
  have h := h4 k hk h'
  obtain ⟨bs, hbs, hd⟩ := hin k (by omega) hk
  rw [hW k (by omega) hk bs hd] at h
  have hinc : ds[k].incident = vs[k].incident := by rw [hd]
  rw [hinc] at h
  unfold mkEnergyAngleSpec
  simp only [hbs, ok_bind]
  exact energyAngle_ofRange_mk _ _ _ _ (hv _ (List.getElem_mem _)).1 _ h

/-- Law 61, as `C12_law67`. -/
theorem C12_law61 (vs : List (NestedSpec AngularSpec)) (ds : List EnergyAngle)
    (hb : vs.mapM mkEnergyAngleSpec = .ok ds)
    (hv : ∀ v ∈ vs, FitsN v.int ∧ (∀ u ∈ v.inner, Fits u.int) ∧
      ∀ bs, v.inner.mapM mkAngularSpec = .ok bs →
        FitsN (v.locb + innerBefore 3 (bs.map (·.angular.xss)) bs.length + 1))
    (locb : Nat) (b i : List Int) (hi : i.length = b.length)
    (hf : FitsN (locb + wordsBefore b (ds.map (·.xss)) ds.length + 1)) :
    ∃ d, Law61.mk' b i ds locb = .ok d ∧
      DistGives d locb b i (vs.map (·.incident)) (ds.map (·.xss))
        (fun k x => ∀ v, vs[k]? = some v →
          IsEnergyAngle v (locb + wordsBefore b (ds.map (·.xss)) k) x) ∧
      ∀ rest, ∃ r, Law61.ofRange locb (d.xss ++ rest) = .ok r ∧
        DistGives r locb b i (vs.map (·.incident)) (ds.map (·.xss))
          (fun k x => ∀ v, vs[k]? = some v →
            IsEnergyAngle v (locb + wordsBefore b (ds.map (·.xss)) k) x) := by
  obtain ⟨d, h1, _, _, h⟩ := law61_full vs ds hb hv locb b i hi hf
  exact ⟨d, h1, h⟩

-- two inner tables made for base locators 1 and 500, put in data at base locator 21: the inner
-- locators follow
example : ([(⟨Dbl.ofNat 1, 2, [⟨Dbl.ofNat 0, 1, [Dbl.ofNat 3], [Dbl.ofNat 4], [Dbl.ofNat 5], 0⟩], 1⟩ :
      NestedSpec EnergySpec),
      ⟨Dbl.ofNat 2, 1, [⟨Dbl.ofNat 0, 2, [Dbl.ofNat 3], [Dbl.ofNat 4], [Dbl.ofNat 5], 0⟩,
        ⟨Dbl.ofNat 1, 2, [Dbl.ofNat 3], [Dbl.ofNat 4], [Dbl.ofNat 5], 0⟩], 500⟩].mapM
        mkAngleEnergySpec >>= fun ds =>
    Law67.mk' [] [] ds 21 >>= fun d => do
      let x ← d.distribution 2
      return ((← d.LOCC 1), (← d.LOCC 2), (← x.LOCC 1), (← x.LOCC 2), (← x.interpolation),
        (← (← x.distribution 2).interpolation))) = .ok (27, 36, 42, 47, 1, 2) := by decide

example : ([(⟨Dbl.ofNat 1, 2, [⟨Dbl.ofNat 7, Dbl.ofNat 8, Dbl.ofNat 9, 1, [Dbl.ofNat 3],
        [Dbl.ofNat 4], [Dbl.ofNat 5]⟩], 1⟩ : NestedSpec AngularSpec),
      ⟨Dbl.ofNat 2, 1, [⟨Dbl.ofNat 0, Dbl.ofNat 0, Dbl.ofNat 0, 2, [Dbl.ofNat 3], [Dbl.ofNat 4], [Dbl.ofNat 5]⟩,
        ⟨Dbl.ofNat 0, Dbl.ofNat 6, Dbl.ofNat 0, 2, [Dbl.ofNat 3], [Dbl.ofNat 4], [Dbl.ofNat 5]⟩], 500⟩].mapM
        mkEnergyAngleSpec >>= fun ds =>
    Law61.mk' [] [] ds 21 >>= fun d => do
      let x ← d.distribution 2
      return ((← d.LOCC 1), (← d.LOCC 2), (← x.LOCC 1), (← x.LOCC 2),
        (← x.distribution 2).probability)) = .ok (27, 38, 48, 53, Dbl.ofNat 6) := by decide

/-- The hypotheses are met by two tables built for other base locators. -/
example := C12_law67 [⟨Dbl.ofNat 1, 2, [⟨Dbl.ofNat 0, 1, [Dbl.ofNat 3], [Dbl.ofNat 4], [Dbl.ofNat 5], 0⟩], 1⟩,
    ⟨Dbl.ofNat 2, 1, [⟨Dbl.ofNat 0, 2, [Dbl.ofNat 3], [Dbl.ofNat 4], [Dbl.ofNat 5], 0⟩,
      ⟨Dbl.ofNat 1, 2, [Dbl.ofNat 3], [Dbl.ofNat 4], [Dbl.ofNat 5], 0⟩], 500⟩] _ rfl
  (by intro v hv
      simp only [List.mem_cons, List.not_mem_nil, or_false] at hv
      rcases hv with rfl | rfl
      · refine ⟨by decide, fun u hu => ?_, fun bs hb => ?_⟩
        · simp only [List.mem_cons, List.not_mem_nil, or_false] at hu
          subst hu; exact ⟨by decide, by decide⟩
        · cases hb; decide
      · refine ⟨by decide, fun u hu => ?_, fun bs hb => ?_⟩
        · simp only [List.mem_cons, List.not_mem_nil, or_false] at hu
          rcases hu with rfl | rfl <;> exact ⟨by decide, by decide⟩
        · cases hb; decide) 21 [2] [2] rfl (by decide)
example := C12_law61 [⟨Dbl.ofNat 1, 2, [⟨Dbl.ofNat 7, Dbl.ofNat 8, Dbl.ofNat 9, 1, [Dbl.ofNat 3],
      [Dbl.ofNat 4], [Dbl.ofNat 5]⟩], 1⟩] _ rfl
  (by intro v hv
      simp only [List.mem_cons, List.not_mem_nil, or_false] at hv
      subst hv
      refine ⟨by decide, fun u hu => ?_, fun bs hb => ?_⟩
      · simp only [List.mem_cons, List.not_mem_nil, or_false] at hu
        subst hu; decide
      · cases hb; decide) 21 [2] [2] rfl (by decide)

end ACE.Props

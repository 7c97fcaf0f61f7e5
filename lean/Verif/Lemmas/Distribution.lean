import Verif.Lemmas.Located
import Verif.Model.Distribution

/-! # Helper lemmas about distribution data -/

namespace ACE

theorem wrap32_natCast {n : Nat} (h : FitsN n) : wrap32 (n : Int) = n := by
  unfold FitsN at h; unfold wrap32; omega

theorem dist2Loop_spec (ne offset : Nat) (ds : List (Dbl × (Nat → Res Words))) (ws : List Words)
    (vs locs acc : Words) (N z : Dbl) (hl : ws.length = ds.length) (hn : ne = vs.length + ds.length)
    (hk : locs.length = vs.length)
    (h : ∀ (i : Nat) (h1 : i < ds.length) (h2 : i < ws.length),
      ds[i].2 (1 + 2 * ne + acc.length + startOf ws i + offset) = .ok ws[i]) :
    dist2Loop ne offset ds
        (N :: (vs ++ List.replicate ds.length z ++ (locs ++ List.replicate ds.length z ++ acc)))
        (vs.length + 1) =
      .ok (N :: (vs ++ ds.map (·.1) ++
        (locs ++ locsFrom Dbl.ofNat (1 + 2 * ne + acc.length + offset) ws ++
          (acc ++ ws.flatten)))) := by
  induction ds generalizing vs locs acc ws with
  | nil =>
    cases ws with
    | nil => simp [dist2Loop, locsFrom]
    | cons w ws => simp at hl
  | cons d ds ih =>
    obtain ⟨v, f⟩ := d
    cases ws with
    | nil => simp at hl
    | cons w ws =>
      have h0 := h 0 (by simp) (by simp)
      simp only [List.getElem_cons_zero, startOf_zero, Nat.add_zero] at h0
      have e1 : (N :: (vs ++ List.replicate ((v, f) :: ds).length z ++
            (locs ++ List.replicate ((v, f) :: ds).length z ++ acc))).set (vs.length + 1) v =
          N :: ((vs ++ [v]) ++ List.replicate ds.length z ++
            (locs ++ List.replicate ((v, f) :: ds).length z ++ acc)) := by
        simp [List.replicate_succ]
      have e3 : ∀ x, (N :: ((vs ++ [v]) ++ List.replicate ds.length z ++
            (locs ++ List.replicate ((v, f) :: ds).length z ++ acc))).set (vs.length + 1 + ne) x =
          N :: ((vs ++ [v]) ++ List.replicate ds.length z ++
            ((locs ++ [x]) ++ List.replicate ds.length z ++ acc)) := by
        intro x
        have hidx : vs.length + 1 + ne =
            ((vs ++ [v]) ++ List.replicate ds.length z).length + locs.length + 1 := by
          simp at hn ⊢; omega
        rw [hidx, List.set_cons_succ, List.set_append_right _ _ (by omega)]
        simp [List.replicate_succ]
      have e2 : (N :: ((vs ++ [v]) ++ List.replicate ds.length z ++
            (locs ++ List.replicate ((v, f) :: ds).length z ++ acc))).length =
          1 + 2 * ne + acc.length := by
        simp at hn ⊢; omega
      unfold dist2Loop
      simp only [e1, e3, e2]
      have e4 : ∀ x, (N :: ((vs ++ [v]) ++ List.replicate ds.length z ++
            ((locs ++ [x]) ++ List.replicate ds.length z ++ acc))).length =
          1 + 2 * ne + acc.length := by
        intro x; simp at hn ⊢; omega
      rw [e4, h0, ok_bind]
      have := ih ws (vs ++ [v]) (locs ++ [Dbl.ofNat (1 + 2 * ne + acc.length + offset)]) (acc ++ w)
        (by simpa using hl) (by simp at hn ⊢; omega) (by simp [hk])
        (fun i h1 h2 => by
          have := h (i + 1) (by simpa using h1) (by simpa using h2)
          simp only [List.getElem_cons_succ] at this
          have e : 1 + 2 * ne + (acc ++ w).length + startOf ws i + offset =
              1 + 2 * ne + acc.length + startOf (w :: ws) (i + 1) + offset := by
            simp [startOf]; omega
          rw [e]; exact this)
      simp only [List.length_append, List.length_singleton] at this
      have e5 : ∀ x, (N :: ((vs ++ [v]) ++ List.replicate ds.length z ++
            ((locs ++ [x]) ++ List.replicate ds.length z ++ acc))) ++ w =
          N :: ((vs ++ [v]) ++ List.replicate ds.length z ++
            ((locs ++ [x]) ++ List.replicate ds.length z ++ (acc ++ w))) := by
        intro x; simp
      rw [e5, this]
      have e6 : 1 + 2 * ne + (acc.length + w.length) + offset =
          1 + 2 * ne + acc.length + offset + w.length := by omega
      rw [e6]
      simp [locsFrom]

/-- The words of a table with columns `cols` and locators, for a table that starts after `pre`
words of its block, in a block for base locator `locb`. -/
def tableWords (locb pre : Nat) (cols : List Words) (ws : List Words) : Words :=
  ColumnData.words ws.length
    (cols ++ [locsFrom Dbl.ofNat (locb + pre + (1 + (cols.length + 1) * ws.length)) ws]) ++ ws.flatten

theorem dist2XSS_ok (locb pre : Nat) (ds : List (Dbl × (Nat → Res Words))) (ws : List Words)
    (hl : ws.length = ds.length)
    (h : ∀ (i : Nat) (h1 : i < ds.length) (h2 : i < ws.length),
      ds[i].2 (locb + pre + (1 + 2 * ws.length) + startOf ws i) = .ok ws[i]) :
    dist2XSS (pre + locb) ds = .ok (tableWords locb pre [ds.map (·.1)] ws) := by
  have := dist2Loop_spec ds.length (pre + locb) ds ws [] [] [] (Dbl.ofNat ds.length) (Dbl.ofNat 0) hl
    (by simp) rfl (fun i h1 h2 => by
      have := h i h1 h2
      have e : 1 + 2 * ds.length + ([] : Words).length + startOf ws i + (pre + locb) =
          locb + pre + (1 + 2 * ws.length) + startOf ws i := by
        simp only [List.length_nil]; omega
      rw [e]; exact this)
  unfold dist2XSS
  have er : List.replicate (2 * ds.length) (Dbl.ofNat 0) =
      List.replicate ds.length (Dbl.ofNat 0) ++ List.replicate ds.length (Dbl.ofNat 0) := by
    rw [List.replicate_append_replicate]; congr 1; omega
  rw [er]
  simp only [List.nil_append, List.append_nil, List.length_nil, Nat.add_zero, Nat.zero_add] at this
  rw [this]
  unfold tableWords
  have e : 1 + 2 * ds.length + (pre + locb) = locb + pre + (1 + (([ds.map (·.1)] : List Words).length + 1) * ws.length) := by
    simp [hl]; omega
  rw [e, hl]
  simp

theorem dist4Loop_spec (ne offset : Nat) (ds : List (Dbl × Dbl × Dbl × Words))
    (es ps cs locs acc : Words) (N z : Dbl) (hn : ne = es.length + ds.length)
    (h1 : ps.length = es.length) (h2 : cs.length = es.length) (h3 : locs.length = es.length) :
    dist4Loop ne offset ds
        (N :: (es ++ List.replicate ds.length z ++ (ps ++ List.replicate ds.length z ++
          (cs ++ List.replicate ds.length z ++ (locs ++ List.replicate ds.length z ++ acc)))))
        (es.length + 1) =
      N :: (es ++ ds.map (·.1) ++ (ps ++ ds.map (·.2.1) ++ (cs ++ ds.map (·.2.2.1) ++
        (locs ++ locsFrom Dbl.ofNat (1 + 4 * ne + acc.length + offset) (ds.map (·.2.2.2)) ++
          (acc ++ (ds.map (·.2.2.2)).flatten))))) := by
  induction ds generalizing es ps cs locs acc with
  | nil => simp [dist4Loop, locsFrom]
  | cons d ds ih =>
    obtain ⟨e, p, c, w⟩ := d
    simp only [List.length_cons] at hn
    have s1 : (N :: (es ++ List.replicate (ds.length + 1) z ++ (ps ++ List.replicate (ds.length + 1) z ++
          (cs ++ List.replicate (ds.length + 1) z ++
            (locs ++ List.replicate (ds.length + 1) z ++ acc))))).set (es.length + 1) e =
        N :: ((es ++ [e]) ++ List.replicate ds.length z ++ (ps ++ List.replicate (ds.length + 1) z ++
          (cs ++ List.replicate (ds.length + 1) z ++
            (locs ++ List.replicate (ds.length + 1) z ++ acc)))) := by
      simp [List.replicate_succ]
    have s2 : (N :: ((es ++ [e]) ++ List.replicate ds.length z ++
          (ps ++ List.replicate (ds.length + 1) z ++ (cs ++ List.replicate (ds.length + 1) z ++
            (locs ++ List.replicate (ds.length + 1) z ++ acc))))).set (es.length + 1 + ne) p =
        N :: ((es ++ [e]) ++ List.replicate ds.length z ++ ((ps ++ [p]) ++ List.replicate ds.length z ++
          (cs ++ List.replicate (ds.length + 1) z ++
            (locs ++ List.replicate (ds.length + 1) z ++ acc)))) := by
      have hidx : es.length + 1 + ne =
          ((es ++ [e]) ++ List.replicate ds.length z).length + ps.length + 1 := by
        simp; omega
      rw [hidx, List.set_cons_succ, List.set_append_right _ _ (by omega)]
      simp [List.replicate_succ]
    have s3 : (N :: ((es ++ [e]) ++ List.replicate ds.length z ++
          ((ps ++ [p]) ++ List.replicate ds.length z ++ (cs ++ List.replicate (ds.length + 1) z ++
            (locs ++ List.replicate (ds.length + 1) z ++ acc))))).set (es.length + 1 + 2 * ne) c =
        N :: ((es ++ [e]) ++ List.replicate ds.length z ++ ((ps ++ [p]) ++ List.replicate ds.length z ++
          ((cs ++ [c]) ++ List.replicate ds.length z ++
            (locs ++ List.replicate (ds.length + 1) z ++ acc)))) := by
      have hidx : es.length + 1 + 2 * ne =
          ((es ++ [e]) ++ List.replicate ds.length z).length +
            (((ps ++ [p]) ++ List.replicate ds.length z).length + cs.length) + 1 := by
        simp; omega
      rw [hidx, List.set_cons_succ, List.set_append_right _ _ (by omega), Nat.add_sub_cancel_left,
        List.set_append_right _ _ (by omega)]
      simp [List.replicate_succ]
    have s4 : ∀ x, (N :: ((es ++ [e]) ++ List.replicate ds.length z ++
          ((ps ++ [p]) ++ List.replicate ds.length z ++ ((cs ++ [c]) ++ List.replicate ds.length z ++
            (locs ++ List.replicate (ds.length + 1) z ++ acc))))).set (es.length + 1 + 3 * ne) x =
        N :: ((es ++ [e]) ++ List.replicate ds.length z ++ ((ps ++ [p]) ++ List.replicate ds.length z ++
          ((cs ++ [c]) ++ List.replicate ds.length z ++
            ((locs ++ [x]) ++ List.replicate ds.length z ++ acc)))) := by
      intro x
      have hidx : es.length + 1 + 3 * ne =
          ((es ++ [e]) ++ List.replicate ds.length z).length +
            (((ps ++ [p]) ++ List.replicate ds.length z).length +
              (((cs ++ [c]) ++ List.replicate ds.length z).length + locs.length)) + 1 := by
        simp; omega
      rw [hidx, List.set_cons_succ, List.set_append_right _ _ (by omega), Nat.add_sub_cancel_left,
        List.set_append_right _ _ (by omega), Nat.add_sub_cancel_left,
        List.set_append_right _ _ (by omega)]
      simp [List.replicate_succ]
    have sl : (N :: ((es ++ [e]) ++ List.replicate ds.length z ++
          ((ps ++ [p]) ++ List.replicate ds.length z ++ ((cs ++ [c]) ++ List.replicate ds.length z ++
            (locs ++ List.replicate (ds.length + 1) z ++ acc))))).length = 1 + 4 * ne + acc.length := by
      simp; omega
    unfold dist4Loop
    simp only [List.length_cons, s1, s2, s3, s4, sl]
    have := ih (es ++ [e]) (ps ++ [p]) (cs ++ [c])
      (locs ++ [Dbl.ofNat (1 + 4 * ne + acc.length + offset)]) (acc ++ w)
      (by simp; omega) (by simp [h1]) (by simp [h2]) (by simp [h3])
    have e5 : ∀ x, (N :: ((es ++ [e]) ++ List.replicate ds.length z ++
          ((ps ++ [p]) ++ List.replicate ds.length z ++ ((cs ++ [c]) ++ List.replicate ds.length z ++
            ((locs ++ [x]) ++ List.replicate ds.length z ++ acc))))) ++ w =
        N :: ((es ++ [e]) ++ List.replicate ds.length z ++ ((ps ++ [p]) ++ List.replicate ds.length z ++
          ((cs ++ [c]) ++ List.replicate ds.length z ++
            ((locs ++ [x]) ++ List.replicate ds.length z ++ (acc ++ w))))) := by
      intro x; simp
    simp only [List.length_append, List.length_singleton] at this
    rw [e5, this]
    have e6 : 1 + 4 * ne + (acc.length + w.length) + offset =
        1 + 4 * ne + acc.length + offset + w.length := by omega
    rw [e6]
    simp [locsFrom]

theorem dist4XSS_ok (locb pre : Nat) (ds : List (Dbl × Dbl × Dbl × Words)) :
    dist4XSS (pre + locb) ds = tableWords locb pre
      [ds.map (·.1), ds.map (·.2.1), ds.map (·.2.2.1)] (ds.map (·.2.2.2)) := by
  have := dist4Loop_spec ds.length (pre + locb) ds [] [] [] [] [] (Dbl.ofNat ds.length) (Dbl.ofNat 0)
    (by simp) rfl rfl rfl
  unfold dist4XSS
  have er : List.replicate (4 * ds.length) (Dbl.ofNat 0) =
      List.replicate ds.length (Dbl.ofNat 0) ++ (List.replicate ds.length (Dbl.ofNat 0) ++
      (List.replicate ds.length (Dbl.ofNat 0) ++ List.replicate ds.length (Dbl.ofNat 0))) := by
    simp only [List.replicate_append_replicate]; congr 1; omega
  rw [er]
  simp only [List.nil_append, List.append_nil, List.length_nil, Nat.add_zero, Nat.zero_add] at this
  rw [this]
  unfold tableWords
  have e : 1 + 4 * ds.length + (pre + locb) = locb + pre + (1 + (([ds.map (·.1), ds.map (·.2.1), ds.map (·.2.2.1)] : List Words).length + 1) * (ds.map (·.2.2.2)).length) := by
    simp; omega
  rw [e]
  simp

/-! ## Reading a table -/

/-- The position (number of words before) of the data of a table with `n` distributions and `nc`
columns that starts after `pre` words. -/
abbrev dataStart (pre nc n : Nat) : Nat := pre + (1 + nc * n)

/-- The columns of a table, the last one holding the locators. -/
abbrev tableCols (locb pre : Nat) (cols : List Words) (ws : List Words) : List Words :=
  cols ++ [locsFrom Dbl.ofNat (locb + pre + (1 + (cols.length + 1) * ws.length)) ws]

theorem tableCols_len (locb pre : Nat) (cols ws : List Words) (hc : ∀ c ∈ cols, c.length = ws.length) :
    ∀ c ∈ tableCols locb pre cols ws, c.length = ws.length := by
  intro c h
  rcases List.mem_append.mp h with h | h
  · exact hc c h
  · rw [List.mem_singleton.mp h]; simp

theorem tableWords_eq (locb pre : Nat) (cols ws : List Words) :
    tableWords locb pre cols ws =
      ColumnData.words ws.length (tableCols locb pre cols ws) ++ ws.flatten := rfl

theorem tableHead_length (locb pre : Nat) (cols ws : List Words)
    (hc : ∀ c ∈ cols, c.length = ws.length) :
    (ColumnData.words ws.length (tableCols locb pre cols ws)).length =
      1 + (cols.length + 1) * ws.length := by
  simp only [ColumnData.words, List.length_cons,
    length_flatten_const _ _ (tableCols_len locb pre cols ws hc), List.length_append,
    List.length_nil, Nat.zero_add]
  omega

theorem tableWords_length (locb pre : Nat) (cols ws : List Words)
    (hc : ∀ c ∈ cols, c.length = ws.length) :
    (tableWords locb pre cols ws).length =
      1 + (cols.length + 1) * ws.length + ws.flatten.length := by
  rw [tableWords_eq, List.length_append, tableHead_length locb pre cols ws hc]

namespace Dist

variable {values : ColumnData} {locb pre : Nat} {cols ws : List Words}

theorem verifyValueIndex_ok {n : Nat} (hn : values.N = .ok n) (i : Nat) (hi : i < n) :
    verifyValueIndex values (i + 1) = .ok () := by
  unfold verifyValueIndex
  rw [hn, ok_bind, if_neg (by omega)]

theorem verifyValueIndex_range {n : Nat} (hn : values.N = .ok n) (i : Nat) (hi : i = 0 ∨ n < i) :
    verifyValueIndex values i = .error .range := by
  unfold verifyValueIndex
  rw [hn, ok_bind, if_pos (by omega)]

theorem value_ok (h : ColumnData.Holds values ws.length (tableCols locb pre cols ws)) (a i : Nat)
    (ha : a < cols.length) (hi : i < cols[a].length) :
    value values (a + 1) (i + 1) = .ok cols[a][i] := by
  have hlen := h.hn cols[a] (List.mem_append_left _ (List.getElem_mem ha))
  unfold value
  rw [verifyValueIndex_ok h.N i (by omega), ok_bind]
  have ha' : a < (tableCols locb pre cols ws).length := by simp; omega
  have e : (tableCols locb pre cols ws)[a] = cols[a] := List.getElem_append_left ha
  have := h.value a i ha' (by rw [e]; exact hi)
  simpa only [e] using this

theorem LOCC_ok (h : ColumnData.Holds values ws.length (tableCols locb pre cols ws))
    (hnc : values.nc = cols.length + 1) (i : Nat) (hi : i < ws.length)
    (hf : FitsN (locb + dataStart pre (cols.length + 1) ws.length + startOf ws i)) :
    LOCC values (i + 1) =
      .ok ((locb + dataStart pre (cols.length + 1) ws.length + startOf ws i : Nat) : Int) := by
  have ha' : cols.length < (tableCols locb pre cols ws).length := by simp
  have e : (tableCols locb pre cols ws)[cols.length] =
      locsFrom Dbl.ofNat (locb + pre + (1 + (cols.length + 1) * ws.length)) ws := by
    simp
  have hi' : i < (tableCols locb pre cols ws)[cols.length].length := by rw [e]; simpa using hi
  have hv := h.value cols.length i ha' hi'
  have e2 : (tableCols locb pre cols ws)[cols.length][i] =
      Dbl.ofNat (locb + dataStart pre (cols.length + 1) ws.length + startOf ws i) := by
    simp only [e, locsFrom_getElem, dataStart]
    congr 1; omega
  rw [e2] at hv
  unfold LOCC value
  rw [verifyValueIndex_ok h.N i hi, ok_bind, hnc, hv, ok_bind, Dbl.round?_ofNat,
    toInt32_some (FitsN.fits hf)]

theorem relInt_ok (h : ColumnData.Holds values ws.length (tableCols locb pre cols ws))
    (hnc : values.nc = cols.length + 1) (i : Nat) (hi : i < ws.length)
    (hf : FitsN (locb + dataStart pre (cols.length + 1) ws.length + startOf ws i + 1)) :
    relInt values locb (i + 1) =
      .ok ((dataStart pre (cols.length + 1) ws.length + startOf ws i + 1 : Nat) : Int) := by
  unfold relInt
  rw [LOCC_ok h hnc i hi (by omega), ok_bind]
  have : ((locb + dataStart pre (cols.length + 1) ws.length + startOf ws i : Nat) : Int) - (locb : Int) + 1 =
      ((dataStart pre (cols.length + 1) ws.length + startOf ws i + 1 : Nat) : Int) := by omega
  rw [this, wrap32_natCast (by omega)]; rfl

theorem relSize_ok (h : ColumnData.Holds values ws.length (tableCols locb pre cols ws))
    (hnc : values.nc = cols.length + 1) (i : Nat) (hi : i < ws.length)
    (hf : FitsN (locb + dataStart pre (cols.length + 1) ws.length + startOf ws i + 1)) :
    relSize values locb (i + 1) =
      .ok (dataStart pre (cols.length + 1) ws.length + startOf ws i + 1) := by
  unfold relSize
  rw [LOCC_ok h hnc i hi (by omega), ok_bind]
  have : ((locb + dataStart pre (cols.length + 1) ws.length + startOf ws i : Nat) : Int) - (locb : Int) + 1 =
      ((dataStart pre (cols.length + 1) ws.length + startOf ws i + 1 : Nat) : Int) := by omega
  rw [this, sizeOfInt_natCast (by omega)]; rfl

/-- The words between two starts of parts. -/
theorem sub_cut (A rest : Words) (ws : List Words) (i : Nat) (hi : i < ws.length) :
    sub (A ++ ws.flatten ++ rest) (A.length + startOf ws i)
      (if i + 1 = ws.length then (A ++ ws.flatten ++ rest).length
        else A.length + startOf ws (i + 1)) = .ok (LocBlock.cut ws rest i hi) := by
  have hs := flatten_split ws i hi
  by_cases hlast : i + 1 = ws.length
  · rw [if_pos hlast]
    unfold LocBlock.cut
    rw [if_pos hlast]
    have hd : ws.drop (i + 1) = [] := List.drop_eq_nil_of_le (by omega)
    refine sub_of_eq (a := A ++ (ws.take i).flatten) (c := []) ?_ ?_ ?_
    · rw [hs, hd]; simp
    · simp [startOf]
    · rw [List.length_append, List.length_append, hs, hd]
      simp; omega
  · rw [if_neg hlast]
    unfold LocBlock.cut
    rw [if_neg hlast]
    refine sub_of_eq (a := A ++ (ws.take i).flatten) (c := (ws.drop (i + 1)).flatten ++ rest) ?_ ?_ ?_
    · rw [hs]; simp
    · simp [startOf]
    · rw [startOf_succ ws i hi]; simp [startOf]; omega

/-- One distribution of a table. -/
theorem generateBlock_ok {D : Type} (gen : Dbl → Nat → Words → Res D) (rel : Nat → Res Int)
    (A rest : Words) (v : Dbl) (loc : Nat) (i : Nat) (hi : i < ws.length)
    (hne : ∀ w ∈ ws, w ≠ []) (hf : FitsN (A.length + ws.flatten.length + 1))
    (hv : value values 1 (i + 1) = .ok v) (hloc : LOCC values (i + 1) = .ok (loc : Int))
    (hlf : FitsN loc)
    (hrel : ∀ j, j < ws.length → rel (j + 1) = .ok ((A.length + startOf ws j + 1 : Nat) : Int)) :
    generateBlock gen rel (A ++ ws.flatten ++ rest) values ws.length i =
      gen v loc (LocBlock.cut ws rest i hi) := by
  have hst := startOf_add_le ws i hi
  have hlen : (A ++ ws.flatten ++ rest).length = A.length + ws.flatten.length + rest.length := by
    simp only [List.length_append]
  have hr : (findNext rel ((A.length + startOf ws i + 1 : Nat) : Int)
        (List.range' (i + 1 + 1) (ws.length - (i + 1)))) =
      .ok (if i + 1 = ws.length then none
        else some ((A.length + startOf ws (i + 1) + 1 : Nat) : Int)) := by
    by_cases hlast : i + 1 = ws.length
    · rw [if_pos hlast]
      have : ws.length - (i + 1) = 0 := by omega
      rw [this]; rfl
    · rw [if_neg hlast]
      have : ws.length - (i + 1) = (ws.length - (i + 1) - 1) + 1 := by omega
      rw [this, List.range'_succ]
      unfold findNext
      rw [hrel (i + 1) (by omega), ok_bind]
      have hpos : 0 < (ws[i]).length := List.length_pos_iff.mpr (hne _ (List.getElem_mem hi))
      have := startOf_succ ws i hi
      rw [if_pos (by omega)]; rfl
  have hc := sub_cut A rest ws i hi
  unfold generateBlock
  simp only [hv, hloc, hrel i hi, ok_bind, hr]
  rw [sizeOfInt_natCast (by omega), sizeOfInt_natCast hlf, Base.iterator_ok (by omega) (by omega),
    ok_bind]
  by_cases hlast : i + 1 = ws.length
  · simp only [if_pos hlast, pure_eq_ok, ok_bind] at hc ⊢
    have : A.length + startOf ws i + 1 - 1 = A.length + startOf ws i := by omega
    rw [this, hc, ok_bind]
  · have := startOf_le ws (i + 1)
    simp only [if_neg hlast] at hc ⊢
    rw [sizeOfInt_natCast (by omega), Base.iterator_ok (by omega) (by omega), ok_bind]
    have e1 : A.length + startOf ws i + 1 - 1 = A.length + startOf ws i := by omega
    have e2 : A.length + startOf ws (i + 1) + 1 - 1 = A.length + startOf ws (i + 1) := by omega
    rw [e1, e2, hc, ok_bind]

end Dist

end ACE

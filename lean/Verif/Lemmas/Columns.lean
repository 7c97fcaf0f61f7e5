import Verif.Lemmas.Arrays

/-! # Helper lemmas about column and tabulated data -/

namespace ACE

namespace ColumnData

theorem appendColumns_ok (n : Nat) (as : List Words) (xss : Words)
    (h : ∀ x ∈ as, x.length = n) : appendColumns n as xss = .ok (xss ++ as.flatten) := by
  induction as generalizing xss with
  | nil => simp [appendColumns]
  | cons x xs ih =>
    simp [appendColumns, h x (by simp), ih _ (fun y hy => h y (by simp [hy]))]

theorem appendColumns_error (n : Nat) (as : List Words) (xss : Words)
    (h : ¬ ∀ x ∈ as, x.length = n) : appendColumns n as xss = .error .thrown := by
  induction as generalizing xss with
  | nil => simp at h
  | cons x xs ih =>
    unfold appendColumns
    by_cases hx : x.length = n
    · have : ¬ ∀ y ∈ xs, y.length = n := by
        intro hall; apply h; intro y hy
        rcases List.mem_cons.mp hy with rfl | hy
        · exact hx
        · exact hall y hy
      simp [hx, ih _ this]
    · have : (x.length == n) = false := by simpa using hx
      rw [this]; rfl

/-- The words of column data with `ne` rows. -/
abbrev words (ne : Nat) (cols : List Words) : Words := Dbl.ofNat ne :: cols.flatten

theorem ofColumns_ok (cols : List Words) (ne : Nat) (hne : cols ≠ [])
    (h : ∀ x ∈ cols, x.length = ne) :
    ofColumns cols = .ok ⟨words ne cols, cols.length⟩ := by
  cases cols with
  | nil => exact absurd rfl hne
  | cons c cs =>
    have hc : c.length = ne := h c (by simp)
    have := appendColumns_ok ne (c :: cs) [Dbl.ofNat ne] h
    simp only [ofColumns, generateXSS, hc, this, ok_bind, pure_eq_ok]
    rfl

theorem ofColumns_error (c : Words) (cs : List Words) (h : ¬ ∀ x ∈ cs, x.length = c.length) :
    ofColumns (c :: cs) = .error .thrown := by
  have : ¬ ∀ x ∈ c :: cs, x.length = c.length := by
    intro hall; exact h (fun x hx => hall x (by simp [hx]))
  simp [ofColumns, generateXSS, appendColumns_error _ _ _ this]

theorem ofRange_ok (cols : List Words) (ne nc : Nat) (rest : Words) (hnc : nc = cols.length)
    (h : ∀ x ∈ cols, x.length = ne) (hf : FitsN ne) :
    ofRange (words ne cols ++ rest) nc = .ok ⟨words ne cols ++ rest, nc⟩ := by
  subst hnc
  have hl := length_flatten_const cols ne h
  simp only [ofRange, words, List.cons_append, Dbl.trunc?_ofNat, toSize_natCast hf, ok_bind,
    verifySize]
  have : ¬ (Dbl.ofNat ne :: (cols.flatten ++ rest)).length < 1 + ne * cols.length := by
    simp only [List.length_cons, List.length_append, hl, Nat.mul_comm]; omega
  simp only [not_lt_mod this, decide_false, Bool.not_false, Bool.or_true, guardThrow_true, ok_bind]
  rfl

/-- What it means to hold `ne` rows of the columns `cols`. -/
structure Holds (d : ColumnData) (ne : Nat) (cols : List Words) : Prop where
  hn : ∀ x ∈ cols, x.length = ne
  hf : FitsN ne
  hx : ∃ rest, d.xss = words ne cols ++ rest

theorem Holds.N {d : ColumnData} {ne : Nat} {cols : List Words} (h : Holds d ne cols) :
    d.N = .ok ne := by
  obtain ⟨rest, hx⟩ := h.hx
  have : Base.IXSS d.xss 1 = .ok (ne : Int) :=
    Base.IXSS_ofNat (a := []) (c := cols.flatten ++ rest) (by rw [hx]; simp) (by simp) h.hf
  unfold ColumnData.N
  have he : d.xss.isEmpty = false := by rw [hx]; rfl
  simp [he, this, sizeOfInt_natCast h.hf]

theorem Holds.decomp {d : ColumnData} {ne : Nat} {cols : List Words} (h : Holds d ne cols)
    (a : Nat) (ha : a < cols.length) :
    ∃ l r, d.xss = l ++ cols[a] ++ r ∧ l.length = 1 + a * ne := by
  obtain ⟨rest, hx⟩ := h.hx
  refine ⟨Dbl.ofNat ne :: (cols.take a).flatten, (cols.drop (a + 1)).flatten ++ rest, ?_, ?_⟩
  · rw [hx, words, flatten_split cols a ha]; simp
  · simp [length_flatten_take cols ne a (by omega) h.hn]; omega

theorem Holds.column {d : ColumnData} {ne : Nat} {cols : List Words} (h : Holds d ne cols)
    (a : Nat) (ha : a < cols.length) : d.column (a + 1) = .ok cols[a] := by
  obtain ⟨l, r, hd, hl⟩ := h.decomp a ha
  unfold ColumnData.column
  rw [h.N]
  simp only [ok_bind, position_succ]
  exact Base.XSSr_of_eq hd (by omega) (h.hn _ (List.getElem_mem ha)).symm

theorem Holds.value {d : ColumnData} {ne : Nat} {cols : List Words} (h : Holds d ne cols)
    (a i : Nat) (ha : a < cols.length) (hi : i < cols[a].length) :
    d.value (a + 1) (i + 1) = .ok cols[a][i] := by
  obtain ⟨l, r, hd, hl⟩ := h.decomp a ha
  obtain ⟨p, q, hpq, hp⟩ := getElem_split cols[a] i hi
  have hd' : d.xss = (l ++ p) ++ cols[a][i] :: (q ++ r) := by
    rw [hd]; generalize cols[a][i] = x at hpq ⊢; rw [hpq]; simp
  unfold ColumnData.value
  rw [h.N]
  simp only [ok_bind, position_succ]
  refine Base.XSS_of_eq hd' ?_
  simp [hl, hp]; omega

theorem ofColumns_holds {cols : List Words} {d : ColumnData} (h : ofColumns cols = .ok d)
    (hf : ∀ x ∈ cols, FitsN x.length) :
    ∃ ne, Holds d ne cols ∧ d.xss = words ne cols ∧ d.nc = cols.length := by
  cases cols with
  | nil => cases h
  | cons c cs =>
    by_cases hall : ∀ x ∈ cs, x.length = c.length
    · have hall' : ∀ x ∈ c :: cs, x.length = c.length := by
        intro x hx
        rcases List.mem_cons.mp hx with rfl | hx
        · rfl
        · exact hall x hx
      rw [ofColumns_ok (c :: cs) c.length (by simp) hall'] at h
      injection h with h; subst h
      exact ⟨c.length, ⟨hall', hf c (by simp), [], by simp⟩, rfl, rfl⟩
    · rw [ofColumns_error c cs hall] at h; cases h

end ColumnData

namespace TabulatedData

/-- The words of tabulated data. -/
def words (b i : List Int) (x y : Words) : Words :=
  ColumnData.words b.length [b.map Dbl.ofInt, i.map Dbl.ofInt] ++ ColumnData.words x.length [x, y]

/-- The object over the words of tabulated data followed by `rest`. -/
def tab (b i : List Int) (x y rest : Words) : TabulatedData :=
  { xss := words b i x y ++ rest
    interpolation := ⟨ColumnData.words b.length [b.map Dbl.ofInt, i.map Dbl.ofInt], 2⟩
    data := ⟨ColumnData.words x.length [x, y], 2⟩ }

/-- The consistency of the arguments. -/
structure Valid (b i : List Int) (x y : Words) : Prop where
  hi : i.length = b.length
  hy : y.length = x.length
  fb : FitsN b.length
  fx : FitsN x.length

theorem words_length {b i : List Int} {x y : Words} (h : Valid b i x y) :
    (words b i x y).length = 2 + 2 * b.length + 2 * x.length := by
  have := h.hi; have := h.hy
  simp [words]; omega

variable {b i : List Int} {x y : Words}

theorem Valid.ihold (h : Valid b i x y) (rest : Words) :
    ColumnData.Holds ⟨ColumnData.words b.length [b.map Dbl.ofInt, i.map Dbl.ofInt] ++ rest, 2⟩
      b.length [b.map Dbl.ofInt, i.map Dbl.ofInt] :=
  ⟨by simp [h.hi], h.fb, rest, rfl⟩

theorem Valid.dhold (h : Valid b i x y) (rest : Words) :
    ColumnData.Holds ⟨ColumnData.words x.length [x, y] ++ rest, 2⟩ x.length [x, y] :=
  ⟨by simp [h.hy], h.fx, rest, rfl⟩

theorem nr_word (_h : Valid b i x y) (rest : Words) :
    Base.XSS (words b i x y ++ rest) 1 = .ok (Dbl.ofNat b.length) :=
  Base.XSS_of_eq (a := []) (by simp [words]; rfl) (by simp)

theorem ne_word (h : Valid b i x y) (rest : Words) :
    Base.XSS (words b i x y ++ rest) (1 + 2 * b.length + 1) = .ok (Dbl.ofNat x.length) := by
  refine Base.XSS_of_eq (a := ColumnData.words b.length [b.map Dbl.ofInt, i.map Dbl.ofInt])
    (c := [x, y].flatten ++ rest) (by simp [words]) ?_
  have := h.hi
  simp; omega

theorem nr_int (h : Valid b i x y) (rest : Words) :
    Base.IXSS (words b i x y ++ rest) 1 = .ok (b.length : Int) := by
  have hf := h.fb.fits
  simp [Base.IXSS, nr_word h, toInt32_some hf]

theorem ne_int (h : Valid b i x y) (rest : Words) :
    Base.IXSS (words b i x y ++ rest) (1 + 2 * b.length + 1) = .ok (x.length : Int) := by
  have hf := h.fx.fits
  simp [Base.IXSS, ne_word h, toInt32_some hf]

theorem generateBlocks_ok (h : Valid b i x y) (rest : Words) :
    generateBlocks (words b i x y ++ rest) = .ok (tab b i x y rest) := by
  have hi := h.hi
  have hy := h.hy
  unfold generateBlocks
  rw [nr_int h]
  simp only [ok_bind, sizeOfInt_natCast h.fb]
  rw [ne_int h]
  simp only [ok_bind, sizeOfInt_natCast h.fx]
  have h1 : sub (words b i x y ++ rest) 0 (2 * b.length + 1) =
      .ok (ColumnData.words b.length [b.map Dbl.ofInt, i.map Dbl.ofInt]) :=
    sub_of_eq (a := []) (c := ColumnData.words x.length [x, y] ++ rest)
      (by simp [words]) (by simp) (by simp; omega)
  have h2 : sub (words b i x y ++ rest) (2 * b.length + 1) (2 * b.length + 1 + 2 * x.length + 1) =
      .ok (ColumnData.words x.length [x, y]) :=
    sub_of_eq (a := ColumnData.words b.length [b.map Dbl.ofInt, i.map Dbl.ofInt]) (c := rest)
      (by simp [words]) (by simp; omega) (by simp; omega)
  rw [h1, h2]
  have h3 := ColumnData.ofRange_ok [b.map Dbl.ofInt, i.map Dbl.ofInt] b.length 2 [] rfl
    (by simp [hi]) h.fb
  have h4 := ColumnData.ofRange_ok [x, y] x.length 2 [] rfl (by simp [hy]) h.fx
  simp only [List.append_nil] at h3 h4
  simp only [ok_bind, InterpolationData.ofRange, h3, h4]
  rfl

theorem mk'_ok (h : Valid b i x y) : mk' b i x y = .ok (tab b i x y []) := by
  have h1 := ColumnData.ofColumns_ok [b.map Dbl.ofInt, i.map Dbl.ofInt] b.length (by simp)
    (by simp [h.hi])
  have h2 := ColumnData.ofColumns_ok [x, y] x.length (by simp) (by simp [h.hy])
  have h3 := generateBlocks_ok h []
  simp only [List.append_nil] at h3
  simp only [mk', generateXSS, InterpolationData.mk', h1, h2, ok_bind]
  exact h3

theorem mk'_error (h : ¬ (i.length = b.length ∧ y.length = x.length)) :
    mk' b i x y = .error .thrown := by
  by_cases hi : i.length = b.length
  · have hy : y.length ≠ x.length := fun hy => h ⟨hi, hy⟩
    have h1 := ColumnData.ofColumns_ok [b.map Dbl.ofInt, i.map Dbl.ofInt] b.length (by simp)
      (by simp [hi])
    have h2 := ColumnData.ofColumns_error x [y] (by simpa using hy)
    simp [mk', generateXSS, InterpolationData.mk', h1, h2]
  · have h1 := ColumnData.ofColumns_error (b.map Dbl.ofInt) [i.map Dbl.ofInt] (by simpa using hi)
    simp [mk', generateXSS, InterpolationData.mk', h1]

theorem ofRange_ok (h : Valid b i x y) (rest : Words) :
    ofRange (words b i x y ++ rest) = .ok (tab b i x y rest) := by
  unfold ofRange
  rw [nr_word h]
  simp only [ok_bind, Dbl.round?_ofNat, toSize_natCast h.fb]
  rw [ne_word h]
  have : ¬ (words b i x y ++ rest).length < 2 + 2 * b.length + 2 * x.length := by
    simp [words_length h]
  simp only [ok_bind, Dbl.round?_ofNat, toSize_natCast h.fx, verifySize]
  simp only [not_lt_mod this, decide_false, Bool.not_false, guardThrow_true, ok_bind]
  exact generateBlocks_ok h rest

theorem tab_accessors (h : Valid b i x y) (rest : Words) :
    (tab b i x y rest).NB = .ok b.length ∧ (tab b i x y rest).NBT = .ok (b.map Dbl.ofInt) ∧
    (tab b i x y rest).INT = .ok (i.map Dbl.ofInt) ∧ (tab b i x y rest).N = .ok x.length ∧
    (tab b i x y rest).x = .ok x ∧ (tab b i x y rest).y = .ok y := by
  have hi := h.ihold []
  have hd := h.dhold []
  simp only [List.append_nil] at hi hd
  exact ⟨hi.N, hi.column 0 (by simp), hi.column 1 (by simp), hd.N, hd.column 0 (by simp),
    hd.column 1 (by simp)⟩

end TabulatedData
end ACE

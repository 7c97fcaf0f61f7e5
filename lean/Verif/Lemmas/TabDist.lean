import Verif.Lemmas.Columns
import Verif.Model.TabDist

/-! # Helper lemmas about tabulated probability distributions -/

namespace ACE
namespace TabProb

/-- The words of a tabulated distribution with `n` values and columns `cols`. -/
def words (flag : Int) (n : Nat) (cols : List Words) : Words :=
  Dbl.ofInt flag :: ColumnData.words n cols

/-- What it means to hold a distribution. -/
structure Holds (d : TabProb) (flag : Int) (n : Nat) (cols : List Words) : Prop where
  hflag : Fits flag
  hn : ∀ x ∈ cols, x.length = n
  hf : FitsN n
  hx : ∃ rest, d.xss = words flag n cols ++ rest

theorem words_length (flag : Int) (n : Nat) (cols : List Words) (h : ∀ x ∈ cols, x.length = n) :
    (words flag n cols).length = 2 + cols.length * n := by
  simp only [words, ColumnData.words, List.length_cons, length_flatten_const cols n h]; omega

theorem mk'_ok (flag : Int) (v p c : Words) (data : List Words) (n : Nat)
    (h : ∀ x ∈ v :: p :: c :: data, x.length = n) :
    mk' flag v p c data = .ok ⟨words flag n (v :: p :: c :: data)⟩ := by
  simp [mk', generateXSS, ColumnData.ofColumns_ok _ n (by simp) h, words]

theorem mk'_error (flag : Int) (v p c : Words) (data : List Words)
    (h : ¬ ∀ x ∈ p :: c :: data, x.length = v.length) :
    mk' flag v p c data = .error .thrown := by
  simp [mk', generateXSS, ColumnData.ofColumns_error v _ h]

namespace Holds
variable {d : TabProb} {flag : Int} {n : Nat} {cols : List Words}

theorem interpolation (h : Holds d flag n cols) : d.interpolation = .ok flag := by
  obtain ⟨rest, hx⟩ := h.hx
  exact Base.IXSS_of_eq (a := []) (by rw [hx, words]; rfl) (by simp) h.hflag

theorem numberValues (h : Holds d flag n cols) : d.numberValues = .ok n := by
  obtain ⟨rest, hx⟩ := h.hx
  have : Base.IXSS d.xss 2 = .ok (n : Int) :=
    Base.IXSS_ofNat (a := [Dbl.ofInt flag]) (c := cols.flatten ++ rest)
      (by rw [hx, words]; rfl) (by simp) h.hf
  simp [TabProb.numberValues, this, sizeOfInt_natCast h.hf]

theorem range (h : Holds d flag n cols) (a : Nat) (ha : a < cols.length) :
    Base.XSSr d.xss (3 + a * n) n = .ok cols[a] := by
  obtain ⟨rest, hx⟩ := h.hx
  refine Base.XSSr_of_eq (a := Dbl.ofInt flag :: Dbl.ofNat n :: (cols.take a).flatten)
    (c := (cols.drop (a + 1)).flatten ++ rest) ?_ ?_ (h.hn _ (List.getElem_mem ha)).symm
  · rw [hx, words, ColumnData.words, flatten_split cols a ha]; simp
  · simp [length_flatten_take cols n a (by omega) h.hn]; omega

end Holds

theorem Holds.values {d : TabProb} {flag : Int} {n : Nat} {v : Words} {cols : List Words}
    (h : Holds d flag n (v :: cols)) : d.values = .ok v := by
  unfold TabProb.values
  rw [h.numberValues]
  have := h.range 0 (by simp)
  simpa using this

theorem Holds.pdf {d : TabProb} {flag : Int} {n : Nat} {v p : Words} {cols : List Words}
    (h : Holds d flag n (v :: p :: cols)) : d.pdf = .ok p := by
  unfold TabProb.pdf
  rw [h.numberValues]
  have := h.range 1 (by simp)
  simpa using this

theorem Holds.cdf {d : TabProb} {flag : Int} {n : Nat} {v p c : Words} {cols : List Words}
    (h : Holds d flag n (v :: p :: c :: cols)) : d.cdf = .ok c := by
  unfold TabProb.cdf
  rw [h.numberValues]
  have := h.range 2 (by simp)
  simpa using this

theorem Holds.column {d : TabProb} {flag : Int} {n : Nat} {v p c : Words} {cols : List Words}
    (h : Holds d flag n (v :: p :: c :: cols)) (k : Nat) (hk : k < cols.length) :
    d.column k = .ok cols[k] := by
  unfold TabProb.column
  rw [h.numberValues]
  have := h.range (k + 3) (by simp; omega)
  simp only [ok_bind]
  rw [show 3 + k = k + 3 by omega]
  simpa using this

theorem ofRange_ok (flag : Int) (n : Nat) (v p c : Words) (data : List Words) (rest : Words)
    (hflag : Fits flag) (h : ∀ x ∈ v :: p :: c :: data, x.length = n) (hf : FitsN n) :
    ofRange (words flag n (v :: p :: c :: data) ++ rest) =
      .ok ⟨words flag n (v :: p :: c :: data) ++ rest⟩ := by
  have hh : Holds ⟨words flag n (v :: p :: c :: data) ++ rest⟩ flag n (v :: p :: c :: data) :=
    ⟨hflag, h, hf, rest, rfl⟩
  have hl := words_length flag n _ h
  simp only [List.length_cons, Nat.add_mul, Nat.one_mul] at hl
  have : ¬ (words flag n (v :: p :: c :: data) ++ rest).length < 3 * n + 2 := by
    rw [List.length_append]; omega
  unfold ofRange
  rw [hh.numberValues]
  simp only [ok_bind, not_lt_mod this, decide_false, Bool.not_false, guardThrow_true]
  rfl

end TabProb

theorem unpack (int nd : Nat) (h : int < 10) (hf : Fits ((nd : Int) * 10 + int)) :
    ((((nd : Int) * 10 + int).tmod 10) % 4294967296).toNat = int ∧
    ((((nd : Int) * 10 + int) - int) % 4294967296).toNat / 10 = nd := by
  have h1 : ((nd : Int) * 10 + int).tmod 10 = int := by
    rw [Int.tmod_eq_emod_of_nonneg (by omega)]; omega
  rw [h1]
  have hlt : (nd : Int) * 10 + int ≤ 2147483647 := hf.2
  have h2 : (int : Int) % 4294967296 = int := Int.emod_eq_of_lt (by omega) (by omega)
  have h3 : ((nd : Int) * 10 + int - int) = ((nd * 10 : Nat) : Int) := by
    rw [Int.add_sub_cancel]; rfl
  have h4 : ((nd * 10 : Nat) : Int) % 4294967296 = ((nd * 10 : Nat) : Int) :=
    Int.emod_eq_of_lt (by omega) (by omega)
  rw [h2, h3, h4]
  constructor
  · exact Int.toNat_natCast int
  · rw [Int.toNat_natCast]; omega

end ACE

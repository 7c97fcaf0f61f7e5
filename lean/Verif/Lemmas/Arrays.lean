import Verif.Lemmas.Core
import Verif.Model.ArrayBlocks

/-! # Helper lemmas about array, column and tabulated data -/

namespace ACE

theorem flatten_split {α : Type} (as : List (List α)) (a : Nat) (h : a < as.length) :
    as.flatten = (as.take a).flatten ++ as[a] ++ (as.drop (a + 1)).flatten := by
  induction as generalizing a with
  | nil => simp at h
  | cons x xs ih =>
    cases a with
    | zero => simp
    | succ a => simp at h; simp [ih a h, List.append_assoc]

theorem length_flatten_const {α : Type} (as : List (List α)) (n : Nat)
    (h : ∀ x ∈ as, x.length = n) : as.flatten.length = as.length * n := by
  induction as with
  | nil => simp
  | cons x xs ih =>
    simp [h x (by simp), ih (fun y hy => h y (by simp [hy])), Nat.add_mul, Nat.add_comm]

theorem length_flatten_take {α : Type} (as : List (List α)) (n a : Nat) (ha : a ≤ as.length)
    (h : ∀ x ∈ as, x.length = n) : (as.take a).flatten.length = a * n := by
  rw [length_flatten_const _ n (fun x hx => h x (List.mem_of_mem_take hx))]
  simp [Nat.min_eq_left ha]

theorem getElem_split {α : Type} (l : List α) (i : Nat) (h : i < l.length) :
    ∃ p q, l = p ++ l[i] :: q ∧ p.length = i :=
  ⟨l.take i, l.drop (i + 1), by simp, by simp; omega⟩

namespace ArrayData

theorem appendArrays_ok (n : Nat) (as : List Words) (xss : Words)
    (h : ∀ x ∈ as, x.length = n) : appendArrays n as xss = .ok (xss ++ as.flatten) := by
  induction as generalizing xss with
  | nil => simp [appendArrays]
  | cons x xs ih =>
    simp [appendArrays, h x (by simp), ih _ (fun y hy => h y (by simp [hy]))]

theorem appendArrays_error (n : Nat) (as : List Words) (xss : Words)
    (h : ¬ ∀ x ∈ as, x.length = n) : appendArrays n as xss = .error .thrown := by
  induction as generalizing xss with
  | nil => simp at h
  | cons x xs ih =>
    unfold appendArrays
    by_cases hx : x.length = n
    · have : ¬ ∀ y ∈ xs, y.length = n := by
        intro hall; apply h; intro y hy
        rcases List.mem_cons.mp hy with rfl | hy
        · exact hx
        · exact hall y hy
      simp [hx, ih _ this]
    · have : (x.length == n) = false := by simpa using hx
      rw [this]; rfl

theorem ofArrays_ok (as : List Words) (n : Nat) (h : ∀ x ∈ as, x.length = n)
    (hn : as = [] → n = 0) :
    ofArrays as = .ok { xss := as.flatten, n := n, m := as.length } := by
  cases as with
  | nil => simp [ofArrays, generateXSS, hn]
  | cons x xs =>
    have hx : x.length = n := h x (by simp)
    have := appendArrays_ok n (x :: xs) [] h
    simp only [ofArrays, generateXSS, hx, this, ok_bind]
    simp

theorem ofArrays_error (a : Words) (as : List Words) (h : ¬ ∀ x ∈ as, x.length = a.length) :
    ofArrays (a :: as) = .error .thrown := by
  have : ¬ ∀ x ∈ a :: as, x.length = a.length := by
    intro hall; exact h (fun x hx => hall x (by simp [hx]))
  simp [ofArrays, generateXSS, appendArrays_error _ _ _ this]

theorem ofRange_ok (xs : Words) (n m : Nat) (h : n * m ≤ xs.length) :
    ofRange xs n m = .ok { xss := xs, n := n, m := m } := by
  have h2 := Nat.mod_le (n * m) 4294967296
  simp [ofRange, verifySize, Nat.not_lt.mpr (Nat.le_trans h2 h)]

/-- What it means to hold the arrays `as`. -/
structure Holds (d : ArrayData) (as : List Words) : Prop where
  hm : d.m = as.length
  hn : ∀ x ∈ as, x.length = d.n
  hx : ∃ rest, d.xss = as.flatten ++ rest

theorem Holds.decomp {d : ArrayData} {as : List Words} (h : Holds d as) (a : Nat)
    (ha : a < as.length) : ∃ l r, d.xss = l ++ as[a] ++ r ∧ l.length = a * d.n := by
  obtain ⟨rest, hx⟩ := h.hx
  refine ⟨(as.take a).flatten, (as.drop (a + 1)).flatten ++ rest, ?_, ?_⟩
  · rw [hx, flatten_split as a ha]; simp
  · exact length_flatten_take as d.n a (by omega) h.hn

theorem Holds.verifyArray {d : ArrayData} {as : List Words} (h : Holds d as) (a : Nat)
    (ha : a < as.length) : d.verifyArray (a + 1) = .ok () := by
  have := h.hm
  unfold ArrayData.verifyArray
  rw [if_neg (by omega)]

theorem Holds.darray {d : ArrayData} {as : List Words} (h : Holds d as) (a : Nat)
    (ha : a < as.length) : d.darray (a + 1) = .ok as[a] := by
  obtain ⟨l, r, hd, hl⟩ := h.decomp a ha
  unfold ArrayData.darray
  rw [h.verifyArray a ha]
  simp only [ok_bind, Nat.add_sub_cancel]
  exact Base.XSSr_of_eq hd (by omega) (h.hn _ (List.getElem_mem ha)).symm

theorem Holds.iarray {d : ArrayData} {as : List Words} (h : Holds d as) (a : Nat)
    (ha : a < as.length) (is : List Int) (hi : as[a] = is.map Dbl.ofInt)
    (hf : ∀ i ∈ is, Fits i) : d.iarray (a + 1) = .ok is := by
  obtain ⟨l, r, hd, hl⟩ := h.decomp a ha
  unfold ArrayData.iarray
  rw [h.verifyArray a ha]
  simp only [ok_bind, Nat.add_sub_cancel]
  have hlen := h.hn _ (List.getElem_mem ha)
  rw [hi] at hd hlen
  exact Base.IXSSr_of_eq hd (by omega) (by simpa using hlen.symm) hf

theorem Holds.value_decomp {d : ArrayData} {as : List Words} (h : Holds d as) (a i : Nat)
    (ha : a < as.length) (hi : i < as[a].length) :
    ∃ l r, d.xss = l ++ as[a][i] :: r ∧ l.length = a * d.n + i := by
  obtain ⟨l, r, hd, hl⟩ := h.decomp a ha
  obtain ⟨p, q, hpq, hp⟩ := getElem_split as[a] i hi
  exact ⟨l ++ p, q ++ r, by rw [hd]; generalize as[a][i] = x at hpq ⊢; rw [hpq]; simp, by simp [hl, hp]⟩

theorem Holds.verifyIndex {d : ArrayData} {as : List Words} (h : Holds d as) (a i : Nat)
    (ha : a < as.length) (hi : i < as[a].length) : d.verifyIndex (a + 1) (i + 1) = .ok () := by
  unfold ArrayData.verifyIndex
  have hlen := h.hn _ (List.getElem_mem ha)
  rw [h.verifyArray a ha]
  simp only [ok_bind]
  rw [if_neg (by omega)]

theorem Holds.dvalue {d : ArrayData} {as : List Words} (h : Holds d as) (a i : Nat)
    (ha : a < as.length) (hi : i < as[a].length) :
    d.dvalue (a + 1) (i + 1) = .ok as[a][i] := by
  obtain ⟨l, r, hd, hl⟩ := h.value_decomp a i ha hi
  unfold ArrayData.dvalue
  rw [h.verifyIndex a i ha hi]
  simp only [ok_bind, Nat.add_sub_cancel]
  exact Base.XSS_of_eq hd (by omega)

theorem Holds.ivalue {d : ArrayData} {as : List Words} (h : Holds d as) (a i : Nat)
    (ha : a < as.length) (hi : i < as[a].length) (n : Int) (hn : as[a][i] = Dbl.ofInt n)
    (hf : Fits n) : d.ivalue (a + 1) (i + 1) = .ok n := by
  obtain ⟨l, r, hd, hl⟩ := h.value_decomp a i ha hi
  unfold ArrayData.ivalue
  rw [h.verifyIndex a i ha hi]
  simp only [ok_bind, Nat.add_sub_cancel]
  rw [hn] at hd
  exact Base.IXSS_of_eq hd (by omega) hf

theorem ofArrays_holds {as : List Words} {d : ArrayData} (h : ofArrays as = .ok d) :
    Holds d as ∧ d.xss = as.flatten := by
  cases as with
  | nil =>
    rw [ofArrays_ok [] 0 (by simp) (by simp)] at h
    injection h with h; subst h
    exact ⟨⟨rfl, by simp, [], by simp⟩, rfl⟩
  | cons a as =>
    by_cases hall : ∀ x ∈ as, x.length = a.length
    · have hall' : ∀ x ∈ a :: as, x.length = a.length := by
        intro x hx
        rcases List.mem_cons.mp hx with rfl | hx
        · rfl
        · exact hall x hx
      rw [ofArrays_ok (a :: as) a.length hall' (by simp)] at h
      injection h with h; subst h
      exact ⟨⟨rfl, hall', [], by simp⟩, rfl⟩
    · rw [ofArrays_error a as hall] at h; cases h

/-- Reading back words that start with the arrays. -/
theorem ofRange_holds (as : List Words) (n : Nat) (rest : Words) (h : ∀ x ∈ as, x.length = n) :
    ∃ d, ofRange (as.flatten ++ rest) n as.length = .ok d ∧ Holds d as ∧
      d.xss = as.flatten ++ rest := by
  refine ⟨_, ofRange_ok _ _ _ ?_, ⟨rfl, h, rest, rfl⟩, rfl⟩
  simp [length_flatten_const as n h, Nat.mul_comm]

end ArrayData
end ACE

import Verif.Model.TableData
import Verif.Lemmas.Core

/-!
# C04: access to the arrays of a table is one based, exact and range checked
-/

namespace ACE.Props
open ACE

theorem fetch_ok_iff {α : Type} (l : List α) (i : Nat) (v : α) :
    TableData.fetch l i = .ok v ↔ 1 ≤ i ∧ l[i - 1]? = some v := by
  unfold TableData.fetch TableData.verifyIndex
  by_cases h : i < 1 ∨ i > l.length
  · rw [if_pos h, error_bind]
    constructor
    · intro h; cases h
    · rintro ⟨h1, h2⟩
      have := (List.getElem?_eq_some_iff.mp h2).1
      omega
  · rw [if_neg h, ok_bind]
    have h' : i - 1 < l.length := by omega
    rw [List.getElem?_eq_getElem h']
    constructor
    · intro h2; injection h2 with h2; exact ⟨by omega, by rw [h2]⟩
    · rintro ⟨_, h2⟩; injection h2 with h2; rw [h2]

theorem fetch_refused {α : Type} (l : List α) (i : Nat) (h : i < 1 ∨ l.length < i) :
    TableData.fetch l i = .error .range := by
  unfold TableData.fetch TableData.verifyIndex
  rw [if_pos h, error_bind]

/-- Element access of each of the five arrays returns exactly the `i`-th stored value,
for exactly the indices 1..16 (IZ, AW, NXS), 1..32 (JXS) and 1..length (XSS). -/
theorem C04_element (d : TableData) (hd : d.Sized) (i : Nat) :
    (∀ v, d.IZ i = .ok v ↔ 1 ≤ i ∧ d.iz[i - 1]? = some v) ∧
    (∀ v, d.AW i = .ok v ↔ 1 ≤ i ∧ d.aw[i - 1]? = some v) ∧
    (∀ v, d.NXS i = .ok v ↔ 1 ≤ i ∧ d.nxs[i - 1]? = some v) ∧
    (∀ v, d.JXS i = .ok v ↔ 1 ≤ i ∧ d.jxs[i - 1]? = some v) ∧
    (∀ v, d.XSS i = .ok v ↔ 1 ≤ i ∧ d.xss[i - 1]? = some v) ∧
    (1 ≤ i → i ≤ 16 → ∃ a b c, d.IZ i = .ok a ∧ d.AW i = .ok b ∧ d.NXS i = .ok c) ∧
    (1 ≤ i → i ≤ 32 → ∃ a, d.JXS i = .ok a) ∧
    (1 ≤ i → i ≤ d.xss.length → ∃ a, d.XSS i = .ok a) := by
  have key : ∀ {α : Type} (l : List α), 1 ≤ i → i ≤ l.length →
      ∃ v, TableData.fetch l i = .ok v := by
    intro α l h1 h2
    exact ⟨l[i - 1], (fetch_ok_iff l i _).mpr ⟨h1, List.getElem?_eq_getElem (by omega)⟩⟩
  refine ⟨fun v => fetch_ok_iff _ _ _, fun v => fetch_ok_iff _ _ _, fun v => fetch_ok_iff _ _ _,
    fun v => fetch_ok_iff _ _ _, fun v => fetch_ok_iff _ _ _, ?_, ?_, ?_⟩
  · intro h1 h2
    obtain ⟨a, ha⟩ := key d.iz h1 (by rw [hd.iz]; exact h2)
    obtain ⟨b, hb⟩ := key d.aw h1 (by rw [hd.aw]; exact h2)
    obtain ⟨c, hc⟩ := key d.nxs h1 (by rw [hd.nxs]; exact h2)
    exact ⟨a, b, c, ha, hb, hc⟩
  · intro h1 h2; exact key d.jxs h1 (by rw [hd.jxs]; exact h2)
  · intro h1 h2; exact key d.xss h1 h2

/-- The integer access of XSS rounds the stored value to the nearest integer, which has to be an `int`. -/
theorem C04_integer (d : TableData) (i : Nat) (v : Int) :
    d.IXSS i = .ok v ↔ 1 ≤ i ∧ (∃ x, d.xss[i - 1]? = some x ∧ x.round? = some v) ∧ -2147483648 ≤ v ∧ v ≤ 2147483647 := by
  constructor
  · intro h
    obtain ⟨x, hx, h⟩ := bind_eq_ok.mp h
    obtain ⟨h1, h2⟩ := (fetch_ok_iff _ _ _).mp hx
    unfold toInt32 at h
    split at h
    · rename_i w hw
      split at h
      · injection h with h
        subst h
        exact ⟨h1, ⟨x, h2, hw⟩, by omega⟩
      · cases h
    · cases h
  · intro ⟨h1, ⟨x, h2, h3⟩, h4⟩
    have hx := (fetch_ok_iff _ _ _).mpr ⟨h1, h2⟩
    unfold TableData.IXSS
    rw [hx, ok_bind, h3]
    exact if_pos h4

-- the third word, 9.5, is 10
example : (TableData.mk [] [] [] [] [.ofInt 5, .ofInt 6, .fin false 38 (-2)]).IXSS 3 = .ok 10 := by decide

/-- Every other index is reported as out of range when checks are compiled in. -/
theorem C04_element_refused (d : TableData) (hd : d.Sized) (i : Nat) :
    (i < 1 ∨ 16 < i →
      d.IZ i = .error .range ∧ d.AW i = .error .range ∧ d.NXS i = .error .range) ∧
    (i < 1 ∨ 32 < i → d.JXS i = .error .range) ∧
    (i < 1 ∨ d.xss.length < i → d.XSS i = .error .range) :=
  ⟨fun h => ⟨fetch_refused _ _ (by rw [hd.iz]; exact h), fetch_refused _ _ (by rw [hd.aw]; exact h),
     fetch_refused _ _ (by rw [hd.nxs]; exact h)⟩,
   fun h => fetch_refused _ _ (by rw [hd.jxs]; exact h),
   fun h => fetch_refused _ _ h⟩

/-- Writing through the mutable accessor changes that element and no other. -/
theorem C04_write (d d' : TableData) (i : Nat) (v : Int) (h : d.setNXS i v = .ok d') :
    d'.NXS i = .ok v ∧ (∀ k, k ≠ i → d'.NXS k = d.NXS k) ∧
    d'.iz = d.iz ∧ d'.aw = d.aw ∧ d'.jxs = d.jxs ∧ d'.xss = d.xss := by
  unfold TableData.setNXS TableData.verifyIndex at h
  by_cases hi : i < 1 ∨ i > d.nxs.length
  · rw [if_pos hi, error_bind] at h; cases h
  · rw [if_neg hi, ok_bind] at h
    injection h with h; subst h
    refine ⟨(fetch_ok_iff _ _ _).mpr ⟨by omega, ?_⟩, ?_, rfl, rfl, rfl, rfl⟩
    · show (d.nxs.set (i - 1) v)[i - 1]? = some v
      rw [List.getElem?_set_self (by omega)]
    · intro k hk
      unfold TableData.NXS TableData.fetch TableData.verifyIndex
      by_cases hk' : k < 1 ∨ k > d.nxs.length
      · simp only [List.length_set, if_pos hk', error_bind]
      · simp only [List.length_set, if_neg hk', ok_bind]
        rw [List.getElem?_set_ne (by omega)]

/-- A non-empty range (whose last index does not overflow `std::size_t`) is returned exactly
when it lies in the array, and is reported as out of range otherwise. -/
theorem C04_range_partial (d : TableData) (i m : Nat) (hm : 0 < m)
    (hover : i + m ≤ 18446744073709551616) :
    (∀ ws, d.XSSr i m = .ok ws ↔
      1 ≤ i ∧ i - 1 + m ≤ d.xss.length ∧ ws = (d.xss.drop (i - 1)).take m) ∧
    ((i < 1 ∨ d.xss.length < i - 1 + m) → d.XSSr i m = .error .range) := by
  have hl : TableData.lastIndex i m = i + m - 1 := by
    unfold TableData.lastIndex
    have e : i + m + 18446744073709551615 = (i + m - 1) + 18446744073709551616 := by omega
    rw [e, Nat.add_mod_right, Nat.mod_eq_of_lt (by omega)]
  unfold TableData.XSSr TableData.verifyIndex
  rw [hl]
  by_cases h1 : i < 1 ∨ i > d.xss.length
  · rw [if_pos h1, error_bind]
    refine ⟨fun ws => ⟨fun h => (nomatch h), fun ⟨h, h2, _⟩ => by omega⟩, fun _ => rfl⟩
  · rw [if_neg h1, ok_bind]
    by_cases h2 : i + m - 1 < 1 ∨ i + m - 1 > d.xss.length
    · rw [if_pos h2, error_bind]
      refine ⟨fun ws => ⟨fun h => (nomatch h), fun ⟨h, h2, _⟩ => by omega⟩, fun _ => rfl⟩
    · rw [if_neg h2, ok_bind]
      unfold sub
      have hc : i - 1 ≤ i - 1 + m ∧ i - 1 + m ≤ d.xss.length := by omega
      rw [if_pos hc, show i - 1 + m - (i - 1) = m by omega]
      refine ⟨fun ws => ⟨fun h => ?_, fun ⟨_, _, h⟩ => by rw [h]⟩, fun h => by omega⟩
      injection h with h; exact ⟨by omega, hc.2, h.symm⟩

/-- Finding: an empty range is refused at index 1 and accepted at every other index. -/
theorem C04_empty_range (d : TableData) (i : Nat) (hi : 1 ≤ i) (hi' : i ≤ d.xss.length)
    (hsz : d.xss.length < 18446744073709551616) :
    d.XSSr i 0 = if i = 1 then .error .range else .ok [] := by
  unfold TableData.XSSr TableData.verifyIndex
  rw [if_neg (by omega), ok_bind]
  have hl : TableData.lastIndex i 0 = i - 1 := by
    unfold TableData.lastIndex
    have e : i + 0 + 18446744073709551615 = (i - 1) + 18446744073709551616 := by omega
    rw [e, Nat.add_mod_right, Nat.mod_eq_of_lt (by omega)]
  rw [hl]
  by_cases h1 : i = 1
  · rw [if_pos h1, if_pos (by omega), error_bind]
  · rw [if_neg h1, if_neg (by omega), ok_bind]
    unfold sub
    rw [if_pos (by omega)]
    simp

/-- Finding: a range whose last index overflows `std::size_t` passes both index checks. -/
theorem C04_range_overflow :
    (TableData.mk [] [] [] [] [.ofInt 1, .ofInt 2, .ofInt 3]).XSSr 3 18446744073709551615 = .error .ub := by
  decide

/-- A table with sized arrays meets the hypotheses. -/
example : (TableData.mk (List.replicate 16 1) (List.replicate 16 (.ofInt 2))
      (List.replicate 16 3) (List.replicate 32 4) [.ofInt 5, .ofInt 6, .ofInt 7]).Sized ∧
    (TableData.mk (List.replicate 16 1) (List.replicate 16 (.ofInt 2))
      (List.replicate 16 3) (List.replicate 32 4) [.ofInt 5, .ofInt 6, .ofInt 7]).XSSr 2 2
      = .ok [.ofInt 6, .ofInt 7] := by
  exact ⟨⟨rfl, rfl, rfl, rfl⟩, by decide⟩

namespace C04

/-- A table with 16, 16, 16 and 32 values and three words. -/
def exData : TableData := ⟨List.replicate 16 1, List.replicate 16 (Dbl.ofNat 2), List.replicate 16 3, List.replicate 32 4,
  [Dbl.ofNat 5, Dbl.ofNat 6, Dbl.ofNat 7]⟩
theorem exData_sized : exData.Sized := by constructor <;> decide

end C04

example := C04_element C04.exData C04.exData_sized 5
example := C04_element_refused C04.exData C04.exData_sized 17
example := C04_write C04.exData _ 4 9 rfl
example := C04_range_partial C04.exData 2 2 (by decide) (by decide)
example : C04.exData.XSSr 2 0 = .ok [] := C04_empty_range C04.exData 2 (by decide) (by decide) (by decide)

end ACE.Props

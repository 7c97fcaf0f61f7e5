import Verif.Lemmas.Arrays
import Verif.Model.Lookup

/-! # Helper lemmas about lookups -/

namespace ACE

theorem toU32_natCast {n : Nat} (h : n < 4294967296) : toU32 (some (n : Int)) = .ok n := by
  simp [toU32]; omega

theorem u32OfInt_natCast {n : Nat} (h : n < 4294967296) : u32OfInt (n : Int) = n := by
  unfold u32OfInt; omega

/-- The search returns the position of the first match, or the number of words. -/
theorem findRounded_ofNat (key : Nat) (l : List Nat) (h : ∀ n ∈ l, n < 4294967296) :
    findRounded key (l.map Dbl.ofNat) = .ok (l.findIdx (· == key)) := by
  induction l with
  | nil => rfl
  | cons a l ih =>
    have ha := toU32_natCast (h a (by simp))
    simp only [List.map_cons, findRounded, Dbl.round?_ofNat, ha, ok_bind,
      ih (fun n hn => h n (by simp [hn]))]
    by_cases hk : a = key
    · simp [hk, List.findIdx_cons]
    · have : (a == key) = false := by simpa using hk
      simp [hk, List.findIdx_cons, this]

theorem findIdx_lt {key : Nat} {l : List Nat} (h : key ∈ l) : l.findIdx (· == key) < l.length :=
  List.findIdx_lt_length_of_exists ⟨key, h, by simp⟩

theorem findIdx_absent {key : Nat} {l : List Nat} (h : key ∉ l) :
    l.findIdx (· == key) = l.length := by
  apply List.findIdx_eq_length.mpr
  intro x hx
  simp only [beq_eq_false_iff_ne, ne_eq]
  rintro rfl
  exact h hx

/-- The first one-based index of `key` in `l`. -/
structure FirstAt (l : List Nat) (key i : Nat) : Prop where
  pos : 1 ≤ i
  hit : l[i - 1]? = some key
  first : ∀ j, 1 ≤ j → j < i → l[j - 1]? ≠ some key

theorem firstAt_findIdx {key : Nat} {l : List Nat} (h : key ∈ l) :
    FirstAt l key (l.findIdx (· == key) + 1) := by
  have hlt := findIdx_lt h
  refine ⟨by omega, ?_, ?_⟩
  · rw [Nat.add_sub_cancel, List.getElem?_eq_getElem hlt]
    have := List.findIdx_getElem (p := (· == key)) (xs := l) (w := hlt)
    simpa using this
  · intro j h1 h2 hj
    obtain ⟨hb, hv⟩ := List.getElem?_eq_some_iff.mp hj
    have := List.not_of_lt_findIdx (p := (· == key)) (xs := l) (i := j - 1) (by omega)
    simp [hv] at this

end ACE

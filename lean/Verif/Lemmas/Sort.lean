import Verif.Model.Sort

/-! # A sorting function exists -/

namespace ACE

/-- Position of a double on the line, scaled by `2^(-k)`. -/
def Dbl.at (k : Int) : Dbl → Int
  | .fin s m e => Dbl.signed s (m * 2 ^ (e - k).toNat)
  | _ => 0

theorem signed_scale (s : Bool) (m p : Nat) : Dbl.signed s (m * p) = Dbl.signed s m * p := by
  unfold Dbl.signed
  split
  · rw [Int.neg_mul]; simp
  · simp

theorem fin_lt_iff (s t : Bool) (m n : Nat) (e f k : Int) (he : k ≤ e) (hf : k ≤ f) :
    Dbl.lt (.fin s m e) (.fin t n f) = true ↔ Dbl.at k (.fin s m e) < Dbl.at k (.fin t n f) := by
  simp only [Dbl.lt, Dbl.at]
  rw [decide_eq_true_eq]
  have h1 : (e - k).toNat = (e - min e f).toNat + (min e f - k).toNat := by omega
  have h2 : (f - k).toNat = (f - min e f).toNat + (min e f - k).toNat := by omega
  rw [h1, h2, Nat.pow_add, Nat.pow_add, ← Nat.mul_assoc, ← Nat.mul_assoc, signed_scale s (m * _),
    signed_scale t (n * _)]
  have hp : (0 : Int) < ((2 ^ (min e f - k).toNat : Nat) : Int) := by
    have := Nat.two_pow_pos (min e f - k).toNat
    omega
  exact (Int.mul_lt_mul_right hp).symm

/-- Rank used to order all doubles: NaN last. -/
def Dbl.le' (a b : Dbl) : Bool :=
  match a, b with
  | _, .nan => true
  | .nan, _ => false
  | a, b => !b.lt a

theorem Dbl.le'_total (a b : Dbl) : (Dbl.le' a b || Dbl.le' b a) = true := by
  cases a with
  | nan => cases b <;> simp [Dbl.le']
  | inf s => cases b <;> simp [Dbl.le', Dbl.lt] <;> cases s <;> simp
  | fin s m e =>
    cases b with
    | nan => simp [Dbl.le']
    | inf t => simp [Dbl.le', Dbl.lt]
    | fin t n f =>
      have h1 := fin_lt_iff s t m n e f (min e f) (by omega) (by omega)
      have h2 := fin_lt_iff t s n m f e (min e f) (by omega) (by omega)
      simp only [Dbl.le', Bool.or_eq_true, Bool.not_eq_true']
      by_cases h : Dbl.lt (.fin t n f) (.fin s m e) = true
      · right
        rw [h2] at h
        have : ¬ (Dbl.lt (.fin s m e) (.fin t n f) = true) := by rw [h1]; omega
        simpa using this
      · left; simpa using h

theorem Dbl.le'_trans (a b c : Dbl) (h1 : Dbl.le' a b = true) (h2 : Dbl.le' b c = true) :
    Dbl.le' a c = true := by
  cases c with
  | nan => simp [Dbl.le']
  | inf u =>
    cases b with
    | nan => simp [Dbl.le'] at h2
    | inf t =>
      cases a with
      | nan => simp [Dbl.le'] at h1
      | inf s => revert h1 h2; cases s <;> cases t <;> cases u <;> simp [Dbl.le', Dbl.lt]
      | fin s m e => revert h1 h2; cases t <;> cases u <;> simp [Dbl.le', Dbl.lt]
    | fin t n f =>
      cases a with
      | nan => simp [Dbl.le'] at h1
      | inf s => revert h1 h2; cases s <;> cases u <;> simp [Dbl.le', Dbl.lt]
      | fin s m e => revert h2; cases u <;> simp [Dbl.le', Dbl.lt]
  | fin u p g =>
    cases b with
    | nan => simp [Dbl.le'] at h2
    | inf t =>
      cases a with
      | nan => simp [Dbl.le'] at h1
      | inf s => revert h1 h2; cases s <;> cases t <;> simp [Dbl.le', Dbl.lt]
      | fin s m e => revert h1 h2; cases t <;> simp [Dbl.le', Dbl.lt]
    | fin t n f =>
      cases a with
      | nan => simp [Dbl.le'] at h1
      | inf s => revert h1; cases s <;> simp [Dbl.le', Dbl.lt]
      | fin s m e =>
        have l1 := fin_lt_iff t s n m f e (min e (min f g)) (by omega) (by omega)
        have l2 := fin_lt_iff u t p n g f (min e (min f g)) (by omega) (by omega)
        have l3 := fin_lt_iff u s p m g e (min e (min f g)) (by omega) (by omega)
        simp only [Dbl.le', Bool.not_eq_true'] at h1 h2 ⊢
        rw [← Bool.not_eq_true] at h1 h2 ⊢
        rw [l1] at h1
        rw [l2] at h2
        rw [l3]
        omega

/-- Insertion of one element. -/
def insertBy {α : Type} (key : α → Dbl) (x : α) : List α → List α
  | [] => [x]
  | y :: ys => if Dbl.le' (key x) (key y) then x :: y :: ys else y :: insertBy key x ys

/-- Insertion sort. -/
def insertionSortBy {α : Type} (key : α → Dbl) : List α → List α
  | [] => []
  | x :: xs => insertBy key x (insertionSortBy key xs)

theorem insertBy_perm {α : Type} (key : α → Dbl) (x : α) (l : List α) :
    (insertBy key x l).Perm (x :: l) := by
  induction l with
  | nil => exact .refl _
  | cons y ys ih =>
    unfold insertBy
    split
    · exact .refl _
    · exact (ih.cons y).trans (.swap x y ys)

theorem insertionSortBy_perm {α : Type} (key : α → Dbl) (l : List α) :
    (insertionSortBy key l).Perm l := by
  induction l with
  | nil => exact .refl _
  | cons x xs ih => exact (insertBy_perm key x _).trans (ih.cons x)

theorem insertBy_sorted {α : Type} (key : α → Dbl) (x : α) (l : List α)
    (h : l.Pairwise (fun a b => Dbl.le' (key a) (key b) = true)) :
    (insertBy key x l).Pairwise (fun a b => Dbl.le' (key a) (key b) = true) := by
  induction l with
  | nil => simp [insertBy]
  | cons y ys ih =>
    rw [List.pairwise_cons] at h
    unfold insertBy
    split
    · rename_i hxy
      rw [List.pairwise_cons]
      refine ⟨fun z hz => ?_, List.pairwise_cons.mpr h⟩
      rcases List.mem_cons.mp hz with rfl | hz
      · exact hxy
      · exact Dbl.le'_trans _ _ _ hxy (h.1 z hz)
    · rename_i hxy
      rw [List.pairwise_cons]
      refine ⟨fun z hz => ?_, ih h.2⟩
      rcases List.mem_cons.mp ((insertBy_perm key x ys).mem_iff.mp hz) with rfl | hz
      · have := Dbl.le'_total (key z) (key y)
        simpa [hxy] using this
      · exact h.1 z hz

theorem insertionSortBy_sorted {α : Type} (key : α → Dbl) (l : List α) :
    (insertionSortBy key l).Pairwise (fun a b => Dbl.le' (key a) (key b) = true) := by
  induction l with
  | nil => exact .nil
  | cons x xs ih => exact insertBy_sorted key x _ ih

/-- Insertion sort is such a function. -/
def sortBy {α : Type} (key : α → Dbl) : StdSort key where
  run l := insertionSortBy key l
  spec l hl := by
    refine ⟨insertionSortBy_perm key l, ?_⟩
    refine (insertionSortBy_sorted key l).imp_of_mem (fun {a b} ha hb h => ?_)
    have ha' := hl a ((insertionSortBy_perm key l).mem_iff.mp ha)
    have hb' := hl b ((insertionSortBy_perm key l).mem_iff.mp hb)
    unfold Dbl.le' at h
    split at h
    · rename_i he; exact absurd he hb'
    · rename_i he _; exact absurd he ha'
    · simpa using h

end ACE

import Verif.Model.Core

/-! # Helper lemmas about outcomes, conversions and ranges -/

namespace ACE

/- The proofs are `id rfl` rather than `rfl` so that `simp` uses these equations
as propositional rewrites, which keeps the kernel from comparing large terms by
unfolding. -/
@[simp] theorem ok_bind {α β : Type} (a : α) (f : α → Res β) :
    ((Except.ok a : Res α) >>= f) = f a := id rfl
@[simp] theorem error_bind {α β : Type} (e : Err) (f : α → Res β) :
    ((Except.error e : Res α) >>= f) = Except.error e := id rfl
@[simp] theorem pure_eq_ok {α : Type} (a : α) : (pure a : Res α) = Except.ok a := id rfl
@[simp] theorem map_ok {α β : Type} (a : α) (f : α → β) :
    (f <$> (Except.ok a : Res α)) = Except.ok (f a) := id rfl
@[simp] theorem map_error {α β : Type} (e : Err) (f : α → β) :
    (f <$> (Except.error e : Res α)) = Except.error e := id rfl

theorem bind_eq_ok {α β : Type} {x : Res α} {f : α → Res β} {b : β} :
    (x >>= f) = .ok b ↔ ∃ a, x = .ok a ∧ f a = .ok b := by
  cases x <;> simp

@[simp] theorem guardThrow_true : guardThrow true = .ok () := rfl
@[simp] theorem guardThrow_false : guardThrow false = .error .thrown := rfl
theorem guardThrow_ok {c : Bool} (h : c = true) : guardThrow c = .ok () := by simp [guardThrow, h]
theorem guardThrow_eq_ok {c : Bool} : guardThrow c = .ok () ↔ c = true := by
  cases c <;> simp

theorem guardThrow_not_lt {a b : Nat} (h : b ≤ a) : guardThrow (!decide (a < b)) = .ok () := by
  simp [Nat.not_lt.mpr h]

theorem not_lt_mod {a b k : Nat} (h : ¬ a < b) : ¬ a < b % k :=
  Nat.not_lt.mpr (Nat.le_trans (Nat.mod_le b k) (Nat.not_lt.mp h))

theorem guardThrow_not_lt_mod {a b k : Nat} (h : b ≤ a) :
    guardThrow (!decide (a < b % k)) = .ok () :=
  guardThrow_not_lt (Nat.le_trans (Nat.mod_le b k) h)

/-- The range of a 32-bit `int`. -/
def Fits (i : Int) : Prop := -2147483648 ≤ i ∧ i ≤ 2147483647

instance (i : Int) : Decidable (Fits i) := by unfold Fits; infer_instance

/-- A natural number that fits a 32-bit `int`. -/
abbrev FitsN (n : Nat) : Prop := n < 2147483648

theorem FitsN.fits {n : Nat} (h : FitsN n) : Fits (n : Int) := by
  unfold FitsN at h; unfold Fits; omega

@[simp] theorem Dbl.round?_ofInt (i : Int) : (Dbl.ofInt i).round? = some i := by
  simp only [Dbl.ofInt, Dbl.round?, Dbl.roundMag, Dbl.signed]
  simp
  split <;> omega

@[simp] theorem Dbl.round?_ofNat (n : Nat) : (Dbl.ofNat n).round? = some (n : Int) := by
  simp [Dbl.ofNat]

@[simp] theorem Dbl.trunc?_ofInt (i : Int) : (Dbl.ofInt i).trunc? = some i := by
  simp only [Dbl.ofInt, Dbl.trunc?, Dbl.truncMag, Dbl.signed]
  simp
  split <;> omega

@[simp] theorem Dbl.trunc?_ofNat (n : Nat) : (Dbl.ofNat n).trunc? = some (n : Int) := by
  simp [Dbl.ofNat]

@[simp] theorem Dbl.isNeg_ofInt (i : Int) : (Dbl.ofInt i).isNeg = decide (i < 0) := by
  simp [Dbl.ofInt, Dbl.isNeg]; omega

@[simp] theorem Dbl.isNeg_ofNat (n : Nat) : (Dbl.ofNat n).isNeg = false := by
  simp [Dbl.ofNat]

@[simp] theorem Dbl.geNat_ofNat (m n : Nat) : (Dbl.ofNat m).geNat n = decide (n ≤ m) := by
  have h : decide ((m : Int) < 0) = false := by simp
  simp only [Dbl.ofNat, Dbl.ofInt, h, Dbl.geNat]
  simp

@[simp] theorem Dbl.eqInt_ofInt (i j : Int) : (Dbl.ofInt i).eqInt j = decide (i = j) := by
  have h : Dbl.signed (decide (i < 0)) i.natAbs = i := by
    simp only [Dbl.signed]
    split <;> simp_all <;> omega
  simp only [Dbl.ofInt, Dbl.eqInt]
  simp [h]
  rfl

theorem Dbl.ofInt_injective {i j : Int} (h : Dbl.ofInt i = Dbl.ofInt j) : i = j := by
  have := congrArg Dbl.round? h
  simpa using this

theorem toInt32_some {i : Int} (h : Fits i) : toInt32 (some i) = .ok i := by
  unfold Fits at h; simp [toInt32, h.1, h.2]

theorem toSize_natCast {n : Nat} (h : FitsN n) : toSize (some (n : Int)) = .ok n := by
  unfold FitsN at h; simp [toSize]; omega

theorem sizeOfInt_natCast {n : Nat} (h : FitsN n) : sizeOfInt (n : Int) = n := by
  unfold FitsN at h; unfold sizeOfInt; omega

/-! ## Ranges -/

theorem position_succ (i n k : Nat) : position (i + 1) n k = i * n + k := rfl
theorem position_pos {i : Nat} (h : 1 ≤ i) (n k : Nat) : position i n k = (i - 1) * n + k := by
  unfold position; rw [if_neg (by omega)]

theorem sub_of_eq {xs a b c : Words} {l r : Nat} (h : xs = a ++ b ++ c)
    (hl : l = a.length) (hr : r = a.length + b.length) : sub xs l r = .ok b := by
  subst h hl hr
  simp [sub]

theorem deref_of_eq {xs a c : Words} {x : Dbl} {i : Nat} (h : xs = a ++ x :: c)
    (hi : i = a.length) : deref xs i = .ok x := by
  subst h hi
  simp [deref]

namespace Base

theorem iterator_ok {xs : Words} {i : Nat} (h1 : 1 ≤ i) (h2 : i ≤ xs.length + 1) :
    iterator xs i = .ok (i - 1) := by
  have : ¬ (i < 1 ∨ i > xs.length + 1) := by omega
  unfold iterator verifyIndex
  rw [if_neg this]; rfl

theorem XSS_of_eq {xs a c : Words} {x : Dbl} {i : Nat} (h : xs = a ++ x :: c)
    (hi : i = a.length + 1) : XSS xs i = .ok x := by
  have hd : deref xs (i - 1) = .ok x := deref_of_eq h (by omega)
  have hl : i ≤ xs.length := by subst h; simp; omega
  have : ¬ (i < 1 ∨ i > xs.length) := by omega
  unfold XSS verifyIndex
  rw [if_neg this, hd]; rfl

theorem XSS_eq_ok_iff {xs : Words} {i : Nat} {x : Dbl} :
    XSS xs i = .ok x ↔ 1 ≤ i ∧ xs[i - 1]? = some x := by
  unfold XSS verifyIndex deref
  by_cases h : i < 1 ∨ i > xs.length
  · simp only [h, if_true, error_bind]
    constructor
    · intro h; cases h
    · rintro ⟨h1, h2⟩
      have := (List.getElem?_eq_some_iff.mp h2).1
      omega
  · simp only [h, if_false, ok_bind]
    have h' : i - 1 < xs.length := by omega
    simp [List.getElem?_eq_getElem h']
    omega

theorem IXSS_of_eq {xs a c : Words} {n : Int} {i : Nat} (h : xs = a ++ Dbl.ofInt n :: c)
    (hi : i = a.length + 1) (hf : Fits n) : IXSS xs i = .ok n := by
  simp [IXSS, XSS_of_eq h hi, toInt32_some hf]

theorem IXSS_ofNat {xs a c : Words} {n i : Nat} (h : xs = a ++ Dbl.ofNat n :: c)
    (hi : i = a.length + 1) (hf : FitsN n) : IXSS xs i = .ok (n : Int) :=
  IXSS_of_eq h hi hf.fits

theorem XSSr_of_eq {xs a b c : Words} {i n : Nat} (h : xs = a ++ b ++ c)
    (hi : i = a.length + 1) (hn : n = b.length) : XSSr xs i n = .ok b := by
  have hlen : xs.length = a.length + b.length + c.length := by subst h; simp; omega
  unfold XSSr
  rw [iterator_ok (by omega) (by omega)]
  by_cases hb : n = 0
  · subst hb
    have : sub xs (i - 1) (i - 1) = .ok b := sub_of_eq h (by omega) (by omega)
    simpa using this
  · have : n > 0 := by omega
    simp only [ok_bind, this, if_true]
    rw [iterator_ok (by omega) (by omega)]
    simpa using sub_of_eq h (by omega) (by omega)

theorem mapM_round_ofInt (l : List Int) (h : ∀ i ∈ l, Fits i) :
    (l.map Dbl.ofInt).mapM (fun d => toInt32 d.round?) = (.ok l : Res (List Int)) := by
  induction l with
  | nil => rfl
  | cons a l ih =>
    have ha : Fits a := h a (by simp)
    have hl : ∀ i ∈ l, Fits i := fun i hi => h i (by simp [hi])
    simp [List.mapM_cons, toInt32_some ha, ih hl]

theorem IXSSr_of_eq {xs a c : Words} {b : List Int} {i n : Nat}
    (h : xs = a ++ b.map Dbl.ofInt ++ c) (hi : i = a.length + 1) (hn : n = b.length)
    (hf : ∀ i ∈ b, Fits i) : IXSSr xs i n = .ok b := by
  unfold IXSSr
  rw [XSSr_of_eq h hi (by simpa using hn)]
  simpa using mapM_round_ofInt b hf

end Base
end ACE

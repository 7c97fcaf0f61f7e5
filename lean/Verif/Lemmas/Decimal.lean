import Mathlib.Tactic.Linarith
import Mathlib.Tactic.Positivity
import Mathlib.Tactic.FieldSimp
import Mathlib.Tactic.Ring
import Mathlib.Tactic.NormNum
import Mathlib.Algebra.Order.Field.Power
import Mathlib.Data.Rat.Cast.Order
import Verif.Model.Decimal
import Verif.Lemmas.Text

/-! # Helper lemmas about decimal numbers: rounding -/

namespace ACE.Decimal
open ACE ACE.Text

theorem roundDiv_nat (a b : Nat) (_hb : 0 < b) :
    2 * a ≤ 2 * (b * roundDiv a b) + b ∧ 2 * (b * roundDiv a b) ≤ 2 * a + b := by
  have h1 := Nat.div_add_mod a b
  have h2 := Nat.mod_lt a _hb
  have h3 : a / b % 2 ≤ 1 := by omega
  have hm : ∀ k, b * (a / b + k) = b * (a / b) + b * k := fun k => Nat.mul_add _ _ _
  unfold roundDiv
  split
  · constructor <;> omega
  · split
    · rw [hm]; constructor <;> omega
    · rw [hm]
      rcases Nat.le_one_iff_eq_zero_or_eq_one.mp h3 with h | h <;> rw [h] <;> constructor <;> omega

/-- Rounding is off by at most one half. -/
theorem roundDiv_spec (a b : Nat) (hb : 0 < b) : |(a : ℚ) / b - roundDiv a b| ≤ 1 / 2 := by
  obtain ⟨h1, h2⟩ := roundDiv_nat a b hb
  have hb' : (0 : ℚ) < b := by exact_mod_cast hb
  have h1' : 2 * (a : ℚ) ≤ 2 * (b * roundDiv a b) + b := by exact_mod_cast h1
  have h2' : 2 * ((b : ℚ) * roundDiv a b) ≤ 2 * a + b := by exact_mod_cast h2
  have e : (a : ℚ) / b - roundDiv a b = (a - b * roundDiv a b) / b := by field_simp
  rw [e, abs_le]
  constructor
  · rw [le_div_iff₀ hb']; linarith
  · rw [div_le_iff₀ hb']; linarith

theorem nat_unique {x : ℚ} {n k : Nat} (h1 : |x - n| < 1 / 2) (h2 : |x - k| ≤ 1 / 2) : k = n := by
  have h1 := abs_lt.mp h1
  have h2 := abs_le.mp h2
  have l : (k : ℚ) < n + 1 := by linarith
  have g : (n : ℚ) < k + 1 := by linarith
  have l' : k < n + 1 := by exact_mod_cast l
  have g' : n < k + 1 := by exact_mod_cast g
  omega

theorem roundDiv_unique (a b n : Nat) (hb : 0 < b) (h : |(a : ℚ) / b - n| < 1 / 2) : roundDiv a b = n :=
  nat_unique h (roundDiv_spec a b hb)

theorem fraction_pos (m : Nat) (e : Int) : 0 < (fraction m e).2 := by
  unfold fraction; split
  · exact Nat.one_pos
  · exact Nat.two_pow_pos _

theorem zpow_ten_toNat {k : Int} (h : 0 ≤ k) : ((10 ^ k.toNat : Nat) : ℚ) = (10 : ℚ) ^ k := by
  conv_rhs => rw [← Int.toNat_of_nonneg h]
  push_cast
  rw [zpow_natCast]

theorem zpow_two_toNat {k : Int} (h : 0 ≤ k) : ((2 ^ k.toNat : Nat) : ℚ) = (2 : ℚ) ^ k := by
  conv_rhs => rw [← Int.toNat_of_nonneg h]
  push_cast
  rw [zpow_natCast]

/-- The fraction is the value. -/
theorem fraction_value (m : Nat) (e : Int) :
    ((fraction m e).1 : ℚ) / (fraction m e).2 = m * (2 : ℚ) ^ e := by
  unfold fraction
  split
  · rename_i h
    rw [Nat.cast_mul, zpow_two_toNat h]; simp
  · rename_i h
    simp only
    rw [zpow_two_toNat (by omega), zpow_neg]; simp

theorem fraction_num_pos (m : Nat) (e : Int) (h : 0 < m) : 0 < (fraction m e).1 := by
  unfold fraction; split
  · exact Nat.mul_pos h (Nat.two_pow_pos _)
  · exact h

theorem pow10_pos (e : Int) : (0 : ℚ) < (10 : ℚ) ^ e := zpow_pos (by norm_num) e
theorem pow2_pos (e : Int) : (0 : ℚ) < (2 : ℚ) ^ e := zpow_pos (by norm_num) e
theorem pow10_succ (e : Int) : (10 : ℚ) ^ (e + 1) = 10 * 10 ^ e := by
  rw [zpow_add₀ (by norm_num)]; ring
theorem pow2_succ (e : Int) : (2 : ℚ) ^ (e + 1) = 2 * 2 ^ e := by
  rw [zpow_add₀ (by norm_num)]; ring

/-- The decimal exponent is unique. -/
theorem exponent_unique {x : ℚ} {e f : Int} (h1 : (10 : ℚ) ^ e ≤ x) (h2 : x < (10 : ℚ) ^ (e + 1))
    (h3 : (10 : ℚ) ^ f ≤ x) (h4 : x < (10 : ℚ) ^ (f + 1)) : e = f := by
  have a : (10 : ℚ) ^ e < 10 ^ (f + 1) := lt_of_le_of_lt h1 h4
  have b : (10 : ℚ) ^ f < 10 ^ (e + 1) := lt_of_le_of_lt h3 h2
  have a' := (zpow_lt_zpow_iff_right₀ (by norm_num : (1 : ℚ) < 10)).mp a
  have b' := (zpow_lt_zpow_iff_right₀ (by norm_num : (1 : ℚ) < 10)).mp b
  omega

theorem zeros_spec : ∀ (fuel a b : Nat), b ≤ a * 10 ^ fuel →
    b ≤ a * 10 ^ zeros fuel a b ∧ (zeros fuel a b ≠ 0 → a * 10 ^ zeros fuel a b < 10 * b)
  | 0, a, b, h => by simpa [zeros] using h
  | fuel + 1, a, b, h => by
      unfold zeros
      split
      · simpa
      · rename_i hn
        have h' : b ≤ a * 10 * 10 ^ fuel := by rw [Nat.pow_succ, Nat.mul_comm (10 ^ fuel), ← Nat.mul_assoc] at h; exact h
        obtain ⟨h1, h2⟩ := zeros_spec fuel (a * 10) b h'
        have e : a * 10 ^ (zeros fuel (a * 10) b + 1) = a * 10 * 10 ^ zeros fuel (a * 10) b := by
          rw [Nat.pow_succ, Nat.mul_comm (10 ^ _) 10, ← Nat.mul_assoc]
        rw [e]
        refine ⟨h1, fun _ => ?_⟩
        by_cases h0 : zeros fuel (a * 10) b = 0
        · rw [h0]; omega
        · exact h2 h0

theorem exponent_spec (a b : Nat) (ha : 0 < a) (hb : 0 < b) :
    (10 : ℚ) ^ exponent a b ≤ (a : ℚ) / b ∧ (a : ℚ) / b < (10 : ℚ) ^ (exponent a b + 1) := by
  have hb' : (0 : ℚ) < b := by exact_mod_cast hb
  unfold exponent
  split
  · rename_i h
    have hq : 1 ≤ a / b := (Nat.le_div_iff_mul_le hb).mpr (by omega)
    obtain ⟨h1, h2⟩ := moreDigits_spec (a / b) (a / b) (Nat.le_refl _)
    have hd : numDigits (a / b) - 1 = moreDigits (a / b) (a / b) := by simp [numDigits]
    rw [hd]
    generalize moreDigits (a / b) (a / b) = k at h1 h2
    have h2' : 10 ^ k ≤ a / b := by
      by_cases hk : k = 0
      · subst hk; simpa using hq
      · exact h2 hk
    have h3 : 10 ^ k * b ≤ a := (Nat.le_div_iff_mul_le hb).mp h2'
    have h4 : a < 10 ^ (k + 1) * b := (Nat.div_lt_iff_lt_mul hb).mp h1
    constructor
    · rw [le_div_iff₀ hb', zpow_natCast]; exact_mod_cast h3
    · rw [div_lt_iff₀ hb', show ((k : Int) + 1) = ((k + 1 : Nat) : Int) by push_cast; rfl, zpow_natCast]
      exact_mod_cast h4
  · rename_i h
    have hf : b ≤ a * 10 ^ b := by
      have : b < 10 ^ b := Nat.lt_pow_self (by decide)
      calc b ≤ 10 ^ b := by omega
        _ = 1 * 10 ^ b := by omega
        _ ≤ a * 10 ^ b := Nat.mul_le_mul_right _ ha
    obtain ⟨h1, h2⟩ := zeros_spec b a b hf
    have hz : zeros b a b ≠ 0 := by intro hz; rw [hz] at h1; omega
    have h2 := h2 hz
    generalize zeros b a b = k at h1 h2
    have p : (0 : ℚ) < 10 ^ k := by positivity
    have h1' : (b : ℚ) ≤ a * 10 ^ k := by exact_mod_cast h1
    have h2' : (a : ℚ) * 10 ^ k < 10 * b := by exact_mod_cast h2
    constructor
    · rw [le_div_iff₀ hb', zpow_neg, zpow_natCast, inv_mul_le_iff₀ p]; linarith
    · rw [div_lt_iff₀ hb', pow10_succ, zpow_neg, zpow_natCast]
      rw [show (10 : ℚ) * (10 ^ k)⁻¹ * b = (10 * b) / 10 ^ k by field_simp, lt_div_iff₀ p]
      exact h2'

theorem scaled_spec (p : Nat) (e : Int) (a b : Nat) (hb : 0 < b) :
    |(a : ℚ) / b * (10 : ℚ) ^ ((p : Int) - e) - scaled p e a b| ≤ 1 / 2 := by
  unfold scaled
  split
  · rename_i h
    have := roundDiv_spec (a * 10 ^ ((p : Int) - e).toNat) b hb
    rw [Nat.cast_mul, zpow_ten_toNat (by omega)] at this
    rwa [div_mul_eq_mul_div]
  · rename_i h
    have := roundDiv_spec a (b * 10 ^ (e - (p : Int)).toNat) (Nat.mul_pos hb (Nat.pow_pos (by decide)))
    rw [Nat.cast_mul, zpow_ten_toNat (by omega)] at this
    rwa [show (p : Int) - e = -(e - (p : Int)) by omega, zpow_neg, ← div_eq_mul_inv, div_div]

theorem scaled_unique (p : Nat) (e : Int) (a b n : Nat) (hb : 0 < b)
    (h : |(a : ℚ) / b * (10 : ℚ) ^ ((p : Int) - e) - n| < 1 / 2) : scaled p e a b = n :=
  nat_unique h (scaled_spec p e a b hb)

/-- The significant digits: `p + 1` of them, off by at most one half in the last one. -/
theorem mantissa_spec (p a b : Nat) (ha : 0 < a) (hb : 0 < b) :
    10 ^ p ≤ (mantissa p a b).1 ∧ (mantissa p a b).1 < 10 ^ (p + 1) ∧
      |(a : ℚ) / b - (mantissa p a b).1 * (10 : ℚ) ^ ((mantissa p a b).2 - p)| ≤
        1 / 2 * (10 : ℚ) ^ ((mantissa p a b).2 - p) := by
  obtain ⟨l, u⟩ := exponent_spec a b ha hb
  have s := scaled_spec p (exponent a b) a b hb
  unfold mantissa
  simp only
  generalize exponent a b = e at l u s ⊢
  generalize scaled p e a b = n at s ⊢
  generalize (a : ℚ) / b = x at l u s ⊢
  have hp := pow10_pos ((p : Int) - e)
  have key : (10 : ℚ) ^ ((p : Int) - e) * 10 ^ (e - (p : Int)) = 1 := by
    rw [← zpow_add₀ (by norm_num)]; simp
  have ep : (10 : ℚ) ^ ((p : Int) - e) * 10 ^ e = 10 ^ p := by
    rw [← zpow_add₀ (by norm_num)]; simp
  have s' := abs_le.mp s
  have lo : (10 : ℚ) ^ p ≤ x * 10 ^ ((p : Int) - e) := by
    rw [← ep, mul_comm]; exact mul_le_mul_of_nonneg_right l hp.le
  have hi : x * 10 ^ ((p : Int) - e) < 10 * 10 ^ p := by
    rw [← ep, mul_comm x, ← mul_assoc, mul_comm (10 : ℚ), mul_assoc, ← pow10_succ]
    exact mul_lt_mul_of_pos_left u hp
  have n1 : 10 ^ p ≤ n := by
    have : ((10 ^ p : Nat) : ℚ) < n + 1 := by push_cast; linarith
    have : 10 ^ p < n + 1 := by exact_mod_cast this
    omega
  have n2 : n ≤ 10 ^ (p + 1) := by
    have : (n : ℚ) < ((10 ^ (p + 1) : Nat) : ℚ) + 1 := by push_cast; rw [pow_succ]; linarith
    have : n < 10 ^ (p + 1) + 1 := by exact_mod_cast this
    omega
  have err : |x - n * (10 : ℚ) ^ (e - (p : Int))| ≤ 1 / 2 * 10 ^ (e - (p : Int)) := by
    have q := pow10_pos (e - (p : Int))
    have : x - n * (10 : ℚ) ^ (e - (p : Int)) =
        (x * 10 ^ ((p : Int) - e) - n) * 10 ^ (e - (p : Int)) := by
      rw [sub_mul, mul_assoc, key, mul_one]
    rw [this, abs_mul, abs_of_pos q]
    exact mul_le_mul_of_nonneg_right s q.le
  split
  · rename_i hn
    refine ⟨Nat.le_refl _, Nat.pow_lt_pow_right (by decide) (by omega), ?_⟩
    have e1 : (10 : ℚ) ^ (e + 1 - (p : Int)) = 10 * 10 ^ (e - (p : Int)) := by
      rw [← pow10_succ]; congr 1; omega
    have q := pow10_pos (e - (p : Int))
    simp only
    rw [e1]
    have : ((10 ^ p : Nat) : ℚ) * (10 * 10 ^ (e - (p : Int))) = n * 10 ^ (e - (p : Int)) := by
      rw [hn]; push_cast; rw [pow_succ]; ring
    rw [this]
    linarith
  · rename_i hn
    exact ⟨n1, by omega, err⟩

/-- A value close to a decimal has its digits. -/
theorem mantissa_unique (p a b n : Nat) (e : Int) (ha : 0 < a) (hb : 0 < b) (h1 : 10 ^ p ≤ n)
    (h2 : n < 10 ^ (p + 1)) (h : |(a : ℚ) / b - n * (10 : ℚ) ^ (e - (p : Int))| < 1 / 20 * (10 : ℚ) ^ (e - (p : Int))) :
    mantissa p a b = (n, e) := by
  obtain ⟨l, u⟩ := exponent_spec a b ha hb
  have hs : ∀ f : Int, ∀ k : Nat, |(a : ℚ) / b * (10 : ℚ) ^ ((p : Int) - f) - k| < 1 / 2 → scaled p f a b = k :=
    fun f k h => scaled_unique p f a b k hb h
  unfold mantissa
  simp only
  generalize exponent a b = f at l u ⊢
  generalize (a : ℚ) / b = x at l u h hs
  have q := pow10_pos (e - (p : Int))
  have ep : (10 : ℚ) ^ p * 10 ^ (e - (p : Int)) = 10 ^ e := by
    rw [← zpow_natCast, ← zpow_add₀ (by norm_num)]; simp
  have key : (10 : ℚ) ^ (e - (p : Int)) * 10 ^ ((p : Int) - e) = 1 := by
    rw [← zpow_add₀ (by norm_num)]; simp
  have hp := pow10_pos ((p : Int) - e)
  have h' := abs_lt.mp h
  have n1 : (10 : ℚ) ^ p ≤ n := by exact_mod_cast h1
  have n2 : (n : ℚ) + 1 ≤ 10 * 10 ^ p := by
    have : n + 1 ≤ 10 ^ (p + 1) := h2
    have : ((n + 1 : Nat) : ℚ) ≤ ((10 ^ (p + 1) : Nat) : ℚ) := by exact_mod_cast this
    push_cast at this; rw [pow_succ] at this; linarith
  have upper : x < 10 ^ (e + 1) := by
    rw [pow10_succ, ← ep]
    have : ((n : ℚ) + 1) * 10 ^ (e - (p : Int)) ≤ 10 * 10 ^ p * 10 ^ (e - (p : Int)) :=
      mul_le_mul_of_nonneg_right n2 q.le
    linarith
  have err : |x * (10 : ℚ) ^ ((p : Int) - e) - n| < 1 / 20 := by
    have : x * (10 : ℚ) ^ ((p : Int) - e) - n =
        (x - n * (10 : ℚ) ^ (e - (p : Int))) * 10 ^ ((p : Int) - e) := by
      rw [sub_mul, mul_assoc, key, mul_one]
    rw [this, abs_mul, abs_of_pos hp]
    calc _ < 1 / 20 * (10 : ℚ) ^ (e - (p : Int)) * 10 ^ ((p : Int) - e) := mul_lt_mul_of_pos_right h hp
      _ = 1 / 20 := by rw [mul_assoc, key, mul_one]
  by_cases hx : (10 : ℚ) ^ e ≤ x
  · obtain rfl := exponent_unique hx upper l u
    rw [hs e n (by linarith)]
    rw [if_neg (by omega)]
  · have hx := not_le.mp hx
    have pp : (1 : ℚ) ≤ 10 ^ p := one_le_pow₀ (by norm_num)
    have nn : n = 10 ^ p := by
      have : (n : ℚ) * 10 ^ (e - (p : Int)) < (10 ^ p + 1) * 10 ^ (e - (p : Int)) := by
        rw [add_mul, ep]; linarith
      have : (n : ℚ) < 10 ^ p + 1 := lt_of_mul_lt_mul_right this q.le
      have : (n : ℚ) < ((10 ^ p + 1 : Nat) : ℚ) := by push_cast; exact this
      have : n < 10 ^ p + 1 := by exact_mod_cast this
      omega
    have lower : (10 : ℚ) ^ (e - 1) ≤ x := by
      have e1 : (10 : ℚ) ^ e = 10 * 10 ^ (e - 1) := by rw [← pow10_succ]; simp
      have : (n : ℚ) * 10 ^ (e - (p : Int)) = 10 ^ e := by rw [nn]; push_cast; exact ep
      rw [this] at h'
      have qe : (10 : ℚ) ^ (e - (p : Int)) ≤ 10 ^ e := by
        rw [← ep]
        exact le_mul_of_one_le_left q.le pp
      rw [e1] at h' qe
      have := pow10_pos (e - 1)
      linarith
    obtain rfl := exponent_unique lower (by simpa using hx) l u
    have e2 : (10 : ℚ) ^ ((p : Int) - (e - 1)) = 10 * 10 ^ ((p : Int) - e) := by
      rw [← pow10_succ]; congr 1; omega
    have hs' := hs (e - 1) (10 ^ (p + 1)) (by
      rw [e2]
      have : x * (10 * (10 : ℚ) ^ ((p : Int) - e)) - ((10 ^ (p + 1) : Nat) : ℚ) =
          10 * (x * (10 : ℚ) ^ ((p : Int) - e) - n) := by
        rw [nn]; push_cast; rw [pow_succ]; ring
      rw [this, abs_mul]
      rw [show |(10 : ℚ)| = 10 by norm_num]
      linarith)
    rw [hs', if_pos rfl, nn]
    simp

/-! ## The nearest double -/

theorem binary_spec (a b : Nat) (ha : 0 < a) (hb : 0 < b) :
    (2 : ℚ) ^ 52 * 2 ^ binary a b ≤ (a : ℚ) / b ∧ (a : ℚ) / b < (2 : ℚ) ^ 53 * 2 ^ binary a b := by
  have hb' : (0 : ℚ) < b := by exact_mod_cast hb
  have a1 : ((2 ^ a.log2 : Nat) : ℚ) ≤ a := by exact_mod_cast Nat.log2_self_le (by omega)
  have a2 : (a : ℚ) < ((2 ^ (a.log2 + 1) : Nat) : ℚ) := by exact_mod_cast Nat.lt_log2_self
  have b1 : ((2 ^ b.log2 : Nat) : ℚ) ≤ b := by exact_mod_cast Nat.log2_self_le (by omega)
  have b2 : (b : ℚ) < ((2 ^ (b.log2 + 1) : Nat) : ℚ) := by exact_mod_cast Nat.lt_log2_self
  unfold binary
  simp only
  generalize a.log2 = i at a1 a2 ⊢
  generalize b.log2 = j at b1 b2 ⊢
  push_cast at a1 a2 b1 b2
  have z : (2 : ℚ) ^ ((i : Int) - j - 52) = 2 ^ i / (2 ^ j * 2 ^ 52) := by
    rw [zpow_sub₀ (by norm_num), zpow_sub₀ (by norm_num), zpow_natCast, zpow_natCast, div_div]; rfl
  have pj : (0 : ℚ) < 2 ^ j := by positivity
  have pi : (0 : ℚ) < 2 ^ i := by positivity
  -- bounds of the quotient
  have hi : (a : ℚ) / b < 2 ^ 53 * 2 ^ ((i : Int) - j - 52) := by
    rw [z, div_lt_iff₀ hb']
    have : (2 : ℚ) ^ 53 * (2 ^ i / (2 ^ j * 2 ^ 52)) * b = 2 * 2 ^ i * (b / 2 ^ j) := by field_simp
    rw [this]
    have : (1 : ℚ) ≤ b / 2 ^ j := (one_le_div pj).mpr b1
    rw [pow_succ] at a2
    nlinarith
  have lo : (2 : ℚ) ^ 52 * 2 ^ ((i : Int) - j - 52 - 1) ≤ (a : ℚ) / b := by
    rw [zpow_sub₀ (by norm_num), z, le_div_iff₀ hb', zpow_one]
    have : (2 : ℚ) ^ 52 * (2 ^ i / (2 ^ j * 2 ^ 52) / 2) * b = 2 ^ i * (b / (2 * 2 ^ j)) := by field_simp
    rw [this]
    have : (b : ℚ) / (2 * 2 ^ j) ≤ 1 := by
      rw [div_le_one (by positivity)]
      rw [pow_succ] at b2; linarith
    nlinarith
  generalize (i : Int) - j - 52 = e at hi lo ⊢
  have cond : (fraction 1 e).1 * b * 2 ^ 52 ≤ a * (fraction 1 e).2 ↔ (2 : ℚ) ^ 52 * 2 ^ e ≤ (a : ℚ) / b := by
    have fv := fraction_value 1 e
    have fp : (0 : ℚ) < (fraction 1 e).2 := by exact_mod_cast fraction_pos 1 e
    rw [Nat.cast_one, one_mul] at fv
    rw [← fv, le_div_iff₀ hb', mul_div_assoc', div_mul_eq_mul_div, div_le_iff₀ fp]
    constructor
    · intro h
      have : (((fraction 1 e).1 * b * 2 ^ 52 : Nat) : ℚ) ≤ ((a * (fraction 1 e).2 : Nat) : ℚ) := by exact_mod_cast h
      push_cast at this; linarith
    · intro h
      have : (((fraction 1 e).1 * b * 2 ^ 52 : Nat) : ℚ) ≤ ((a * (fraction 1 e).2 : Nat) : ℚ) := by push_cast; linarith
      exact_mod_cast this
  split
  · rename_i h
    exact ⟨cond.mp h, hi⟩
  · rename_i h
    refine ⟨lo, ?_⟩
    have := not_le.mp (fun h' => h (cond.mpr h'))
    have e1 : (2 : ℚ) ^ e = 2 * 2 ^ (e - 1) := by rw [← pow2_succ]; simp
    rw [e1] at this
    linarith

/-- The nearest double is off by at most half a unit in the last of 53 bits. -/
theorem nearest_spec (neg : Bool) (a b : Nat) (hb : 0 < b) :
    ∃ (m : Nat) (e : Int), nearest neg a b = .fin neg m e ∧ m ≤ 2 ^ 53 ∧
      |(m : ℚ) * 2 ^ e - (a : ℚ) / b| ≤ (2 : ℚ)⁻¹ ^ 53 * ((a : ℚ) / b) := by
  have hb' : (0 : ℚ) < b := by exact_mod_cast hb
  have nn : (0 : ℚ) ≤ (a : ℚ) / b := by positivity
  unfold nearest
  split
  · rename_i h
    refine ⟨a / b, 0, rfl, by omega, ?_⟩
    have : (a : ℚ) = b * (a / b : Nat) := by
      have := Nat.div_add_mod a b
      rw [h.1] at this
      exact_mod_cast this.symm
    rw [this]
    simp only [zpow_zero, mul_one]
    rw [mul_div_cancel_left₀ _ hb'.ne']
    simp
  · rename_i h
    have ha : 0 < a := by
      rcases Nat.eq_zero_or_pos a with h0 | h0
      · exact absurd ⟨by simp [h0], by simp [h0]⟩ h
      · exact h0
    obtain ⟨l, u⟩ := binary_spec a b ha hb
    simp only
    generalize binary a b = e at l u ⊢
    have fp := fraction_pos 1 e
    have fn := fraction_num_pos 1 e Nat.one_pos
    have fv := fraction_value 1 e
    rw [Nat.cast_one, one_mul] at fv
    have fp' : (0 : ℚ) < (fraction 1 e).2 := by exact_mod_cast fp
    have fn' : (0 : ℚ) < (fraction 1 e).1 := by exact_mod_cast fn
    have r := roundDiv_spec (a * (fraction 1 e).2) (b * (fraction 1 e).1) (Nat.mul_pos hb fn)
    generalize roundDiv (a * (fraction 1 e).2) (b * (fraction 1 e).1) = m at r ⊢
    have q := pow2_pos e
    have eq : ((a * (fraction 1 e).2 : Nat) : ℚ) / ((b * (fraction 1 e).1 : Nat) : ℚ) = (a : ℚ) / b / 2 ^ e := by
      rw [← fv]; push_cast; field_simp
    rw [eq] at r
    generalize (a : ℚ) / b = x at *
    refine ⟨m, e, rfl, ?_, ?_⟩
    · have r' := abs_le.mp r
      have : x / 2 ^ e < 2 ^ 53 := by rw [div_lt_iff₀ q]; exact u
      have : (m : ℚ) < ((2 ^ 53 + 1 : Nat) : ℚ) := by push_cast; linarith
      have : m < 2 ^ 53 + 1 := by exact_mod_cast this
      omega
    · have : (m : ℚ) * 2 ^ e - x = -((x / 2 ^ e - m) * 2 ^ e) := by field_simp; ring
      rw [this, abs_neg, abs_mul, abs_of_pos q]
      have l' : (2 : ℚ) ^ e ≤ (2 : ℚ)⁻¹ ^ 52 * x := by
        have : (2 : ℚ)⁻¹ ^ 52 * (2 ^ 52 * 2 ^ e) = 2 ^ e := by rw [← mul_assoc]; norm_num
        rw [← this]
        exact mul_le_mul_of_nonneg_left l (by positivity)
      calc |x / 2 ^ e - m| * 2 ^ e ≤ 1 / 2 * 2 ^ e := mul_le_mul_of_nonneg_right r q.le
        _ ≤ 1 / 2 * ((2 : ℚ)⁻¹ ^ 52 * x) := by linarith
        _ = (2 : ℚ)⁻¹ ^ 53 * x := by norm_num; ring

theorem ofDecimal_spec (neg : Bool) (d : Nat) (q : Int) :
    ∃ (m : Nat) (e : Int), ofDecimal neg d q = .fin neg m e ∧ m ≤ 2 ^ 53 ∧
      |(m : ℚ) * 2 ^ e - d * (10 : ℚ) ^ q| ≤ (2 : ℚ)⁻¹ ^ 53 * (d * (10 : ℚ) ^ q) := by
  unfold ofDecimal
  split
  · rename_i h
    obtain ⟨m, e, h1, h2, h3⟩ := nearest_spec neg (d * 10 ^ q.toNat) 1 Nat.one_pos
    refine ⟨m, e, h1, h2, ?_⟩
    rw [Nat.cast_mul, zpow_ten_toNat h, Nat.cast_one, div_one] at h3
    exact h3
  · rename_i h
    obtain ⟨m, e, h1, h2, h3⟩ := nearest_spec neg d (10 ^ (-q).toNat) (Nat.pow_pos (by decide))
    refine ⟨m, e, h1, h2, ?_⟩
    rw [zpow_ten_toNat (by omega), zpow_neg, div_inv_eq_mul] at h3
    exact h3

end ACE.Decimal

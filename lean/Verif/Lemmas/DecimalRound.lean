import Verif.Lemmas.DecimalText

/-! # Helper lemmas about decimal numbers: what writing and reading keep -/

namespace ACE.Decimal
open ACE ACE.Text

theorem ofDecimal_zero (neg : Bool) (q : Int) : ofDecimal neg 0 q = .fin neg 0 0 := by
  unfold ofDecimal
  split <;> simp [nearest]

/-- A scientific number with `p` decimals is read with a relative error of at most `10^-p`, and written again
with the same digits. -/
theorem sci_round (p : Nat) (hp1 : 1 ≤ p) (hp2 : p ≤ 13) (neg : Bool) (m : Nat) (x : Int) :
    ∃ (m' : Nat) (x' : Int),
      ofDecimal neg (significant p m x).1 ((significant p m x).2 - p) = .fin neg m' x' ∧
        |(m' : ℚ) * 2 ^ x' - m * 2 ^ x| ≤ (10 : ℚ)⁻¹ ^ p * (m * 2 ^ x) ∧
          significant p m' x' = significant p m x := by
  by_cases hm : m = 0
  · subst hm
    have h0 : significant p 0 x = (0, 0) := by simp [significant]
    rw [h0]
    refine ⟨0, 0, ofDecimal_zero _ _, ?_, by simp [significant]⟩
    simp
  · have h0 : significant p m x = mantissa p (fraction m x).1 (fraction m x).2 := by
      simp [significant, hm]
    have ha := fraction_num_pos m x (by omega)
    obtain ⟨h1, h2, h3⟩ := mantissa_spec p (fraction m x).1 (fraction m x).2 ha (fraction_pos m x)
    rw [fraction_value] at h3
    rw [h0]
    generalize mantissa p (fraction m x).1 (fraction m x).2 = r at h1 h2 h3 ⊢
    obtain ⟨n, e⟩ := r
    simp only at h1 h2 h3 ⊢
    obtain ⟨m', x', h4, h5, h6⟩ := ofDecimal_spec neg n (e - p)
    refine ⟨m', x', h4, ?_⟩
    have D := pow10_pos (e - p)
    generalize hd : (10 : ℚ) ^ (e - (p : Int)) = d at D h3 h6
    have n1 : (10 : ℚ) ^ p ≤ n := by exact_mod_cast h1
    have n2 : (n : ℚ) < 10 ^ (p + 1) := by exact_mod_cast h2
    have p1 : (10 : ℚ) ≤ 10 ^ p := by
      calc (10 : ℚ) = 10 ^ 1 := by norm_num
        _ ≤ 10 ^ p := pow_le_pow_right₀ (by norm_num) hp1
    have p2 : (10 : ℚ) ^ (p + 1) ≤ 10 ^ 14 := pow_le_pow_right₀ (by norm_num) (by omega)
    have small : (2 : ℚ)⁻¹ ^ 53 * n < 1 / 40 := by
      have : (2 : ℚ)⁻¹ ^ 53 * 10 ^ 14 < 1 / 40 := by norm_num
      nlinarith [show (0 : ℚ) < (2 : ℚ)⁻¹ ^ 53 by positivity]
    have s : (2 : ℚ)⁻¹ ^ 53 * (n * d) < 1 / 40 * d := by
      rw [← mul_assoc]; exact mul_lt_mul_of_pos_right small D
    have e1 : |(m' : ℚ) * 2 ^ x' - n * d| < 1 / 40 * d := lt_of_le_of_lt h6 s
    have e1' := abs_lt.mp e1
    have e3' := abs_le.mp h3
    have nd : 10 ^ p * d ≤ n * d := mul_le_mul_of_nonneg_right n1 D.le
    have pd : 10 * d ≤ 10 ^ p * d := mul_le_mul_of_nonneg_right p1 D.le
    have pos : (0 : ℚ) < m' * 2 ^ x' := by linarith
    refine ⟨?_, ?_⟩
    · have big : (10 : ℚ)⁻¹ ^ p * (10 ^ p * d - 1 / 2 * d) ≤ (10 : ℚ)⁻¹ ^ p * (m * 2 ^ x) :=
        mul_le_mul_of_nonneg_left (by linarith) (by positivity)
      have q1 : (10 : ℚ)⁻¹ ^ p * (10 ^ p * d) = d := by
        rw [← mul_assoc, ← mul_pow, inv_mul_cancel₀ (by norm_num), one_pow, one_mul]
      have q2 : (10 : ℚ)⁻¹ ^ p ≤ 1 / 10 := by
        calc (10 : ℚ)⁻¹ ^ p ≤ (10 : ℚ)⁻¹ ^ 1 := pow_le_pow_of_le_one (by norm_num) (by norm_num) hp1
          _ = 1 / 10 := by norm_num
      have q3 : (10 : ℚ)⁻¹ ^ p * (1 / 2 * d) ≤ 1 / 10 * (1 / 2 * d) :=
        mul_le_mul_of_nonneg_right q2 (by linarith)
      rw [mul_sub, q1] at big
      rw [abs_le]
      constructor <;> linarith
    · have hm' : 0 < m' := by
        rcases Nat.eq_zero_or_pos m' with h | h
        · subst h; simp at pos
        · exact h
      have : significant p m' x' = mantissa p (fraction m' x').1 (fraction m' x').2 := by
        simp [significant, Nat.pos_iff_ne_zero.mp hm']
      rw [this]
      refine mantissa_unique p _ _ n e (fraction_num_pos m' x' hm') (fraction_pos m' x') h1 h2 ?_
      rw [fraction_value, hd]
      exact lt_trans e1 (by linarith)

theorem bound_up : (2 : ℚ) * 2 ^ (1024 : Int) < 10 ^ (999 : Int) := by
  have h : 2 ^ 1025 < 10 ^ 999 := by decide +kernel
  have h' : ((2 ^ 1025 : Nat) : ℚ) < ((10 ^ 999 : Nat) : ℚ) := Nat.cast_lt.mpr h
  rw [Nat.cast_pow, Nat.cast_pow] at h'
  rw [← pow2_succ]
  exact h'

theorem bound_lo : (10 : ℚ) ^ (-999 : Int) < 2 ^ (-1022 : Int) := by
  have h : 2 ^ 1022 < 10 ^ 999 := by decide +kernel
  have h' : ((2 ^ 1022 : Nat) : ℚ) < ((10 ^ 999 : Nat) : ℚ) := Nat.cast_lt.mpr h
  rw [Nat.cast_pow, Nat.cast_pow] at h'
  rw [zpow_neg, zpow_neg]
  exact inv_strictAnti₀ (by positivity) h'

/-- The decimal exponent of a normal double has at most three digits. -/
theorem significant_exponent (p : Nat) (m : Nat) (x : Int)
    (h : m = 0 ∨ (2 : ℚ) ^ (-1022 : Int) ≤ m * 2 ^ x ∧ (m : ℚ) * 2 ^ x < 2 ^ (1024 : Int)) :
    (significant p m x).2.natAbs < 1000 := by
  by_cases hm : m = 0
  · subst hm; simp [significant]
  · obtain ⟨l, u⟩ := h.resolve_left hm
    have h0 : significant p m x = mantissa p (fraction m x).1 (fraction m x).2 := by
      simp [significant, hm]
    have ha := fraction_num_pos m x (by omega)
    obtain ⟨h1, h2, h3⟩ := mantissa_spec p (fraction m x).1 (fraction m x).2 ha (fraction_pos m x)
    rw [fraction_value] at h3
    rw [h0]
    generalize mantissa p (fraction m x).1 (fraction m x).2 = r at h1 h2 h3 ⊢
    obtain ⟨n, e⟩ := r
    simp only at h1 h2 h3 ⊢
    have n1 : (10 : ℚ) ^ p ≤ n := by exact_mod_cast h1
    have n2 : (n : ℚ) + 1 ≤ 10 ^ (p + 1) := by exact_mod_cast h2
    have p1 : (1 : ℚ) ≤ 10 ^ p := one_le_pow₀ (by norm_num)
    have D := pow10_pos (e - p)
    have z1 : (10 : ℚ) ^ e = 10 ^ p * 10 ^ (e - (p : Int)) := by
      rw [← zpow_natCast, ← zpow_add₀ (by norm_num)]; congr 1; omega
    have z2 : (10 : ℚ) ^ (e + 1) = 10 ^ (p + 1) * 10 ^ (e - (p : Int)) := by
      rw [pow10_succ, z1, pow_succ]; ring
    generalize (10 : ℚ) ^ (e - (p : Int)) = d at D h3 z1 z2
    have e3 := abs_le.mp h3
    have k1 : (10 : ℚ) ^ p * d ≤ n * d := mul_le_mul_of_nonneg_right n1 D.le
    have k2 : ((n : ℚ) + 1) * d ≤ 10 ^ (p + 1) * d := mul_le_mul_of_nonneg_right n2 D.le
    have k3 : 1 * d ≤ 10 ^ p * d := mul_le_mul_of_nonneg_right p1 D.le
    have up : (10 : ℚ) ^ e < 10 ^ (999 : Int) := by
      have := bound_up
      refine lt_trans ?_ this
      rw [z1]; linarith
    have lo : (10 : ℚ) ^ (-999 : Int) < 10 ^ (e + 1) := by
      have := bound_lo
      refine lt_trans this (lt_of_le_of_lt l ?_)
      rw [z2]; linarith
    have a := (zpow_lt_zpow_iff_right₀ (by norm_num : (1 : ℚ) < 10)).mp up
    have b := (zpow_lt_zpow_iff_right₀ (by norm_num : (1 : ℚ) < 10)).mp lo
    omega

/-- A number with `p` decimals is read with an error of at most `10^-p`, and written again with the same
digits. -/
theorem fixed_round (p : Nat) (neg : Bool) (m : Nat) (x : Int) (hn : decimals p m x < 2 ^ 52) :
    ∃ (m' : Nat) (x' : Int), ofDecimal neg (decimals p m x) (-p) = .fin neg m' x' ∧
      |(m' : ℚ) * 2 ^ x' - m * 2 ^ x| ≤ (10 : ℚ)⁻¹ ^ p ∧ decimals p m' x' = decimals p m x := by
  have h3 := roundDiv_spec ((fraction m x).1 * 10 ^ p) (fraction m x).2 (fraction_pos m x)
  rw [show roundDiv ((fraction m x).1 * 10 ^ p) (fraction m x).2 = decimals p m x from rfl] at h3
  generalize decimals p m x = n at hn h3 ⊢
  obtain ⟨m', x', h4, h5, h6⟩ := ofDecimal_spec neg n (-p)
  have t : ∀ (a : Nat) (b : Int), (((fraction a b).1 * 10 ^ p : Nat) : ℚ) / (fraction a b).2 = a * 2 ^ b * 10 ^ p := by
    intro a b
    rw [← fraction_value, Nat.cast_mul, Nat.cast_pow]
    push_cast
    ring
  rw [t] at h3
  have T : (0 : ℚ) < 10 ^ p := by positivity
  have i : (10 : ℚ) ^ (-(p : Int)) = (10 ^ p)⁻¹ := by rw [zpow_neg, zpow_natCast]
  rw [i, ← div_eq_mul_inv] at h6
  rw [inv_pow]
  have n1 : (n : ℚ) < 2 ^ 52 := by exact_mod_cast hn
  generalize (10 : ℚ) ^ p = d at T h3 h6 t ⊢
  have h7 : |(m' : ℚ) * 2 ^ x' * d - n| < 1 / 2 := by
    have : (m' : ℚ) * 2 ^ x' * d - n = (m' * 2 ^ x' - n / d) * d := by field_simp
    rw [this, abs_mul, abs_of_pos T]
    calc |(m' : ℚ) * 2 ^ x' - n / d| * d ≤ (2 : ℚ)⁻¹ ^ 53 * (n / d) * d := mul_le_mul_of_nonneg_right h6 T.le
      _ = (2 : ℚ)⁻¹ ^ 53 * n := by field_simp
      _ < (2 : ℚ)⁻¹ ^ 53 * 2 ^ 52 := mul_lt_mul_of_pos_left n1 (by positivity)
      _ = 1 / 2 := by norm_num
  refine ⟨m', x', h4, ?_, ?_⟩
  · have : |((m' : ℚ) * 2 ^ x' - m * 2 ^ x) * d| ≤ 1 := by
      have e1 := abs_lt.mp h7
      have e2 := abs_le.mp h3
      rw [abs_le, sub_mul]
      constructor <;> linarith
    rw [abs_mul, abs_of_pos T] at this
    rw [inv_eq_one_div, le_div_iff₀ T]
    exact this
  · unfold decimals
    exact roundDiv_unique _ _ _ (fraction_pos m' x') (by rw [t]; exact h7)

theorem decimals_le (p m N : Nat) (x : Int) (h : (m : ℚ) * 2 ^ x ≤ N) : decimals p m x ≤ N * 10 ^ p := by
  have h3 := roundDiv_spec ((fraction m x).1 * 10 ^ p) (fraction m x).2 (fraction_pos m x)
  rw [show roundDiv ((fraction m x).1 * 10 ^ p) (fraction m x).2 = decimals p m x from rfl] at h3
  have t : (((fraction m x).1 * 10 ^ p : Nat) : ℚ) / (fraction m x).2 = m * 2 ^ x * 10 ^ p := by
    rw [← fraction_value, Nat.cast_mul, Nat.cast_pow]
    push_cast
    ring
  rw [t] at h3
  by_contra hc
  have hc' : N * 10 ^ p + 1 ≤ decimals p m x := by omega
  have hc'' : (N : ℚ) * 10 ^ p + 1 ≤ decimals p m x := by exact_mod_cast hc'
  have e2 := abs_le.mp h3
  have : (m : ℚ) * 2 ^ x * 10 ^ p ≤ N * 10 ^ p := mul_le_mul_of_nonneg_right h (by positivity)
  linarith

/-! ### integers -/

theorem roundDiv_one (a : Nat) : roundDiv a 1 = a := by simp [roundDiv, Nat.mod_one]

theorem nearest_exact (neg : Bool) (n k : Nat) (hk : 0 < k) (hn : n < 2 ^ 53) :
    nearest neg (n * k) k = .fin neg n 0 := by
  unfold nearest
  rw [Nat.mul_mod_left, Nat.mul_div_left _ hk, if_pos ⟨rfl, hn⟩]

theorem ofDecimal_exact (neg : Bool) (n k : Nat) (hn : n < 2 ^ 53) :
    ofDecimal neg (n * 10 ^ k) (-(k : Int)) = .fin neg n 0 := by
  unfold ofDecimal
  by_cases h : k = 0
  · subst h
    simp only [Nat.pow_zero, Nat.mul_one, Int.natCast_zero, Int.neg_zero, Int.toNat_zero, Int.le_refl, if_true]
    have := nearest_exact neg n 1 Nat.one_pos hn
    rwa [Nat.mul_one] at this
  · rw [if_neg (by omega), Int.neg_neg, Int.toNat_natCast]
    exact nearest_exact neg n _ (Nat.pow_pos (by decide)) hn

theorem significant_int (p n : Nat) (hn : n < 10 ^ (p + 1)) (h0 : 0 < n) :
    ∃ k : Nat, significant p n 0 = (n * 10 ^ k, (p : Int) - k) := by
  have he := exponent_spec n 1 h0 Nat.one_pos
  have hf : fraction n 0 = (n, 1) := by simp [fraction]
  have hexp : exponent n 1 = ((numDigits n - 1 : Nat) : Int) := by
    unfold exponent; rw [if_pos (by omega), Nat.div_one]
  have hd := numDigits_le (n := n) (k := p + 1) (by omega) hn
  refine ⟨p + 1 - numDigits n, ?_⟩
  have hd1 : 1 ≤ numDigits n := by simp [numDigits]
  unfold significant
  rw [if_neg (by omega), hf]
  simp only [mantissa, hexp]
  have hs : scaled p ((numDigits n - 1 : Nat) : Int) n 1 = n * 10 ^ (p + 1 - numDigits n) := by
    unfold scaled
    rw [if_pos (by omega), roundDiv_one]
    congr 2
    omega
  rw [hs, if_neg]
  · refine Prod.ext rfl ?_
    simp only
    omega
  · have := lt_numDigits n
    have : n * 10 ^ (p + 1 - numDigits n) < 10 ^ (p + 1) := by
      calc n * 10 ^ (p + 1 - numDigits n) < 10 ^ numDigits n * 10 ^ (p + 1 - numDigits n) :=
            Nat.mul_lt_mul_of_pos_right this (Nat.pow_pos (by decide))
        _ = 10 ^ (p + 1) := by rw [← Nat.pow_add]; congr 1; omega
    omega

theorem sci_int (p : Nat) (neg : Bool) (n : Nat) (hn : n < 10 ^ (p + 1)) (h2 : n < 2 ^ 53) :
    ofDecimal neg (significant p n 0).1 ((significant p n 0).2 - p) = .fin neg n 0 := by
  rcases Nat.eq_zero_or_pos n with rfl | h0
  · rw [show significant p 0 0 = (0, 0) by simp [significant]]
    exact ofDecimal_zero _ _
  · obtain ⟨k, hk⟩ := significant_int p n hn h0
    rw [hk]
    simp only
    rw [show (p : Int) - k - p = -(k : Int) by omega]
    exact ofDecimal_exact neg n k h2

theorem decimals_int (p n : Nat) : decimals p n 0 = n * 10 ^ p := by
  unfold decimals
  rw [show fraction n 0 = (n, 1) by simp [fraction]]
  exact roundDiv_one _

end ACE.Decimal

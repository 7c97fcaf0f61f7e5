import Verif.Lemmas.Decimal

/-! # Helper lemmas about decimal numbers: text -/

namespace ACE.Decimal
open ACE ACE.Text

theorem toNat_append_digits (a : Str) (k n : Nat) :
    Text.toNat (a ++ digits k n) = Text.toNat a * 10 ^ k + n % 10 ^ k := by
  induction k generalizing n with
  | zero => simp [digits, Nat.mod_one]
  | succ k ih =>
    rw [digits, ← List.append_assoc, toNat_append, ih, digit_toNat, Nat.pow_succ, Nat.mul_comm (10 ^ k) 10,
      Nat.mod_mul, Nat.mul_add]
    have : Text.toNat a * (10 * 10 ^ k) = 10 * (Text.toNat a * 10 ^ k) := by ring
    rw [this]
    omega

theorem takeWhile_digits {a r : Str} (ha : ∀ c ∈ a, c.isDigit = true) (hr : ∀ c ∈ r.head?, c.isDigit = false) :
    (a ++ r).takeWhile (·.isDigit) = a ∧ (a ++ r).dropWhile (·.isDigit) = r := by
  induction a with
  | nil =>
    cases r with
    | nil => exact ⟨rfl, rfl⟩
    | cons c r => simp [hr c rfl]
  | cons c a ih =>
    have hc := ha c (by simp)
    obtain ⟨h1, h2⟩ := ih fun x hx => ha x (by simp [hx])
    simp [hc, h1, h2]

theorem unsigned_text {neg : Bool} {a b r : Str} {e : Int} (ha : ∀ c ∈ a, c.isDigit = true) (h0 : a ≠ [])
    (hb : ∀ c ∈ b, c.isDigit = true) (hr : ∀ c ∈ r.head?, c.isDigit = false) (he : readExponent r = some e) :
    unsigned neg (a ++ '.' :: (b ++ r)) = some (ofDecimal neg (Text.toNat (a ++ b)) (e - b.length)) := by
  obtain ⟨h1, h2⟩ := takeWhile_digits (r := '.' :: (b ++ r)) ha (by simp)
  obtain ⟨h3, h4⟩ := takeWhile_digits (r := r) hb hr
  unfold unsigned
  simp only [h1, h2, readDecimals, h3, h4, he]
  rw [if_neg (by simp [h0])]

theorem value_sign {neg : Bool} {a r : Str} (ha : ∀ c ∈ a, c.isDigit = true) (h0 : a ≠ []) :
    value (sign neg ++ (a ++ r)) = unsigned neg (a ++ r) := by
  cases neg with
  | true => rfl
  | false =>
    cases a with
    | nil => exact absurd rfl h0
    | cons c a =>
      have hc := ha c (by simp)
      simp only [sign, List.nil_append, List.cons_append, Bool.false_eq_true, if_false]
      unfold value
      split
      · rename_i h; injection h with h; subst h; exact absurd hc (by decide)
      · rename_i h; injection h with h; subst h; exact absurd hc (by decide)
      · rfl

theorem allDigits_digits {k n : Nat} (hk : 0 < k) (hn : n < 10 ^ k) : allDigits (digits k n) = some n := by
  unfold allDigits
  rw [if_pos, toNat_digits, Nat.mod_eq_of_lt hn]
  refine ⟨?_, by simpa using digits_isDigit k n⟩
  intro h
  have := digits_length k n
  rw [h] at this
  simp at this
  omega

theorem exponent_digits (e : Int) :
    allDigits (if e.natAbs < 100 then digits 2 e.natAbs else ofNat e.natAbs) = some e.natAbs := by
  split
  · rename_i h; exact allDigits_digits (by decide) (by simpa using h)
  · exact allDigits_ofNat _

theorem readExponent_text (c : Char) (e : Int) : readExponent (c :: exponentText e) = some e := by
  have h := exponent_digits e
  unfold exponentText
  generalize (if e.natAbs < 100 then digits 2 e.natAbs else ofNat e.natAbs) = s at h ⊢
  split
  · show (allDigits s).map (fun n : Nat => -(n : Int)) = some e
    rw [h]
    exact congrArg some (by simp only; omega)
  · show (allDigits s).map (fun n : Nat => (n : Int)) = some e
    rw [h]
    exact congrArg some (by simp only; omega)

theorem exponentText_length (e : Int) (h : e.natAbs < 1000) : (exponentText e).length ≤ 4 := by
  unfold exponentText
  have h1 : (if e < 0 then ['-'] else ['+'] : Str).length = 1 := by split <;> rfl
  rw [List.length_append, h1]
  split
  · rw [digits_length]; omega
  · have := ofNat_length_le (n := e.natAbs) (k := 3) (by decide) (by simpa using h); omega

theorem exponentText_short (e : Int) (h : e.natAbs < 100) : (exponentText e).length = 3 := by
  unfold exponentText
  have h1 : (if e < 0 then ['-'] else ['+'] : Str).length = 1 := by split <;> rfl
  rw [List.length_append, h1, if_pos h, digits_length]

theorem digit_real {c : Char} (h : c.isDigit = true) : isReal c = true := by simp [isReal, h]

theorem exponentText_real (e : Int) : ∀ c ∈ exponentText e, isReal c = true := by
  intro c hc
  unfold exponentText at hc
  rcases List.mem_append.mp hc with h | h
  · split at h <;> (simp only [List.mem_singleton] at h; subst h; decide)
  · split at h
    · exact digit_real (digits_isDigit _ _ c h)
    · exact digit_real (ofNat_isDigit _ c h)

theorem sign_real (neg : Bool) : ∀ c ∈ sign neg, isReal c = true := by cases neg <;> decide
theorem sign_length (neg : Bool) : (sign neg).length = if neg then 1 else 0 := by cases neg <;> rfl

/-! ### scientific -/

/-- Scientific text with its digits and its exponent. -/
def sciText (c : Char) (p : Nat) (neg : Bool) (n : Nat) (e : Int) : Str :=
  sign neg ++ digits 1 (n / 10 ^ p) ++ ['.'] ++ digits p n ++ [c] ++ exponentText e

theorem sci_fin (c : Char) (p : Nat) (neg : Bool) (m : Nat) (x : Int) :
    sci c p (.fin neg m x) = sciText c p neg (significant p m x).1 (significant p m x).2 := rfl

theorem sciText_value (c : Char) (p : Nat) (neg : Bool) (n : Nat) (e : Int) (hc : c.isDigit = false)
    (hn : n < 10 ^ (p + 1)) : value (sciText c p neg n e) = some (ofDecimal neg n (e - p)) := by
  have hq : n / 10 ^ p < 10 := by
    rw [Nat.div_lt_iff_lt_mul (Nat.pow_pos (by decide))]
    rw [Nat.pow_succ] at hn
    omega
  have s : sciText c p neg n e =
      sign neg ++ (digits 1 (n / 10 ^ p) ++ '.' :: (digits p n ++ c :: exponentText e)) := by
    simp [sciText]
  have h0 : digits 1 (n / 10 ^ p) ≠ [] := by simp [digits]
  rw [s, value_sign (digits_isDigit _ _) h0,
    unsigned_text (digits_isDigit _ _) h0 (digits_isDigit _ _) (by simpa using hc) (readExponent_text c e),
    toNat_append_digits, toNat_digits, digits_length]
  congr 2
  rw [Nat.pow_one, Nat.mod_eq_of_lt hq]
  exact Nat.div_add_mod' n (10 ^ p)

theorem sciText_real (p : Nat) (neg : Bool) (n : Nat) (e : Int) :
    ∀ c ∈ sciText 'E' p neg n e, isReal c = true := by
  intro c hc
  simp only [sciText, List.mem_append, List.mem_singleton] at hc
  rcases hc with ((((h | h) | h) | h) | h) | h
  · exact sign_real _ _ h
  · exact digit_real (digits_isDigit _ _ c h)
  · subst h; decide
  · exact digit_real (digits_isDigit _ _ c h)
  · subst h; decide
  · exact exponentText_real _ _ h

theorem sciText_length (c : Char) (p : Nat) (neg : Bool) (n : Nat) (e : Int) :
    (sciText c p neg n e).length = (sign neg).length + p + 3 + (exponentText e).length := by
  simp [sciText, digits_length]; omega

theorem significant_lt (p m : Nat) (x : Int) : (significant p m x).1 < 10 ^ (p + 1) := by
  unfold significant
  split
  · exact Nat.pow_pos (by decide)
  · exact (mantissa_spec p _ _ (fraction_num_pos m x (by omega)) (fraction_pos m x)).2.1

/-! ### fixed point -/

/-- Fixed point text with its digits. -/
def fixedText (p : Nat) (neg : Bool) (n : Nat) : Str := sign neg ++ ofNat (n / 10 ^ p) ++ ['.'] ++ digits p n

/-- The digits of a number with `p` decimals. -/
def decimals (p m : Nat) (x : Int) : Nat := roundDiv ((fraction m x).1 * 10 ^ p) (fraction m x).2

theorem fixed_fin (p : Nat) (neg : Bool) (m : Nat) (x : Int) :
    fixed p (.fin neg m x) = fixedText p neg (decimals p m x) := rfl

theorem fixedText_value (p : Nat) (neg : Bool) (n : Nat) :
    value (fixedText p neg n) = some (ofDecimal neg n (-p)) := by
  have s : fixedText p neg n = sign neg ++ (ofNat (n / 10 ^ p) ++ '.' :: (digits p n ++ [])) := by
    simp [fixedText]
  rw [s, value_sign (ofNat_isDigit _) (ofNat_ne _),
    unsigned_text (ofNat_isDigit _) (ofNat_ne _) (digits_isDigit _ _) (by simp) (e := 0) rfl,
    toNat_append_digits, toNat_ofNat, digits_length, Nat.div_add_mod', Int.zero_sub]

theorem fixedText_real (p : Nat) (neg : Bool) (n : Nat) : ∀ c ∈ fixedText p neg n, isReal c = true := by
  intro c hc
  simp only [fixedText, List.mem_append, List.mem_singleton] at hc
  rcases hc with ((h | h) | h) | h
  · exact sign_real _ _ h
  · exact digit_real (ofNat_isDigit _ c h)
  · subst h; decide
  · exact digit_real (digits_isDigit _ _ c h)

theorem fixedText_length (p : Nat) (neg : Bool) (n k : Nat) (hk : 1 ≤ k) (h : n < 10 ^ (k + p)) :
    (fixedText p neg n).length ≤ (sign neg).length + k + 1 + p := by
  have : n / 10 ^ p < 10 ^ k := by
    rw [Nat.div_lt_iff_lt_mul (Nat.pow_pos (by decide)), ← Nat.pow_add]; exact h
  have := ofNat_length_le hk this
  simp [fixedText, digits_length]
  omega

end ACE.Decimal

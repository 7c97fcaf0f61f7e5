import Verif.Lemmas.Core

/-!
# C03: one-based element and range access of a block

Specification used here: the `i`-th word of a block with words `xs` is
`xs[i-1]?`; the words `i .. i+m-1` are the list `ws` of length `m` whose `k`-th
element is the `(i+k)`-th word.
-/

namespace ACE.Props
open ACE

/-- Specification: `ws` are the words `i .. i+m-1` (one based) of `xs`. -/
def IsWords (xs : Words) (i m : Nat) (ws : Words) : Prop :=
  1 ≤ i ∧ i - 1 + m ≤ xs.length ∧ ws.length = m ∧ ∀ k, k < m → ws[k]? = xs[i - 1 + k]?

/-- Specification: `n` is the integer nearest to `man * 2^exp` with sign `neg`,
halfway cases away from zero (all quantities scaled by a power of two). -/
def IsRounded (neg : Bool) (man : Nat) (exp : Int) (n : Int) : Prop :=
  (n < 0 → neg = true) ∧ (0 < n → neg = false) ∧
  if 0 ≤ exp then n.natAbs = man * 2 ^ exp.toNat
  else 2 * n.natAbs * 2 ^ (-exp).toNat ≤ 2 * man + 2 ^ (-exp).toNat ∧
       2 * man < (2 * n.natAbs + 1) * 2 ^ (-exp).toNat

theorem C03_element (xs : Words) (i : Nat) (x : Dbl) :
    Base.XSS xs i = .ok x ↔ 1 ≤ i ∧ xs[i - 1]? = some x :=
  Base.XSS_eq_ok_iff

theorem C03_element_refused (xs : Words) (i : Nat) :
    (i < 1 ∨ xs.length < i) → Base.XSS xs i = .error .range := by
  intro h
  have h : i < 1 ∨ i > xs.length := h
  unfold Base.XSS Base.verifyIndex
  rw [if_pos h]; rfl

theorem sub_ok_iff (xs : Words) (l r : Nat) (ws : Words) :
    sub xs l r = .ok ws ↔ l ≤ r ∧ r ≤ xs.length ∧ ws = (xs.drop l).take (r - l) := by
  unfold sub
  split
  · rename_i h; simp [h]; exact eq_comm
  · rename_i h
    constructor
    · intro h; cases h
    · rintro ⟨h1, h2, _⟩; exact absurd ⟨h1, h2⟩ h

theorem isWords_iff (xs : Words) (i m : Nat) (ws : Words) :
    IsWords xs i m ws ↔
      1 ≤ i ∧ i - 1 + m ≤ xs.length ∧ ws = (xs.drop (i - 1)).take m := by
  unfold IsWords
  constructor
  · rintro ⟨h1, h2, h3, h4⟩
    refine ⟨h1, h2, List.ext_getElem? fun k => ?_⟩
    by_cases hk : k < m
    · rw [h4 k hk]; simp [hk]
    · rw [List.getElem?_eq_none (by omega), List.getElem?_eq_none (by simp; omega)]
  · rintro ⟨h1, h2, rfl⟩
    refine ⟨h1, h2, by simp; omega, fun k hk => ?_⟩
    simp [hk]

/-- A range is returned iff it lies in the block, and then it consists of the
requested words. -/
theorem C03_range (xs : Words) (i m : Nat) (ws : Words) :
    Base.XSSr xs i m = .ok ws ↔ IsWords xs i m ws := by
  rw [isWords_iff]
  by_cases hi : 1 ≤ i ∧ i ≤ xs.length + 1
  · by_cases hm : m = 0
    · subst hm
      unfold Base.XSSr
      rw [Base.iterator_ok hi.1 hi.2]
      simp [sub_ok_iff]
      omega
    · by_cases hr : i + m - 1 ≤ xs.length + 1
      · unfold Base.XSSr
        have hm' : m > 0 := by omega
        rw [Base.iterator_ok hi.1 hi.2, Base.iterator_ok (by omega) hr]
        simp only [ok_bind, hm', if_true, pure_eq_ok, sub_ok_iff]
        have : i + m - 1 - 1 + 1 - (i - 1) = m := by omega
        rw [this]
        constructor
        · rintro ⟨h1, h2, h3⟩; exact ⟨hi.1, by omega, h3⟩
        · rintro ⟨h1, h2, h3⟩; exact ⟨by omega, by omega, h3⟩
      · unfold Base.XSSr
        have hm' : m > 0 := by omega
        have hf : i + m - 1 < 1 ∨ i + m - 1 > xs.length + 1 := by omega
        rw [Base.iterator_ok hi.1 hi.2]
        simp only [ok_bind, hm', if_true, Base.iterator, Base.verifyIndex, if_pos hf, error_bind]
        constructor
        · intro h; cases h
        · rintro ⟨h1, h2, h3⟩; omega
  · unfold Base.XSSr Base.iterator Base.verifyIndex
    have hf : i < 1 ∨ i > xs.length + 1 := by omega
    simp only [if_pos hf, error_bind]
    constructor
    · intro h; cases h
    · rintro ⟨h1, h2, h3⟩; omega

/-- Outside of the block a range is reported as out of range, except for a range
that runs exactly one word past the end (see `C03_range_overrun`). -/
theorem C03_range_refused_partial (xs : Words) (i m : Nat)
    (h : i < 1 ∨ xs.length + 1 < i ∨ xs.length + 1 < i - 1 + m) :
    Base.XSSr xs i m = .error .range := by
  by_cases hi : i < 1 ∨ i > xs.length + 1
  · unfold Base.XSSr Base.iterator Base.verifyIndex
    simp only [if_pos hi, error_bind]
  · unfold Base.XSSr
    have hm' : m > 0 := by omega
    have hf : i + m - 1 < 1 ∨ i + m - 1 > xs.length + 1 := by omega
    rw [Base.iterator_ok (by omega) (by omega)]
    simp only [ok_bind, hm', if_true, Base.iterator, Base.verifyIndex, if_pos hf, error_bind]

/-- Finding: a non-empty range that runs one word past the end of the block
passes the index check, and the range handed out leaves the block. -/
theorem C03_range_overrun (xs : Words) (i m : Nat) (hi : 1 ≤ i) (hm : 0 < m)
    (h : i - 1 + m = xs.length + 1) : Base.XSSr xs i m = .error .ub := by
  unfold Base.XSSr
  have hm' : m > 0 := hm
  rw [Base.iterator_ok hi (by omega), Base.iterator_ok (by omega) (by omega)]
  simp only [ok_bind, hm', if_true, pure_eq_ok]
  unfold sub
  rw [if_neg (by omega)]

/-- The full statement of the refusal part of C03 is false. -/
theorem C03_range_refused_false :
    ¬ ∀ (xs : Words) (i m : Nat), ¬ (∃ ws, IsWords xs i m ws) →
        Base.XSSr xs i m = .error .range := by
  intro h
  have := h [Dbl.ofNat 7] 2 1 (by rintro ⟨ws, h⟩; unfold IsWords at h; simp at h)
  revert this; decide

/-- `IXSS` returns the word rounded to the nearest integer. -/
theorem C03_integer (xs : Words) (i : Nat) (n : Int) (s : Bool) (man : Nat) (exp : Int)
    (hx : Base.XSS xs i = .ok (.fin s man exp)) (hn : Base.IXSS xs i = .ok n) :
    IsRounded s man exp n := by
  unfold Base.IXSS at hn
  rw [hx] at hn
  simp only [ok_bind, Dbl.round?, toInt32] at hn
  split at hn
  · injection hn with hn
    subst hn
    unfold IsRounded
    have hna : (Dbl.signed s (Dbl.roundMag man exp)).natAbs = Dbl.roundMag man exp := by
      unfold Dbl.signed; split <;> simp
    refine ⟨?_, ?_, ?_⟩
    · unfold Dbl.signed; split <;> simp_all
    · unfold Dbl.signed; cases s <;> simp
    · rw [hna]
      unfold Dbl.roundMag
      split
      · rfl
      · generalize hp : 2 ^ (-exp).toNat = p
        have hpos : 0 < p := by subst hp; exact Nat.two_pow_pos _
        have h2 : 2 ^ ((-exp).toNat + 1) = 2 * p := by rw [Nat.pow_succ, hp, Nat.mul_comm]
        rw [h2]
        generalize hq : (2 * man + p) / (2 * p) = q
        have hd := Nat.div_add_mod (2 * man + p) (2 * p)
        have hm := Nat.mod_lt (2 * man + p) (y := 2 * p) (by omega)
        rw [hq] at hd
        have e1 : 2 * p * q = 2 * q * p := by ac_rfl
        have e2 : (2 * q + 1) * p = 2 * q * p + p := by rw [Nat.add_mul, Nat.one_mul]
        rw [e1] at hd
        rw [e2]
        omega
  · cases hn

/-- The conversion is refused only if the rounded value does not fit an `int`. -/
theorem C03_integer_total (xs : Words) (i : Nat) (n : Int) (x : Dbl)
    (hx : Base.XSS xs i = .ok x) (hr : x.round? = some n) (hf : Fits n) :
    Base.IXSS xs i = .ok n := by
  unfold Base.IXSS
  rw [hx]
  simp [hr, toInt32_some hf]

/-- An integer that was stored in a word comes back unchanged. -/
theorem C03_integer_exact (xs : Words) (i : Nat) (n : Int) (hf : Fits n)
    (hx : Base.XSS xs i = .ok (Dbl.ofInt n)) : Base.IXSS xs i = .ok n :=
  C03_integer_total xs i n _ hx (by simp) hf

-- the hypotheses are met by concrete blocks
example : Base.XSSr [Dbl.ofNat 1, Dbl.ofNat 2, Dbl.ofNat 3] 2 2 = .ok [Dbl.ofNat 2, Dbl.ofNat 3] := by
  decide
example : Base.XSSr [Dbl.ofNat 1] 2 0 = .ok [] := by decide
example : Base.XSSr [Dbl.ofNat 1] 2 1 = .error .ub := by decide
example : Base.XSSr [Dbl.ofNat 1] 2 2 = .error .range := by decide
-- 2.5 rounds to 3, -2.5 to -3 and 2.25 to 2
example : Base.IXSS [.fin false 5 (-1), .fin true 5 (-1), .fin false 9 (-2)] 1 = .ok 3 := by decide
example : Base.IXSS [.fin false 5 (-1), .fin true 5 (-1), .fin false 9 (-2)] 2 = .ok (-3) := by decide
example : Base.IXSS [.fin false 5 (-1), .fin true 5 (-1), .fin false 9 (-2)] 3 = .ok 2 := by decide
example : IsRounded false 5 (-1) 3 := by unfold IsRounded; decide

/-- The hypotheses of the remaining theorems are met by a block of three words, one of them 2.5. -/
example : Base.XSSr [Dbl.ofNat 7, .fin false 5 (-1), Dbl.ofInt (-3)] 2 5 = .error .range :=
  C03_range_refused_partial _ _ _ (by decide)
example : Base.XSSr [Dbl.ofNat 7, .fin false 5 (-1), Dbl.ofInt (-3)] 2 3 = .error .ub :=
  C03_range_overrun _ _ _ (by decide) (by decide) (by decide)
example : IsRounded false 5 (-1) 3 :=
  C03_integer [Dbl.ofNat 7, .fin false 5 (-1), Dbl.ofInt (-3)] 2 3 _ _ _ (by decide) (by decide)
example : Base.IXSS [Dbl.ofNat 7, .fin false 5 (-1), Dbl.ofInt (-3)] 2 = .ok 3 :=
  C03_integer_total _ _ _ (.fin false 5 (-1)) (by decide) (by decide) (by decide)
example : Base.IXSS [Dbl.ofNat 7, .fin false 5 (-1), Dbl.ofInt (-3)] 3 = .ok (-3) :=
  C03_integer_exact _ _ _ (by decide) (by decide)

end ACE.Props

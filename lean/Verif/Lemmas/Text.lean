import Verif.Model.TableText
import Verif.Lemmas.Core

/-! # Columns, tokens and numbers -/

namespace ACE.Text
open ACE

theorem dropWhile_replicate (n : Nat) (s : Str) :
    (List.replicate n ' ' ++ s).dropWhile isSpace = s.dropWhile isSpace := by
  induction n with
  | zero => rfl
  | succ n ih =>
    rw [List.replicate_succ, List.cons_append, List.dropWhile_cons, if_pos (by decide), ih]

theorem dropWhile_eq_self {s : Str} (h : ∀ c, s.head? = some c → isSpace c = false) :
    s.dropWhile isSpace = s := by
  cases s with
  | nil => rfl
  | cons c s => rw [List.dropWhile_cons, if_neg (by simp [h c rfl])]

theorem head_dropWhile {s : Str} {c : Char} (h : (s.dropWhile isSpace).head? = some c) :
    isSpace c = false := by
  induction s with
  | nil => cases h
  | cons a s ih =>
    rw [List.dropWhile_cons] at h
    split at h
    · exact ih h
    · rename_i ha
      simp at h
      subst h
      simpa using ha

/-- No white space at either end. -/
structure Trim (s : Str) : Prop where
  front : ∀ c, s.head? = some c → isSpace c = false
  back : ∀ c, s.getLast? = some c → isSpace c = false

theorem head_reverse (s : Str) : s.reverse.head? = s.getLast? := List.head?_reverse

theorem strip_trim (s : Str) : Trim (strip s) := by
  unfold strip
  constructor
  · intro c hc
    simp only at hc
    rw [List.head?_reverse] at hc
    generalize hf : s.dropWhile isSpace = f at hc
    -- the first character of the reversed rest is the first one of `f`
    have hsuf : (f.reverse.dropWhile isSpace) <:+ f.reverse := List.dropWhile_suffix _
    obtain ⟨p, hp⟩ := hsuf
    have hl : f.reverse.getLast? = some c := by
      rw [← hp, List.getLast?_append, hc]; rfl
    rw [List.getLast?_reverse] at hl
    rw [← hf] at hl
    exact head_dropWhile hl
  · intro c hc
    simp only at hc
    rw [List.getLast?_reverse] at hc
    exact head_dropWhile hc

theorem strip_of_trim {s : Str} (h : Trim s) : strip s = s := by
  unfold strip
  simp only
  rw [dropWhile_eq_self h.front, dropWhile_eq_self (fun c hc => h.back c (by rw [← head_reverse]; exact hc)),
    List.reverse_reverse]

theorem strip_padded {s : Str} (h : Trim s) (a b : Nat) :
    strip (List.replicate a ' ' ++ s ++ List.replicate b ' ') = s := by
  unfold strip
  simp only
  rw [List.append_assoc, dropWhile_replicate]
  cases s with
  | nil =>
    have : (List.replicate b ' ' : Str).dropWhile isSpace = [] := by
      have := dropWhile_replicate b []
      simpa using this
    rw [List.nil_append, this]; rfl
  | cons c s =>
    rw [List.cons_append, List.dropWhile_cons, if_neg (by simp [h.front c rfl]), ← List.cons_append,
      List.reverse_append, List.reverse_replicate, dropWhile_replicate,
      dropWhile_eq_self (fun d hd => h.back d (by rw [← head_reverse]; exact hd)), List.reverse_reverse]

theorem trim_of_noSpace {s : Str} (h : ∀ c ∈ s, isSpace c = false) : Trim s where
  front := fun c hc => h c (List.mem_of_head? hc)
  back := fun c hc => h c (List.mem_of_getLast? hc)

theorem nextLine_append {l : Str} (h : newline ∉ l) (rest : Str) :
    nextLine (l ++ newline :: rest) = .ok (l, rest) := by
  have ht : (l ++ newline :: rest).takeWhile (· != newline) = l := by
    rw [List.takeWhile_append_of_pos (by intro c hc; simp; rintro rfl; exact h hc)]
    simp
  have hd : (l ++ newline :: rest).dropWhile (· != newline) = newline :: rest := by
    rw [List.dropWhile_append_of_pos (by intro c hc; simp; rintro rfl; exact h hc)]
    simp
  cases hs : l ++ newline :: rest with
  | nil => simp at hs
  | cons a b =>
    rw [hs] at ht hd
    simp only [nextLine, ht, hd, List.drop_one, List.tail_cons]

theorem column_of {line a b c : Str} (h : line = a ++ b ++ c) {i w : Nat} (hi : i = a.length)
    (hw : w = b.length) : column line i w = b := by
  subst hi hw h
  unfold column left
  rw [List.append_assoc, List.drop_left, List.take_left]
  simp

theorem column_first {line b c : Str} (h : line = b ++ c) {w : Nat} (hw : w = b.length) :
    column line 0 w = b := column_of (a := []) (c := c) (by simpa using h) rfl hw

theorem column_end {line a b : Str} (h : line = a ++ b) {i w : Nat} (hi : i = a.length)
    (hw : b.length ≤ w) : column line i w = b ++ List.replicate (w - b.length) ' ' := by
  subst hi h
  unfold column left
  rw [List.drop_left, List.take_of_length_le hw]

theorem column_whole {b : Str} {w : Nat} (hw : b.length ≤ w) :
    column b 0 w = b ++ List.replicate (w - b.length) ' ' := column_end (a := []) rfl rfl hw

theorem left_of {s : Str} {n : Nat} (h : s.length ≤ n) :
    left s n = s ++ List.replicate (n - s.length) ' ' := by
  unfold left; rw [List.take_of_length_le h]

theorem left_length (s : Str) (n : Nat) : (left s n).length = n := by
  unfold left; simp; omega

theorem right_of {s : Str} {n : Nat} (h : s.length ≤ n) : right s n = .ok (pad n s) := by
  unfold right
  simp only [left_length]
  rw [if_pos h, left_of h, List.drop_left, List.take_left]
  rfl

theorem right_ub {s : Str} {n : Nat} (h : n < s.length) : right s n = .error .ub := by
  unfold right
  simp only [left_length]
  rw [if_neg (by omega)]

theorem pad_length {s : Str} {n : Nat} (h : s.length ≤ n) : (pad n s).length = n := by
  unfold pad; simp; omega

theorem pad_newline {s : Str} {n : Nat} (h : newline ∉ s) : newline ∉ pad n s := by
  unfold pad
  simp only [List.mem_append, List.mem_replicate, not_or]
  exact ⟨fun ⟨_, h⟩ => by revert h; decide, h⟩

theorem left_newline {s : Str} {n : Nat} (h : newline ∉ s) : newline ∉ left s n := by
  unfold left
  simp only [List.mem_append, List.mem_replicate, not_or]
  exact ⟨fun hh => h (List.mem_of_mem_take hh), fun ⟨_, h⟩ => by revert h; decide⟩

theorem strip_pad {s : Str} (h : Trim s) (n : Nat) : strip (pad n s) = s := by
  have := strip_padded h (n - s.length) 0
  simpa [pad] using this

theorem strip_left {s : Str} (h : Trim s) {n : Nat} (hn : s.length ≤ n) : strip (left s n) = s := by
  have := strip_padded h 0 (n - s.length)
  rw [left_of hn]
  simpa using this

theorem isReal_space {c : Char} (h : isReal c = true) : isSpace c = false := by
  cases hs : isSpace c with
  | false => rfl
  | true =>
    unfold isSpace Ident.isSpace at hs
    simp only [decide_eq_true_eq] at hs
    rcases hs with rfl | rfl | rfl | rfl | rfl | rfl <;> revert h <;> decide

/-- A real that is written in at most `w` characters and read as `y`. -/
structure Written (F : Formats) (w : Nat) (s : Str) (y : Dbl) : Prop where
  some : s ≠ []
  fits : s.length ≤ w
  real : ∀ c ∈ s, isReal c = true
  value : F.value s = .some y

namespace Written
variable {F : Formats} {w : Nat} {s : Str} {y : Dbl}

theorem noSpace (h : Written F w s y) : ∀ c ∈ s, isSpace c = false := fun c hc => isReal_space (h.real c hc)

theorem newline (h : Written F w s y) : Text.newline ∉ pad w s :=
  pad_newline fun hc => absurd (h.noSpace _ hc) (by decide)

theorem length (h : Written F w s y) : (pad w s).length = w := pad_length h.fits

theorem read (h : Written F w s y) : F.read (pad w s) = .ok y := by
  unfold Formats.read
  rw [strip_pad (trim_of_noSpace h.noSpace)]
  cases s with
  | nil => exact absurd rfl h.some
  | cons c s => simp only [h.value]

theorem extract (h : Written F w s y) {rest : Str} (hr : ∀ c, rest.head? = .some c → isReal c = false)
    (n : Nat) : F.extract (List.replicate n ' ' ++ (s ++ rest)) = .some (y, rest) := by
  unfold Formats.extract
  simp only
  have hd : (List.replicate n ' ' ++ (s ++ rest)).dropWhile isSpace = s ++ rest := by
    rw [dropWhile_replicate]
    refine dropWhile_eq_self ?_
    intro c hc
    cases hs : s with
    | nil => exact absurd hs h.some
    | cons a t =>
      rw [hs] at hc
      simp at hc
      subst hc
      exact h.noSpace a (by rw [hs]; simp)
  have ht : (s ++ rest).takeWhile isReal = s := by
    rw [List.takeWhile_append_of_pos h.real]
    cases rest with
    | nil => simp
    | cons a r => rw [List.takeWhile_cons, if_neg (by simp [hr a rfl])]; simp
  have hw : (s ++ rest).dropWhile isReal = rest := by
    rw [List.dropWhile_append_of_pos h.real]
    cases rest with
    | nil => rfl
    | cons a r => rw [List.dropWhile_cons, if_neg (by simp [hr a rfl])]
  rw [hd, ht, hw, h.value]

end Written

/-! ## Integers -/

theorem digit_toNat (n : Nat) : (digit n).toNat = 48 + n % 10 := by
  have h : n % 10 < 10 := Nat.mod_lt _ (by decide)
  unfold digit
  generalize n % 10 = k at h
  revert k
  decide

theorem digit_isDigit (n : Nat) : (digit n).isDigit = true := by
  have h : n % 10 < 10 := Nat.mod_lt _ (by decide)
  unfold digit
  generalize n % 10 = k at h
  revert k
  decide

theorem digits_length (k n : Nat) : (digits k n).length = k := by
  induction k generalizing n with
  | zero => rfl
  | succ k ih => simp [digits, ih]

theorem digits_isDigit (k n : Nat) : ∀ c ∈ digits k n, c.isDigit = true := by
  induction k generalizing n with
  | zero => intro c hc; cases hc
  | succ k ih =>
    intro c hc
    simp only [digits, List.mem_append, List.mem_singleton] at hc
    rcases hc with hc | rfl
    · exact ih _ c hc
    · exact digit_isDigit n

theorem toNat_append (a : Str) (c : Char) : toNat (a ++ [c]) = 10 * toNat a + (c.toNat - 48) := by
  simp [toNat]

theorem toNat_digits (k n : Nat) : toNat (digits k n) = n % 10 ^ k := by
  induction k generalizing n with
  | zero => simp [digits, toNat, Nat.mod_one]
  | succ k ih =>
    rw [digits, toNat_append, ih, digit_toNat, Nat.pow_succ, Nat.mul_comm (10 ^ k) 10, Nat.mod_mul]
    omega

theorem moreDigits_spec : ∀ (fuel n : Nat), n ≤ fuel →
    n < 10 ^ (moreDigits fuel n + 1) ∧ (moreDigits fuel n ≠ 0 → 10 ^ moreDigits fuel n ≤ n)
  | 0, n, h => by
      obtain rfl : n = 0 := by omega
      simp [moreDigits]
  | fuel + 1, n, h => by
      unfold moreDigits
      split
      · rename_i hn
        simp; omega
      · rename_i hn
        obtain ⟨h1, h2⟩ := moreDigits_spec fuel (n / 10) (by omega)
        refine ⟨?_, fun _ => ?_⟩
        · rw [Nat.pow_succ]; omega
        · rw [Nat.pow_succ]
          by_cases h0 : moreDigits fuel (n / 10) = 0
          · rw [h0]; simp; omega
          · have := h2 h0; omega

theorem lt_numDigits (n : Nat) : n < 10 ^ numDigits n := (moreDigits_spec n n (Nat.le_refl n)).1

theorem numDigits_le {n k : Nat} (hk : 1 ≤ k) (h : n < 10 ^ k) : numDigits n ≤ k := by
  unfold numDigits
  have h2 := (moreDigits_spec n n (Nat.le_refl n)).2
  by_cases h0 : moreDigits n n = 0
  · omega
  · have h2 := h2 h0
    have : 10 ^ moreDigits n n < 10 ^ k := by omega
    have := (Nat.pow_lt_pow_iff_right (by decide : 1 < 10)).mp this
    omega

theorem toNat_ofNat (n : Nat) : toNat (ofNat n) = n := by
  unfold ofNat
  rw [toNat_digits, Nat.mod_eq_of_lt (lt_numDigits n)]

theorem ofNat_length (n : Nat) : (ofNat n).length = numDigits n := digits_length _ _
theorem ofNat_ne (n : Nat) : ofNat n ≠ [] := by
  intro h
  have := ofNat_length n
  rw [h] at this
  simp [numDigits] at this
theorem ofNat_isDigit (n : Nat) : ∀ c ∈ ofNat n, c.isDigit = true := digits_isDigit _ _
theorem ofNat_length_le {n k : Nat} (hk : 1 ≤ k) (h : n < 10 ^ k) : (ofNat n).length ≤ k := by
  rw [ofNat_length]; exact numDigits_le hk h

theorem allDigits_ofNat (n : Nat) : allDigits (ofNat n) = some n := by
  unfold allDigits
  rw [if_pos ⟨ofNat_ne n, by simpa using ofNat_isDigit n⟩, toNat_ofNat]

theorem isDigit_space {c : Char} (h : c.isDigit = true) : isSpace c = false :=
  isReal_space (by simp [isReal, h])

theorem ofInt_noSpace (i : Int) : ∀ c ∈ ofInt i, isSpace c = false := by
  intro c hc
  unfold ofInt at hc
  split at hc
  · simp at hc
    rcases hc with rfl | hc
    · decide
    · exact isDigit_space (ofNat_isDigit _ c hc)
  · exact isDigit_space (ofNat_isDigit _ c hc)

theorem ofInt_newline (i : Int) (w : Nat) : newline ∉ pad w (ofInt i) :=
  pad_newline fun hc => absurd (ofInt_noSpace i _ hc) (by decide)

/-- An integer that fits a field of `w` columns. -/
def FitsField (w : Nat) (i : Int) : Prop := (ofInt i).length ≤ w

theorem readInt_pad (i : Int) (w : Nat) : readInt (pad w (ofInt i)) = .ok i := by
  unfold readInt
  rw [strip_pad (trim_of_noSpace (ofInt_noSpace i))]
  by_cases h : i < 0
  · have e : ofInt i = '-' :: ofNat i.natAbs := by unfold ofInt; rw [if_pos h]
    rw [e]
    simp only [allDigits_ofNat]
    congr 1
    omega
  · have e : ofInt i = ofNat i.natAbs := by unfold ofInt; rw [if_neg h]
    rw [e]
    have hd := ofNat_isDigit i.natAbs
    have ha := allDigits_ofNat i.natAbs
    cases hs : ofNat i.natAbs with
    | nil => exact absurd hs (ofNat_ne _)
    | cons c s =>
      rw [hs] at hd ha
      have hc : c.isDigit = true := hd c (by simp)
      have hm : c ≠ '-' := by rintro rfl; revert hc; decide
      have hp : c ≠ '+' := by rintro rfl; revert hc; decide
      split
      · rename_i h; cases h
      · rename_i h; simp at h; exact absurd h.1 hm
      · rename_i h; simp at h; exact absurd h.1 hp
      · rw [ha]; simp only; congr 1; omega

theorem fitsField_of {i : Int} {w : Nat} (h1 : -(10 ^ (w - 1) : Nat) < i) (h2 : i < (10 ^ w : Nat)) (hw : 2 ≤ w) :
    FitsField w i := by
  unfold FitsField ofInt
  split
  · rename_i h
    have := ofNat_length_le (n := i.natAbs) (k := w - 1) (by omega) (by omega)
    simp; omega
  · exact ofNat_length_le (by omega) (by omega)

end ACE.Text

namespace ACE.Text
open ACE

theorem extract_token {s rest : Str} (hs : s ≠ []) (hn : ∀ c ∈ s, isSpace c = false)
    (hr : ∀ c, rest.head? = some c → isSpace c = true) (n : Nat) :
    extract (List.replicate n ' ' ++ (s ++ rest)) = some (s, rest) := by
  have hd : (List.replicate n ' ' ++ (s ++ rest)).dropWhile isSpace = s ++ rest := by
    rw [dropWhile_replicate]
    refine dropWhile_eq_self ?_
    intro c hc
    cases s with
    | nil => exact absurd rfl hs
    | cons a t =>
      simp at hc
      subst hc
      exact hn a (by simp)
  have ht : (s ++ rest).takeWhile (!isSpace ·) = s := by
    rw [List.takeWhile_append_of_pos (by intro c hc; simp [hn c hc])]
    cases rest with
    | nil => simp
    | cons a r => rw [List.takeWhile_cons, if_neg (by simp [hr a rfl])]; simp
  have hw : (s ++ rest).dropWhile (!isSpace ·) = rest := by
    rw [List.dropWhile_append_of_pos (by intro c hc; simp [hn c hc])]
    cases rest with
    | nil => rfl
    | cons a r => rw [List.dropWhile_cons, if_neg (by simp [hr a rfl])]
  unfold extract
  simp only
  rw [hd, if_neg (by simp [hs]), ht, hw]

end ACE.Text

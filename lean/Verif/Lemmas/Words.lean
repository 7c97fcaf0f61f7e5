import Verif.Lemmas.Text

/-!
# Words: what `operator>>` finds on a line
-/

namespace ACE
namespace Text

/-- A character before a text with the words `ws`. -/
def addWord (c : Char) (s : Str) (ws : List Str) : List Str :=
  match s with
  | [] => [[c]]
  | d :: _ => if isSpace d then [c] :: ws else (c :: ws.headD []) :: ws.tail

/-- The words of a text (between white space). -/
def words : Str → List Str
  | [] => []
  | c :: s => if isSpace c then words s else addWord c s (words s)

theorem words_space {c : Char} (h : isSpace c = true) (s : Str) : words (c :: s) = words s := by
  rw [words, if_pos h]

theorem words_blanks (n : Nat) (s : Str) : words (List.replicate n ' ' ++ s) = words s := by
  induction n with
  | zero => rfl
  | succ n ih => rw [List.replicate_succ, List.cons_append, words_space (by decide), ih]

theorem words_dropWhile (s : Str) : words (s.dropWhile isSpace) = words s := by
  induction s with
  | nil => rfl
  | cons c s ih =>
    rw [List.dropWhile_cons]
    split
    · rename_i h; rw [ih, words_space h]
    · rfl

theorem words_token {t : Str} (ht : t ≠ []) (hn : ∀ c ∈ t, isSpace c = false) {rest : Str}
    (hr : ∀ c, rest.head? = some c → isSpace c = true) : words (t ++ rest) = t :: words rest := by
  induction t with
  | nil => exact absurd rfl ht
  | cons c t ih =>
    have hc : isSpace c = false := hn c (by simp)
    rw [List.cons_append, words, if_neg (by simp [hc])]
    cases t with
    | nil =>
      cases rest with
      | nil => rfl
      | cons d r =>
        simp only [List.nil_append, addWord]
        rw [if_pos (hr d rfl)]
    | cons d t =>
      have hd : isSpace d = false := hn d (by simp)
      have := ih (by simp) (fun x hx => hn x (by simp [hx]))
      simp only [List.cons_append] at this ⊢
      rw [addWord, if_neg (by simp [hd]), this]
      rfl

/-- A text is white space, a word and a rest; or there is no word. -/
theorem words_cases (s : Str) : (words s = [] ∧ s.dropWhile isSpace = []) ∨
    ∃ w rest, s.dropWhile isSpace = w ++ rest ∧ w ≠ [] ∧ (∀ c ∈ w, isSpace c = false) ∧
      (∀ c, rest.head? = some c → isSpace c = true) ∧ words s = w :: words rest := by
  cases hd : s.dropWhile isSpace with
  | nil =>
    refine .inl ⟨?_, rfl⟩
    rw [← words_dropWhile, hd]; rfl
  | cons c t =>
    refine .inr ⟨(c :: t).takeWhile (!isSpace ·), (c :: t).dropWhile (!isSpace ·), ?_, ?_, ?_, ?_, ?_⟩
    · rw [List.takeWhile_append_dropWhile]
    · have hc : isSpace c = false := head_dropWhile (s := s) (by rw [hd]; rfl)
      rw [List.takeWhile_cons, if_pos (by simp [hc])]
      simp
    · intro x hx
      have := List.all_takeWhile (p := fun x => !isSpace x) (l := c :: t)
      rw [List.all_eq_true] at this
      simpa using this x hx
    · intro x hx
      have := List.head?_dropWhile_not (fun x => !isSpace x) (c :: t)
      rw [hx] at this
      simpa using this
    · rw [← words_dropWhile, hd]
      have hc : isSpace c = false := head_dropWhile (s := s) (by rw [hd]; rfl)
      conv => lhs; rw [← List.takeWhile_append_dropWhile (p := fun x => !isSpace x) (l := c :: t)]
      refine words_token ?_ ?_ ?_
      · rw [List.takeWhile_cons, if_pos (by simp [hc])]
        simp
      · intro x hx
        have := List.all_takeWhile (p := fun x => !isSpace x) (l := c :: t)
        rw [List.all_eq_true] at this
        simpa using this x hx
      · intro x hx
        have := List.head?_dropWhile_not (fun x => !isSpace x) (c :: t)
        rw [hx] at this
        simpa using this

theorem words_inv {s w : Str} {ws : List Str} (h : words s = w :: ws) : ∃ rest,
    s.dropWhile isSpace = w ++ rest ∧ w ≠ [] ∧ (∀ c ∈ w, isSpace c = false) ∧
      (∀ c, rest.head? = some c → isSpace c = true) ∧ words rest = ws := by
  rcases words_cases s with ⟨h1, _⟩ | ⟨w', rest, h1, h2, h3, h4, h5⟩
  · rw [h1] at h; cases h
  · rw [h5] at h
    injection h with e1 e2
    subst e1
    exact ⟨rest, h1, h2, h3, h4, e2⟩

theorem words_nil {s : Str} (h : words s = []) : s.dropWhile isSpace = [] := by
  rcases words_cases s with ⟨_, h1⟩ | ⟨w', rest, _, _, _, _, h5⟩
  · exact h1
  · rw [h5] at h; cases h

theorem words_append (a : Str) {b : Str} (hb : ∀ c, b.head? = some c → isSpace c = true) :
    words (a ++ b) = words a ++ words b := by
  induction a with
  | nil => rfl
  | cons c a ih =>
    rw [List.cons_append, words]
    by_cases hc : isSpace c = true
    · rw [if_pos hc, ih, words_space hc]
    · rw [if_neg hc, words, if_neg hc]
      cases a with
      | nil =>
        cases b with
        | nil => rfl
        | cons d b =>
          simp only [List.nil_append, addWord]
          rw [if_pos (hb d rfl)]
          rfl
      | cons d a =>
        simp only [List.cons_append, addWord] at ih ⊢
        by_cases hd : isSpace d = true
        · rw [if_pos hd, if_pos hd, ih]; rfl
        · rw [if_neg hd, if_neg hd, ih]
          have hne : words (d :: a) ≠ [] := by
            intro he
            have := words_nil he
            rw [List.dropWhile_cons, if_neg hd] at this
            cases this
          cases hw : words (d :: a) with
          | nil => exact absurd hw hne
          | cons w ws => rfl

theorem words_snoc_space (a : Str) {c : Char} (hc : isSpace c = true) (b : Str) :
    words (a ++ c :: b) = words a ++ words b := by
  rw [words_append a (by intro x hx; simp at hx; subst hx; exact hc), words_space hc]

theorem words_allSpace {s : Str} (h : ∀ c ∈ s, isSpace c = true) : words s = [] := by
  induction s with
  | nil => rfl
  | cons c s ih => rw [words_space (h c (by simp)), ih fun x hx => h x (by simp [hx])]

theorem words_append_space (a : Str) {s : Str} (h : ∀ c ∈ s, isSpace c = true) : words (a ++ s) = words a := by
  rw [words_append a fun c hc => h c (List.mem_of_head? hc), words_allSpace h, List.append_nil]

theorem strip_split (s : Str) : ∃ a b : Str, s = a ++ strip s ++ b ∧ (∀ c ∈ a, isSpace c = true) ∧
    (∀ c ∈ b, isSpace c = true) := by
  refine ⟨s.takeWhile isSpace, ((s.dropWhile isSpace).reverse.takeWhile isSpace).reverse, ?_, ?_, ?_⟩
  · unfold strip
    simp only
    rw [List.append_assoc, ← List.reverse_append, List.takeWhile_append_dropWhile, List.reverse_reverse,
      List.takeWhile_append_dropWhile]
  · intro c hc
    have := List.all_takeWhile (p := isSpace) (l := s)
    rw [List.all_eq_true] at this
    exact this c hc
  · intro c hc
    have := List.all_takeWhile (p := isSpace) (l := (s.dropWhile isSpace).reverse)
    rw [List.all_eq_true] at this
    exact this c (List.mem_reverse.mp hc)

theorem words_strip (s : Str) : words (strip s) = words s := by
  obtain ⟨a, b, h, ha, hb⟩ := strip_split s
  conv => rhs; rw [h]
  rw [words_append_space _ hb]
  have key : ∀ (a : Str), (∀ c ∈ a, isSpace c = true) → ∀ t, words (a ++ t) = words t := by
    intro a ha t
    induction a with
    | nil => rfl
    | cons c a ih => rw [List.cons_append, words_space (ha c (by simp)), ih fun x hx => ha x (by simp [hx])]
  rw [key a ha]

/-! ## Extraction -/

theorem extract_words {s w : Str} {ws : List Str} (h : words s = w :: ws) :
    ∃ rest, extract s = some (w, rest) ∧ words rest = ws := by
  obtain ⟨rest, h1, h2, h3, h4, h5⟩ := words_inv h
  refine ⟨rest, ?_, h5⟩
  have := extract_token h2 h3 h4 0
  rw [List.replicate_zero, List.nil_append] at this
  unfold extract at this ⊢
  have hd : (w ++ rest).dropWhile isSpace = s.dropWhile isSpace := by
    rw [h1]
    refine dropWhile_eq_self ?_
    intro c hc
    cases w with
    | nil => exact absurd rfl h2
    | cons x w => simp at hc; subst hc; exact h3 x (by simp)
  rw [hd] at this
  exact this

theorem extract_nil {s : Str} (h : words s = []) : extract s = none := by
  unfold extract
  rw [words_nil h]
  rfl

theorem extractReal_words {F : Formats} {n : Nat} {s w : Str} {y : Dbl} {ws : List Str} (h : words s = w :: ws)
    (hw : Written F n w y) : ∃ rest, F.extract s = some (y, rest) ∧ words rest = ws := by
  obtain ⟨rest, h1, h2, h3, h4, h5⟩ := words_inv h
  refine ⟨rest, ?_, h5⟩
  have := hw.extract (rest := rest) (by
    intro c hc
    cases hr : isReal c with
    | false => rfl
    | true => exact absurd (h4 c hc) (by rw [isReal_space hr]; simp)) 0
  rw [List.replicate_zero, List.nil_append] at this
  unfold Formats.extract at this ⊢
  have hd : (w ++ rest).dropWhile isSpace = s.dropWhile isSpace := by
    rw [h1]
    refine dropWhile_eq_self ?_
    intro c hc
    cases w with
    | nil => exact absurd rfl h2
    | cons x w => simp at hc; subst hc; exact h3 x (by simp)
  rw [hd] at this
  exact this

theorem space_notDigit {c : Char} (h : isSpace c = true) : c.isDigit = false := by
  cases hd : c.isDigit with
  | false => rfl
  | true => rw [isDigit_space hd] at h; cases h

theorem digit_notSign {c : Char} (h : c.isDigit = true) : c ≠ '-' ∧ c ≠ '+' := by
  constructor <;> (rintro rfl; revert h; decide)

theorem extractNat_words {s : Str} {n : Nat} {ws : List Str} (h : words s = ofNat n :: ws) (hn : n < 4294967296) :
    ∃ rest, extractNat s = some (n, rest) ∧ words rest = ws := by
  obtain ⟨rest, h1, h2, h3, h4, h5⟩ := words_inv h
  refine ⟨rest, ?_, h5⟩
  have hdig := ofNat_isDigit n
  have hhead : ∃ c t, ofNat n = c :: t ∧ c.isDigit = true := by
    cases ho : ofNat n with
    | nil => exact absurd ho (ofNat_ne n)
    | cons c t => exact ⟨c, t, rfl, hdig c (by rw [ho]; simp)⟩
  obtain ⟨c, t, ho, hc⟩ := hhead
  have ⟨m1, m2⟩ := digit_notSign hc
  have hh : (ofNat n ++ rest).head? = some c := by rw [ho]; rfl
  have b1 : ((ofNat n ++ rest).head? == some '-') = false := by rw [hh]; simp [m1]
  have b2 : ((ofNat n ++ rest).head? == some '+') = false := by rw [hh]; simp [m2]
  have ht : (ofNat n ++ rest).takeWhile (·.isDigit) = ofNat n := by
    rw [List.takeWhile_append_of_pos hdig]
    cases rest with
    | nil => simp
    | cons d r => rw [List.takeWhile_cons, if_neg (by simp [space_notDigit (h4 d rfl)]), List.append_nil]
  have hr : (ofNat n ++ rest).dropWhile (·.isDigit) = rest := by
    rw [List.dropWhile_append_of_pos hdig]
    cases rest with
    | nil => simp
    | cons d r => rw [List.dropWhile_cons, if_neg (by simp [space_notDigit (h4 d rfl)])]
  unfold extractNat
  simp only [h1, b1, b2, Bool.or_false, Bool.false_eq_true, if_false, ht, hr, toNat_ofNat]
  rw [if_neg (by
    rintro (he | he)
    · exact ofNat_ne n he
    · omega)]

theorem extractNat_nil {s : Str} (h : words s = []) : extractNat s = none ∧ failedNat s = 0 := by
  constructor
  · unfold extractNat
    simp [words_nil h]
  · unfold failedNat
    simp [words_nil h]

end Text
end ACE

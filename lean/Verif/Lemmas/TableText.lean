import Verif.Lemmas.Text
import Verif.Lemmas.Arrays
import Verif.Lemmas.Located

/-! # The text of a table -/

namespace ACE.Text
open ACE

theorem column_fields {fs : List Str} {w : Nat} (h : ∀ f ∈ fs, f.length = w) (i : Nat) (hi : i < fs.length)
    {a b c : Str} (hf : fs[i] = a ++ b ++ c) {j v : Nat} (hj : j = w * i + a.length) (hv : v = b.length) :
    column fs.flatten j v = b := by
  have ht : (fs.take i).flatten.length = i * w := by
    rw [length_flatten_const _ w (fun x hx => h x (List.mem_of_mem_take hx)), List.length_take]
    congr 1; omega
  refine column_of (a := (fs.take i).flatten ++ a) (c := c ++ (fs.drop (i + 1)).flatten) ?_ ?_ hv
  · rw [flatten_split fs i hi, hf]; simp
  · rw [List.length_append, ht, hj, Nat.mul_comm]

theorem column_field {fs : List Str} {w : Nat} (h : ∀ f ∈ fs, f.length = w) (i : Nat) (hi : i < fs.length) :
    column fs.flatten (w * i) w = fs[i] :=
  column_fields h i hi (a := []) (c := []) (by simp) (by simp) (h _ (List.getElem_mem hi)).symm

theorem newline_flatten {fs : List Str} (h : ∀ f ∈ fs, newline ∉ f) : newline ∉ fs.flatten := by
  rw [List.mem_flatten]
  rintro ⟨f, hf, hn⟩
  exact h f hf hn

end ACE.Text

namespace ACE.TableData
open ACE ACE.Text

/-- A pair with the value that is read for the real. -/
abbrev Pair := Int × Dbl × Dbl

/-- The text of a pair. -/
def pairText (F : Formats) (p : Pair) : Str := pad 7 (Text.ofInt p.1) ++ pad 11 (F.fixed 7 p.2.1)
/-- It fits. -/
def PairOk (F : Formats) (p : Pair) : Prop := FitsField 7 p.1 ∧ Written F 11 (F.fixed 7 p.2.1) p.2.2

theorem pairText_length {F : Formats} {p : Pair} (h : PairOk F p) : (pairText F p).length = 18 := by
  have h1 := pad_length h.1
  have h2 := h.2.length
  simp only [pairText, List.length_append]
  omega

theorem parsePair_eq {F : Formats} {l : List Pair} (h : ∀ p ∈ l, PairOk F p) (i : Nat) (hi : i < l.length) :
    parsePair F (l.map (pairText F)).flatten i = .ok (l[i].1, l[i].2.2) := by
  have hw : ∀ f ∈ l.map (pairText F), f.length = 18 := by
    intro f hf
    obtain ⟨p, hp, rfl⟩ := List.mem_map.mp hf
    exact pairText_length (h p hp)
  have hp := h _ (List.getElem_mem hi)
  have h1 := pad_length hp.1
  have h2 := hp.2.length
  unfold parsePair
  rw [column_fields hw i (by simpa using hi) (a := []) (b := pad 7 (Text.ofInt l[i].1))
      (c := pad 11 (F.fixed 7 l[i].2.1)) (by simp [pairText]) (by simp) (by omega), readInt_pad, ok_bind,
    column_fields hw i (by simpa using hi) (a := pad 7 (Text.ofInt l[i].1))
      (b := pad 11 (F.fixed 7 l[i].2.1)) (c := []) (by simp [pairText]) (by omega) (by omega), hp.2.read]
  rfl

theorem pairs_newline {F : Formats} {l : List Pair} (h : ∀ p ∈ l, PairOk F p) :
    newline ∉ (l.map (pairText F)).flatten := by
  refine newline_flatten ?_
  intro f hf
  obtain ⟨p, hp, rfl⟩ := List.mem_map.mp hf
  simp only [pairText, List.mem_append, not_or]
  exact ⟨ofInt_newline _ _, (h p hp).2.newline⟩

theorem parseIZAW_eq (F : Formats) : ∀ (ls : List (List Pair)) (rest : Str),
    (∀ l ∈ ls, l.length = 4 ∧ ∀ p ∈ l, PairOk F p) →
    parseIZAW F ls.length ((ls.map fun l => (l.map (pairText F)).flatten ++ [newline]).flatten ++ rest) =
      .ok (ls.flatten.map fun p => (p.1, p.2.2), rest)
  | [], rest, _ => rfl
  | l :: ls, rest, h => by
      obtain ⟨h1, h2⟩ := h l (by simp)
      have e : ((l :: ls).map fun l => (l.map (pairText F)).flatten ++ [newline]).flatten ++ rest =
          (l.map (pairText F)).flatten ++ newline ::
            ((ls.map fun l => (l.map (pairText F)).flatten ++ [newline]).flatten ++ rest) := by simp
      rw [List.length_cons, parseIZAW, e, nextLine_append (pairs_newline h2), ok_bind]
      simp only
      rw [mapM_range_eq _ (l.map fun p => (p.1, p.2.2)) 4 (by simp [h1])
          (by intro i hi; rw [List.length_map] at hi; rw [parsePair_eq h2 i hi]; simp), ok_bind,
        parseIZAW_eq F ls rest (fun x hx => h x (by simp [hx])), ok_bind]
      simp [pure_eq_ok]

theorem parseInts_eq : ∀ (ls : List (List Int)) (rest : Str),
    (∀ l ∈ ls, l.length = 8 ∧ ∀ i ∈ l, FitsField 9 i) →
    parseInts ls.length ((ls.map printInts).flatten ++ rest) = .ok (ls.flatten, rest)
  | [], rest, _ => rfl
  | l :: ls, rest, h => by
      obtain ⟨h1, h2⟩ := h l (by simp)
      have e : ((l :: ls).map printInts).flatten ++ rest =
          (l.map fun i => pad 9 (Text.ofInt i)).flatten ++ newline ::
            ((ls.map printInts).flatten ++ rest) := by simp [printInts]
      have hn : newline ∉ (l.map fun i => pad 9 (Text.ofInt i)).flatten := by
        refine newline_flatten ?_
        intro f hf
        obtain ⟨p, hp, rfl⟩ := List.mem_map.mp hf
        exact ofInt_newline _ _
      have hw : ∀ f ∈ l.map fun i => pad 9 (Text.ofInt i), f.length = 9 := by
        intro f hf
        obtain ⟨p, hp, rfl⟩ := List.mem_map.mp hf
        exact pad_length (h2 p hp)
      rw [List.length_cons, parseInts, e, nextLine_append hn, ok_bind]
      simp only
      rw [mapM_range_eq _ l 8 h1.symm (by
            intro i hi
            rw [column_field hw i (by simpa using hi), List.getElem_map, readInt_pad]), ok_bind,
        parseInts_eq ls rest (fun x hx => h x (by simp [hx])), ok_bind]
      simp [pure_eq_ok]

/-- A word with the value that is read. -/
abbrev WordPair := Dbl × Dbl
/-- It fits. -/
def WordOk (F : Formats) (p : WordPair) : Prop := Written F 20 (F.sci 'E' 12 p.1) p.2

/-- The words of a line. -/
def wordsText (F : Formats) (l : Words) : Str := (l.map (printWord F)).flatten

theorem words_newline {F : Formats} {l : List WordPair} (h : ∀ p ∈ l, WordOk F p) :
    newline ∉ wordsText F (l.map (·.1)) := by
  refine newline_flatten ?_
  intro f hf
  rw [List.map_map] at hf
  obtain ⟨p, hp, rfl⟩ := List.mem_map.mp hf
  exact (h p hp).newline

theorem parseWords_eq {F : Formats} {l : List WordPair} (h : ∀ p ∈ l, WordOk F p) :
    parseWords F (wordsText F (l.map (·.1))) l.length = .ok (l.map (·.2)) := by
  have hw : ∀ f ∈ (l.map (·.1)).map (printWord F), f.length = 20 := by
    intro f hf
    rw [List.map_map] at hf
    obtain ⟨p, hp, rfl⟩ := List.mem_map.mp hf
    exact (h p hp).length
  unfold parseWords wordsText
  refine mapM_range_eq _ _ _ (by simp) ?_
  intro i hi
  rw [List.length_map] at hi
  rw [column_field hw i (by simpa using hi)]
  simp only [List.getElem_map]
  exact (h _ (List.getElem_mem hi)).read

/-- The lines of an XSS array. -/
def xssText (F : Formats) : Words → Str
  | [] => []
  | [a] => wordsText F [a] ++ [newline]
  | [a, b] => wordsText F [a, b] ++ [newline]
  | [a, b, c] => wordsText F [a, b, c] ++ [newline]
  | a :: b :: c :: d :: w => wordsText F [a, b, c, d] ++ [newline] ++ xssText F w

theorem printXSS_eq (F : Formats) : ∀ w : Words, printXSS F w = .ok (xssText F w)
  | [] => rfl
  | [a] => by simp [printXSS, printLines, printLast, printEntries, xssText, wordsText, ok_bind, pure_eq_ok]
  | [a, b] => by simp [printXSS, printLines, printLast, printEntries, xssText, wordsText, ok_bind, pure_eq_ok]
  | [a, b, c] => by simp [printXSS, printLines, printLast, printEntries, xssText, wordsText, ok_bind, pure_eq_ok]
  | a :: b :: c :: d :: w => by
      have ih := printXSS_eq F w
      unfold printXSS at ih ⊢
      simp only at ih ⊢
      obtain ⟨r, h1, h2⟩ := bind_eq_ok.mp ih
      obtain ⟨s, h3, h4⟩ := bind_eq_ok.mp h2
      injection h4 with h4
      rw [show (a :: b :: c :: d :: w).length / 4 = w.length / 4 + 1 by simp only [List.length_cons]; omega,
        show (a :: b :: c :: d :: w).length % 4 = w.length % 4 by simp only [List.length_cons]; omega]
      simp only [printLines, h1, ok_bind, pure_eq_ok, h3, xssText, ← h4, wordsText]
      simp

theorem parseLast_eq {F : Formats} {l : List WordPair} (h : ∀ p ∈ l, WordOk F p) {n : Nat} (hn : n = l.length)
    (h0 : n ≠ 0) (rest : Str) :
    parseLast F n (wordsText F (l.map (·.1)) ++ newline :: rest) = .ok (l.map (·.2), rest) := by
  subst hn
  unfold parseLast
  rw [if_pos h0, nextLine_append (words_newline h), ok_bind]
  simp only
  rw [parseWords_eq h]
  rfl

theorem parseXSS_words (F : Formats) : ∀ (l : List WordPair) (rest : Str), (∀ p ∈ l, WordOk F p) →
    (do
      let (lines, text) ← parseLines F (l.length / 4) (xssText F (l.map (·.1)) ++ rest)
      let (last, text) ← parseLast F (l.length % 4) text
      return (lines ++ last, text)) = (.ok (l.map (·.2), rest) : Res (Words × Str))
  | [], rest, _ => rfl
  | [a], rest, h => by
      have e : xssText F ([a].map (·.1)) ++ rest = wordsText F ([a].map (·.1)) ++ newline :: rest := by
        simp [xssText]
      rw [show [a].length / 4 = 0 by simp, show [a].length % 4 = 1 by simp, e, parseLines, ok_bind]
      simp only
      rw [parseLast_eq (l := [a]) h (n := 1) rfl (by decide)]
      rfl
  | [a, b], rest, h => by
      have e : xssText F ([a, b].map (·.1)) ++ rest = wordsText F ([a, b].map (·.1)) ++ newline :: rest := by
        simp [xssText]
      rw [show [a, b].length / 4 = 0 by simp, show [a, b].length % 4 = 2 by simp, e, parseLines, ok_bind]
      simp only
      rw [parseLast_eq (l := [a, b]) h (n := 2) rfl (by decide)]
      rfl
  | [a, b, c], rest, h => by
      have e : xssText F ([a, b, c].map (·.1)) ++ rest = wordsText F ([a, b, c].map (·.1)) ++ newline :: rest := by
        simp [xssText]
      rw [show [a, b, c].length / 4 = 0 by simp, show [a, b, c].length % 4 = 3 by simp, e, parseLines, ok_bind]
      simp only
      rw [parseLast_eq (l := [a, b, c]) h (n := 3) rfl (by decide)]
      rfl
  | a :: b :: c :: d :: l, rest, h => by
      have ih := parseXSS_words F l rest (fun p hp => h p (by simp [hp]))
      have h4 : ∀ p ∈ [a, b, c, d], WordOk F p := by
        intro p hp
        simp at hp
        rcases hp with rfl | rfl | rfl | rfl <;> exact h _ (by simp)
      obtain ⟨r, h1, h2⟩ := bind_eq_ok.mp ih
      obtain ⟨s, h3, h5⟩ := bind_eq_ok.mp h2
      injection h5 with h5
      have hp := parseWords_eq h4
      have e : xssText F ((a :: b :: c :: d :: l).map (·.1)) ++ rest =
          wordsText F ([a, b, c, d].map (·.1)) ++ newline :: (xssText F (l.map (·.1)) ++ rest) := by
        simp [xssText]
      rw [show (a :: b :: c :: d :: l).length / 4 = l.length / 4 + 1 by simp only [List.length_cons]; omega,
        show (a :: b :: c :: d :: l).length % 4 = l.length % 4 by simp only [List.length_cons]; omega, e,
        parseLines, nextLine_append (words_newline h4), ok_bind]
      simp only
      rw [show parseWords F (wordsText F ([a, b, c, d].map (·.1))) 4 = _ from hp, ok_bind, h1, ok_bind]
      simp only [pure_eq_ok, ok_bind, h3]
      simp only [Prod.mk.injEq] at h5
      simp [← h5.1, h5.2]

theorem parseXSS_eq (F : Formats) (l : List WordPair) (rest : Str) (h : ∀ p ∈ l, WordOk F p) :
    parseXSS F (l.length : Int) (xssText F (l.map (·.1)) ++ rest) = .ok (l.map (·.2), rest) := by
  unfold parseXSS
  rw [guardThrow_eq_ok.mpr (by simp), ok_bind, Int.toNat_natCast]
  exact parseXSS_words F l rest h

theorem mapM_fetch {α : Type} (l : List α) (k n : Nat) (hk : k + n = l.length) :
    (List.range' (k + 1) n).mapM (fun i => fetch l i) = .ok (l.drop k) := by
  refine mapM_range_ok _ _ _ _ (by simp; omega) ?_
  intro i hi
  rw [List.length_drop] at hi
  unfold fetch verifyIndex
  rw [if_neg (by omega), ok_bind]
  simp only [show k + 1 + i - 1 = k + i by omega, List.getElem?_eq_getElem (show k + i < l.length by omega),
    List.getElem_drop]

end ACE.TableData

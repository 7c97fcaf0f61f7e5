import Verif.Lemmas.Text
import Verif.Props.C38

/-!
# C39: version 2 headers survive printing and parsing

The second line is printed in columns and read as words, comments are printed as they are and read
from 80 columns.
-/

namespace ACE.Props
open ACE ACE.Text

/-- The strings of a header can be printed and read. -/
structure Header201Fits (h : Header201) : Prop where
  version : h.vers = "2.0.0".toList ∨ h.vers = "2.0.1".toList
  szaid : h.szaid.length ≤ 24
  source : h.src.length ≤ 24
  trim : Trim h.szaid ∧ Trim h.src
  lines : '\n' ∉ h.szaid ∧ '\n' ∉ h.src
  /-- the date is one word -/
  date : h.date ≠ [] ∧ h.date.length ≤ 10 ∧ ∀ c ∈ h.date, isSpace c = false
  /-- each comment is a line of at most 80 characters without white space at its end -/
  comments : ∀ c ∈ h.comments, c.length ≤ 80 ∧ '\n' ∉ c ∧ ∀ x, c.getLast? = some x → isSpace x = false
  number : h.comments.length < 2147483648

/-- The printed header. -/
def header201Text (F : Formats) (h : Header201) : Str :=
  leftIn 10 h.vers ++ " ".toList ++ rightIn 24 h.szaid ++ " ".toList ++ rightIn 24 h.src ++ "\n".toList ++
    rightIn 12 (F.fixed 6 h.awr) ++ " ".toList ++ rightIn 12 (F.sci 'E' 4 h.temp) ++ " ".toList ++
    rightIn 10 h.date ++ " ".toList ++ rightIn 10 (Text.ofNat h.comments.length) ++ "\n".toList ++
    (h.comments.map (· ++ "\n".toList)).flatten

theorem C39.comments_eq (l : List Str) :
    Header201.printComments l = (l.map (· ++ "\n".toList)).flatten := by
  induction l with
  | nil => rfl
  | cons c l ih => simp [Header201.printComments, ih, newline]

theorem C39_printed (F : Formats) (h : Header201) (hf : Header201Fits h) :
    h.print F = .ok (header201Text F h) := by
  have hv : h.vers.length ≤ 10 := by rcases hf.version with e | e <;> rw [e] <;> decide
  unfold Header201.print
  rw [right_of hf.szaid, ok_bind, right_of hf.source, ok_bind, right_of hf.date.2.1, ok_bind, left_of hv,
    pure_eq_ok, C39.comments_eq]
  simp [header201Text, rightIn, leftIn, pad, newline]

theorem C39.stripRight_of {c : Str} (h : ∀ x, c.getLast? = some x → isSpace x = false) (n : Nat) :
    Header201.stripRight (c ++ List.replicate n ' ') = c := by
  unfold Header201.stripRight
  rw [List.reverse_append, List.reverse_replicate, dropWhile_replicate,
    dropWhile_eq_self (fun d hd => h d (by rw [← head_reverse]; exact hd)), List.reverse_reverse]

theorem C39.parseComments_eq : ∀ (l : List Str) (rest : Str),
    (∀ c ∈ l, c.length ≤ 80 ∧ '\n' ∉ c ∧ ∀ x, c.getLast? = some x → isSpace x = false) →
    Header201.parseComments l.length (Header201.printComments l ++ rest) = .ok (l, rest)
  | [], rest, _ => rfl
  | c :: l, rest, h => by
      obtain ⟨h1, h2, h3⟩ := h c (by simp)
      rw [List.length_cons, Header201.parseComments,
        show Header201.printComments (c :: l) ++ rest = c ++ newline :: (Header201.printComments l ++ rest) by
          simp [Header201.printComments], nextLine_append h2, ok_bind]
      simp only
      rw [parseComments_eq l rest (fun x hx => h x (by simp [hx])), ok_bind,
        column_whole h1, stripRight_of h3]
      rfl

theorem C39.number_eq {n : Nat} (h : n < 2147483648) (k j : Nat) :
    Header201.number (List.replicate k ' ' ++ (ofNat n ++ List.replicate j ' ')) = .ok (n : Int) := by
  have hd : (List.replicate k ' ' ++ (ofNat n ++ List.replicate j ' ')).dropWhile isSpace =
      ofNat n ++ List.replicate j ' ' := by
    rw [dropWhile_replicate]
    refine dropWhile_eq_self ?_
    intro c hc
    cases hs : ofNat n with
    | nil => exact absurd hs (ofNat_ne n)
    | cons a t =>
      rw [hs] at hc
      simp at hc
      subst hc
      exact isDigit_space (ofNat_isDigit n a (by rw [hs]; simp))
  have hu : Header201.unsigned (ofNat n ++ List.replicate j ' ') = n := by
    unfold Header201.unsigned
    rw [List.takeWhile_append_of_pos (ofNat_isDigit n)]
    have : (List.replicate j ' ' : Str).takeWhile (·.isDigit) = [] := by
      cases j with
      | zero => rfl
      | succ j => rw [List.replicate_succ, List.takeWhile_cons, if_neg (by decide)]
    rw [this, List.append_nil, toNat_ofNat]
  unfold Header201.number
  rw [hd]
  have hne := ofNat_ne n
  have hdig := ofNat_isDigit n
  cases hs : ofNat n with
  | nil => exact absurd hs hne
  | cons a t =>
    rw [hs] at hu hdig
    have ha : a.isDigit = true := hdig a (by simp)
    have hm : a ≠ '-' := by rintro rfl; revert ha; decide
    have hp : a ≠ '+' := by rintro rfl; revert ha; decide
    split
    · rename_i h; cases h
    · rename_i h; simp at h; exact absurd h.1 hm
    · rename_i h; simp at h; exact absurd h.1 hp
    · rw [hu]
      congr 2
      omega

/-- A header is returned from its printed form, whatever follows it. -/
theorem C39_round_trip_partial (F : Formats) (h : Header201) (hf : Header201Fits h) (awr temp : Dbl)
    (ha : Written F 12 (F.fixed 6 h.awr) awr) (ht : Written F 12 (F.sci 'E' 4 h.temp) temp)
    (pa : awr.isNeg = false) (pt : temp.isNeg = false) (rest : Str) :
    ∃ text, h.print F = .ok text ∧
      Header201.parse F (text ++ rest) = .ok ({ h with awr := awr, temp := temp }, rest) := by
  refine ⟨_, C39_printed F h hf, ?_⟩
  obtain ⟨t1, t2⟩ := hf.trim
  obtain ⟨l1, l2⟩ := hf.lines
  obtain ⟨d1, d2, d3⟩ := hf.date
  have hv : h.vers.length ≤ 10 := by rcases hf.version with e | e <;> rw [e] <;> decide
  have lv : '\n' ∉ h.vers := by rcases hf.version with e | e <;> rw [e] <;> decide
  have tv : Trim h.vers := by
    refine trim_of_noSpace ?_
    rcases hf.version with e | e <;> rw [e] <;> decide
  have e : header201Text F h ++ rest = (left h.vers 10 ++ [' '] ++ pad 24 h.szaid ++ [' '] ++ pad 24 h.src) ++
      newline :: ((pad 12 (F.fixed 6 h.awr) ++ ([' '] ++ (pad 12 (F.sci 'E' 4 h.temp) ++ ([' '] ++ (pad 10 h.date ++ ([' '] ++
        pad 10 (ofNat h.comments.length))))))) ++ newline :: (Header201.printComments h.comments ++ rest)) := by
    rw [left_of hv, C39.comments_eq]
    simp [header201Text, rightIn, leftIn, pad, newline]
  have n1 : newline ∉ left h.vers 10 ++ [' '] ++ pad 24 h.szaid ++ [' '] ++ pad 24 h.src := by
    have a := left_newline (n := 10) lv
    have b := pad_newline (n := 24) l1
    have c := pad_newline (n := 24) l2
    simp only [List.mem_append, not_or, List.mem_singleton]
    exact ⟨⟨⟨⟨a, by decide⟩, b⟩, by decide⟩, c⟩
  have nn : newline ∉ ofNat h.comments.length := fun hc =>
    absurd (isDigit_space (ofNat_isDigit _ _ hc)) (by decide)
  have n2 : newline ∉ pad 12 (F.fixed 6 h.awr) ++ ([' '] ++ (pad 12 (F.sci 'E' 4 h.temp) ++ ([' '] ++ (pad 10 h.date ++ ([' '] ++
      pad 10 (ofNat h.comments.length)))))) := by
    have a := pad_newline (n := 10) nn
    have b := pad_newline (n := 10) (s := h.date) fun hc => absurd (d3 _ hc) (by decide)
    have c := ha.newline
    have d := ht.newline
    simp only [List.mem_append, not_or, List.mem_singleton]
    exact ⟨c, by decide, d, by decide, b, by decide, a⟩
  have z24 := pad_length hf.szaid
  have s24 := pad_length hf.source
  have v10 := left_length h.vers 10
  have hnl : (ofNat h.comments.length).length ≤ 10 :=
    ofNat_length_le (by omega) (by have := hf.number; omega)
  have hlen : (pad 12 (F.fixed 6 h.awr) ++ ([' '] ++ (pad 12 (F.sci 'E' 4 h.temp) ++ ([' '] ++ (pad 10 h.date ++ ([' '] ++
      pad 10 (ofNat h.comments.length))))))).length = 47 := by
    have a12 := ha.length
    have t12 := ht.length
    have d10 := pad_length d2
    have n10 := pad_length hnl
    simp; omega
  have hl2 : Header201.line2 F (column (pad 12 (F.fixed 6 h.awr) ++ ([' '] ++ (pad 12 (F.sci 'E' 4 h.temp) ++ ([' '] ++ (pad 10 h.date ++ ([' '] ++
      pad 10 (ofNat h.comments.length))))))) 0 80) = .ok (awr, temp, h.date, (h.comments.length : Int)) := by
    rw [column_whole (by omega), hlen]
    unfold Header201.line2
    have e1 := ha.extract (rest := List.replicate (1 + (12 - (F.sci 'E' 4 h.temp).length)) ' ' ++
      (F.sci 'E' 4 h.temp ++ (List.replicate (1 + (10 - h.date.length)) ' ' ++ (h.date ++
        (List.replicate (1 + (10 - (ofNat h.comments.length).length)) ' ' ++ (ofNat h.comments.length ++
          List.replicate 33 ' '))))))
      (by intro c hc; rw [Nat.add_comm, List.replicate_succ] at hc; simp at hc; subst hc; decide)
      (12 - (F.fixed 6 h.awr).length)
    have e2 := ht.extract (rest := List.replicate (1 + (10 - h.date.length)) ' ' ++ (h.date ++
        (List.replicate (1 + (10 - (ofNat h.comments.length).length)) ' ' ++ (ofNat h.comments.length ++
          List.replicate 33 ' '))))
      (by intro c hc; rw [Nat.add_comm, List.replicate_succ] at hc; simp at hc; subst hc; decide)
      (1 + (12 - (F.sci 'E' 4 h.temp).length))
    have e3 := extract_token (s := h.date) d1 d3
      (rest := List.replicate (1 + (10 - (ofNat h.comments.length).length)) ' ' ++ (ofNat h.comments.length ++
          List.replicate 33 ' '))
      (by intro c hc; rw [Nat.add_comm, List.replicate_succ] at hc; simp at hc; subst hc; decide)
      (1 + (10 - h.date.length))
    have e4 := C39.number_eq hf.number (1 + (10 - (ofNat h.comments.length).length)) 33
    have shape : (pad 12 (F.fixed 6 h.awr) ++ ([' '] ++ (pad 12 (F.sci 'E' 4 h.temp) ++ ([' '] ++ (pad 10 h.date ++ ([' '] ++
      pad 10 (ofNat h.comments.length))))))) ++ List.replicate (80 - 47) ' ' =
      List.replicate (12 - (F.fixed 6 h.awr).length) ' ' ++ (F.fixed 6 h.awr ++ (List.replicate (1 + (12 - (F.sci 'E' 4 h.temp).length)) ' ' ++
      (F.sci 'E' 4 h.temp ++ (List.replicate (1 + (10 - h.date.length)) ' ' ++ (h.date ++
        (List.replicate (1 + (10 - (ofNat h.comments.length).length)) ' ' ++ (ofNat h.comments.length ++
          List.replicate 33 ' '))))))) := by
      simp [pad, Nat.add_comm 1, List.replicate_succ]
    rw [shape, e1]
    simp only
    rw [e2]
    simp only
    rw [e3]
    simp only
    rw [e4]
    rfl
  have gv : strip (left h.vers 10) = h.vers := strip_left tv hv
  unfold Header201.parse
  rw [e, nextLine_append n1, ok_bind]
  simp only
  rw [column_first (b := left h.vers 10) (c := [' '] ++ pad 24 h.szaid ++ [' '] ++ pad 24 h.src) (by simp)
      (by omega), gv,
    guardThrow_eq_ok.mpr (by rcases hf.version with e | e <;> rw [e] <;> decide), ok_bind,
    nextLine_append n2, ok_bind]
  simp only
  rw [hl2, ok_bind]
  simp only [pa, pt]
  rw [show guardThrow (!false) = .ok () from rfl, ok_bind, ok_bind,
    guardThrow_eq_ok.mpr (by simp), ok_bind,
    Int.toNat_natCast, C39.parseComments_eq _ _ hf.comments, ok_bind]
  simp only [pure_eq_ok]
  rw [column_of (a := left h.vers 10 ++ [' ']) (b := pad 24 h.szaid) (c := [' '] ++ pad 24 h.src) (by simp)
      (by simp; omega) (by omega),
    column_of (a := left h.vers 10 ++ [' '] ++ pad 24 h.szaid ++ [' ']) (b := pad 24 h.src) (c := []) (by simp)
      (by simp; omega) (by omega)]
  unfold Header201.make
  rw [strip_of_trim tv, strip_pad t1, strip_pad t2, strip_of_trim (trim_of_noSpace d3)]

/-- The number on the second line is the number of comment lines that follow. -/
theorem C39_count (F : Formats) (h : Header201) (hf : Header201Fits h) :
    ∃ front back : Str, h.print F = .ok (front ++ Text.ofNat h.comments.length ++ "\n".toList ++ back) ∧
      back = (h.comments.map (· ++ "\n".toList)).flatten ∧ back.count '\n' = h.comments.length := by
  refine ⟨leftIn 10 h.vers ++ " ".toList ++ rightIn 24 h.szaid ++ " ".toList ++ rightIn 24 h.src ++ "\n".toList ++
      rightIn 12 (F.fixed 6 h.awr) ++ " ".toList ++ rightIn 12 (F.sci 'E' 4 h.temp) ++ " ".toList ++
      rightIn 10 h.date ++ " ".toList ++ List.replicate (10 - (Text.ofNat h.comments.length).length) ' ', _, ?_, rfl, ?_⟩
  · rw [C39_printed F h hf]; simp [header201Text, rightIn]
  · have hc := hf.comments
    generalize h.comments = l at hc
    induction l with
    | nil => rfl
    | cons c l ih =>
      have h1 := List.count_eq_zero.mpr (hc c (by simp)).2.1
      have h2 := ih fun x hx => hc x (by simp [hx])
      simp only [List.map_cons, List.flatten_cons, List.count_append, h1, h2, List.length_cons]
      simp; omega

/-! ## An example, and headers that are not returned -/

/-- A header with two comments. -/
def exHeader201 (date : String) (comments : List String) : Header201 :=
  Header201.mk' "92235.80c".toList "ENDFB-VII.1".toList exAwr exTemp date.toList (comments.map (·.toList))

/-- The usual number format returns this header. -/
theorem exHeader201_fits : Header201Fits (exHeader201 "12/19/12" ["  two", "comments"]) where
  version := .inr (by decide +kernel)
  szaid := by decide +kernel
  source := by decide +kernel
  trim := ⟨strip_trim _, strip_trim _⟩
  lines := by decide +kernel
  date := by decide +kernel
  comments := by
    intro c hc
    simp only [exHeader201, Header201.mk', Header201.make, List.map_cons, List.map_nil, List.mem_cons,
      List.not_mem_nil, or_false] at hc
    rcases hc with rfl | rfl
    · exact ⟨by decide, by decide, by intro x hx; simp at hx; subst hx; decide⟩
    · exact ⟨by decide, by decide, by intro x hx; simp at hx; subst hx; decide⟩
  number := by decide +kernel

/-- The header that is read from a printed header. -/
def rereadHeader (h : Header201) : Res Header201 := do
  return (← Header201.parse Decimal.std (← h.print Decimal.std)).1

example : rereadHeader (exHeader201 "12/19/12" ["  two", "comments"]) =
    .ok (exHeader201 "12/19/12" ["  two", "comments"]) := by decide +kernel

/-- Without a date the number of comments is taken for the date, and `number` is never assigned. -/
theorem C39_no_date : rereadHeader (exHeader201 "" ["comment"]) = .error .ub := by decide +kernel
/-- The full statement: the date is any string of at most ten characters. -/
def C39Statement : Prop :=
  ∀ (F : Formats) (szaid source : Str) (awr temp : Dbl) (date : Str) (comments : List Str) (a t : Dbl),
    let h := Header201.mk' szaid source awr temp date comments
    h.szaid.length ≤ 24 → h.src.length ≤ 24 → '\n' ∉ h.szaid → '\n' ∉ h.src →
    h.date.length ≤ 10 → '\n' ∉ h.date →
    (∀ c ∈ h.comments, c.length ≤ 80 ∧ '\n' ∉ c ∧ ∀ x, c.getLast? = some x → isSpace x = false) →
    h.comments.length < 2147483648 →
    Written F 12 (F.fixed 6 h.awr) a → Written F 12 (F.sci 'E' 4 h.temp) t →
    a.isNeg = false → t.isNeg = false → ∀ rest,
    ∃ text, h.print F = .ok text ∧ Header201.parse F (text ++ rest) = .ok ({ h with awr := a, temp := t }, rest)

theorem C39_false : ¬ C39Statement := by
  intro h
  obtain ⟨text, h1, h2⟩ := h Decimal.std "92235.80c".toList "ENDFB-VII.1".toList exAwr exTemp [] [] exAwr exTemp
    (by decide +kernel) (by decide +kernel) (by decide +kernel) (by decide +kernel) (by decide +kernel)
    (by decide +kernel) (by intro c hc; cases hc) (by decide) exAwr_written exTemp_written (by decide +kernel)
    (by decide +kernel) []
  have e : rereadHeader (exHeader201 "" []) = .error .ub := by decide +kernel
  unfold rereadHeader at e
  rw [show (exHeader201 "" []).print Decimal.std = .ok text from h1, ok_bind,
    show text = text ++ [] by simp, h2] at e
  cases e

/-- With a date of two words the second one is taken for the number of comments. -/
theorem C39_two_words : (rereadHeader (exHeader201 "1 Jan 2020" ["comment"])).map
    (fun h : Header201 => (h.date, h.comments)) = .ok ("1".toList, []) := by decide +kernel
/-- Comments are printed in full and read up to column 80. -/
theorem C39_long_comment : (rereadHeader (exHeader201 "12/19/12" ["".pushn 'x' 81])).map
    (fun h : Header201 => h.comments.map (·.length)) = .ok [80] := by decide +kernel
/-- White space at the end of a comment is kept by the constructor and lost by reading. -/
theorem C39_blank_end : (rereadHeader (exHeader201 "12/19/12" ["x "])).map
    (fun h : Header201 => h.comments) = .ok ["x".toList] := by decide +kernel
/-- A SZAID or source of more than 24 characters cannot be printed. -/
theorem C39_long_szaid (F : Formats) (h : Header201) (hz : 24 < h.szaid.length ∨ 24 < h.src.length) :
    h.print F = .error .ub := by
  unfold Header201.print
  by_cases h1 : 24 < h.szaid.length
  · rw [right_ub h1]; rfl
  · rw [right_of (by omega), ok_bind, right_ub (by omega)]; rfl

/-- The hypotheses of the theorems are met. -/
example := C39_printed Decimal.std _ exHeader201_fits
example := C39_round_trip_partial Decimal.std _ exHeader201_fits exAwr exTemp exAwr_written exTemp_written
  (by decide +kernel) (by decide +kernel)
example := C39_count Decimal.std _ exHeader201_fits
example := C39_long_szaid Decimal.std { exHeader201 "12/19/12" ["comment"] with szaid := List.replicate 25 '1' }
  (.inl (by decide))

end ACE.Props

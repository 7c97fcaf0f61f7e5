import Verif.Lemmas.Text
import Verif.Model.Decimal

/-!
# C38: version 1 headers survive printing and parsing

Number formatting is a parameter: `Written F w s y` says that the text `s` of a number fits `w` columns
and is read as `y`.
-/

namespace ACE.Props
open ACE ACE.Text

/-- The strings of a header fit their columns and have no white space at their ends and no newline. -/
structure HeaderFits (h : Header) : Prop where
  zaid : h.zaid.length ≤ 10
  date : h.date.length ≤ 10
  title : h.title.length ≤ 70
  material : h.material.length ≤ 10
  trim : Trim h.zaid ∧ Trim h.date ∧ Trim h.title ∧ Trim h.material
  lines : '\n' ∉ h.zaid ∧ '\n' ∉ h.date ∧ '\n' ∉ h.title ∧ '\n' ∉ h.material

/-- A right justified string. -/
def rightIn (w : Nat) (s : Str) : Str := List.replicate (w - s.length) ' ' ++ s
/-- A left justified string. -/
def leftIn (w : Nat) (s : Str) : Str := s ++ List.replicate (w - s.length) ' '

/-- The two printed lines: columns 1-10 ZAID, 11-22 atomic weight ratio, 23-34 temperature, 36-45 date;
columns 1-70 title, 71-80 material. -/
def headerText (F : Formats) (h : Header) : Str :=
  rightIn 10 h.zaid ++ rightIn 12 (F.fixed 6 h.awr) ++ rightIn 12 (F.sci 'E' 4 h.temp) ++ " ".toList ++
    rightIn 10 h.date ++ "\n".toList ++ leftIn 70 h.title ++ rightIn 10 h.material ++ "\n".toList

theorem C38_printed (F : Formats) (h : Header) (hf : HeaderFits h) : h.print F = .ok (headerText F h) := by
  unfold Header.print
  rw [right_of hf.zaid, ok_bind, right_of hf.date, ok_bind, right_of hf.material, ok_bind, left_of hf.title,
    pure_eq_ok]
  simp [headerText, rightIn, leftIn, pad, newline]

/-- A header is returned from its printed form, whatever follows it. -/
theorem C38_round_trip (F : Formats) (h : Header) (hf : HeaderFits h) (awr temp : Dbl)
    (ha : Written F 12 (F.fixed 6 h.awr) awr) (ht : Written F 12 (F.sci 'E' 4 h.temp) temp)
    (pa : awr.isNeg = false) (pt : temp.isNeg = false) (rest : Str) :
    ∃ text, h.print F = .ok text ∧
      Header.parse F (text ++ rest) = .ok ({ h with awr := awr, temp := temp }, rest) := by
  refine ⟨_, C38_printed F h hf, ?_⟩
  obtain ⟨t1, t2, t3, t4⟩ := hf.trim
  obtain ⟨l1, l2, l3, l4⟩ := hf.lines
  have e : headerText F h ++ rest = (pad 10 h.zaid ++ pad 12 (F.fixed 6 h.awr) ++ pad 12 (F.sci 'E' 4 h.temp) ++
      [' '] ++ pad 10 h.date) ++ newline :: ((left h.title 70 ++ pad 10 h.material) ++ newline :: rest) := by
    rw [left_of hf.title]
    simp [headerText, rightIn, leftIn, pad, newline]
  have n1 : newline ∉ pad 10 h.zaid ++ pad 12 (F.fixed 6 h.awr) ++ pad 12 (F.sci 'E' 4 h.temp) ++
      [' '] ++ pad 10 h.date := by
    have a := pad_newline (n := 10) l1
    have b := pad_newline (n := 10) l2
    have c := ha.newline
    have d := ht.newline
    simp only [List.mem_append, not_or, List.mem_singleton]
    exact ⟨⟨⟨⟨a, c⟩, d⟩, by decide⟩, b⟩
  have n2 : newline ∉ left h.title 70 ++ pad 10 h.material := by
    have a := left_newline (n := 70) l3
    have b := pad_newline (n := 10) l4
    simp only [List.mem_append, not_or]
    exact ⟨a, b⟩
  have z10 := pad_length hf.zaid
  have d10 := pad_length hf.date
  have m10 := pad_length hf.material
  have a12 := ha.length
  have t12 := ht.length
  have h70 := left_length h.title 70
  unfold Header.parse
  rw [e, nextLine_append n1, ok_bind]
  simp only
  rw [column_of (a := pad 10 h.zaid) (b := pad 12 (F.fixed 6 h.awr))
      (c := pad 12 (F.sci 'E' 4 h.temp) ++ [' '] ++ pad 10 h.date) (by simp) (by omega) (by omega),
    ha.read, ok_bind,
    column_of (a := pad 10 h.zaid ++ pad 12 (F.fixed 6 h.awr)) (b := pad 12 (F.sci 'E' 4 h.temp))
      (c := [' '] ++ pad 10 h.date) (by simp) (by simp; omega) (by omega),
    ht.read, ok_bind, pa, pt, nextLine_append n2]
  simp only [Bool.not_false, ok_bind, guardThrow, if_pos, pure_eq_ok]
  rw [column_first (b := pad 10 h.zaid)
      (c := pad 12 (F.fixed 6 h.awr) ++ pad 12 (F.sci 'E' 4 h.temp) ++ [' '] ++ pad 10 h.date) (by simp)
      (by omega),
    column_of (a := pad 10 h.zaid ++ pad 12 (F.fixed 6 h.awr) ++ pad 12 (F.sci 'E' 4 h.temp) ++ [' '])
      (b := pad 10 h.date) (c := []) (by simp) (by simp; omega) (by omega),
    column_first (b := left h.title 70) (c := pad 10 h.material) rfl (by omega),
    column_of (a := left h.title 70) (b := pad 10 h.material) (c := []) (by simp) (by omega) (by omega)]
  unfold Header.mk'
  rw [strip_pad t1, strip_pad t2, strip_left t3 hf.title, strip_pad t4]

/-- The strings of a header that was constructed have no white space at their ends. -/
theorem C38_trimmed (zaid : Str) (awr temp : Dbl) (date title material : Str) :
    let h := Header.mk' zaid awr temp date title material
    Trim h.zaid ∧ Trim h.date ∧ Trim h.title ∧ Trim h.material :=
  ⟨strip_trim _, strip_trim _, strip_trim _, strip_trim _⟩

/-- Constructing again from the fields of a header changes nothing. -/
theorem C38_again (zaid : Str) (awr temp : Dbl) (date title material : Str) :
    let h := Header.mk' zaid awr temp date title material
    Header.mk' h.zaid h.awr h.temp h.date h.title h.material = h := by
  simp only [Header.mk', strip_of_trim (strip_trim _)]

/-- The printed form has two lines of 45 and 80 characters. -/
theorem C38_lines (F : Formats) (h : Header) (hf : HeaderFits h) (awr temp : Dbl)
    (ha : Written F 12 (F.fixed 6 h.awr) awr) (ht : Written F 12 (F.sci 'E' 4 h.temp) temp) :
    ∃ line1 line2 : Str, h.print F = .ok (line1 ++ "\n".toList ++ line2 ++ "\n".toList) ∧
      line1.length = 45 ∧ line2.length = 80 ∧ '\n' ∉ line1 ∧ '\n' ∉ line2 := by
  obtain ⟨l1, l2, l3, l4⟩ := hf.lines
  refine ⟨pad 10 h.zaid ++ pad 12 (F.fixed 6 h.awr) ++ pad 12 (F.sci 'E' 4 h.temp) ++ [' '] ++ pad 10 h.date,
    left h.title 70 ++ pad 10 h.material, ?_, ?_, ?_, ?_, ?_⟩
  · rw [C38_printed F h hf, left_of hf.title]
    simp [headerText, rightIn, leftIn, pad]
  · have z10 := pad_length hf.zaid
    have d10 := pad_length hf.date
    have a12 := ha.length
    have t12 := ht.length
    simp; omega
  · have m10 := pad_length hf.material
    have h70 := left_length h.title 70
    simp; omega
  · have a := pad_newline (n := 10) l1
    have b := pad_newline (n := 10) l2
    have c := ha.newline
    have d := ht.newline
    simp only [List.mem_append, not_or, List.mem_singleton]
    exact ⟨⟨⟨⟨a, c⟩, d⟩, by decide⟩, b⟩
  · have a := left_newline (n := 70) l3
    have b := pad_newline (n := 10) l4
    simp only [List.mem_append, not_or]
    exact ⟨a, b⟩

/-! ## Strings that do not fit -/

/-- A ZAID of more than ten characters cannot be printed: `std::rotate` with an iterator past the end. -/
theorem C38_long_zaid (F : Formats) (h : Header) (hz : 10 < h.zaid.length) : h.print F = .error .ub := by
  unfold Header.print
  rw [right_ub hz]
  rfl
/-- Neither can a date or a material. -/
theorem C38_long_date (F : Formats) (h : Header) (hz : h.zaid.length ≤ 10) (hd : 10 < h.date.length) :
    h.print F = .error .ub := by
  unfold Header.print
  rw [right_of hz, right_ub hd]
  rfl
theorem C38_long_material (F : Formats) (h : Header) (hz : h.zaid.length ≤ 10) (hd : h.date.length ≤ 10)
    (hm : 10 < h.material.length) : h.print F = .error .ub := by
  unfold Header.print
  rw [right_of hz, right_of hd, right_ub hm]
  rfl
/-- A title is cut to seventy characters. -/
theorem C38_long_title (F : Formats) (h : Header) (ht : 70 ≤ h.title.length) :
    h.print F = Header.print F { h with title := h.title.take 70 } := by
  unfold Header.print
  have : left h.title 70 = left (h.title.take 70) 70 := by
    unfold left
    rw [List.take_take, List.length_take]
    congr 2
    omega
  simp only [this]

/-! ## An example with the usual number format -/

/-- 233.0248 and 2.53E-08, as doubles. -/
def exAwr : Dbl := .fin false 8198831269125659 (-45)
def exTemp : Dbl := .fin false 7646455809062530 (-78)

theorem exAwr_written : Written Decimal.std 12 (Decimal.std.fixed 6 exAwr) exAwr where
  some := by decide +kernel
  fits := by decide +kernel
  real := by decide +kernel
  value := by decide +kernel
theorem exTemp_written : Written Decimal.std 12 (Decimal.std.sci 'E' 4 exTemp) exTemp where
  some := by decide +kernel
  fits := by decide +kernel
  real := by decide +kernel
  value := by decide +kernel

/-- A header. -/
def exHeader : Header :=
  Header.mk' " 92235.80c".toList exAwr exTemp "12/19/12".toList "92-U-235 at 293.6K".toList "mat9228".toList

theorem exHeader_fits : HeaderFits exHeader where
  zaid := by decide +kernel
  date := by decide +kernel
  title := by decide +kernel
  material := by decide +kernel
  trim := C38_trimmed _ _ _ _ _ _
  lines := by decide +kernel

example : ∃ text, exHeader.print Decimal.std = .ok text ∧
    Header.parse Decimal.std (text ++ "next".toList) = .ok (exHeader, "next".toList) :=
  C38_round_trip Decimal.std exHeader exHeader_fits exAwr exTemp exAwr_written exTemp_written (by decide +kernel)
    (by decide +kernel) _

/-- A negative atomic weight ratio is printed and refused when it is read. -/
theorem C38_negative : ∃ text, Header.print Decimal.std { exHeader with awr := .fin true 1 0 } = .ok text ∧
    Header.parse Decimal.std text = .error .thrown := by
  refine ⟨_, rfl, ?_⟩
  decide +kernel

/-- The hypotheses of the other theorems are met too. -/
example := C38_printed Decimal.std exHeader exHeader_fits
example := C38_lines Decimal.std exHeader exHeader_fits exAwr exTemp exAwr_written exTemp_written
example := C38_long_zaid Decimal.std { exHeader with zaid := "1092235.80c".toList } (by decide)
example := C38_long_date Decimal.std { exHeader with date := "19 Dec 2012".toList } (by decide +kernel) (by decide)
example := C38_long_material Decimal.std { exHeader with material := "material 9228".toList } (by decide +kernel)
  (by decide +kernel) (by decide)
example := C38_long_title Decimal.std { exHeader with title := List.replicate 71 't' } (by decide)

end ACE.Props

import Verif.Props.C51

/-!
# C61: printed tables follow the fixed columns of the ACE format

Other codes read ACE files by lines and columns: a table has 12 lines (for a version 1 header) before the XSS
array, `4(I7,F11.0)`, `8I9` and `4E20.12` are the formats of the lines that follow the header, and a table is
found in a file by the number of its first line. Lines, columns and indices are counted from zero here.
-/

namespace ACE.Props
open ACE ACE.Text ACE.Decimal

/-- The text of some lines. -/
def textOf (lines : List Str) : Str := (lines.map (· ++ "\n".toList)).flatten

/-- The characters of a line in some columns. -/
def fieldAt (lines : List Str) (line column width : Nat) : Str := ((lines.getD line []).drop column).take width

/-- The number of lines of the header of a table. -/
def headerLines (t : Table) : Nat :=
  match t.header with
  | .v1 _ => 2
  | .v2 h => 2 + h.comments.length

/-- The number of lines of a table. -/
def numberOfLines (t : Table) : Nat := headerLines t + 10 + (t.data.xss.length + 3) / 4

/-- The body of a table is in its columns, beginning on a line. -/
structure InColumns (F : Formats) (lines : List Str) (first : Nat) (d : TableData) : Prop where
  iz : ∀ (i : Nat) (v : Int), d.iz[i]? = some v →
    fieldAt lines (first + i / 4) (18 * (i % 4)) 7 = rightIn 7 (Text.ofInt v)
  aw : ∀ (i : Nat) (x : Dbl), d.aw[i]? = some x →
    fieldAt lines (first + i / 4) (18 * (i % 4) + 7) 11 = rightIn 11 (F.fixed 7 x)
  /-- NXS(1) is the number of words -/
  size : fieldAt lines (first + 4) 0 9 = rightIn 9 (Text.ofInt (d.xss.length : Int))
  nxs : ∀ (i : Nat) (v : Int), 1 ≤ i → d.nxs[i]? = some v →
    fieldAt lines (first + 4 + i / 8) (9 * (i % 8)) 9 = rightIn 9 (Text.ofInt v)
  jxs : ∀ (i : Nat) (v : Int), d.jxs[i]? = some v →
    fieldAt lines (first + 6 + i / 8) (9 * (i % 8)) 9 = rightIn 9 (Text.ofInt v)
  xss : ∀ (i : Nat) (x : Dbl), d.xss[i]? = some x →
    fieldAt lines (first + 10 + i / 4) (20 * (i % 4)) 20 = rightIn 20 (F.sci 'E' 12 x)

/-- The text behind a number of lines. -/
def dropLines : Nat → Str → Str
  | 0, s => s
  | n + 1, s => dropLines n ((s.dropWhile (· != '\n')).drop 1)

namespace C61

theorem rightIn_length {w : Nat} {s : Str} (h : s.length ≤ w) : (rightIn w s).length = w := by
  simp [rightIn]; omega
theorem rightIn_newline {w : Nat} {s : Str} (h : '\n' ∉ s) : '\n' ∉ rightIn w s := by
  simp only [rightIn, List.mem_append, List.mem_replicate, not_or, not_and]
  exact ⟨fun _ => by decide, h⟩
theorem leftIn_newline {w : Nat} {s : Str} (h : '\n' ∉ s) : '\n' ∉ leftIn w s := by
  simp only [leftIn, List.mem_append, List.mem_replicate, not_or, not_and]
  exact ⟨h, fun _ => by decide⟩

/-- A field among fields of the same width. -/
theorem flatten_field (w : Nat) : ∀ (l : List Str) (i : Nat) (f : Str), (∀ x ∈ l, x.length = w) → l[i]? = some f →
    (l.flatten.drop (w * i)).take w = f
  | [], i, f, _, h => by simp at h
  | a :: l, 0, f, hl, h => by
      have e : a = f := by simpa using h
      subst e
      simp only [List.flatten_cons, Nat.mul_zero, List.drop_zero]
      rw [List.take_left' (hl a (by simp))]
  | a :: l, i + 1, f, hl, h => by
      have ha := hl a (by simp)
      rw [List.flatten_cons, show w * (i + 1) = a.length + w * i by rw [ha, Nat.mul_add]; omega, ← List.drop_drop,
        List.drop_left]
      exact flatten_field w l i f (fun x hx => hl x (by simp [hx])) (by simpa using h)

theorem flatten_length (w : Nat) : ∀ l : List Str, (∀ x ∈ l, x.length = w) → l.flatten.length = w * l.length
  | [], _ => by simp
  | a :: l, h => by
      rw [List.flatten_cons, List.length_append, h a (by simp), flatten_length w l fun x hx => h x (by simp [hx]),
        List.length_cons, Nat.mul_add]
      omega

/-- The lines of some fields. -/
def linesOf (k : Nat) (l : List Str) : List Str := (rows k l.length l).map List.flatten

theorem inLines_eq (k : Nat) (l : List Str) : inLines k l = textOf (linesOf k l) := by
  simp [inLines, textOf, linesOf, List.map_map, Function.comp_def]

/-- Lines of fields of the same width. -/
theorem rows_lines (k w : Nat) (hk : 1 ≤ k) : ∀ (n : Nat) (l : List Str), l.length ≤ n → (∀ x ∈ l, x.length = w ∧ '\n' ∉ x) →
    let R := (rows k n l).map List.flatten
    R.length = (l.length + (k - 1)) / k ∧ (∀ r ∈ R, '\n' ∉ r ∧ r.length ≤ w * k) ∧
      ∀ i f, l[i]? = some f → ((R.getD (i / k) []).drop (w * (i % k))).take w = f
  | 0, l, hn, _ => by
      obtain rfl : l = [] := List.length_eq_zero_iff.mp (by omega)
      refine ⟨?_, by simp [rows], by simp⟩
      simp [rows, Nat.div_eq_of_lt (show k - 1 < k by omega)]
  | n + 1, l, hn, hl => by
      unfold rows
      cases hl0 : l with
      | nil =>
        refine ⟨?_, by simp, by simp⟩
        simp [Nat.div_eq_of_lt (show k - 1 < k by omega)]
      | cons a t =>
        rw [← hl0]
        have hne : l.isEmpty = false := by rw [hl0]; rfl
        have hlen : 1 ≤ l.length := by rw [hl0]; simp
        simp only [hne, Bool.false_eq_true, if_false, List.map_cons]
        obtain ⟨h1, h2, h3⟩ := rows_lines k w hk n (l.drop k) (by simp only [List.length_drop]; omega)
          fun x hx => hl x (List.mem_of_mem_drop hx)
        refine ⟨?_, ?_, ?_⟩
        · rw [List.length_cons, h1, List.length_drop]
          by_cases hb : k ≤ l.length
          · rw [show l.length + (k - 1) = (l.length - k + (k - 1)) + k by omega, Nat.add_div_right _ (by omega)]
          · rw [show l.length - k = 0 by omega, Nat.zero_add, Nat.div_eq_of_lt (show k - 1 < k by omega),
              show l.length + (k - 1) = (l.length - 1) + k by omega, Nat.add_div_right _ (by omega),
              Nat.div_eq_of_lt (show l.length - 1 < k by omega)]
        · intro r hr
          rcases List.mem_cons.mp hr with rfl | hr
          · have hm : ∀ x ∈ l.take k, x.length = w ∧ '\n' ∉ x := fun x hx => hl x (List.mem_of_mem_take hx)
            refine ⟨fun hc => ?_, ?_⟩
            · obtain ⟨x, hx, hcx⟩ := List.mem_flatten.mp hc
              exact (hm x hx).2 hcx
            · rw [flatten_length w _ fun x hx => (hm x hx).1]
              exact Nat.mul_le_mul_left w (by rw [List.length_take]; omega)
          · exact h2 r hr
        · intro i f hf
          by_cases hi : i < k
          · rw [Nat.div_eq_of_lt hi, Nat.mod_eq_of_lt hi, List.getD_cons_zero]
            exact flatten_field w _ i f (fun x hx => (hl x (List.mem_of_mem_take hx)).1)
              (by rw [List.getElem?_take_of_lt hi]; exact hf)
          · have hi' : k + (i - k) = i := by omega
            have hq := h3 (i - k) f (by rw [List.getElem?_drop, hi']; exact hf)
            rw [← hi', Nat.add_div_left _ (by omega), Nat.add_mod_left, List.getD_cons_succ]
            exact hq

theorem lines_spec (k w : Nat) (hk : 1 ≤ k) (l : List Str) (hl : ∀ x ∈ l, x.length = w ∧ '\n' ∉ x) :
    (linesOf k l).length = (l.length + (k - 1)) / k ∧ (∀ r ∈ linesOf k l, '\n' ∉ r ∧ r.length ≤ w * k) ∧
      ∀ i f, l[i]? = some f → fieldAt (linesOf k l) (i / k) (w * (i % k)) w = f :=
  rows_lines k w hk l.length l (Nat.le_refl _) hl

theorem textOf_append (a b : List Str) : textOf (a ++ b) = textOf a ++ textOf b := by simp [textOf]

theorem field_right (a b : List Str) (line column width : Nat) :
    fieldAt (a ++ b) (a.length + line) column width = fieldAt b line column width := by
  unfold fieldAt
  rw [List.getD_eq_getElem?_getD, List.getD_eq_getElem?_getD, List.getElem?_append_right (by omega), Nat.add_sub_cancel_left]
theorem field_left (a b : List Str) (line column width : Nat) (h : line < a.length) :
    fieldAt (a ++ b) line column width = fieldAt a line column width := by
  unfold fieldAt
  rw [List.getD_eq_getElem?_getD, List.getD_eq_getElem?_getD, List.getElem?_append_left h]

/-- A part of a field. -/
theorem sub_field {lines : List Str} {line column w a b : Nat} {u v : Str} (h : fieldAt lines line column w = u ++ v)
    (hu : u.length = a) (hv : v.length = b) (hw : w = a + b) :
    fieldAt lines line column a = u ∧ fieldAt lines line (column + a) b = v := by
  unfold fieldAt at h ⊢
  subst hw hu hv
  constructor
  · have := congrArg (List.take u.length) h
    rw [List.take_take, List.take_left] at this
    rwa [Nat.min_eq_left (by omega)] at this
  · have := congrArg (List.drop u.length) h
    rw [List.drop_left, List.drop_take, List.drop_drop] at this
    rwa [Nat.add_sub_cancel_left] at this

theorem no_newline {s : Str} (h : ∀ c ∈ s, isSpace c = false) : '\n' ∉ s := fun hc => absurd (h _ hc) (by decide)

end C61

/-- The lines of the body of a table, and where its numbers are. -/
theorem C61_body (F : Formats) (d : TableData) (aw xss : Words) (h : DataFits F d aw xss) :
    ∃ lines, d.print F = .ok (textOf lines) ∧ lines.length = 10 + (d.xss.length + 3) / 4 ∧
      (∀ l ∈ lines, '\n' ∉ l ∧ l.length ≤ 80) ∧ InColumns F lines 0 d := by
  have hs := h.sized
  have fi : ∀ {w : Nat} {i : Int}, FitsField w i → (rightIn w (Text.ofInt i)).length = w ∧ '\n' ∉ rightIn w (Text.ofInt i) :=
    fun hw => ⟨C61.rightIn_length hw, C61.rightIn_newline (C61.no_newline (ofInt_noSpace _))⟩
  have faw : ∀ x ∈ d.aw, (rightIn 11 (F.fixed 7 x)).length = 11 ∧ '\n' ∉ rightIn 11 (F.fixed 7 x) := by
    intro x hx
    obtain ⟨i, hi, rfl⟩ := List.mem_iff_getElem.mp hx
    have hl : i < aw.length := by rw [h.aw.1]; have := hs.aw; omega
    have hw := h.aw.2 (d.aw[i], aw[i]) (by rw [← List.getElem_zip (h := by simp; omega)]; exact List.getElem_mem _)
    exact ⟨C61.rightIn_length hw.fits, C61.rightIn_newline (C61.no_newline hw.noSpace)⟩
  have fx : ∀ x ∈ d.xss, (rightIn 20 (F.sci 'E' 12 x)).length = 20 ∧ '\n' ∉ rightIn 20 (F.sci 'E' 12 x) := by
    intro x hx
    obtain ⟨i, hi, rfl⟩ := List.mem_iff_getElem.mp hx
    have hl : i < xss.length := by rw [h.xss.1]; exact hi
    have hw := h.xss.2 (d.xss[i], xss[i]) (by rw [← List.getElem_zip (h := by simp; omega)]; exact List.getElem_mem _)
    exact ⟨C61.rightIn_length hw.fits, C61.rightIn_newline (C61.no_newline hw.noSpace)⟩
  let P := (d.iz.zip d.aw).map fun p => rightIn 7 (Text.ofInt p.1) ++ rightIn 11 (F.fixed 7 p.2)
  let N := ((d.xss.length : Int) :: d.nxs.drop 1).map fun i => rightIn 9 (Text.ofInt i)
  let J := d.jxs.map fun i => rightIn 9 (Text.ofInt i)
  let X := d.xss.map fun x => rightIn 20 (F.sci 'E' 12 x)
  have hP : ∀ x ∈ P, x.length = 18 ∧ '\n' ∉ x := by
    intro x hx
    obtain ⟨p, hp, rfl⟩ := List.mem_map.mp hx
    have h1 := fi (h.iz p.1 (List.of_mem_zip hp).1)
    have h2 := faw p.2 (List.of_mem_zip hp).2
    exact ⟨by rw [List.length_append, h1.1, h2.1], by simp only [List.mem_append, not_or]; exact ⟨h1.2, h2.2⟩⟩
  have hN : ∀ x ∈ N, x.length = 9 ∧ '\n' ∉ x := by
    intro x hx
    obtain ⟨i, hi, rfl⟩ := List.mem_map.mp hx
    rcases List.mem_cons.mp hi with rfl | hi
    · exact fi h.length
    · exact fi (h.nxs i (List.mem_of_mem_drop hi))
  have hJ : ∀ x ∈ J, x.length = 9 ∧ '\n' ∉ x := by
    intro x hx
    obtain ⟨i, hi, rfl⟩ := List.mem_map.mp hx
    exact fi (h.jxs i hi)
  have hX : ∀ x ∈ X, x.length = 20 ∧ '\n' ∉ x := by
    intro x hx
    obtain ⟨i, hi, rfl⟩ := List.mem_map.mp hx
    exact fx i hi
  obtain ⟨p1, p2, p3⟩ := C61.lines_spec 4 18 (by decide) P hP
  obtain ⟨n1, n2, n3⟩ := C61.lines_spec 8 9 (by decide) N hN
  obtain ⟨j1, j2, j3⟩ := C61.lines_spec 8 9 (by decide) J hJ
  obtain ⟨x1, x2, x3⟩ := C61.lines_spec 4 20 (by decide) X hX
  have lp : (C61.linesOf 4 P).length = 4 := by rw [p1]; simp [P, hs.iz, hs.aw]
  have ln : (C61.linesOf 8 N).length = 2 := by rw [n1]; simp [N, hs.nxs]
  have lj : (C61.linesOf 8 J).length = 4 := by rw [j1]; simp [J, hs.jxs]
  have lx : (C61.linesOf 4 X).length = (d.xss.length + 3) / 4 := by rw [x1]; simp [X]
  -- the position of a line of each part
  have at1 : ∀ q c w, q < 4 → fieldAt (C61.linesOf 4 P ++ (C61.linesOf 8 N ++ (C61.linesOf 8 J ++ C61.linesOf 4 X))) q c w =
      fieldAt (C61.linesOf 4 P) q c w := fun q c w hq => C61.field_left _ _ _ _ _ (by omega)
  have at2 : ∀ q c w, q < 2 → fieldAt (C61.linesOf 4 P ++ (C61.linesOf 8 N ++ (C61.linesOf 8 J ++ C61.linesOf 4 X))) (4 + q) c w =
      fieldAt (C61.linesOf 8 N) q c w := fun q c w hq => by
    have := C61.field_right (C61.linesOf 4 P) (C61.linesOf 8 N ++ (C61.linesOf 8 J ++ C61.linesOf 4 X)) q c w
    rw [lp] at this
    rw [this, C61.field_left _ _ _ _ _ (by omega)]
  have at3 : ∀ q c w, q < 4 → fieldAt (C61.linesOf 4 P ++ (C61.linesOf 8 N ++ (C61.linesOf 8 J ++ C61.linesOf 4 X))) (6 + q) c w =
      fieldAt (C61.linesOf 8 J) q c w := fun q c w hq => by
    have h1 := C61.field_right (C61.linesOf 4 P) (C61.linesOf 8 N ++ (C61.linesOf 8 J ++ C61.linesOf 4 X)) (2 + q) c w
    have h2 := C61.field_right (C61.linesOf 8 N) (C61.linesOf 8 J ++ C61.linesOf 4 X) q c w
    rw [lp] at h1
    rw [ln] at h2
    rw [show 6 + q = 4 + (2 + q) by omega, h1, h2, C61.field_left _ _ _ _ _ (by omega)]
  have at4 : ∀ q c w, fieldAt (C61.linesOf 4 P ++ (C61.linesOf 8 N ++ (C61.linesOf 8 J ++ C61.linesOf 4 X))) (10 + q) c w =
      fieldAt (C61.linesOf 4 X) q c w := fun q c w => by
    have h1 := C61.field_right (C61.linesOf 4 P) (C61.linesOf 8 N ++ (C61.linesOf 8 J ++ C61.linesOf 4 X)) (6 + q) c w
    have h2 := C61.field_right (C61.linesOf 8 N) (C61.linesOf 8 J ++ C61.linesOf 4 X) (4 + q) c w
    have h3 := C61.field_right (C61.linesOf 8 J) (C61.linesOf 4 X) q c w
    rw [lp] at h1
    rw [ln] at h2
    rw [lj] at h3
    rw [show 10 + q = 4 + (6 + q) by omega, h1, show 6 + q = 2 + (4 + q) by omega, h2, h3]
  have pair : ∀ (i : Nat) (v : Int) (x : Dbl), d.iz[i]? = some v → d.aw[i]? = some x →
      fieldAt (C61.linesOf 4 P) (i / 4) (18 * (i % 4)) 18 = rightIn 7 (Text.ofInt v) ++ rightIn 11 (F.fixed 7 x) := by
    intro i v x hv hx
    refine p3 i _ ?_
    have e : (d.iz.zip d.aw)[i]? = some (v, x) := List.getElem?_zip_eq_some.mpr ⟨hv, hx⟩
    simp only [P, List.getElem?_map, e, Option.map_some]
  have len : ∀ {α : Type} {l : List α} {i : Nat} {a : α}, l[i]? = some a → i < l.length := fun e =>
    (List.getElem?_eq_some_iff.mp e).1
  refine ⟨C61.linesOf 4 P ++ (C61.linesOf 8 N ++ (C61.linesOf 8 J ++ C61.linesOf 4 X)), ?_, ?_, ?_, ?_⟩
  · rw [C40_printed F d hs, C61.textOf_append, C61.textOf_append, C61.textOf_append, ← C61.inLines_eq, ← C61.inLines_eq,
      ← C61.inLines_eq, ← C61.inLines_eq]
    simp only [dataText, List.append_assoc]
    rfl
  · simp only [List.length_append, lp, ln, lj, lx]
    omega
  · intro l hl
    simp only [List.mem_append] at hl
    rcases hl with hl | hl | hl | hl
    · exact ⟨(p2 l hl).1, by have := (p2 l hl).2; omega⟩
    · exact ⟨(n2 l hl).1, by have := (n2 l hl).2; omega⟩
    · exact ⟨(j2 l hl).1, by have := (j2 l hl).2; omega⟩
    · exact ⟨(x2 l hl).1, by have := (x2 l hl).2; omega⟩
  · refine ⟨?_, ?_, ?_, ?_, ?_, ?_⟩
    · intro i v hv
      have hi := len hv
      rw [hs.iz] at hi
      have hx : d.aw[i]? = some (d.aw[i]'(by rw [hs.aw]; exact hi)) := List.getElem?_eq_getElem _
      rw [Nat.zero_add, at1 _ _ _ (by omega)]
      exact (C61.sub_field (pair i v _ hv hx) (fi (h.iz v (List.mem_of_getElem? hv))).1
        (faw _ (List.mem_of_getElem? hx)).1 rfl).1
    · intro i x hx
      have hi := len hx
      rw [hs.aw] at hi
      have hv : d.iz[i]? = some (d.iz[i]'(by rw [hs.iz]; exact hi)) := List.getElem?_eq_getElem _
      rw [Nat.zero_add, at1 _ _ _ (by omega)]
      exact (C61.sub_field (pair i _ x hv hx) (fi (h.iz _ (List.mem_of_getElem? hv))).1
        (faw _ (List.mem_of_getElem? hx)).1 rfl).2
    · have := at2 0 0 9 (by decide)
      rw [show 0 + 4 = 4 + 0 by rfl, this]
      exact n3 0 _ rfl
    · intro i v h1 hv
      have hi := len hv
      rw [hs.nxs] at hi
      rw [Nat.zero_add, at2 _ _ _ (by omega)]
      refine n3 i _ ?_
      obtain ⟨j, rfl⟩ : ∃ j, i = j + 1 := ⟨i - 1, by omega⟩
      simp only [N, List.getElem?_map, List.getElem?_cons_succ, List.getElem?_drop]
      rw [Nat.add_comm 1 j, hv]
      rfl
    · intro i v hv
      have hi := len hv
      rw [hs.jxs] at hi
      rw [Nat.zero_add, at3 _ _ _ (by omega)]
      refine j3 i _ ?_
      simp only [J, List.getElem?_map, hv, Option.map_some]
    · intro i x hx
      rw [Nat.zero_add, at4]
      refine x3 i _ ?_
      simp only [X, List.getElem?_map, hx, Option.map_some]

/-- The header of a table is in its columns. -/
def HeaderInColumns (F : Formats) (lines : List Str) : AnyHeader → Prop
  | .v1 h => fieldAt lines 0 0 10 = rightIn 10 h.zaid ∧ fieldAt lines 0 10 12 = rightIn 12 (F.fixed 6 h.awr) ∧
      fieldAt lines 0 22 12 = rightIn 12 (F.sci 'E' 4 h.temp) ∧ fieldAt lines 0 35 10 = rightIn 10 h.date ∧
      fieldAt lines 1 0 70 = leftIn 70 h.title ∧ fieldAt lines 1 70 10 = rightIn 10 h.material
  | .v2 h => fieldAt lines 0 0 10 = leftIn 10 h.vers ∧ fieldAt lines 0 11 24 = rightIn 24 h.szaid ∧
      fieldAt lines 0 36 24 = rightIn 24 h.src ∧ fieldAt lines 1 0 12 = rightIn 12 (F.fixed 6 h.awr) ∧
      fieldAt lines 1 13 12 = rightIn 12 (F.sci 'E' 4 h.temp) ∧ fieldAt lines 1 26 10 = rightIn 10 h.date ∧
      fieldAt lines 1 37 10 = rightIn 10 (Text.ofNat h.comments.length) ∧
      ∀ i c, h.comments[i]? = some c → lines[2 + i]? = some c

namespace C61

theorem leftIn_length {w : Nat} {s : Str} (h : s.length ≤ w) : (leftIn w s).length = w := by
  simp [leftIn]; omega

/-- A field behind a text. -/
theorem take_part (a b c : Str) {p w : Nat} (ha : a.length = p) (hb : b.length = w) :
    ((a ++ (b ++ c)).drop p).take w = b := by
  subst ha hb
  rw [List.drop_left, List.take_left]

theorem InColumns.shift {F : Formats} {lines front : List Str} {d : TableData} (h : InColumns F lines 0 d) :
    InColumns F (front ++ lines) front.length d := by
  refine ⟨?_, ?_, ?_, ?_, ?_, ?_⟩
  · intro i v hv; rw [field_right, ← h.iz i v hv, Nat.zero_add]
  · intro i v hv; rw [field_right, ← h.aw i v hv, Nat.zero_add]
  · rw [field_right, ← h.size]
  · intro i v h1 hv; rw [Nat.add_assoc, field_right, ← h.nxs i v h1 hv, Nat.zero_add]
  · intro i v hv; rw [Nat.add_assoc, field_right, ← h.jxs i v hv, Nat.zero_add]
  · intro i v hv; rw [Nat.add_assoc, field_right, ← h.xss i v hv, Nat.zero_add]

theorem HeaderInColumns.append {F : Formats} {lines more : List Str} {h : AnyHeader} (hl : 2 ≤ lines.length)
    (hc : HeaderInColumns F lines h) : HeaderInColumns F (lines ++ more) h := by
  have f0 : ∀ c w, fieldAt (lines ++ more) 0 c w = fieldAt lines 0 c w := fun c w => field_left _ _ _ _ _ (by omega)
  have f1 : ∀ c w, fieldAt (lines ++ more) 1 c w = fieldAt lines 1 c w := fun c w => field_left _ _ _ _ _ (by omega)
  cases h with
  | v1 h => simpa only [HeaderInColumns, f0, f1] using hc
  | v2 h =>
    obtain ⟨h1, h2, h3, h4, h5, h6, h7, h8⟩ := hc
    refine ⟨?_, ?_, ?_, ?_, ?_, ?_, ?_, fun i c hi => ?_⟩
    · rw [f0]; exact h1
    · rw [f0]; exact h2
    · rw [f0]; exact h3
    · rw [f1]; exact h4
    · rw [f1]; exact h5
    · rw [f1]; exact h6
    · rw [f1]; exact h7
    · have := h8 i c hi
      rw [List.getElem?_append_left (List.getElem?_eq_some_iff.mp this).1]
      exact this

/-- The lines of a header. -/
theorem header {F : Formats} {t t' : Table} (hf : TableFits F t t') :
    ∃ lines, t.header.print F = .ok (textOf lines) ∧ lines.length = headerLines t ∧ (∀ l ∈ lines, '\n' ∉ l ∧ l.length ≤ 80) ∧
      HeaderInColumns F lines t.header := by
  cases hf with
  | v1 h d awr temp aw xss hf hd hn ha ht =>
    obtain ⟨l1, l2, l3, l4⟩ := hf.lines
    have w1 := rightIn_length hf.zaid
    have w2 := rightIn_length ha.fits
    have w3 := rightIn_length ht.fits
    have w4 := rightIn_length hf.date
    have w5 := leftIn_length hf.title
    have w6 := rightIn_length hf.material
    have n1 := rightIn_newline (w := 10) l1
    have n2 := rightIn_newline (w := 12) (no_newline ha.noSpace)
    have n3 := rightIn_newline (w := 12) (no_newline ht.noSpace)
    have n4 := rightIn_newline (w := 10) l2
    have n5 := leftIn_newline (w := 70) l3
    have n6 := rightIn_newline (w := 10) l4
    refine ⟨[rightIn 10 h.zaid ++ (rightIn 12 (F.fixed 6 h.awr) ++ (rightIn 12 (F.sci 'E' 4 h.temp) ++ ([' '] ++
      (rightIn 10 h.date ++ [])))), leftIn 70 h.title ++ (rightIn 10 h.material ++ [])], ?_, rfl, ?_, ?_⟩
    · show h.print F = _
      rw [C38_printed F h hf]
      simp [headerText, textOf]
    · intro l hl
      rcases List.mem_cons.mp hl with rfl | hl
      · refine ⟨?_, by simp only [List.length_append, w1, w2, w3, w4]; decide⟩
        simp only [List.mem_append, not_or, List.mem_singleton, List.not_mem_nil, not_false_iff, and_true]
        exact ⟨n1, n2, n3, by decide, n4⟩
      · obtain rfl := List.mem_singleton.mp hl
        refine ⟨?_, by simp only [List.length_append, w5, w6]; decide⟩
        simp only [List.mem_append, not_or, List.not_mem_nil, not_false_iff, and_true]
        exact ⟨n5, n6⟩
    · refine ⟨?_, ?_, ?_, ?_, ?_, ?_⟩
      · exact take_part [] _ _ rfl w1
      · exact take_part _ _ _ w1 w2
      · show (List.drop 22 _).take 12 = _
        have := take_part (rightIn 10 h.zaid ++ rightIn 12 (F.fixed 6 h.awr)) (rightIn 12 (F.sci 'E' 4 h.temp))
          ([' '] ++ (rightIn 10 h.date ++ [])) (p := 22) (by rw [List.length_append, w1, w2]) w3
        rw [List.append_assoc] at this
        exact this
      · have := take_part (rightIn 10 h.zaid ++ rightIn 12 (F.fixed 6 h.awr) ++ rightIn 12 (F.sci 'E' 4 h.temp) ++ [' '])
          (rightIn 10 h.date) [] (p := 35) (by simp only [List.length_append, w1, w2, w3]; rfl) w4
        simp only [List.append_assoc] at this
        exact this
      · exact take_part [] _ _ rfl w5
      · exact take_part _ _ _ w5 w6
  | v2 h d awr temp aw xss hf hd hn ha ht =>
    obtain ⟨l1, l2⟩ := hf.lines
    have hv : h.vers.length ≤ 10 ∧ '\n' ∉ h.vers := by rcases hf.version with e | e <;> rw [e] <;> decide
    have hc : (Text.ofNat h.comments.length).length ≤ 10 :=
      ofNat_length_le (by decide) (show h.comments.length < 10 ^ 10 by have := hf.number; omega)
    have w1 := leftIn_length hv.1
    have w2 := rightIn_length hf.szaid
    have w3 := rightIn_length hf.source
    have w4 := rightIn_length ha.fits
    have w5 := rightIn_length ht.fits
    have w6 := rightIn_length hf.date.2.1
    have w7 := rightIn_length hc
    have n1 := leftIn_newline (w := 10) hv.2
    have n2 := rightIn_newline (w := 24) l1
    have n3 := rightIn_newline (w := 24) l2
    have n4 := rightIn_newline (w := 12) (no_newline ha.noSpace)
    have n5 := rightIn_newline (w := 12) (no_newline ht.noSpace)
    have n6 := rightIn_newline (w := 10) (no_newline hf.date.2.2)
    have n7 : '\n' ∉ rightIn 10 (Text.ofNat h.comments.length) :=
      rightIn_newline fun hm => absurd (ofNat_isDigit _ _ hm) (by decide)
    refine ⟨(leftIn 10 h.vers ++ ([' '] ++ (rightIn 24 h.szaid ++ ([' '] ++ (rightIn 24 h.src ++ []))))) ::
      (rightIn 12 (F.fixed 6 h.awr) ++ ([' '] ++ (rightIn 12 (F.sci 'E' 4 h.temp) ++ ([' '] ++ (rightIn 10 h.date ++ ([' '] ++
        (rightIn 10 (Text.ofNat h.comments.length) ++ []))))))) :: h.comments, ?_, ?_, ?_, ?_⟩
    · show h.print F = _
      rw [C39_printed F h hf]
      simp [header201Text, textOf]
    · show _ = 2 + h.comments.length
      simp only [List.length_cons]
      omega
    · intro l hl
      rcases List.mem_cons.mp hl with rfl | hl
      · refine ⟨?_, by simp only [List.length_append, w1, w2, w3]; decide⟩
        simp only [List.mem_append, not_or, List.mem_singleton, List.not_mem_nil, not_false_iff, and_true]
        exact ⟨n1, by decide, n2, by decide, n3⟩
      rcases List.mem_cons.mp hl with rfl | hl
      · refine ⟨?_, by simp only [List.length_append, w4, w5, w6, w7]; decide⟩
        simp only [List.mem_append, not_or, List.mem_singleton, List.not_mem_nil, not_false_iff, and_true]
        exact ⟨n4, by decide, n5, by decide, n6, by decide, n7⟩
      · exact ⟨(hf.comments l hl).2.1, (hf.comments l hl).1⟩
    · refine ⟨?_, ?_, ?_, ?_, ?_, ?_, ?_, ?_⟩
      · exact take_part [] _ _ rfl w1
      · have := take_part (leftIn 10 h.vers ++ [' ']) (rightIn 24 h.szaid) ([' '] ++ (rightIn 24 h.src ++ [])) (p := 11)
          (by simp only [List.length_append, w1]; rfl) w2
        simp only [List.append_assoc] at this
        exact this
      · have := take_part (leftIn 10 h.vers ++ [' '] ++ rightIn 24 h.szaid ++ [' ']) (rightIn 24 h.src) [] (p := 36)
          (by simp only [List.length_append, w1, w2]; rfl) w3
        simp only [List.append_assoc] at this
        exact this
      · exact take_part [] _ _ rfl w4
      · have := take_part (rightIn 12 (F.fixed 6 h.awr) ++ [' ']) (rightIn 12 (F.sci 'E' 4 h.temp))
          ([' '] ++ (rightIn 10 h.date ++ ([' '] ++ (rightIn 10 (Text.ofNat h.comments.length) ++ [])))) (p := 13)
          (by simp only [List.length_append, w4]; rfl) w5
        simp only [List.append_assoc] at this
        exact this
      · have := take_part (rightIn 12 (F.fixed 6 h.awr) ++ [' '] ++ rightIn 12 (F.sci 'E' 4 h.temp) ++ [' '])
          (rightIn 10 h.date) ([' '] ++ (rightIn 10 (Text.ofNat h.comments.length) ++ [])) (p := 26)
          (by simp only [List.length_append, w4, w5]; rfl) w6
        simp only [List.append_assoc] at this
        exact this
      · have := take_part (rightIn 12 (F.fixed 6 h.awr) ++ [' '] ++ rightIn 12 (F.sci 'E' 4 h.temp) ++ [' '] ++
          rightIn 10 h.date ++ [' ']) (rightIn 10 (Text.ofNat h.comments.length)) [] (p := 37)
          (by simp only [List.length_append, w4, w5, w6]; rfl) w7
        simp only [List.append_assoc] at this
        exact this
      · intro i c hi
        rw [Nat.add_comm]
        exact hi

/-- The text behind some lines. -/
theorem dropLines_text : ∀ (lines : List Str) (rest : Str), (∀ l ∈ lines, '\n' ∉ l) →
    dropLines lines.length (textOf lines ++ rest) = rest
  | [], rest, _ => rfl
  | l :: ls, rest, h => by
      have hl : ∀ c ∈ l, (c != '\n') = true := fun c hc => by
        have : c ≠ '\n' := fun e => h l (by simp) (e ▸ hc)
        simpa using this
      have e : textOf (l :: ls) ++ rest = l ++ '\n' :: (textOf ls ++ rest) := by simp [textOf]
      rw [List.length_cons, dropLines, e, List.dropWhile_append_of_pos hl, List.dropWhile_cons_of_neg (by decide)]
      exact dropLines_text ls rest fun x hx => h x (by simp [hx])

end C61

/-- A table is printed in its lines and columns: the header, and the body behind it. -/
theorem C61_columns (F : Formats) (t t' : Table) (h : TableFits F t t') :
    ∃ lines, t.print F = .ok (textOf lines) ∧ lines.length = numberOfLines t ∧
      (∀ l ∈ lines, '\n' ∉ l ∧ l.length ≤ 80) ∧ HeaderInColumns F lines t.header ∧
      InColumns F lines (headerLines t) t.data := by
  have hd : ∃ aw xss, DataFits F t.data aw xss := by
    cases h with
    | v1 h d awr temp aw xss hf hd => exact ⟨aw, xss, hd⟩
    | v2 h d awr temp aw xss hf hd => exact ⟨aw, xss, hd⟩
  obtain ⟨aw, xss, hd⟩ := hd
  obtain ⟨a, a1, a2, a3, a4⟩ := C61.header h
  obtain ⟨b, b1, b2, b3, b4⟩ := C61_body F t.data aw xss hd
  have h2 : 2 ≤ a.length := by
    rw [a2]
    unfold headerLines
    split <;> omega
  refine ⟨a ++ b, ?_, ?_, ?_, C61.HeaderInColumns.append h2 a4, ?_⟩
  · unfold Table.print
    rw [a1, ok_bind, b1, ok_bind, C61.textOf_append]
    rfl
  · rw [List.length_append, a2, b2, numberOfLines, Nat.add_assoc]
  · intro l hl
    rcases List.mem_append.mp hl with hl | hl
    · exact a3 l hl
    · exact b3 l hl
  · rw [← a2]
    exact C61.InColumns.shift b4

/-- A table in a file is found by its first line: the numbers of lines of the tables before it. -/
theorem C61_address (F : Formats) (before after : List (Table × Table)) (t t' : Table)
    (hb : ∀ p ∈ before, TableFits F p.1 p.2) (ha : ∀ p ∈ after, TableFits F p.1 p.2) (h : TableFits F t t') :
    ∃ (texts : List Str) (rest : Str),
      (before.map Prod.fst ++ t :: after.map Prod.fst).mapM (fun t => Table.print F t) = .ok texts ∧
      Table.parse F (dropLines ((before.map fun p => numberOfLines p.1).sum) texts.flatten) = .ok (t', rest) := by
  have printed : ∀ l : List (Table × Table), (∀ p ∈ l, TableFits F p.1 p.2) → ∃ texts : List Str,
      (l.map Prod.fst).mapM (fun t => Table.print F t) = .ok texts := by
    intro l hl
    induction l with
    | nil => exact ⟨[], rfl⟩
    | cons p l ih =>
      obtain ⟨texts, e⟩ := ih fun q hq => hl q (by simp [hq])
      obtain ⟨lines, e1, _⟩ := C61_columns F p.1 p.2 (hl p (by simp))
      refine ⟨textOf lines :: texts, ?_⟩
      rw [List.map_cons, List.mapM_cons, e1, ok_bind, e]
      rfl
  obtain ⟨back, eb⟩ := printed after ha
  obtain ⟨text, et, ep⟩ := C41_table F t t' h back.flatten
  induction before with
  | nil =>
    refine ⟨text :: back, back.flatten, ?_, ep⟩
    rw [List.map_nil, List.nil_append, List.mapM_cons, et, ok_bind, eb]
    rfl
  | cons p l ih =>
    obtain ⟨texts, rest, e1, e2⟩ := ih fun q hq => hb q (by simp [hq])
    obtain ⟨lines, l1, l2, l3, _⟩ := C61_columns F p.1 p.2 (hb p (by simp))
    refine ⟨textOf lines :: texts, rest, ?_, ?_⟩
    · rw [List.map_cons, List.cons_append, List.mapM_cons, l1, ok_bind, e1]
      rfl
    · have key : ∀ a b s, dropLines (a + b) s = dropLines b (dropLines a s) := by
        intro a
        induction a with
        | zero => intro b s; rw [Nat.zero_add]; rfl
        | succ a ih => intro b s; rw [Nat.add_right_comm, dropLines, ih, dropLines]
      rw [List.map_cons, List.sum_cons, key, ← l2, List.flatten_cons,
        C61.dropLines_text lines _ fun x hx => (l3 x hx).1]
      exact e2

namespace C61

theorem two_digits {n : Nat} (h : 100 ≤ n) : 2 ≤ (ofNat n).length := by
  rw [ofNat_length]
  by_contra hc
  have h1 := lt_numDigits n
  have h2 : 10 ^ numDigits n ≤ 10 ^ 1 := Nat.pow_le_pow_right (by decide) (by omega)
  omega

theorem fits {t : Table} (h : Printable t) : ∃ t', TableFits std t t' := by
  cases h with
  | v1 h d hf hn hz h0 h1 hd =>
    obtain ⟨aw, xss, fits, -⟩ := C51.body d hd
    obtain ⟨awr, ha, ha2, ha3, ha4⟩ := C51_awr h.awr hn.awr.1 hn.awr.2.1 hn.awr.2.2
    obtain ⟨temp, ht, ht2, ht3, ht4⟩ := C51_temperature h.temp hn.temp.2
    have pa : awr.isNeg = false := by cases awr <;> simp_all [signOf, Dbl.isNeg]
    have pt : temp.isNeg = false := by
      rw [hn.temp.1] at ht3
      cases temp <;> simp_all [signOf, Dbl.isNeg]
    exact ⟨_, .v1 h d awr temp aw xss hf fits hd.first ha ht pa pt hz h0 h1⟩
  | v2 h d hf hn hd =>
    obtain ⟨aw, xss, fits, -⟩ := C51.body d hd
    obtain ⟨awr, ha, ha2, ha3, ha4⟩ := C51_awr h.awr hn.awr.1 hn.awr.2.1 hn.awr.2.2
    obtain ⟨temp, ht, ht2, ht3, ht4⟩ := C51_temperature h.temp hn.temp.2
    have pa : awr.isNeg = false := by cases awr <;> simp_all [signOf, Dbl.isNeg]
    have pt : temp.isNeg = false := by
      rw [hn.temp.1] at ht3
      cases temp <;> simp_all [signOf, Dbl.isNeg]
    exact ⟨_, .v2 h d awr temp aw xss hf fits hd.first ha ht pa pt⟩

end C61

/-- Every table whose strings and numbers fit is printed in its lines and columns. -/
theorem C61_printable (t : Table) (h : Printable t) :
    ∃ lines, t.print std = .ok (textOf lines) ∧ lines.length = numberOfLines t ∧
      (∀ l ∈ lines, '\n' ∉ l ∧ l.length ≤ 80) ∧ HeaderInColumns std lines t.header ∧
      InColumns std lines (headerLines t) t.data := by
  obtain ⟨t', hf⟩ := C61.fits h
  exact C61_columns std t t' hf

/-- The text of a word has the form `[-]d.ddddddddddddE±dd[d]`. -/
theorem C61_word (x : Dbl) (h : IsNormal x) :
    ∃ s i f c e : Str, std.sci 'E' 12 x = s ++ i ++ ".".toList ++ f ++ "E".toList ++ c ++ e ∧
      s = (if signOf x then "-".toList else []) ∧ i.length = 1 ∧ f.length = 12 ∧ (c = "+".toList ∨ c = "-".toList) ∧
      2 ≤ e.length ∧ e.length ≤ 3 ∧ (∀ a ∈ i ++ f ++ e, a.isDigit = true) := by
  cases x with
  | inf s => exact h.elim
  | nan => exact h.elim
  | fin neg m x =>
    have he := significant_exponent 12 m x h
    refine ⟨sign neg, digits 1 ((significant 12 m x).1 / 10 ^ 12), digits 12 (significant 12 m x).1,
      (if (significant 12 m x).2 < 0 then ['-'] else ['+']),
      (if (significant 12 m x).2.natAbs < 100 then digits 2 (significant 12 m x).2.natAbs else ofNat (significant 12 m x).2.natAbs),
      ?_, ?_, digits_length _ _, digits_length _ _, ?_, ?_, ?_, ?_⟩
    · show sci 'E' 12 (.fin neg m x) = _
      rw [sci_fin]
      simp [sciText, exponentText]
    · cases neg <;> rfl
    · split
      · exact .inr rfl
      · exact .inl rfl
    · split
      · rw [digits_length]
      · rename_i hn
        exact C61.two_digits (by omega)
    · split
      · rw [digits_length]; decide
      · exact ofNat_length_le (by decide) (by omega)
    · intro a ha
      rcases List.mem_append.mp ha with ha | ha
      · rcases List.mem_append.mp ha with ha | ha
        · exact digits_isDigit _ _ _ ha
        · exact digits_isDigit _ _ _ ha
      · split at ha
        · exact digits_isDigit _ _ _ ha
        · exact ofNat_isDigit _ _ ha

/-! ## Examples -/

/-- The hypotheses are met by a table with a version 1 header (14 lines: 12 and two of words) and by one with a
version 2 header and two comments. -/
example : numberOfLines exTable1 = 14 ∧ numberOfLines exTable2 = 16 := by decide +kernel
example := C61_printable exTable1 C51.exTable1_printable
example := C61_printable exTable2 C51.exTable2_printable
example := C61_body Decimal.std exBody exBody.aw exRead exBody_fits
example := C61_columns Decimal.std _ _ exTable2_fits
example := C61_word (.fin true 25 (-1)) (C51.normal_of _ _ _ (by decide) (by decide) (by decide))
example := C61_address Decimal.std [(exTable2, _), (exTable1, _)] [(exTable2, _)] exTable1 _
  (by
    intro p hp
    rcases List.mem_cons.mp hp with rfl | hp
    · exact exTable2_fits
    · obtain rfl := List.mem_singleton.mp hp
      exact exTable1_fits)
  (by
    intro p hp
    obtain rfl := List.mem_singleton.mp hp
    exact exTable2_fits) exTable1_fits

end ACE.Props

import Verif.Props.C61
import Verif.Lemmas.Words

/-!
# C62: a file in the columns of the ACE format is read as its numbers, whoever wrote it

Files are mostly written by other codes, which justify their numbers otherwise, write other numbers of digits or
leave fields blank. What is read depends on the columns only.
-/

namespace ACE.Props
open ACE ACE.Text ACE.Decimal

/-- Blanks. -/
def blanks (n : Nat) : Str := List.replicate n ' '

/-- An integer somewhere in a field: blank fields are zero. -/
inductive IntIn : Str → Int → Prop where
  | blank (n : Nat) : IntIn (blanks n) 0
  | plain (a b : Nat) (digits : Str) (h : digits ≠ []) (hd : ∀ c ∈ digits, c.isDigit = true) :
      IntIn (blanks a ++ digits ++ blanks b) (Text.toNat digits)
  | plus (a b : Nat) (digits : Str) (h : digits ≠ []) (hd : ∀ c ∈ digits, c.isDigit = true) :
      IntIn (blanks a ++ '+' :: digits ++ blanks b) (Text.toNat digits)
  | minus (a b : Nat) (digits : Str) (h : digits ≠ []) (hd : ∀ c ∈ digits, c.isDigit = true) :
      IntIn (blanks a ++ '-' :: digits ++ blanks b) (-(Text.toNat digits : Int))

/-- A real somewhere in a field. -/
inductive RealIn (F : Formats) : Str → Dbl → Prop where
  | blank (n : Nat) : RealIn F (blanks n) (Dbl.ofNat 0)
  | number (a b : Nat) (text : Str) (x : Dbl) (h : text ≠ []) (ht : ∀ c ∈ text, isSpace c = false)
      (hv : F.value text = some x) : RealIn F (blanks a ++ text ++ blanks b) x

/-- A string somewhere in a field. -/
def StringIn (field s : Str) : Prop := Trim s ∧ ∃ a b, field = blanks a ++ s ++ blanks b

/-- The numbers of a table body are in their columns. -/
structure BodyIn (F : Formats) (lines : List Str) (d : TableData) : Prop where
  sized : d.Sized
  size : d.NXS 1 = .ok (d.xss.length : Int)
  iz : ∀ (i : Nat) (v : Int), d.iz[i]? = some v → IntIn (fieldAt lines (i / 4) (18 * (i % 4)) 7) v
  aw : ∀ (i : Nat) (x : Dbl), d.aw[i]? = some x → RealIn F (fieldAt lines (i / 4) (18 * (i % 4) + 7) 11) x
  nxs : ∀ (i : Nat) (v : Int), d.nxs[i]? = some v → IntIn (fieldAt lines (4 + i / 8) (9 * (i % 8)) 9) v
  jxs : ∀ (i : Nat) (v : Int), d.jxs[i]? = some v → IntIn (fieldAt lines (6 + i / 8) (9 * (i % 8)) 9) v
  xss : ∀ (i : Nat) (x : Dbl), d.xss[i]? = some x → RealIn F (fieldAt lines (10 + i / 4) (20 * (i % 4)) 20) x

namespace C62

theorem digit_space {c : Char} (h : c.isDigit = true) : isSpace c = false := isReal_space (digit_real h)

theorem blanks_add (a b : Nat) : blanks a ++ blanks b = blanks (a + b) := by simp [blanks]

theorem IntIn.more {s : Str} {v : Int} (h : IntIn s v) (n : Nat) : IntIn (s ++ blanks n) v := by
  cases h with
  | blank m => rw [blanks_add]; exact .blank _
  | plain a b ds h hd => rw [List.append_assoc _ (blanks b), blanks_add]; exact .plain _ _ _ h hd
  | plus a b ds h hd => rw [List.append_assoc _ (blanks b), blanks_add]; exact .plus _ _ _ h hd
  | minus a b ds h hd => rw [List.append_assoc _ (blanks b), blanks_add]; exact .minus _ _ _ h hd

theorem RealIn.more {F : Formats} {s : Str} {v : Dbl} (h : RealIn F s v) (n : Nat) : RealIn F (s ++ blanks n) v := by
  cases h with
  | blank m => rw [blanks_add]; exact .blank _
  | number a b t x h ht hv => rw [List.append_assoc _ (blanks b), blanks_add]; exact .number _ _ _ _ h ht hv

theorem StringIn.more {s v : Str} (h : StringIn s v) (n : Nat) : StringIn (s ++ blanks n) v := by
  obtain ⟨h, a, b, rfl⟩ := h
  exact ⟨h, a, b + n, by rw [List.append_assoc _ (blanks b), blanks_add]⟩

theorem strip_blanks (n : Nat) : strip (blanks n) = [] := by
  have := strip_padded (s := []) (trim_of_noSpace (by simp)) n 0
  simpa [blanks] using this

theorem strip_field {s : Str} (h : Trim s) (a b : Nat) : strip (blanks a ++ s ++ blanks b) = s := strip_padded h a b

theorem allDigits_of {ds : Str} (h : ds ≠ []) (hd : ∀ c ∈ ds, c.isDigit = true) : allDigits ds = some (Text.toNat ds) := by
  unfold allDigits
  rw [if_pos ⟨h, by simpa using hd⟩]

theorem IntIn.read {s : Str} {v : Int} (h : IntIn s v) : readInt s = .ok v := by
  unfold readInt
  cases h with
  | blank n => rw [strip_blanks]
  | plain a b ds h hd =>
    rw [strip_field (trim_of_noSpace fun c hc => digit_space (hd c hc)) a b]
    cases hs : ds with
    | nil => exact absurd hs h
    | cons c t =>
      have hc := hd c (by rw [hs]; simp)
      have h1 : c ≠ '-' := fun e => by rw [e] at hc; exact absurd hc (by decide)
      have h2 : c ≠ '+' := fun e => by rw [e] at hc; exact absurd hc (by decide)
      have ha := allDigits_of h hd
      rw [hs] at ha
      split
      · rename_i e; cases e
      · rename_i e; injection e with e _; exact absurd e h1
      · rename_i e; injection e with e _; exact absurd e h2
      · rw [ha]
  | plus a b ds h hd =>
    rw [strip_field (s := '+' :: ds) (trim_of_noSpace fun c hc => by
      rcases List.mem_cons.mp hc with rfl | hc
      · decide
      · exact digit_space (hd c hc)) a b]
    simp only [allDigits_of h hd]
  | minus a b ds h hd =>
    rw [strip_field (s := '-' :: ds) (trim_of_noSpace fun c hc => by
      rcases List.mem_cons.mp hc with rfl | hc
      · decide
      · exact digit_space (hd c hc)) a b]
    simp only [allDigits_of h hd]

theorem RealIn.read {F : Formats} {s : Str} {x : Dbl} (h : RealIn F s x) : F.read s = .ok x := by
  unfold Formats.read
  cases h with
  | blank n => rw [strip_blanks]
  | number a b t x h ht hv =>
    rw [strip_field (trim_of_noSpace ht) a b]
    cases hs : t with
    | nil => exact absurd hs h
    | cons c t' => simp only [← hs, hv]

theorem StringIn.read {s v : Str} (h : StringIn s v) : strip s = v := by
  obtain ⟨h, a, b, rfl⟩ := h
  exact strip_padded h a b

/-- Columns of a line are a field and blanks. -/
theorem column_eq (lines : List Str) (line start width : Nat) :
    ∃ n, column (lines.getD line []) start width = fieldAt lines line start width ++ blanks n := ⟨_, rfl⟩

theorem int_at {lines : List Str} {line start width : Nat} {v : Int} (h : IntIn (fieldAt lines line start width) v) :
    readInt (column (lines.getD line []) start width) = .ok v := by
  obtain ⟨n, e⟩ := column_eq lines line start width
  rw [e]
  exact IntIn.read (IntIn.more h n)

theorem real_at {F : Formats} {lines : List Str} {line start width : Nat} {v : Dbl}
    (h : RealIn F (fieldAt lines line start width) v) :
    F.read (column (lines.getD line []) start width) = .ok v := by
  obtain ⟨n, e⟩ := column_eq lines line start width
  rw [e]
  exact RealIn.read (RealIn.more h n)

theorem string_at {lines : List Str} {line start width : Nat} {v : Str}
    (h : StringIn (fieldAt lines line start width) v) : strip (column (lines.getD line []) start width) = v := by
  obtain ⟨n, e⟩ := column_eq lines line start width
  rw [e]
  exact StringIn.read (StringIn.more h n)

/-- Lines of `k` values each. -/
def readRows {α : Type} (f : Str → Res (List α)) : Nat → Str → Res (List α × Str)
  | 0, text => .ok ([], text)
  | n + 1, text => do
      let (line, text) ← nextLine text
      let row ← f line
      let (more, text) ← readRows f n text
      return (row ++ more, text)

theorem parseIZAW_rows (F : Formats) : ∀ (n : Nat) (text : Str),
    TableData.parseIZAW F n text = readRows (fun line => (List.range 4).mapM (TableData.parsePair F line)) n text
  | 0, text => rfl
  | n + 1, text => by
      unfold TableData.parseIZAW readRows
      simp only [parseIZAW_rows F n]
theorem parseInts_rows : ∀ (n : Nat) (text : Str),
    TableData.parseInts n text = readRows (fun line => (List.range 8).mapM fun i => readInt (column line (9 * i) 9)) n text
  | 0, text => rfl
  | n + 1, text => by
      unfold TableData.parseInts readRows
      simp only [parseInts_rows n]
theorem parseLines_rows (F : Formats) : ∀ (n : Nat) (text : Str),
    TableData.parseLines F n text = readRows (fun line => TableData.parseWords F line 4) n text
  | 0, text => rfl
  | n + 1, text => by
      unfold TableData.parseLines readRows
      simp only [parseLines_rows F n]

theorem readRows_eq {α : Type} (f : Str → Res (List α)) (k : Nat) : ∀ (L : List Str) (v : List α) (rest : Str),
    v.length = k * L.length → (∀ l ∈ L, '\n' ∉ l) →
    (∀ q, q < L.length → f (L.getD q []) = .ok ((v.drop (k * q)).take k)) →
    readRows f L.length (textOf L ++ rest) = .ok (v, rest)
  | [], v, rest, hv, _, _ => by
      obtain rfl : v = [] := List.length_eq_zero_iff.mp (by simpa using hv)
      rfl
  | l :: L, v, rest, hv, hn, hf => by
      have e : textOf (l :: L) ++ rest = l ++ newline :: (textOf L ++ rest) := by simp [textOf, newline]
      have h0 := hf 0 (by simp)
      simp only [Nat.mul_zero, List.drop_zero, List.getD_cons_zero] at h0
      have ih := readRows_eq f k L (v.drop k) rest
        (by rw [List.length_drop, hv, List.length_cons, Nat.mul_add]; omega)
        (fun x hx => hn x (by simp [hx]))
        (fun q hq => by
          have := hf (q + 1) (by simpa using hq)
          rw [List.getD_cons_succ] at this
          rw [this, List.drop_drop, Nat.mul_add, Nat.add_comm k, Nat.mul_one])
      rw [List.length_cons, readRows, e, nextLine_append (hn l (by simp)), ok_bind]
      simp only
      rw [h0, ok_bind, ih, ok_bind]
      simp

/-- Some values of a list. -/
theorem row_eq {α : Type} {f : Nat → Res α} {v : List α} {k m q : Nat} (hq : k * q + m ≤ v.length)
    (h : ∀ j a, j < m → v[k * q + j]? = some a → f j = .ok a) :
    (List.range m).mapM f = .ok ((v.drop (k * q)).take m) := by
  refine mapM_range_eq f _ m (by rw [List.length_take, List.length_drop]; omega) fun i hi => ?_
  rw [List.length_take, List.length_drop] at hi
  refine h i _ (by omega) ?_
  rw [List.getElem?_eq_getElem (by omega)]
  simp

theorem textOf_append (a b : List Str) : textOf (a ++ b) = textOf a ++ textOf b := by simp [textOf]

theorem getD_sub (lines : List Str) (a m q : Nat) (h : q < m) : ((lines.drop a).take m).getD q [] = lines.getD (a + q) [] := by
  rw [List.getD_eq_getElem?_getD, List.getD_eq_getElem?_getD, List.getElem?_take_of_lt h, List.getElem?_drop]

theorem mod_of (k q j : Nat) (h : j < k) : (k * q + j) / k = q ∧ (k * q + j) % k = j := by
  constructor
  · rw [Nat.mul_add_div (by omega), Nat.div_eq_of_lt h, Nat.add_zero]
  · rw [Nat.mul_add_mod, Nat.mod_eq_of_lt h]

end C62

/-- A body whose numbers are in their columns is read as these numbers, whatever else is in the lines and whatever
follows. -/
theorem C62_body (F : Formats) (lines : List Str) (d : TableData) (hn : ∀ l ∈ lines, '\n' ∉ l)
    (hl : lines.length = 10 + (d.xss.length + 3) / 4) (h : BodyIn F lines d) (rest : Str) :
    TableData.parse F (textOf lines ++ rest) = .ok (d, rest) := by
  have hs := h.sized
  have hx0 : d.nxs.headD 0 = (d.xss.length : Int) := by
    have h1 := h.size
    have h2 := hs.nxs
    cases hx : d.nxs with
    | nil => rw [hx] at h2; simp at h2
    | cons a l =>
      unfold TableData.NXS TableData.fetch TableData.verifyIndex at h1
      rw [hx] at h1
      rw [if_neg (by simp), ok_bind] at h1
      simp only [Nat.sub_self, List.getElem?_cons_zero] at h1
      exact Except.ok.inj h1
  -- the parts of the lines
  have parts : lines = (lines.drop 0).take 4 ++ ((lines.drop 4).take 2 ++ ((lines.drop 6).take 4 ++
      ((lines.drop 10).take (d.xss.length / 4) ++ (lines.drop (10 + d.xss.length / 4)).take ((d.xss.length + 3) / 4)))) := by
    have e5 : (lines.drop (10 + d.xss.length / 4)).take ((d.xss.length + 3) / 4) = lines.drop (10 + d.xss.length / 4) :=
      List.take_of_length_le (by rw [List.length_drop]; omega)
    have e4 := List.take_append_drop (d.xss.length / 4) (lines.drop 10)
    have e3 := List.take_append_drop 4 (lines.drop 6)
    have e2 := List.take_append_drop 2 (lines.drop 4)
    have e1 := List.take_append_drop 4 lines
    rw [List.drop_drop] at e2 e3 e4
    rw [e5, e4, e3, e2, List.drop_zero, e1]
  have sub : ∀ a m, ∀ l ∈ (lines.drop a).take m, '\n' ∉ l :=
    fun a m l hl => hn l (List.mem_of_mem_drop (List.mem_of_mem_take hl))
  have len : ∀ a m, a + m ≤ lines.length → ((lines.drop a).take m).length = m := by
    intro a m ham
    rw [List.length_take, List.length_drop]
    omega
  have p1 : ∀ rest, TableData.parseIZAW F 4 (textOf ((lines.drop 0).take 4) ++ rest) = .ok (d.iz.zip d.aw, rest) := by
    intro rest
    have h4 := len 0 4 (by omega)
    have := C62.readRows_eq (fun line => (List.range 4).mapM (TableData.parsePair F line)) 4 ((lines.drop 0).take 4)
      (d.iz.zip d.aw) rest (by rw [h4, List.length_zip, hs.iz, hs.aw]; decide) (sub 0 4) (by
        intro q hq
        rw [h4] at hq
        rw [C62.getD_sub lines 0 4 q hq, Nat.zero_add]
        refine C62.row_eq (by rw [List.length_zip, hs.iz, hs.aw]; omega) fun j a hj ha => ?_
        obtain ⟨h1, h2⟩ := List.getElem?_zip_eq_some.mp ha
        obtain ⟨e1, e2⟩ := C62.mod_of 4 q j hj
        have i1 := h.iz _ _ h1
        have i2 := h.aw _ _ h2
        rw [e1, e2] at i1 i2
        unfold TableData.parsePair
        rw [C62.int_at i1, ok_bind, C62.real_at i2, ok_bind]
        rfl)
    rw [h4] at this
    rw [C62.parseIZAW_rows]
    exact this
  have ints : ∀ (a m : Nat) (v : List Int) (rest : Str), a + m ≤ lines.length → v.length = 8 * m →
      (∀ (i : Nat) (x : Int), v[i]? = some x → IntIn (fieldAt lines (a + i / 8) (9 * (i % 8)) 9) x) →
      TableData.parseInts m (textOf ((lines.drop a).take m) ++ rest) = .ok (v, rest) := by
    intro a m v rest ham hv hi
    have hm := len a m ham
    have := C62.readRows_eq (fun line => (List.range 8).mapM fun i => readInt (column line (9 * i) 9)) 8
      ((lines.drop a).take m) v rest (by rw [hm]; exact hv) (sub a m) (by
        intro q hq
        rw [hm] at hq
        rw [C62.getD_sub lines a m q hq]
        refine C62.row_eq (by omega) fun j x hj hx => ?_
        obtain ⟨e1, e2⟩ := C62.mod_of 8 q j hj
        have i1 := hi _ _ hx
        rw [e1, e2] at i1
        exact C62.int_at i1)
    rw [hm] at this
    rw [C62.parseInts_rows]
    exact this
  have words : ∀ q m, 4 * q + m ≤ d.xss.length → m ≤ 4 →
      TableData.parseWords F (lines.getD (10 + q) []) m = .ok ((d.xss.drop (4 * q)).take m) := by
    intro q m hq hm
    unfold TableData.parseWords
    refine C62.row_eq hq fun j x hj hx => ?_
    obtain ⟨e1, e2⟩ := C62.mod_of 4 q j (by omega)
    have i1 := h.xss _ _ hx
    rw [e1, e2] at i1
    exact C62.real_at i1
  have p4 : ∀ rest, TableData.parseLines F (d.xss.length / 4) (textOf ((lines.drop 10).take (d.xss.length / 4)) ++ rest) =
      .ok (d.xss.take (4 * (d.xss.length / 4)), rest) := by
    intro rest
    have hm := len 10 (d.xss.length / 4) (by omega)
    have := C62.readRows_eq (fun line => TableData.parseWords F line 4) 4 ((lines.drop 10).take (d.xss.length / 4))
      (d.xss.take (4 * (d.xss.length / 4))) rest (by rw [hm, List.length_take]; omega) (sub _ _) (by
        intro q hq
        rw [hm] at hq
        rw [C62.getD_sub lines 10 _ q hq, words q 4 (by omega) (by decide), List.drop_take, List.take_take,
          Nat.min_eq_left (by omega)])
    rw [hm] at this
    rw [C62.parseLines_rows]
    exact this
  have p5 : TableData.parseLast F (d.xss.length % 4)
      (textOf ((lines.drop (10 + d.xss.length / 4)).take ((d.xss.length + 3) / 4)) ++ rest) =
      .ok (d.xss.drop (4 * (d.xss.length / 4)), rest) := by
    unfold TableData.parseLast
    by_cases hz : d.xss.length % 4 = 0
    · rw [if_neg (by simpa using hz), List.drop_of_length_le (i := 10 + d.xss.length / 4) (by omega),
        List.drop_of_length_le (l := d.xss) (by omega), List.take_nil]
      rfl
    · rw [if_pos hz]
      have hlt : 10 + d.xss.length / 4 < lines.length := by omega
      have e : (lines.drop (10 + d.xss.length / 4)).take ((d.xss.length + 3) / 4) = [lines.getD (10 + d.xss.length / 4) []] := by
        rw [List.drop_eq_getElem_cons hlt, List.drop_of_length_le (by omega),
          List.take_of_length_le (by simp only [List.length_cons, List.length_nil]; omega),
          List.getD_eq_getElem?_getD, List.getElem?_eq_getElem hlt]
        rfl
      have hm : lines.getD (10 + d.xss.length / 4) [] ∈ lines := by
        rw [List.getD_eq_getElem?_getD, List.getElem?_eq_getElem hlt]
        exact List.getElem_mem _
      rw [e, show textOf [lines.getD (10 + d.xss.length / 4) []] ++ rest =
        lines.getD (10 + d.xss.length / 4) [] ++ newline :: rest by simp [textOf, newline],
        nextLine_append (hn _ hm), ok_bind]
      simp only
      rw [words _ _ (by omega) (by omega), ok_bind, List.take_of_length_le (by rw [List.length_drop]; omega)]
      rfl
  unfold TableData.parse
  rw [parts]
  simp only [C62.textOf_append, List.append_assoc]
  rw [p1, ok_bind]
  simp only
  rw [ints 4 2 d.nxs _ (by omega) hs.nxs h.nxs, ok_bind]
  simp only
  rw [ints 6 4 d.jxs _ (by omega) hs.jxs h.jxs, ok_bind]
  simp only
  rw [hx0]
  unfold TableData.parseXSS
  rw [show decide (0 ≤ (d.xss.length : Int)) = true from decide_eq_true (by omega)]
  simp only [guardThrow, if_true, ok_bind, Int.toNat_natCast]
  rw [p4, ok_bind]
  simp only
  rw [p5, ok_bind]
  simp only [pure_eq_ok, List.take_append_drop]
  rw [List.map_fst_zip (by rw [hs.iz, hs.aw]), List.map_snd_zip (by rw [hs.iz, hs.aw]), ok_bind]

/-! ## Numbers -/

/-- The exponent of a number: absent, or the letter E or e, a sign or none, and digits. -/
inductive ExponentIn : Str → Int → Prop where
  | absent : ExponentIn [] 0
  | plain (c : Char) (digits : Str) (hc : c = 'E' ∨ c = 'e') (h : digits ≠ []) (hd : ∀ x ∈ digits, x.isDigit = true) :
      ExponentIn (c :: digits) (Text.toNat digits)
  | plus (c : Char) (digits : Str) (hc : c = 'E' ∨ c = 'e') (h : digits ≠ []) (hd : ∀ x ∈ digits, x.isDigit = true) :
      ExponentIn (c :: '+' :: digits) (Text.toNat digits)
  | minus (c : Char) (digits : Str) (hc : c = 'E' ∨ c = 'e') (h : digits ≠ []) (hd : ∀ x ∈ digits, x.isDigit = true) :
      ExponentIn (c :: '-' :: digits) (-(Text.toNat digits : Int))

/-- The sign of a number. -/
inductive SignIn : Str → Bool → Prop where
  | absent : SignIn [] false
  | plus : SignIn ['+'] false
  | minus : SignIn ['-'] true

/-- The digits behind a decimal point, or nothing. -/
inductive DecimalsIn : Str → Str → Prop where
  | absent : DecimalsIn [] []
  | point (f : Str) (hf : ∀ x ∈ f, x.isDigit = true) : DecimalsIn ('.' :: f) f

namespace C62

theorem readExponent_of {s : Str} {e : Int} (h : ExponentIn s e) :
    readExponent s = some e ∧ ∀ c ∈ s.head?, c.isDigit = false ∧ c ≠ '.' := by
  have letter : ∀ {c : Char}, c = 'E' ∨ c = 'e' → c.isDigit = false ∧ c ≠ '.' := by
    rintro c (rfl | rfl) <;> decide
  cases h with
  | absent => exact ⟨rfl, by simp⟩
  | plain c ds hc h hd =>
    refine ⟨?_, by simpa using letter hc⟩
    cases ds with
    | nil => exact absurd rfl h
    | cons x t =>
      have hx := hd x (by simp)
      have ha := allDigits_of h hd
      unfold readExponent
      split
      · rename_i e; cases e
      · rename_i e; injection e with _ e; injection e with e _; rw [e] at hx; exact absurd hx (by decide)
      · rename_i e; injection e with _ e; injection e with e _; rw [e] at hx; exact absurd hx (by decide)
      · rename_i e; injection e with _ e; rw [← e, ha]; rfl
  | plus c ds hc h hd =>
    refine ⟨?_, by simpa using letter hc⟩
    simp only [readExponent, allDigits_of h hd, Option.map_some]
  | minus c ds hc h hd =>
    refine ⟨?_, by simpa using letter hc⟩
    simp only [readExponent, allDigits_of h hd, Option.map_some]

theorem unsigned_of (neg : Bool) {i p f x : Str} {e : Int} (hi : ∀ c ∈ i, c.isDigit = true) (hp : DecimalsIn p f)
    (h0 : i ++ f ≠ []) (he : ExponentIn x e) :
    Decimal.unsigned neg (i ++ (p ++ x)) = some (ofDecimal neg (Text.toNat (i ++ f)) (e - f.length)) := by
  obtain ⟨hx, hh⟩ := readExponent_of he
  unfold Decimal.unsigned
  cases hp with
  | absent =>
    obtain ⟨h1, h2⟩ := takeWhile_digits (r := x) hi fun c hc => (hh c hc).1
    have hr : readDecimals x = ([], x) := by
      cases x with
      | nil => rfl
      | cons c t =>
        have hc := (hh c rfl).2
        unfold readDecimals
        split
        · rename_i e; injection e with e _; exact absurd e hc
        · rfl
    simp only [List.nil_append, h1, h2, hr, hx]
    rw [if_neg h0]
  | point f hf =>
    obtain ⟨h1, h2⟩ := takeWhile_digits (r := '.' :: (f ++ x)) hi (by simp)
    obtain ⟨h3, h4⟩ := takeWhile_digits (r := x) hf fun c hc => (hh c hc).1
    simp only [List.cons_append, h1, h2, readDecimals, h3, h4, hx]
    rw [if_neg h0]

end C62

/-- A number in a file, of whatever numbers of digits and with or without point, signs and exponent, is read as the
number written, up to the relative error of one rounding to double precision, and with its sign. -/
theorem C62_number (s i p f x : Str) (neg : Bool) (e : Int) (hs : SignIn s neg) (hi : ∀ c ∈ i, c.isDigit = true)
    (hp : DecimalsIn p f) (h0 : i ++ f ≠ []) (he : ExponentIn x e) :
    ∃ y, std.value (s ++ i ++ p ++ x) = some y ∧ signOf y = neg ∧
      |realOf y - (if neg then -1 else 1) * (Text.toNat (i ++ f) * (10 : ℚ) ^ (e - f.length))| ≤
        (2 : ℚ)⁻¹ ^ 53 * (Text.toNat (i ++ f) * (10 : ℚ) ^ (e - f.length)) := by
  obtain ⟨m, ex, h1, _, h3⟩ := ofDecimal_spec neg (Text.toNat (i ++ f)) (e - f.length)
  refine ⟨ofDecimal neg (Text.toNat (i ++ f)) (e - f.length), ?_, by rw [h1]; rfl, ?_⟩
  · rw [List.append_assoc, List.append_assoc, ← C62.unsigned_of neg hi hp h0 he]
    show Decimal.value _ = _
    cases hs with
    | absent =>
      have hd : ∀ c ∈ (i ++ (p ++ x)).head?, c ≠ '-' ∧ c ≠ '+' := by
        intro c hc
        have : c.isDigit = true ∨ c = '.' := by
          cases i with
          | cons a t => simp at hc; subst hc; exact .inl (hi _ (by simp))
          | nil =>
            cases hp with
            | absent => exact absurd rfl h0
            | point f hf => simp at hc; exact .inr hc.symm
        refine ⟨?_, ?_⟩ <;> rintro rfl <;> exact absurd this (by decide)
      rw [List.nil_append]
      unfold Decimal.value
      split
      · rename_i h; rw [h] at hd; exact absurd rfl (hd '-' rfl).1
      · rename_i h; rw [h] at hd; exact absurd rfl (hd '+' rfl).2
      · rfl
    | plus => rfl
    | minus => rfl
  · rw [h1]
    unfold realOf
    cases neg
    · simpa using h3
    · simp only [if_true]
      rw [show ∀ a b : ℚ, -1 * a - -1 * b = -(a - b) from fun a b => by ring, abs_neg]
      exact h3

/-! ## Headers and tables -/

/-- The header of the ACE format in its columns. -/
structure HeaderIn (F : Formats) (lines : List Str) (h : Header) : Prop where
  zaid : StringIn (fieldAt lines 0 0 10) h.zaid
  awr : RealIn F (fieldAt lines 0 10 12) h.awr
  temp : RealIn F (fieldAt lines 0 22 12) h.temp
  date : StringIn (fieldAt lines 0 35 10) h.date
  title : StringIn (fieldAt lines 1 0 70) h.title
  material : StringIn (fieldAt lines 1 70 10) h.material

/-- The header is read as its strings and numbers. -/
theorem C62_header (F : Formats) (line1 line2 : Str) (h : Header) (h1 : '\n' ∉ line1) (h2 : '\n' ∉ line2)
    (hc : HeaderIn F [line1, line2] h) (ha : h.awr.isNeg = false) (ht : h.temp.isNeg = false) (rest : Str) :
    Header.parse F (textOf [line1, line2] ++ rest) = .ok (h, rest) := by
  have z := C62.string_at hc.zaid
  have d := C62.string_at hc.date
  have t := C62.string_at hc.title
  have m := C62.string_at hc.material
  have a := C62.real_at hc.awr
  have k := C62.real_at hc.temp
  simp only [List.getD_cons_zero, List.getD_cons_succ] at z d t m a k
  have e : textOf [line1, line2] ++ rest = line1 ++ newline :: (line2 ++ newline :: rest) := by simp [textOf, newline]
  rw [e]
  unfold Header.parse Header.mk'
  rw [nextLine_append h1, ok_bind]
  simp only
  rw [a, ok_bind, k, ok_bind, ha, ht]
  simp only [guardThrow, Bool.not_false, if_true, ok_bind]
  rw [nextLine_append h2, ok_bind]
  simp only [pure_eq_ok, z, d, t, m]

/-- The header of version 2 of the ACE format: fields in columns on the first line, words on the second one, then as
many comment lines as the second line says. -/
structure Header201In (F : Formats) (lines : List Str) (h : Header201) : Prop where
  known : h.vers = "2.0.0".toList ∨ h.vers = "2.0.1".toList
  version : (words (fieldAt lines 0 0 80)).head? = some h.vers
  vers : StringIn (fieldAt lines 0 0 10) h.vers
  szaid : StringIn (fieldAt lines 0 11 24) h.szaid
  src : StringIn (fieldAt lines 0 36 24) h.src
  second : ∃ (awr temp number : Str) (more : List Str),
    words (fieldAt lines 1 0 80) = awr :: temp :: h.date :: number :: more ∧
    Written F 80 awr h.awr ∧ Written F 80 temp h.temp ∧ (∀ c ∈ number, c.isDigit = true) ∧
    Text.toNat number = h.comments.length
  few : h.comments.length < 2147483648
  comments : ∀ (i : Nat) (c : Str), h.comments[i]? = some c →
    (∃ n, fieldAt lines (2 + i) 0 80 = c ++ blanks n) ∧ ∀ x, c.getLast? = some x → isSpace x = false

namespace C62

theorem words_column (lines : List Str) (line : Nat) :
    words (column (lines.getD line []) 0 80) = words (fieldAt lines line 0 80) := by
  obtain ⟨n, e⟩ := column_eq lines line 0 80
  rw [e]
  refine words_append_space _ ?_
  intro c hc
  rw [(List.mem_replicate.mp hc).2]
  rfl

theorem version_of {line : Str} (hn : '\n' ∉ line) (rest : Str) :
    Table.readVersion (line ++ newline :: rest) = .ok ((words (fieldAt [line] 0 0 80)).headD []) := by
  unfold Table.readVersion
  rw [nextLine_append hn, ok_bind]
  simp only
  have hw := words_column [line] 0
  rw [List.getD_cons_zero] at hw
  cases hv : words (fieldAt [line] 0 0 80) with
  | nil => rw [extract_nil (hw.trans hv)]; rfl
  | cons w ws =>
    obtain ⟨r, hr, _⟩ := extract_words (hw.trans hv)
    rw [hr]
    rfl

theorem number_of {s n : Str} {ws : List Str} (h : words s = n :: ws) (hd : ∀ c ∈ n, c.isDigit = true)
    (hl : Text.toNat n < 2147483648) : Header201.number s = .ok (Text.toNat n : Int) := by
  obtain ⟨rest, h1, h2, h3, h4, _⟩ := words_inv h
  have hu : Header201.unsigned (n ++ rest) = Text.toNat n := by
    unfold Header201.unsigned
    rw [(takeWhile_digits hd fun c hc => ?_).1]
    have := h4 c hc
    cases hb : c.isDigit with
    | false => rfl
    | true => rw [digit_space hb] at this; cases this
  unfold Header201.number
  rw [h1]
  cases n with
  | nil => exact absurd rfl h2
  | cons a t =>
    have ha : a.isDigit = true := hd a (by simp)
    have hm : a ≠ '-' := by rintro rfl; revert ha; decide
    have hp : a ≠ '+' := by rintro rfl; revert ha; decide
    rw [List.cons_append] at hu ⊢
    split
    · rename_i e; cases e
    · rename_i e; injection e with e _; exact absurd e hm
    · rename_i e; injection e with e _; exact absurd e hp
    · rw [hu, Nat.min_eq_left (by omega)]

theorem comments_of : ∀ (lines comments : List Str) (rest : Str), lines.length = comments.length →
    (∀ l ∈ lines, '\n' ∉ l) →
    (∀ (i : Nat) (c : Str), comments[i]? = some c →
      (∃ n, fieldAt lines i 0 80 = c ++ blanks n) ∧ ∀ x, c.getLast? = some x → isSpace x = false) →
    Header201.parseComments comments.length (textOf lines ++ rest) = .ok (comments, rest)
  | [], [], rest, _, _, _ => rfl
  | [], _ :: _, _, h, _, _ => by simp at h
  | _ :: _, [], _, h, _, _ => by simp at h
  | l :: lines, c :: comments, rest, h, hn, hc => by
      have ih := comments_of lines comments rest (by simpa using h) (fun x hx => hn x (by simp [hx]))
        (fun i c' hi => hc (i + 1) c' hi)
      obtain ⟨⟨n, e⟩, hl⟩ := hc 0 c rfl
      obtain ⟨k, e'⟩ := column_eq (l :: lines) 0 0 80
      rw [List.getD_cons_zero, e, List.append_assoc, blanks_add] at e'
      rw [List.length_cons, Header201.parseComments,
        show textOf (l :: lines) ++ rest = l ++ newline :: (textOf lines ++ rest) by simp [textOf, newline],
        nextLine_append (hn l (by simp)), ok_bind]
      simp only
      rw [ih, ok_bind, e']
      simp only [pure_eq_ok]
      rw [show blanks (n + k) = List.replicate (n + k) ' ' from rfl, C39.stripRight_of hl]

end C62

/-- The version 2 header is read as its strings, numbers and comments. -/
theorem C62_header201 (F : Formats) (lines : List Str) (h : Header201) (hn : ∀ l ∈ lines, '\n' ∉ l)
    (hl : lines.length = 2 + h.comments.length) (hc : Header201In F lines h) (ha : h.awr.isNeg = false)
    (ht : h.temp.isNeg = false) (rest : Str) :
    Header201.parse F (textOf lines ++ rest) = .ok (h, rest) := by
  match lines, hn, hl, hc with
  | [], _, hl, _ => simp only [List.length_nil] at hl; omega
  | [_], _, hl, _ => simp only [List.length_cons, List.length_nil] at hl; omega
  | l1 :: l2 :: more, hn, hl, hc =>
    obtain ⟨a, t, n, ws, hw, wa, wt, hd, hv⟩ := hc.second
    have v := C62.string_at hc.vers
    have z := C62.string_at hc.szaid
    have s := C62.string_at hc.src
    have w2 := C62.words_column (l1 :: l2 :: more) 1
    simp only [List.getD_cons_zero, List.getD_cons_succ] at v z s w2
    obtain ⟨r1, e1, w3⟩ := extractReal_words (w2.trans hw) wa
    obtain ⟨r2, e2, w4⟩ := extractReal_words w3 wt
    obtain ⟨r3, e3, w5⟩ := extract_words w4
    have hdate : ∀ c ∈ h.date, isSpace c = false := by
      obtain ⟨_, _, _, h3, _, _⟩ := words_inv w4
      exact h3
    have e4 := C62.number_of w5 hd (by rw [hv]; exact hc.few)
    have e2' : Header201.line2 F (column l2 0 80) = .ok (h.awr, h.temp, h.date, (h.comments.length : Int)) := by
      unfold Header201.line2
      rw [e1]
      simp only
      rw [e2]
      simp only
      rw [e3]
      simp only
      rw [e4, ok_bind, hv]
      rfl
    have hcom := C62.comments_of more h.comments rest (by simp only [List.length_cons] at hl; omega)
      (fun x hx => hn x (by simp [hx])) (fun i c hi => by
        have := hc.comments i c hi
        rw [Nat.add_comm] at this
        exact this)
    have e : textOf (l1 :: l2 :: more) ++ rest = l1 ++ newline :: (l2 ++ newline :: (textOf more ++ rest)) := by
      simp [textOf, newline]
    have hk : (h.vers == "2.0.0".toList || h.vers == "2.0.1".toList) = true := by
      rcases hc.known with e | e <;> rw [e] <;> rfl
    rw [e]
    unfold Header201.parse
    rw [nextLine_append (hn l1 (by simp)), ok_bind]
    simp only
    rw [v, hk]
    simp only [guardThrow, if_true, ok_bind]
    rw [nextLine_append (hn l2 (by simp)), ok_bind]
    simp only
    rw [e2', ok_bind]
    simp only [ha, ht, Bool.not_false, if_true, ok_bind]
    rw [show decide ((h.comments.length : Int) < 0) = false from decide_eq_false (by omega)]
    simp only [Bool.not_false, if_true, ok_bind, Int.toNat_natCast]
    rw [hcom, ok_bind]
    simp only [pure_eq_ok, Header201.make]
    rw [z, s, strip_of_trim hc.vers.1, strip_of_trim (trim_of_noSpace hdate)]

/-- The lines of a table, in either version of the format. -/
inductive TableIn (F : Formats) : List Str → Table → Prop where
  | v1 (line1 line2 : Str) (body : List Str) (h : Header) (d : TableData) (hh : HeaderIn F [line1, line2] h)
      (h0 : (words (fieldAt [line1] 0 0 80)).head? ≠ some "2.0.0".toList)
      (h1 : (words (fieldAt [line1] 0 0 80)).head? ≠ some "2.0.1".toList)
      (ha : h.awr.isNeg = false) (ht : h.temp.isNeg = false)
      (hl : body.length = 10 + (d.xss.length + 3) / 4) (hb : BodyIn F body d) :
      TableIn F ([line1, line2] ++ body) ⟨.v1 h, d⟩
  | v2 (head body : List Str) (h : Header201) (d : TableData) (hh : Header201In F head h)
      (hc : head.length = 2 + h.comments.length) (ha : h.awr.isNeg = false) (ht : h.temp.isNeg = false)
      (hl : body.length = 10 + (d.xss.length + 3) / 4) (hb : BodyIn F body d) :
      TableIn F (head ++ body) ⟨.v2 h, d⟩

/-- A table is read as its header and its numbers. -/
theorem C62_table (F : Formats) (lines : List Str) (t : Table) (hn : ∀ l ∈ lines, '\n' ∉ l) (h : TableIn F lines t)
    (rest : Str) : Table.parse F (textOf lines ++ rest) = .ok (t, rest) := by
  cases h with
  | v1 l1 l2 body h d hh h0 h1 ha ht hl hb =>
    have n1 : '\n' ∉ l1 := hn l1 (by simp)
    have n2 : '\n' ∉ l2 := hn l2 (by simp)
    have p := C62_header F l1 l2 h n1 n2 hh ha ht (textOf body ++ rest)
    have q := C62_body F body d (fun l hl => hn l (by simp [hl])) hl hb rest
    have hv := C62.version_of n1 (l2 ++ newline :: (textOf body ++ rest))
    rw [show l1 ++ newline :: (l2 ++ newline :: (textOf body ++ rest)) = textOf [l1, l2] ++ (textOf body ++ rest) by
      simp [textOf, newline]] at hv
    have hne : ((words (fieldAt [l1] 0 0 80)).headD [] == "2.0.0".toList ||
        (words (fieldAt [l1] 0 0 80)).headD [] == "2.0.1".toList) = false := by
      cases hw : words (fieldAt [l1] 0 0 80) with
      | nil => rfl
      | cons w ws =>
        rw [hw] at h0 h1
        simp only [List.headD_cons, Bool.or_eq_false_iff, beq_eq_false_iff_ne]
        exact ⟨fun e => h0 (by rw [← e]; rfl), fun e => h1 (by rw [← e]; rfl)⟩
    rw [C61.textOf_append, List.append_assoc]
    unfold Table.parse Table.parseHeader
    rw [hv, ok_bind, hne, if_neg (by decide), p, ok_bind]
    simp only [pure_eq_ok, ok_bind]
    rw [q, ok_bind]
  | v2 head body h d hh hc ha ht hl hb =>
    have p := C62_header201 F head h (fun l hl => hn l (by simp [hl])) hc hh ha ht (textOf body ++ rest)
    have q := C62_body F body d (fun l hl => hn l (by simp [hl])) hl hb rest
    have hv : Table.readVersion (textOf head ++ (textOf body ++ rest)) = .ok h.vers := by
      cases head with
      | nil => simp only [List.length_nil] at hc; omega
      | cons l1 more =>
        have := C62.version_of (hn l1 (by simp)) (textOf more ++ (textOf body ++ rest))
        rw [show l1 ++ newline :: (textOf more ++ (textOf body ++ rest)) = textOf (l1 :: more) ++ (textOf body ++ rest) by
          simp [textOf, newline]] at this
        rw [this]
        have e := hh.version
        rw [show fieldAt (l1 :: more) 0 0 80 = fieldAt [l1] 0 0 80 from rfl] at e
        cases hw : words (fieldAt [l1] 0 0 80) with
        | nil => rw [hw] at e; cases e
        | cons w ws => rw [hw] at e; injection e with e; rw [← e]; rfl
    have hk : (h.vers == "2.0.0".toList || h.vers == "2.0.1".toList) = true := by
      rcases hh.known with e | e <;> rw [e] <;> rfl
    rw [C61.textOf_append, List.append_assoc]
    unfold Table.parse Table.parseHeader
    rw [hv, ok_bind, hk, if_pos rfl, p, ok_bind]
    simp only [pure_eq_ok, ok_bind]
    rw [q, ok_bind]

/-- A file of several tables is read as these tables, in order. -/
theorem C62_concatenated (F : Formats) (l : List (List Str × Table)) (hn : ∀ p ∈ l, ∀ x ∈ p.1, '\n' ∉ x)
    (h : ∀ p ∈ l, TableIn F p.1 p.2) :
    Table.fromConcatenatedFile F (l.map fun p => textOf p.1).flatten = .ok (l.map (·.2)) := by
  unfold Table.fromConcatenatedFile
  have key : ∀ (l : List (List Str × Table)), (∀ p ∈ l, ∀ x ∈ p.1, '\n' ∉ x) → (∀ p ∈ l, TableIn F p.1 p.2) →
      ∀ fuel, (l.map fun p => textOf p.1).flatten.length ≤ fuel →
      Table.tables F fuel (l.map fun p => textOf p.1).flatten = .ok (l.map (·.2)) := by
    intro l
    induction l with
    | nil => intro _ _ fuel _; unfold Table.tables; cases fuel <;> rfl
    | cons p l ih =>
      intro hn h fuel hf
      have hp := C62_table F p.1 p.2 (hn p (by simp)) (h p (by simp)) (l.map fun p => textOf p.1).flatten
      have he : textOf p.1 ++ (l.map fun p => textOf p.1).flatten = ((p :: l).map fun p => textOf p.1).flatten := by
        simp
      have hs := C41.parse_shorter hp
      rw [he] at hp hs
      cases ht : ((p :: l).map fun p => textOf p.1).flatten with
      | nil => rw [ht] at hs; simp only [List.length_nil] at hs; omega
      | cons c text =>
        rw [ht] at hp hs hf
        cases fuel with
        | zero => simp at hf
        | succ fuel =>
          unfold Table.tables
          rw [hp, ok_bind]
          simp only
          rw [ih (fun q hq => hn q (by simp [hq])) (fun q hq => h q (by simp [hq])) fuel
            (by simp only [List.length_cons] at hs hf; omega), ok_bind]
          rfl
  exact key l hn h _ (Nat.le_refl _)

/-! ## Examples -/

namespace C62

/-- A body that this library would never write: numbers at the left, other numbers of digits, short lines and blank
fields. -/
def otherBody : List Str := [
  "1001   1.0".toList, [], [], [],
  "5        +92235".toList, [],
  "       1   -7".toList, [], [], [],
  "1.0                 -25E-1              +.5".toList,
  "3.".toList]

/-- Its numbers. -/
def otherData : TableData where
  iz := 1001 :: List.replicate 15 0
  aw := Dbl.ofNat 1 :: List.replicate 15 (Dbl.ofNat 0)
  nxs := 5 :: 92235 :: List.replicate 14 0
  jxs := 1 :: -7 :: List.replicate 30 0
  xss := [Dbl.ofNat 1, .fin true 5629499534213120 (-51), .fin false 4503599627370496 (-53), Dbl.ofNat 0, Dbl.ofNat 3]

theorem other_iz : (∀ i : Fin 16, 1 ≤ i.val → fieldAt otherBody (i.val / 4) (18 * (i.val % 4)) 7 = []) ∧
    fieldAt otherBody 0 0 7 = blanks 0 ++ "1001".toList ++ blanks 3 := by decide +kernel
theorem other_aw : (∀ i : Fin 16, 1 ≤ i.val → fieldAt otherBody (i.val / 4) (18 * (i.val % 4) + 7) 11 = []) ∧
    fieldAt otherBody 0 7 11 = blanks 0 ++ "1.0".toList ++ blanks 0 := by decide +kernel
theorem other_nxs : (∀ i : Fin 16, 2 ≤ i.val → fieldAt otherBody (4 + i.val / 8) (9 * (i.val % 8)) 9 = []) ∧
    fieldAt otherBody 4 0 9 = blanks 0 ++ "5".toList ++ blanks 8 ∧
    fieldAt otherBody 4 9 9 = blanks 0 ++ '+' :: "92235".toList ++ blanks 0 := by decide +kernel
theorem other_jxs : (∀ i : Fin 32, 2 ≤ i.val → fieldAt otherBody (6 + i.val / 8) (9 * (i.val % 8)) 9 = []) ∧
    fieldAt otherBody 6 0 9 = blanks 7 ++ "1".toList ++ blanks 1 ∧
    fieldAt otherBody 6 9 9 = blanks 2 ++ '-' :: "7".toList ++ blanks 0 := by decide +kernel
theorem other_xss : fieldAt otherBody 10 0 20 = blanks 0 ++ "1.0".toList ++ blanks 17 ∧
    fieldAt otherBody 10 20 20 = blanks 0 ++ "-25E-1".toList ++ blanks 14 ∧
    fieldAt otherBody 10 40 20 = blanks 0 ++ "+.5".toList ++ blanks 0 ∧
    fieldAt otherBody 10 60 20 = blanks 0 ∧
    fieldAt otherBody 11 0 20 = blanks 0 ++ "3.".toList ++ blanks 0 := by decide +kernel
theorem other_values : std.value "1.0".toList = some (Dbl.ofNat 1) ∧
    std.value "-25E-1".toList = some (.fin true 5629499534213120 (-51)) ∧
    std.value "+.5".toList = some (.fin false 4503599627370496 (-53)) ∧
    std.value "3.".toList = some (Dbl.ofNat 3) := by decide +kernel

theorem tail_zero {α : Type} {n i : Nat} {x z : α} (h : (List.replicate n z)[i]? = some x) : i < n ∧ x = z := by
  rw [List.getElem?_replicate] at h
  split at h
  · rename_i hi; exact ⟨hi, by injection h with h; exact h.symm⟩
  · cases h

theorem other_in : BodyIn std otherBody otherData where
  sized := ⟨rfl, rfl, rfl, rfl⟩
  size := rfl
  iz := fun i v h => by
    cases i with
    | zero => injection h with h; subst h; rw [other_iz.2]; exact .plain 0 3 "1001".toList (by decide) (by decide)
    | succ i =>
      obtain ⟨hi, rfl⟩ := tail_zero (n := 15) h
      rw [other_iz.1 ⟨i + 1, by omega⟩ (by simp)]
      exact .blank 0
  aw := fun i v h => by
    cases i with
    | zero => injection h with h; subst h; rw [other_aw.2]; exact .number 0 0 _ _ (by decide) (by decide) other_values.1
    | succ i =>
      obtain ⟨hi, rfl⟩ := tail_zero (n := 15) h
      rw [other_aw.1 ⟨i + 1, by omega⟩ (by simp)]
      exact .blank 0
  nxs := fun i v h => by
    match i, h with
    | 0, h => injection h with h; subst h; rw [other_nxs.2.1]; exact .plain 0 8 "5".toList (by decide) (by decide)
    | 1, h => injection h with h; subst h; rw [other_nxs.2.2]; exact .plus 0 0 "92235".toList (by decide) (by decide)
    | i + 2, h =>
      obtain ⟨hi, rfl⟩ := tail_zero (n := 14) h
      rw [other_nxs.1 ⟨i + 2, by omega⟩ (by simp)]
      exact .blank 0
  jxs := fun i v h => by
    match i, h with
    | 0, h => injection h with h; subst h; rw [other_jxs.2.1]; exact .plain 7 1 "1".toList (by decide) (by decide)
    | 1, h => injection h with h; subst h; rw [other_jxs.2.2]; exact .minus 2 0 "7".toList (by decide) (by decide)
    | i + 2, h =>
      obtain ⟨hi, rfl⟩ := tail_zero (n := 30) h
      rw [other_jxs.1 ⟨i + 2, by omega⟩ (by simp)]
      exact .blank 0
  xss := fun i v h => by
    match i, h with
    | 0, h => injection h with h; subst h; rw [other_xss.1]; exact .number 0 17 _ _ (by decide) (by decide) other_values.1
    | 1, h => injection h with h; subst h; rw [other_xss.2.1]; exact .number 0 14 _ _ (by decide) (by decide) other_values.2.1
    | 2, h => injection h with h; subst h; rw [other_xss.2.2.1]; exact .number 0 0 _ _ (by decide) (by decide) other_values.2.2.1
    | 3, h => injection h with h; subst h; rw [other_xss.2.2.2.1]; exact .blank 0
    | 4, h => injection h with h; subst h; rw [other_xss.2.2.2.2]; exact .number 0 0 _ _ (by decide) (by decide) other_values.2.2.2
    | i + 5, h => cases h

/-- A version 1 header with the ZAID at the right, a short temperature, no date and a title that is not at the left. -/
def otherHead : List Str := [" 92235.70c  3.        1e-3".toList, "  some title".toList]
def otherHeader : Header :=
  ⟨"92235.70c".toList, Dbl.ofNat 3, .fin false 4611686018427388 (-62), [], "some title".toList, []⟩

theorem otherHead_fields : fieldAt otherHead 0 0 10 = blanks 1 ++ "92235.70c".toList ++ blanks 0 ∧
    fieldAt otherHead 0 10 12 = blanks 2 ++ "3.".toList ++ blanks 8 ∧
    fieldAt otherHead 0 22 12 = blanks 0 ++ "1e-3".toList ++ blanks 0 ∧
    fieldAt otherHead 0 35 10 = blanks 0 ++ [] ++ blanks 0 ∧
    fieldAt otherHead 1 0 70 = blanks 2 ++ "some title".toList ++ blanks 0 ∧
    fieldAt otherHead 1 70 10 = blanks 0 ++ [] ++ blanks 0 := by decide +kernel

theorem trim_title : Trim "some title".toList :=
  ⟨fun c h => by injection h with h; subst h; rfl, fun c h => by injection h with h; subst h; rfl⟩

theorem otherHead_in : HeaderIn std otherHead otherHeader where
  zaid := ⟨trim_of_noSpace (by decide), 1, 0, otherHead_fields.1⟩
  awr := by rw [otherHead_fields.2.1]; exact .number 2 8 _ _ (by decide) (by decide) other_values.2.2.2
  temp := by rw [otherHead_fields.2.2.1]; exact .number 0 0 _ _ (by decide) (by decide) (by decide +kernel)
  date := ⟨trim_of_noSpace (fun _ hc => absurd hc List.not_mem_nil), 0, 0, otherHead_fields.2.2.2.1⟩
  title := ⟨trim_title, 2, 0, otherHead_fields.2.2.2.2.1⟩
  material := ⟨trim_of_noSpace (fun _ hc => absurd hc List.not_mem_nil), 0, 0, otherHead_fields.2.2.2.2.2⟩

theorem other_table1 : TableIn std (otherHead ++ otherBody) ⟨.v1 otherHeader, otherData⟩ :=
  .v1 _ _ otherBody _ _ otherHead_in (by decide +kernel) (by decide +kernel) rfl rfl rfl other_in

/-- A version 2 header with one comment, written with single blanks. -/
def otherHead2 : List Str := ["2.0.0      92235.800nc".toList, "3. 1e-3 2020-01-01 1".toList, "comment".toList]
def otherHeader2 : Header201 :=
  ⟨"2.0.0".toList, "92235.800nc".toList, [], Dbl.ofNat 3, .fin false 4611686018427388 (-62), "2020-01-01".toList,
    ["comment".toList]⟩

theorem other_table2 : TableIn std (otherHead2 ++ otherBody) ⟨.v2 otherHeader2, otherData⟩ :=
  .v2 otherHead2 otherBody otherHeader2 otherData
    { known := .inl rfl
      version := by decide +kernel
      vers := ⟨trim_of_noSpace (by decide), 0, 5, by decide +kernel⟩
      szaid := ⟨trim_of_noSpace (by decide), 0, 0, by decide +kernel⟩
      src := ⟨trim_of_noSpace (fun _ hc => absurd hc List.not_mem_nil), 0, 0, by decide +kernel⟩
      second := ⟨"3.".toList, "1e-3".toList, "1".toList, [], by decide +kernel,
        ⟨by decide, by decide, by decide, other_values.2.2.2⟩, ⟨by decide, by decide, by decide, by decide +kernel⟩,
        by decide, by decide⟩
      few := by decide
      comments := fun i c h => by
        match i, h with
        | 0, h =>
          injection h with h
          subst h
          exact ⟨⟨0, by decide +kernel⟩, fun x hx => by injection hx with hx; subst hx; rfl⟩
        | i + 1, h => cases h }
    rfl rfl rfl rfl other_in

theorem other_lines : (∀ x ∈ otherHead ++ otherBody, '\n' ∉ x) ∧ ∀ x ∈ otherHead2 ++ otherBody, '\n' ∉ x := by
  decide +kernel

end C62

/-- Both tables in one file. -/
example : Table.fromConcatenatedFile std (textOf (C62.otherHead ++ C62.otherBody) ++ textOf (C62.otherHead2 ++ C62.otherBody)) =
    .ok [⟨.v1 C62.otherHeader, C62.otherData⟩, ⟨.v2 C62.otherHeader2, C62.otherData⟩] := by
  have := C62_concatenated std [(C62.otherHead ++ C62.otherBody, ⟨.v1 C62.otherHeader, C62.otherData⟩),
    (C62.otherHead2 ++ C62.otherBody, ⟨.v2 C62.otherHeader2, C62.otherData⟩)]
    (List.forall_mem_cons.mpr ⟨C62.other_lines.1, List.forall_mem_cons.mpr ⟨C62.other_lines.2, fun _ h => nomatch h⟩⟩)
    (List.forall_mem_cons.mpr ⟨C62.other_table1, List.forall_mem_cons.mpr ⟨C62.other_table2, fun _ h => nomatch h⟩⟩)
  simpa only [List.map_cons, List.map_nil, List.flatten_cons, List.flatten_nil, List.append_nil] using this

/-- `+12.50e-03` is read as the double next to 0.0125. -/
example := C62_number "+".toList "12".toList ".50".toList "50".toList "e-03".toList false (-3) .plus (by decide)
  (.point "50".toList (by decide)) (by decide) (.minus 'e' "03".toList (.inr rfl) (by decide) (by decide))

end ACE.Props

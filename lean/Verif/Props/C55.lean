import Verif.Props.C41
import Verif.Props.C48

/-!
# C55: reading any text ends with a table of the right shape or with an exception

The text is arbitrary: a truncated, corrupted or foreign file. The body of a table and version 1 headers are
read or refused by an exception; for version 2 headers this is not so, because a second line with less
than four values leaves variables without a value (`C55_false`).
-/

namespace ACE.Props
open ACE Text

/-- A call returns, or throws an exception in every build. -/
def Ends {α : Type} (r : Res α) : Prop := (∃ a, r = .ok a) ∨ r = .error .thrown

namespace Ends
variable {α β : Type}

theorem ok (a : α) : Ends (Except.ok a : Res α) := .inl ⟨a, rfl⟩
theorem thrown : Ends (Except.error .thrown : Res α) := .inr rfl

theorem bind {x : Res α} {f : α → Res β} (h : Ends x) (hf : ∀ a, x = .ok a → Ends (f a)) : Ends (x >>= f) := by
  rcases h with ⟨a, rfl⟩ | rfl
  · exact hf a rfl
  · exact thrown

theorem guard (c : Bool) : Ends (guardThrow c) := by
  cases c
  · exact thrown
  · exact ok ()

theorem mapM {f : α → Res β} : ∀ l : List α, (∀ a ∈ l, Ends (f a)) → Ends (l.mapM f)
  | [], _ => ok []
  | a :: l, h => by
    rw [List.mapM_cons]
    exact bind (h a (List.mem_cons_self ..)) fun _ _ =>
      bind (mapM l fun b hb => h b (List.mem_cons_of_mem _ hb)) fun _ _ => ok _

theorem not_ub {r : Res α} (h : Ends r) : r ≠ .error .ub := by
  rcases h with ⟨a, rfl⟩ | rfl <;> intro h <;> cases h

end Ends

/-- The text that is left is the end of the text that was given. -/
def IsRest (rest text : Str) : Prop := ∃ read, text = read ++ rest

namespace C55

theorem rest_refl (s : Str) : IsRest s s := ⟨[], rfl⟩
theorem rest_trans {a b c : Str} (h : IsRest a b) (h' : IsRest b c) : IsRest a c := by
  obtain ⟨x, rfl⟩ := h
  obtain ⟨y, rfl⟩ := h'
  exact ⟨y ++ x, by simp⟩

theorem nextLine_ends (s : Str) : Ends (nextLine s) := by
  cases s
  · exact Ends.thrown
  · exact Ends.ok _

theorem nextLine_rest {s : Str} {r} (h : nextLine s = .ok r) : IsRest r.2 s := by
  cases s with
  | nil => cases h
  | cons c s =>
    injection h with h
    subst h
    simp only
    refine ⟨(c :: s).takeWhile (· != newline) ++ ((c :: s).dropWhile (· != newline)).take 1, ?_⟩
    rw [List.append_assoc, List.take_append_drop, List.takeWhile_append_dropWhile]

theorem readInt_ends (s : Str) : Ends (readInt s) := by
  unfold readInt
  split
  · exact Ends.ok _
  · split
    · exact Ends.ok _
    · exact Ends.thrown
  · split
    · exact Ends.ok _
    · exact Ends.thrown
  · split
    · exact Ends.ok _
    · exact Ends.thrown

theorem read_ends (F : Formats) (s : Str) : Ends (F.read s) := by
  unfold Formats.read
  split
  · exact Ends.ok _
  · split
    · exact Ends.ok _
    · exact Ends.thrown

theorem izaw_ends (F : Formats) : ∀ (n : Nat) (text : Str), Ends (TableData.parseIZAW F n text)
  | 0, _ => Ends.ok _
  | n + 1, text => by
    unfold TableData.parseIZAW
    exact (nextLine_ends _).bind fun ⟨line, text⟩ _ =>
      (Ends.mapM _ fun i _ => (readInt_ends _).bind fun _ _ => (read_ends F _).bind fun _ _ => Ends.ok _).bind
        fun _ _ => (izaw_ends F n text).bind fun _ _ => Ends.ok _

theorem ints_ends : ∀ (n : Nat) (text : Str), Ends (TableData.parseInts n text)
  | 0, _ => Ends.ok _
  | n + 1, text => by
    unfold TableData.parseInts
    exact (nextLine_ends _).bind fun ⟨line, text⟩ _ =>
      (Ends.mapM _ fun i _ => readInt_ends _).bind
        fun _ _ => (ints_ends n text).bind fun _ _ => Ends.ok _

theorem lines_ends (F : Formats) : ∀ (n : Nat) (text : Str), Ends (TableData.parseLines F n text)
  | 0, _ => Ends.ok _
  | n + 1, text => by
    unfold TableData.parseLines
    exact (nextLine_ends _).bind fun ⟨line, text⟩ _ =>
      (Ends.mapM _ fun i _ => read_ends F _).bind
        fun _ _ => (lines_ends F n text).bind fun _ _ => Ends.ok _

theorem last_ends (F : Formats) (n : Nat) (text : Str) : Ends (TableData.parseLast F n text) := by
  unfold TableData.parseLast
  split
  · exact (nextLine_ends _).bind fun ⟨line, text⟩ _ =>
      (Ends.mapM _ fun i _ => read_ends F _).bind fun _ _ => Ends.ok _
  · exact Ends.ok _

theorem izaw_shape (F : Formats) : ∀ (n : Nat) (text : Str) {r}, TableData.parseIZAW F n text = .ok r →
    r.1.length = 4 * n ∧ IsRest r.2 text
  | 0, _, r, h => by cases h; exact ⟨rfl, rest_refl _⟩
  | n + 1, text, r, h => by
    unfold TableData.parseIZAW at h
    obtain ⟨⟨l, t⟩, h1, h⟩ := bind_eq_ok.mp h
    obtain ⟨ps, h2, h⟩ := bind_eq_ok.mp h
    obtain ⟨⟨m, t'⟩, h3, h⟩ := bind_eq_ok.mp h
    injection h with h
    subst h
    have hl := C48.mapM_len _ _ _ h2
    obtain ⟨h4, h5⟩ := izaw_shape F n t h3
    refine ⟨?_, rest_trans h5 (nextLine_rest h1)⟩
    simp at hl h4 ⊢
    omega

theorem ints_shape : ∀ (n : Nat) (text : Str) {r}, TableData.parseInts n text = .ok r →
    r.1.length = 8 * n ∧ IsRest r.2 text
  | 0, _, r, h => by cases h; exact ⟨rfl, rest_refl _⟩
  | n + 1, text, r, h => by
    unfold TableData.parseInts at h
    obtain ⟨⟨l, t⟩, h1, h⟩ := bind_eq_ok.mp h
    obtain ⟨ps, h2, h⟩ := bind_eq_ok.mp h
    obtain ⟨⟨m, t'⟩, h3, h⟩ := bind_eq_ok.mp h
    injection h with h
    subst h
    have hl := C48.mapM_len _ _ _ h2
    obtain ⟨h4, h5⟩ := ints_shape n t h3
    refine ⟨?_, rest_trans h5 (nextLine_rest h1)⟩
    simp at hl h4 ⊢
    omega

theorem lines_shape (F : Formats) : ∀ (n : Nat) (text : Str) {r}, TableData.parseLines F n text = .ok r →
    r.1.length = 4 * n ∧ IsRest r.2 text
  | 0, _, r, h => by cases h; exact ⟨rfl, rest_refl _⟩
  | n + 1, text, r, h => by
    unfold TableData.parseLines TableData.parseWords at h
    obtain ⟨⟨l, t⟩, h1, h⟩ := bind_eq_ok.mp h
    obtain ⟨ps, h2, h⟩ := bind_eq_ok.mp h
    obtain ⟨⟨m, t'⟩, h3, h⟩ := bind_eq_ok.mp h
    injection h with h
    subst h
    have hl := C48.mapM_len _ _ _ h2
    obtain ⟨h4, h5⟩ := lines_shape F n t h3
    refine ⟨?_, rest_trans h5 (nextLine_rest h1)⟩
    simp at hl h4 ⊢
    omega

theorem last_shape (F : Formats) (n : Nat) (text : Str) {r} (h : TableData.parseLast F n text = .ok r) :
    r.1.length = n ∧ IsRest r.2 text := by
  unfold TableData.parseLast at h
  split at h
  · obtain ⟨⟨l, t⟩, h1, h⟩ := bind_eq_ok.mp h
    obtain ⟨ps, h2, h⟩ := bind_eq_ok.mp h
    injection h with h
    subst h
    have hl := C48.mapM_len _ _ _ h2
    simp at hl
    exact ⟨hl, nextLine_rest h1⟩
  · rename_i h0
    injection h with h
    subst h
    simp at h0
    subst h0
    exact ⟨rfl, rest_refl _⟩

end C55

/-- Reading the body of a table from any text ends. When it succeeds there are 16 IZ, AW and NXS values and 32
JXS values, as many words as NXS(1) says, and what is left is the end of the text. -/
theorem C55_body (F : Formats) (text : Str) : Ends (TableData.parse F text) ∧
    ∀ d rest, TableData.parse F text = .ok (d, rest) →
      d.Sized ∧ d.NXS 1 = .ok (d.xss.length : Int) ∧ IsRest rest text := by
  constructor
  · unfold TableData.parse TableData.parseXSS
    exact (C55.izaw_ends F 4 text).bind fun ⟨_, t1⟩ _ => (C55.ints_ends 2 t1).bind fun ⟨_, t2⟩ _ =>
      (C55.ints_ends 4 t2).bind fun ⟨_, t3⟩ _ => ((Ends.guard _).bind fun _ _ =>
        (C55.lines_ends F _ t3).bind fun ⟨_, t4⟩ _ => (C55.last_ends F _ t4).bind fun _ _ => Ends.ok _).bind
      fun _ _ => Ends.ok _
  · intro d rest h
    unfold TableData.parse TableData.parseXSS at h
    obtain ⟨⟨izaw, t1⟩, h1, h⟩ := bind_eq_ok.mp h
    obtain ⟨⟨nxs, t2⟩, h2, h⟩ := bind_eq_ok.mp h
    obtain ⟨⟨jxs, t3⟩, h3, h⟩ := bind_eq_ok.mp h
    obtain ⟨⟨xss, t4⟩, h4, h⟩ := bind_eq_ok.mp h
    obtain ⟨_, h5, h4⟩ := bind_eq_ok.mp h4
    obtain ⟨⟨lines, t5⟩, h6, h4⟩ := bind_eq_ok.mp h4
    obtain ⟨⟨last, t6⟩, h7, h4⟩ := bind_eq_ok.mp h4
    injection h4 with h4
    injection h with h
    obtain ⟨a1, r1⟩ := C55.izaw_shape F 4 text h1
    obtain ⟨a2, r2⟩ := C55.ints_shape 2 t1 h2
    obtain ⟨a3, r3⟩ := C55.ints_shape 4 t2 h3
    obtain ⟨a4, r4⟩ := C55.lines_shape F _ t3 h6
    obtain ⟨a5, r5⟩ := C55.last_shape F _ t5 h7
    have h5 := guardThrow_eq_ok.mp h5
    simp at h5 a1 a2 a3 a4 a5
    injection h4 with h4 h4'
    injection h with h h'
    subst h4 h4' h h'
    refine ⟨⟨by simp [a1], by simp [a1], by simp [a2], by simp [a3]⟩, ?_,
      C55.rest_trans r5 (C55.rest_trans r4 (C55.rest_trans r3 (C55.rest_trans r2 r1)))⟩
    cases nxs with
    | nil => simp at a2
    | cons n l =>
      have e : ((lines ++ last).length : Int) = n := by
        simp at h5
        simp [a4, a5]
        omega
      simp only [TableData.NXS, TableData.fetch, TableData.verifyIndex, a2, e]
      rfl

/-! ## Integers read from columns can be written to these columns -/

namespace C55

theorem column_length (l : Str) (i w : Nat) : (column l i w).length = w := left_length _ _

theorem column_mem {l : Str} {i w : Nat} {c : Char} (h : c ∈ column l i w) : c ∈ l ∨ c = ' ' := by
  unfold column left at h
  rcases List.mem_append.mp h with h | h
  · exact .inl (List.mem_of_mem_drop (List.mem_of_mem_take h))
  · exact .inr (List.eq_of_mem_replicate h)

theorem dropWhile_le (p : Char → Bool) (s : Str) : (s.dropWhile p).length ≤ s.length := (List.dropWhile_sublist _).length_le

theorem strip_length (s : Str) : (strip s).length ≤ s.length := by
  unfold strip
  have h1 := dropWhile_le isSpace s
  have h2 := dropWhile_le isSpace (s.dropWhile isSpace).reverse
  simp at h2 ⊢
  omega

theorem strip_mem {s : Str} {c : Char} (h : c ∈ strip s) : c ∈ s := by
  unfold strip at h
  simp only [List.mem_reverse] at h
  exact (List.dropWhile_sublist _).subset (List.mem_reverse.mp ((List.dropWhile_sublist _).subset h))

theorem nextLine_line {s : Str} {r} (h : nextLine s = .ok r) : '\n' ∉ r.1 := by
  cases s with
  | nil => cases h
  | cons c s =>
    injection h with h
    subst h
    intro hc
    have := List.all_takeWhile (p := (· != newline)) (l := c :: s)
    have := List.all_eq_true.mp this _ hc
    exact absurd this (by decide)

theorem isDigit_le {c : Char} (h : c.isDigit = true) : c.toNat - 48 ≤ 9 := by
  unfold Char.isDigit at h
  simp only [Bool.and_eq_true, decide_eq_true_eq] at h
  have h2 : c.toNat ≤ 57 := h.2
  omega

theorem toNat_lt (s : Str) (h : ∀ c ∈ s, c.isDigit = true) : toNat s < 10 ^ s.length := by
  have key : ∀ (s : Str) (v : Nat), (∀ c ∈ s, c.isDigit = true) →
      s.foldl (fun v c => 10 * v + (c.toNat - 48)) v + 1 ≤ (v + 1) * 10 ^ s.length := by
    intro s
    induction s with
    | nil => intro v _; simp
    | cons c s ih =>
      intro v h
      have h1 := ih (10 * v + (c.toNat - 48)) fun d hd => h d (List.mem_cons_of_mem _ hd)
      have h2 := isDigit_le (h c (List.mem_cons_self ..))
      simp only [List.foldl_cons, List.length_cons]
      refine Nat.le_trans h1 ?_
      rw [Nat.pow_succ, Nat.mul_comm (10 ^ s.length) 10, ← Nat.mul_assoc]
      exact Nat.mul_le_mul_right _ (by omega)
  have := key s 0 h
  unfold toNat
  simp at this ⊢
  omega

theorem allDigits_lt {s : Str} {n : Nat} (h : allDigits s = some n) : s ≠ [] ∧ n < 10 ^ s.length := by
  unfold allDigits at h
  split at h
  · rename_i h'
    injection h with h
    subst h
    exact ⟨h'.1, toNat_lt s (List.all_eq_true.mp h'.2)⟩
  · cases h

/-- An integer that is read from a number of columns can be written to them. -/
theorem readInt_fits {field : Str} {i : Int} (h : readInt field = .ok i) (hw : 1 ≤ field.length) :
    FitsField field.length i := by
  have hl := strip_length field
  unfold readInt at h
  unfold FitsField ofInt
  split at h
  · injection h with h
    subst h
    exact Nat.le_trans (ofNat_length_le (k := 1) (by decide) (by decide)) hw
  · rename_i s hs
    split at h
    · rename_i n hn
      injection h with h
      subst h
      obtain ⟨h1, h2⟩ := allDigits_lt hn
      have h3 : 1 ≤ s.length := by cases s; exact absurd rfl h1; simp
      have h4 := ofNat_length_le h3 h2
      rw [hs] at hl
      simp at hl
      split
      · simp; omega
      · simp; omega
    · cases h
  · rename_i s hs
    split at h
    · rename_i n hn
      injection h with h
      subst h
      obtain ⟨h1, h2⟩ := allDigits_lt hn
      have h3 : 1 ≤ s.length := by cases s; exact absurd rfl h1; simp
      have h4 := ofNat_length_le h3 h2
      rw [hs] at hl
      simp at hl
      rw [if_neg (by omega)]
      simp; omega
    · cases h
  · split at h
    · rename_i n hn
      injection h with h
      subst h
      obtain ⟨h1, h2⟩ := allDigits_lt hn
      have h3 : 1 ≤ (strip field).length := List.length_pos_iff.mpr h1
      have h4 := ofNat_length_le h3 h2
      rw [if_neg (by omega)]
      simp; omega
    · cases h

theorem mapM_all {α β : Type} {f : α → Res β} {P : β → Prop} (hf : ∀ a b, f a = .ok b → P b) :
    ∀ (l : List α) (r : List β), l.mapM f = .ok r → ∀ b ∈ r, P b
  | [], r, h, b, hb => by cases h; cases hb
  | a :: l, r, h, b, hb => by
    rw [List.mapM_cons] at h
    obtain ⟨x, h1, h⟩ := bind_eq_ok.mp h
    obtain ⟨y, h2, h⟩ := bind_eq_ok.mp h
    injection h with h
    subst h
    rcases List.mem_cons.mp hb with rfl | hb
    · exact hf _ _ h1
    · exact mapM_all hf l y h2 b hb

theorem ints_fits : ∀ (n : Nat) (text : Str) {r}, TableData.parseInts n text = .ok r → ∀ i ∈ r.1, FitsField 9 i
  | 0, _, r, h => by cases h; intro i hi; cases hi
  | n + 1, text, r, h => by
    unfold TableData.parseInts at h
    obtain ⟨⟨l, t⟩, h1, h⟩ := bind_eq_ok.mp h
    obtain ⟨ps, h2, h⟩ := bind_eq_ok.mp h
    obtain ⟨⟨m, t'⟩, h3, h⟩ := bind_eq_ok.mp h
    injection h with h
    subst h
    intro i hi
    rcases List.mem_append.mp hi with hi | hi
    · refine mapM_all (P := FitsField 9) (fun a b hb => ?_) _ _ h2 i hi
      have := readInt_fits hb (by rw [column_length]; decide)
      rwa [column_length] at this
    · exact ints_fits n t h3 i hi

theorem izaw_fits (F : Formats) : ∀ (n : Nat) (text : Str) {r}, TableData.parseIZAW F n text = .ok r →
    ∀ p ∈ r.1, FitsField 7 p.1
  | 0, _, r, h => by cases h; intro i hi; cases hi
  | n + 1, text, r, h => by
    unfold TableData.parseIZAW at h
    obtain ⟨⟨l, t⟩, h1, h⟩ := bind_eq_ok.mp h
    obtain ⟨ps, h2, h⟩ := bind_eq_ok.mp h
    obtain ⟨⟨m, t'⟩, h3, h⟩ := bind_eq_ok.mp h
    injection h with h
    subst h
    intro i hi
    rcases List.mem_append.mp hi with hi | hi
    · refine mapM_all (P := fun p : Int × Dbl => FitsField 7 p.1) (fun a b hb => ?_) _ _ h2 i hi
      unfold TableData.parsePair at hb
      obtain ⟨x, h4, hb⟩ := bind_eq_ok.mp hb
      obtain ⟨y, h5, hb⟩ := bind_eq_ok.mp hb
      injection hb with hb
      subst hb
      have := readInt_fits h4 (by rw [column_length]; decide)
      rwa [column_length] at this
    · exact izaw_fits F n t h3 i hi

end C55

/-- The integers that are read from any text fit the columns in which they are printed. -/
theorem C55_integers (F : Formats) (text : Str) (d : TableData) (rest : Str)
    (h : TableData.parse F text = .ok (d, rest)) :
    (∀ i ∈ d.iz, FitsField 7 i) ∧ (∀ i ∈ d.nxs, FitsField 9 i) ∧ (∀ i ∈ d.jxs, FitsField 9 i) := by
  unfold TableData.parse at h
  obtain ⟨⟨izaw, t1⟩, h1, h⟩ := bind_eq_ok.mp h
  obtain ⟨⟨nxs, t2⟩, h2, h⟩ := bind_eq_ok.mp h
  obtain ⟨⟨jxs, t3⟩, h3, h⟩ := bind_eq_ok.mp h
  obtain ⟨⟨xss, t4⟩, h4, h⟩ := bind_eq_ok.mp h
  injection h with h
  injection h with h h'
  subst h
  refine ⟨?_, C55.ints_fits _ _ h2, C55.ints_fits _ _ h3⟩
  intro i hi
  obtain ⟨p, hp, rfl⟩ := List.mem_map.mp hi
  exact C55.izaw_fits F _ _ h1 p hp

/-! ## Headers -/

namespace C55

theorem strip_fits {l : Str} (hl : '\n' ∉ l) (i w : Nat) :
    (strip (column l i w)).length ≤ w ∧ Trim (strip (column l i w)) ∧ '\n' ∉ strip (column l i w) := by
  refine ⟨Nat.le_trans (strip_length _) (Nat.le_of_eq (column_length _ _ _)), strip_trim _, fun h => ?_⟩
  rcases column_mem (strip_mem h) with h | h
  · exact hl h
  · exact absurd h (by decide)

end C55

/-- Reading a version 1 header from any text ends, and a header that is read fits its columns. -/
theorem C55_header (F : Formats) (text : Str) : Ends (Header.parse F text) ∧
    ∀ h rest, Header.parse F text = .ok (h, rest) →
      HeaderFits h ∧ h.awr.isNeg = false ∧ h.temp.isNeg = false ∧ IsRest rest text := by
  constructor
  · unfold Header.parse
    exact (C55.nextLine_ends _).bind fun ⟨_, t1⟩ _ => (C55.read_ends F _).bind fun _ _ =>
      (C55.read_ends F _).bind fun _ _ => (Ends.guard _).bind fun _ _ => (Ends.guard _).bind fun _ _ =>
      (C55.nextLine_ends _).bind fun ⟨_, t1⟩ _ => Ends.ok _
  · intro h rest hh
    unfold Header.parse at hh
    obtain ⟨⟨l1, t1⟩, h1, hh⟩ := bind_eq_ok.mp hh
    obtain ⟨awr, _, hh⟩ := bind_eq_ok.mp hh
    obtain ⟨temp, _, hh⟩ := bind_eq_ok.mp hh
    obtain ⟨_, g1, hh⟩ := bind_eq_ok.mp hh
    obtain ⟨_, g2, hh⟩ := bind_eq_ok.mp hh
    obtain ⟨⟨l2, t2⟩, h2, hh⟩ := bind_eq_ok.mp hh
    injection hh with hh
    injection hh with e1 e2
    subst e1 e2
    have n1 := C55.nextLine_line h1
    have n2 := C55.nextLine_line h2
    have a1 := C55.strip_fits n1 0 10
    have a2 := C55.strip_fits n1 35 10
    have a3 := C55.strip_fits n2 0 70
    have a4 := C55.strip_fits n2 70 10
    refine ⟨⟨a1.1, a2.1, a3.1, a4.1, ⟨a1.2.1, a2.2.1, a3.2.1, a4.2.1⟩, ⟨a1.2.2, a2.2.2, a3.2.2, a4.2.2⟩⟩, ?_, ?_,
      C55.rest_trans (C55.nextLine_rest h2) (C55.nextLine_rest h1)⟩
    · have := guardThrow_eq_ok.mp g1
      simp only [Bool.not_eq_true'] at this
      exact this
    · have := guardThrow_eq_ok.mp g2
      simp only [Bool.not_eq_true'] at this
      exact this

/-- A line has an atomic weight ratio, a temperature, a date and something behind them, separated as for the
extraction operator of a stream. -/
def FourValues (F : Formats) (line : Str) : Prop :=
  ∃ awr s1 temp s2 date s3, F.extract line = some (awr, s1) ∧ F.extract s1 = some (temp, s2) ∧
    extract s2 = some (date, s3) ∧ ∃ c ∈ s3, isSpace c = false

/-- The first line and the second line of a text, up to column 80. -/
def firstLine (text : Str) : Str := column (text.takeWhile (· != '\n')) 0 80
def secondLine (text : Str) : Str := column (((text.dropWhile (· != '\n')).drop 1).takeWhile (· != '\n')) 0 80

namespace C55

theorem nextLine_eq {s : Str} {l t : Str} (h : nextLine s = .ok (l, t)) :
    l = s.takeWhile (· != newline) ∧ t = (s.dropWhile (· != newline)).drop 1 := by
  cases s with
  | nil => cases h
  | cons c s => injection h with h; injection h with h1 h2; exact ⟨h1.symm, h2.symm⟩

theorem takeWhile_append_dropWhile_nil {s : Str} (h : s.dropWhile isSpace = []) : ∀ c ∈ s, isSpace c = true := by
  have e := List.takeWhile_append_dropWhile (p := isSpace) (l := s)
  rw [h, List.append_nil] at e
  intro c hc
  rw [← e] at hc
  exact List.all_eq_true.mp (List.all_takeWhile (p := isSpace) (l := s)) c hc

theorem number_ends {s : Str} (h : ∃ c ∈ s, isSpace c = false) : ∃ i, Header201.number s = .ok i := by
  unfold Header201.number
  split
  · rename_i h'
    obtain ⟨c, hc, h⟩ := h
    have := takeWhile_append_dropWhile_nil h' c hc
    rw [h] at this
    cases this
  · exact ⟨_, rfl⟩
  · exact ⟨_, rfl⟩
  · exact ⟨_, rfl⟩

theorem line2_ends {F : Formats} {line : Str} (h : FourValues F line) : Ends (Header201.line2 F line) := by
  obtain ⟨awr, s1, temp, s2, date, s3, h1, h2, h3, h4⟩ := h
  obtain ⟨i, hi⟩ := number_ends h4
  unfold Header201.line2
  simp only [h1, h2, h3, hi]
  exact Ends.ok _

theorem comments_ends : ∀ (n : Nat) (text : Str), Ends (Header201.parseComments n text)
  | 0, _ => Ends.ok _
  | n + 1, text => by
    unfold Header201.parseComments
    exact (nextLine_ends _).bind fun ⟨line, text⟩ _ =>
      (comments_ends n text).bind fun _ _ => Ends.ok _

theorem stripRight_mem {s : Str} {c : Char} (h : c ∈ Header201.stripRight s) : c ∈ s := by
  unfold Header201.stripRight at h
  exact List.mem_reverse.mp ((List.dropWhile_sublist _).subset (List.mem_reverse.mp h))

theorem stripRight_length (s : Str) : (Header201.stripRight s).length ≤ s.length := by
  unfold Header201.stripRight
  have h2 := dropWhile_le isSpace s.reverse
  simp at h2 ⊢
  omega

theorem stripRight_last {s : Str} {x : Char} (h : (Header201.stripRight s).getLast? = some x) : isSpace x = false := by
  unfold Header201.stripRight at h
  rw [List.getLast?_reverse] at h
  exact head_dropWhile h

theorem comments_fit : ∀ (n : Nat) (text : Str) {r}, Header201.parseComments n text = .ok r →
    r.1.length = n ∧ (∀ c ∈ r.1, c.length ≤ 80 ∧ '\n' ∉ c ∧ ∀ x, c.getLast? = some x → isSpace x = false) ∧
      IsRest r.2 text
  | 0, _, r, h => by cases h; exact ⟨rfl, (fun c hc => nomatch hc), rest_refl _⟩
  | n + 1, text, r, h => by
    unfold Header201.parseComments at h
    obtain ⟨⟨l, t⟩, h1, h⟩ := bind_eq_ok.mp h
    obtain ⟨⟨m, t'⟩, h3, h⟩ := bind_eq_ok.mp h
    injection h with h
    subst h
    obtain ⟨a1, a2, a3⟩ := comments_fit n t h3
    refine ⟨by simpa using a1, ?_, rest_trans a3 (nextLine_rest h1)⟩
    intro c hc
    rcases List.mem_cons.mp hc with rfl | hc
    · refine ⟨Nat.le_trans (stripRight_length _) (Nat.le_of_eq (column_length _ _ _)), fun h => ?_,
        fun x hx => stripRight_last hx⟩
      rcases column_mem (stripRight_mem h) with h | h
      · exact nextLine_line h1 h
      · exact absurd h (by decide)
    · exact a2 c hc

theorem extract_word {s : Str} {w r : Str} (h : extract s = some (w, r)) :
    w ≠ [] ∧ ∀ c ∈ w, isSpace c = false := by
  unfold extract at h
  simp only at h
  split at h
  · cases h
  · rename_i hne
    injection h with h
    injection h with h1 h2
    subst h1
    constructor
    · intro h
      cases ht : s.dropWhile isSpace with
      | nil => exact hne ht
      | cons c t =>
        rw [ht, List.takeWhile_cons] at h
        have hc : isSpace c = false := head_dropWhile (s := s) (by rw [ht]; rfl)
        rw [hc] at h
        simp at h
    · intro c hc
      have := List.all_eq_true.mp (List.all_takeWhile (p := (!isSpace ·)) (l := s.dropWhile isSpace)) c hc
      simpa using this

theorem number_lt {s : Str} {i : Int} (h : Header201.number s = .ok i) : i < 2147483648 := by
  unfold Header201.number at h
  split at h
  · cases h
  · injection h with h; omega
  · injection h with h; omega
  · injection h with h; omega

end C55

/-- Reading a version 2 header ends when its second line has the four values. A header that is read fits its
columns but for the date, a word of any length. -/
theorem C55_header201_partial (F : Formats) (text : Str) :
    (FourValues F (secondLine text) → Ends (Header201.parse F text)) ∧
    ∀ h rest, Header201.parse F text = .ok (h, rest) →
      (h.date.length ≤ 10 → Header201Fits h) ∧ h.awr.isNeg = false ∧ h.temp.isNeg = false ∧ IsRest rest text := by
  constructor
  · intro h4
    unfold Header201.parse
    refine (C55.nextLine_ends _).bind fun ⟨_, t1⟩ e1 => (Ends.guard _).bind fun _ _ =>
      (C55.nextLine_ends _).bind fun ⟨l2, t2⟩ e2 => Ends.bind (C55.line2_ends ?_) fun _ _ =>
      (Ends.guard _).bind fun _ _ => (Ends.guard _).bind fun _ _ => (Ends.guard _).bind fun _ _ =>
      (C55.comments_ends _ _).bind fun _ _ => Ends.ok _
    obtain ⟨_, rfl⟩ := C55.nextLine_eq e1
    obtain ⟨rfl, _⟩ := C55.nextLine_eq e2
    exact h4
  · intro h rest hh
    unfold Header201.parse at hh
    obtain ⟨⟨l1, t1⟩, h1, hh⟩ := bind_eq_ok.mp hh
    obtain ⟨_, hv, hh⟩ := bind_eq_ok.mp hh
    obtain ⟨⟨l2, t2⟩, h2, hh⟩ := bind_eq_ok.mp hh
    obtain ⟨⟨awr, temp, date, number⟩, h3, hh⟩ := bind_eq_ok.mp hh
    obtain ⟨_, g1, hh⟩ := bind_eq_ok.mp hh
    obtain ⟨_, g2, hh⟩ := bind_eq_ok.mp hh
    obtain ⟨_, g3, hh⟩ := bind_eq_ok.mp hh
    obtain ⟨⟨cs, t3⟩, h5, hh⟩ := bind_eq_ok.mp hh
    injection hh with hh
    injection hh with e1 e2
    subst e1 e2
    have n1 := C55.nextLine_line h1
    have a1 := C55.strip_fits n1 11 24
    have a2 := C55.strip_fits n1 36 24
    obtain ⟨b1, b2, b3⟩ := C55.comments_fit _ _ h5
    have hdate : (date ≠ [] ∧ ∀ c ∈ date, isSpace c = false) ∧ number < 2147483648 := by
      unfold Header201.line2 at h3
      split at h3
      · cases h3
      · split at h3
        · cases h3
        · split at h3
          · cases h3
          · rename_i he
            obtain ⟨i, hi, h3⟩ := bind_eq_ok.mp h3
            injection h3 with h3
            simp only [Prod.mk.injEq] at h3
            obtain ⟨-, -, e3, e4⟩ := h3
            subst e3 e4
            exact ⟨C55.extract_word he, C55.number_lt hi⟩
    have hs : strip date = date := strip_of_trim (trim_of_noSpace hdate.1.2)
    refine ⟨fun hd => ⟨?_, a1.1, a2.1, ⟨a1.2.1, a2.2.1⟩, ⟨a1.2.2, a2.2.2⟩, ?_, b2, ?_⟩, ?_, ?_,
      C55.rest_trans b3 (C55.rest_trans (C55.nextLine_rest h2) (C55.nextLine_rest h1))⟩
    · have hv := guardThrow_eq_ok.mp hv
      simp only [Bool.or_eq_true, beq_iff_eq] at hv
      simp only [Header201.make]
      rw [strip_of_trim (strip_trim _)]
      exact hv
    · simp only [Header201.make, hs] at hd ⊢
      exact ⟨hdate.1.1, hd, hdate.1.2⟩
    · simp only [Header201.make]
      simp only at b1
      have := hdate.2
      omega
    · have := guardThrow_eq_ok.mp g1
      simp only [Bool.not_eq_true'] at this
      exact this
    · have := guardThrow_eq_ok.mp g2
      simp only [Bool.not_eq_true'] at this
      exact this

/-! ## Tables and files -/

namespace C55

theorem readVersion_ends (text : Str) : Ends (Table.readVersion text) := by
  unfold Table.readVersion
  exact (nextLine_ends _).bind fun ⟨_, _⟩ _ => Ends.ok _

theorem readVersion_word {text v : Str} (h : Table.readVersion text = .ok v) (hv : v ≠ []) :
    ∃ r, extract (firstLine text) = some (v, r) := by
  unfold Table.readVersion at h
  obtain ⟨⟨l, t⟩, h1, h⟩ := bind_eq_ok.mp h
  obtain ⟨rfl, _⟩ := nextLine_eq h1
  injection h with h
  unfold firstLine
  change (match extract (column (text.takeWhile (· != '\n')) 0 80) with
    | some (version, _) => version
    | none => []) = v at h
  cases he : extract (column (text.takeWhile (· != '\n')) 0 80) with
  | none => rw [he] at h; exact absurd h.symm hv
  | some p => rw [he] at h; obtain ⟨a, b⟩ := p; exact ⟨b, by rw [← h]⟩

end C55

/-- Reading a table from any text ends, when the second line of a version 2 header has its four values. -/
theorem C55_table_partial (F : Formats) (text : Str)
    (h2 : ∀ v r, extract (firstLine text) = some (v, r) → v = "2.0.0".toList ∨ v = "2.0.1".toList →
      FourValues F (secondLine text)) : Ends (Table.parse F text) := by
  unfold Table.parse Table.parseHeader
  refine Ends.bind ((C55.readVersion_ends text).bind fun v hv => ?_) fun ⟨_, t⟩ _ =>
    (C55_body F t).1.bind fun _ _ => Ends.ok _
  split
  · rename_i h
    simp only [Bool.or_eq_true, beq_iff_eq] at h
    obtain ⟨r, hr⟩ := C55.readVersion_word hv (by rcases h with rfl | rfl <;> simp)
    exact ((C55_header201_partial F text).1 (h2 v r hr h)).bind fun _ _ => Ends.ok _
  · exact (C55_header F text).1.bind fun _ _ => Ends.ok _

/-- Every file that does not begin with a version number is read or refused. -/
theorem C55_version1 (F : Formats) (text : Str)
    (h : ∀ r, extract (firstLine text) ≠ some ("2.0.0".toList, r) ∧ extract (firstLine text) ≠ some ("2.0.1".toList, r)) :
    Ends (Table.fromFile F text) := by
  unfold Table.fromFile
  refine (C55_table_partial F text fun v r hr hv => ?_).bind fun _ _ => Ends.ok _
  rcases hv with rfl | rfl
  · exact absurd hr (h r).1
  · exact absurd hr (h r).2

namespace C55

/-- A call that stops without a range error. -/
def Stops {α : Type} (r : Res α) : Prop := (∃ a, r = .ok a) ∨ r = .error .thrown ∨ r = .error .ub

theorem Ends.stops {α : Type} {r : Res α} (h : Ends r) : Stops r := h.imp_right .inl

theorem Stops.bind {α β : Type} {x : Res α} {f : α → Res β} (h : Stops x) (hf : ∀ a, x = .ok a → Stops (f a)) :
    Stops (x >>= f) := by
  rcases h with ⟨a, rfl⟩ | rfl | rfl
  · exact hf a rfl
  · exact .inr (.inl rfl)
  · exact .inr (.inr rfl)

theorem line2_stops (F : Formats) (line : Str) : Stops (Header201.line2 F line) := by
  unfold Header201.line2
  split
  · exact .inr (.inr rfl)
  · split
    · exact .inr (.inr rfl)
    · split
      · exact .inr (.inr rfl)
      · refine Stops.bind ?_ fun _ _ => .inl ⟨_, rfl⟩
        unfold Header201.number
        split
        · exact .inr (.inr rfl)
        all_goals exact .inl ⟨_, rfl⟩

theorem parse_stops (F : Formats) (text : Str) : Stops (Table.parse F text) := by
  unfold Table.parse Table.parseHeader
  refine Stops.bind ((Ends.stops (readVersion_ends text)).bind fun v hv => ?_) fun ⟨_, t⟩ _ =>
    Ends.stops ((C55_body F t).1.bind fun _ _ => Ends.ok _)
  split
  · refine Stops.bind ?_ fun _ _ => .inl ⟨_, rfl⟩
    unfold Header201.parse
    exact (Ends.stops (nextLine_ends _)).bind fun ⟨_, t1⟩ e1 => (Ends.stops (Ends.guard _)).bind fun _ _ =>
      (Ends.stops (nextLine_ends _)).bind fun ⟨l2, t2⟩ e2 => Stops.bind (line2_stops F _) fun _ _ =>
      Ends.stops ((Ends.guard _).bind fun _ _ => (Ends.guard _).bind fun _ _ => (Ends.guard _).bind fun _ _ =>
      (comments_ends _ _).bind fun _ _ => Ends.ok _)
  · exact Ends.stops ((C55_header F text).1.bind fun _ _ => Ends.ok _)

end C55

/-- Whatever a file contains, reading its tables comes to an end. -/
theorem C55_concatenated (F : Formats) (content : Str) :
    Table.fromConcatenatedFile F content ≠ .error .endless ∧ Table.fromConcatenatedFile F content ≠ .error .range := by
  have key : ∀ (n : Nat) (s : Str), s.length ≤ n → C55.Stops (Table.tables F n s) := by
    intro n
    induction n with
    | zero =>
      intro s hs
      obtain rfl : s = [] := List.length_eq_zero_iff.mp (by omega)
      exact .inl ⟨[], rfl⟩
    | succ n ih =>
      intro s hs
      cases s with
      | nil => exact .inl ⟨[], rfl⟩
      | cons c s =>
        unfold Table.tables
        refine (C55.parse_stops F _).bind fun ⟨t, rest⟩ hp => ?_
        have := C41.parse_shorter hp
        exact (ih rest (by simp only at this; omega)).bind fun _ _ => .inl ⟨_, rfl⟩
  have h : C55.Stops (Table.fromConcatenatedFile F content) := key _ content (Nat.le_refl _)
  rcases h with ⟨a, h⟩ | h | h <;> rw [h] <;> exact ⟨(nomatch ·), (nomatch ·)⟩

/-- A table with a version 1 header that was read from any text can be printed, and when its numbers survive
their formats, the printed text is read as the same table. -/
theorem C55_printed (F : Formats) (text : Str) (h : Header) (d : TableData) (rest : Str)
    (hp : Table.parse F text = .ok (⟨.v1 h, d⟩, rest)) :
    (∃ s, (⟨.v1 h, d⟩ : Table).print F = .ok s) ∧
    (Written F 12 (F.fixed 6 h.awr) h.awr → Written F 12 (F.sci 'E' 4 h.temp) h.temp →
      (∀ x ∈ d.aw, Written F 11 (F.fixed 7 x) x) → (∀ x ∈ d.xss, Written F 20 (F.sci 'E' 12 x) x) →
      h.zaid ≠ [] → ¬ "2.0.0".toList <+: h.zaid → ¬ "2.0.1".toList <+: h.zaid →
      ∀ more, ∃ s, (⟨.v1 h, d⟩ : Table).print F = .ok s ∧ Table.parse F (s ++ more) = .ok (⟨.v1 h, d⟩, more)) := by
  unfold Table.parse at hp
  obtain ⟨⟨h', t⟩, h1, hp⟩ := bind_eq_ok.mp hp
  obtain ⟨⟨d', t'⟩, h2, hp⟩ := bind_eq_ok.mp hp
  injection hp with hp
  simp only [Prod.mk.injEq, Table.mk.injEq] at hp
  obtain ⟨⟨rfl, rfl⟩, rfl⟩ := hp
  have hh : ∃ t1 t2, Header.parse F t1 = .ok (h, t2) := by
    unfold Table.parseHeader at h1
    obtain ⟨v, _, h1⟩ := bind_eq_ok.mp h1
    split at h1
    · obtain ⟨⟨_, _⟩, _, h1⟩ := bind_eq_ok.mp h1
      cases h1
    · obtain ⟨⟨x, y⟩, h3, h1⟩ := bind_eq_ok.mp h1
      injection h1 with h1
      simp only [Prod.mk.injEq, AnyHeader.v1.injEq] at h1
      obtain ⟨rfl, rfl⟩ := h1
      exact ⟨_, _, h3⟩
  obtain ⟨t1, t2, hh⟩ := hh
  obtain ⟨f1, f2, f3, -⟩ := (C55_header F t1).2 _ _ hh
  obtain ⟨g1, g2, -⟩ := (C55_body F t).2 _ _ h2
  obtain ⟨i1, i2, i3⟩ := C55_integers F t _ _ h2
  constructor
  · refine ⟨headerText F h ++ dataText F d', ?_⟩
    unfold Table.print AnyHeader.print
    simp only [C38_printed F h f1, C40_printed F d' g1, ok_bind]
    rfl
  · intro w1 w2 w3 w4 z1 z2 z3 more
    have hz : ∀ {l : Words} {P : Dbl → Dbl → Prop}, (∀ x ∈ l, P x x) → ∀ p ∈ l.zip l, P p.1 p.2 := by
      intro l P hl p hp
      obtain ⟨i, hi⟩ := List.mem_iff_getElem.mp hp
      obtain ⟨hi, e⟩ := hi
      rw [List.getElem_zip] at e
      subst e
      exact hl _ (List.getElem_mem _)
    have hd : DataFits F d' d'.aw d'.xss := by
      refine ⟨g1, i1, ⟨g1.aw, hz w3⟩, i2, i3, ?_, rfl, hz w4⟩
      have := g2
      unfold TableData.NXS TableData.fetch TableData.verifyIndex at this
      cases hn : d'.nxs with
      | nil => rw [hn] at this; cases this
      | cons n l =>
        rw [hn] at this
        have e : n = (d'.xss.length : Int) := by
          injection this
        rw [← e]
        exact i2 n (by rw [hn]; exact List.mem_cons_self ..)
    exact C41_table F _ _ (.v1 h d' h.awr h.temp d'.aw d'.xss f1 hd g2 w1 w2 f2 f3 z1 z2 z3) more

/-! ## Cases -/

/-- A text that is no table: the first line only. -/
example : Ends (Table.fromFile Decimal.std "92235.80c  233.024800  2.5301E-08   12/19/12\n".toList) :=
  C55_version1 _ _ (by
    have e : (extract (firstLine "92235.80c  233.024800  2.5301E-08   12/19/12\n".toList)).map (·.1) =
      some "92235.80c".toList := by decide +kernel
    intro r
    constructor <;> intro h <;> rw [h] at e <;> simp only [Option.map_some, Option.some.injEq] at e <;> exact absurd e (by decide))

/-- The full statement. -/
def C55Statement : Prop := ∀ (F : Formats) (text : Str), Ends (Table.fromFile F text)

/-- A version 2 header whose second line has an atomic weight ratio only. -/
def shortHeader : Str := "2.0.0        92235.800nc              ENDFB-VII.1\n  233.024800\n".toList

theorem C55_false : ¬ C55Statement := by
  intro h
  exact (h Decimal.std shortHeader).not_ub (by decide +kernel)

/-- The hypothesis of `C55_table_partial` for a version 2 header. -/
def wholeHeader : Str :=
  "2.0.0        92235.800nc              ENDFB-VII.1\n  233.024800   2.5301E-08   12/19/12          3\n".toList

theorem C55.fourValues_of {F : Formats} {line : Str}
    (h : (((F.extract line).bind fun p => F.extract p.2).bind fun p => extract p.2).any
      (fun p => p.2.any (!isSpace ·)) = true) : FourValues F line := by
  obtain ⟨⟨date, s3⟩, h3, h⟩ := (Option.any_eq_true _ _).mp h
  obtain ⟨⟨temp, s2⟩, h2, h3⟩ := Option.bind_eq_some_iff.mp h3
  obtain ⟨⟨awr, s1⟩, h1, h2⟩ := Option.bind_eq_some_iff.mp h2
  obtain ⟨c, hc, h⟩ := List.any_eq_true.mp h
  exact ⟨awr, s1, temp, s2, date, s3, h1, h2, h3, c, hc, by simpa using h⟩

example : Ends (Table.fromFile Decimal.std wholeHeader) :=
  (C55_table_partial _ _ fun _ _ _ _ => C55.fourValues_of (by decide +kernel)).bind fun _ _ => Ends.ok _

/-- A table that is read: the one of C41, printed. -/
example : ∃ text d rest h, Table.parse Decimal.std text = .ok (⟨.v1 h, d⟩, rest) := by
  obtain ⟨text, _, h⟩ := C41_table _ _ _ exTable1_fits []
  exact ⟨_, _, _, _, h⟩

/-- The date of a version 2 header is a word of any length; with more than ten characters the header cannot be
printed. -/
theorem C55_long_date : ∃ h rest, Header201.parse Decimal.std
    "2.0.0        92235.800nc              ENDFB-VII.1\n  233.024800   2.5301E-08  19-December-2012       0\n".toList =
      .ok (h, rest) ∧ h.print Decimal.std = .error .ub := by
  have e : (Header201.parse Decimal.std
    "2.0.0        92235.800nc              ENDFB-VII.1\n  233.024800   2.5301E-08  19-December-2012       0\n".toList).bind
      (fun p => p.1.print Decimal.std) = .error .ub ∧ (Header201.parse Decimal.std
    "2.0.0        92235.800nc              ENDFB-VII.1\n  233.024800   2.5301E-08  19-December-2012       0\n".toList).toBool
      = true := by decide +kernel
  cases h : Header201.parse Decimal.std
    "2.0.0        92235.800nc              ENDFB-VII.1\n  233.024800   2.5301E-08  19-December-2012       0\n".toList with
  | error err => rw [h] at e; exact absurd e.2 (by simp [Except.toBool])
  | ok p => rw [h] at e; exact ⟨p.1, p.2, rfl, e.1⟩

end ACE.Props

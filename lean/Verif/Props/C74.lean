import Verif.Props.CutSpec
import Verif.Lemmas.CutTable
import Verif.Props.C62

/-!
# C74: a file that ends too early

The text is read from the beginning of a file. What is said here rests on what the model takes from disco (see
DESIGN.md): columns behind the end of a line are blank, a blank column is read as 0, and a record that begins at the
end of the text is refused.
-/

namespace ACE.Props
open ACE ACE.Text ACE.Cuts

/-- `p` is the text that was read, `before ++ line`, with the last line cut after `cut`. -/
structure CutText (read p cut : Str) : Prop where
  text : ∃ before line, (read = before ++ line ++ [newline] ∨ read = before ++ line) ∧ p = before ++ cut ∧
    cut <+: line ∧ newline ∉ line

/-- The beginning of a file with a table is refused, read as the table, or read as the table with a cut last line. -/
theorem C74_cut_partial (F : Formats) (content read rest : Str) (t t' : Table) (hc : content = read ++ rest)
    (h : Table.parse F content = .ok (t, rest)) (p : Str) (hp : p <+: content) (h' : Table.fromFile F p = .ok t') :
    (t' = t ∧ read <+: p) ∨ ∃ cut, CutText read p cut ∧ t.CutLine t' cut.length := by
  obtain ⟨⟨u, q⟩, h1, h2⟩ := bind_eq_ok.mp h'
  obtain rfl : u = t' := Except.ok.inj h2
  rcases table_cut F content t rest h p hp with ⟨c, p', a1, a2, a3⟩ | a | ⟨x', before, line, cut, more, b1, b2, b3, b4, b5, b6, b7⟩
  · rw [h1] at a3
    refine .inl ⟨(Prod.mk.inj (Except.ok.inj a3)).1, ?_⟩
    rw [hc] at a1
    rw [List.append_cancel_right a1, a2]
    exact List.prefix_append _ _
  · exact absurd h1 (a _)
  · rw [h1] at b1
    obtain ⟨rfl, rfl⟩ := Prod.mk.inj (Except.ok.inj b1)
    refine .inr ⟨cut, ⟨before, line, ?_, b3, b4, b5⟩, b7⟩
    rcases b6 with rfl | ⟨rfl, rfl⟩
    · refine .inl (List.append_cancel_right (bs := rest) ?_)
      rw [← hc, b2]
      simp only [List.append_assoc, List.cons_append, List.nil_append]
    · refine .inr ?_
      rw [hc, List.append_nil, List.append_nil] at b2
      exact b2

/-- A file that lacks a whole line of the table is refused. -/
theorem C74_lines (F : Formats) (content read rest : Str) (t : Table) (hc : content = read ++ rest)
    (h : Table.parse F content = .ok (t, rest)) (p : Str) (hp : p <+: content)
    (hl : p.count newline + 1 < read.count newline) (t' : Table) : Table.fromFile F p ≠ .ok t' := by
  intro h'
  rcases C74_cut_partial F content read rest t t' hc h p hp h' with ⟨_, a⟩ | ⟨cut, ⟨before, line, a1, a2, a3, a4⟩, _⟩
  · have := a.sublist.count_le newline
    omega
  · have h0 : line.count newline = 0 := List.count_eq_zero.mpr a4
    rw [a2, List.count_append] at hl
    rcases a1 with rfl | rfl
    · rw [List.count_append, List.count_append, List.count_singleton_self] at hl
      omega
    · rw [List.count_append] at hl
      omega

/-- The tables of the beginning of a concatenated file: some of the tables from the first on, or these and the next
one with a cut last line. -/
theorem C74_tables (F : Formats) : ∀ (n m : Nat) (content p : Str) (l l' : List Table), Table.tables F n content = .ok l →
    p <+: content → Table.tables F m p = .ok l' → (∃ k, l' = l.take k) ∨
      ∃ k t t' cut, l[k]? = some t ∧ l' = l.take k ++ [t'] ∧ t.CutLine t' cut := by
  intro n
  induction n with
  | zero =>
    intro m content p l l' h hp h'
    cases content with
    | nil =>
      obtain rfl := List.prefix_nil.mp hp
      have : l' = [] := by cases m <;> exact (Except.ok.inj h').symm
      exact .inl ⟨0, this⟩
    | cons c content => cases h
  | succ n ih =>
    intro m content p l l' h hp h'
    cases p with
    | nil =>
      have : l' = [] := by cases m <;> exact (Except.ok.inj h').symm
      exact .inl ⟨0, this⟩
    | cons a p =>
      cases m with
      | zero => cases h'
      | succ m =>
        cases content with
        | nil => exact absurd (List.prefix_nil.mp hp) (List.cons_ne_nil _ _)
        | cons c content =>
          obtain ⟨⟨t, rest⟩, h1, h2⟩ := bind_eq_ok.mp h
          obtain ⟨ts, h3, h4⟩ := bind_eq_ok.mp h2
          obtain rfl : t :: ts = l := Except.ok.inj h4
          obtain ⟨⟨t', rest'⟩, g1, g2⟩ := bind_eq_ok.mp h'
          obtain ⟨ts', g3, g4⟩ := bind_eq_ok.mp g2
          obtain rfl : t' :: ts' = l' := Except.ok.inj g4
          rcases table_cut F _ t rest h1 _ hp with ⟨d, q, a1, a2, a3⟩ | b | ⟨x', _, _, cut, _, b1, _, _, _, _, _, b7⟩
          · rw [g1] at a3
            obtain ⟨rfl, rfl⟩ := Prod.mk.inj (Except.ok.inj a3)
            rw [a1, a2] at hp
            rcases ih m rest rest' ts ts' h3 ((List.prefix_append_right_inj d).mp hp) g3 with
              ⟨k, rfl⟩ | ⟨k, u, u', cut, e1, rfl, e3⟩
            · exact .inl ⟨k + 1, rfl⟩
            · exact .inr ⟨k + 1, u, u', cut, e1, rfl, e3⟩
          · exact absurd g1 (b _)
          · rw [g1] at b1
            obtain ⟨rfl, rfl⟩ := Prod.mk.inj (Except.ok.inj b1)
            have : ts' = [] := by cases m <;> exact (Except.ok.inj g3).symm
            subst this
            exact .inr ⟨0, t, t', cut.length, rfl, rfl, b7⟩

/-- The tables of the beginning of a concatenated file. -/
theorem C74_concatenated (F : Formats) (content p : Str) (l l' : List Table)
    (h : Table.fromConcatenatedFile F content = .ok l) (hp : p <+: content) (h' : Table.fromConcatenatedFile F p = .ok l') :
    (∃ k, l' = l.take k) ∨ ∃ k t t' cut, l[k]? = some t ∧ l' = l.take k ++ [t'] ∧ t.CutLine t' cut :=
  C74_tables F _ _ content p l l' h hp h'

namespace C74

/-- A table of five words, whose last line is `3.25`: after `n` characters of it the text stops. -/
def text (n : Nat) : Str := textOf (C62.otherHead ++ C62.otherBody.dropLast) ++ "3.25".toList.take n

/-- A table of eight words. -/
def eight (n : Nat) : Str :=
  textOf (C62.otherHead ++ C62.otherBody.take 4 ++ ["8".toList] ++ (C62.otherBody.take 10).drop 5 ++ ["1.".toList]) ++
    "                   1                   2                   3                   4".toList.take n

/-- The words of the table of a file. -/
def wordsOf (s : Str) : Res (List Dbl) := (Table.fromFile Decimal.std s).map (·.data.xss)

theorem of_words {s : Str} {w : List Dbl} (h : wordsOf s = .ok w) : ∃ t, Table.fromFile Decimal.std s = .ok t ∧ t.data.xss = w := by
  unfold wordsOf at h
  cases hf : Table.fromFile Decimal.std s with
  | error e => rw [hf] at h; cases h
  | ok t => rw [hf] at h; exact ⟨t, rfl, Except.ok.inj h⟩

theorem cut4 : wordsOf (text 4) = .ok [Dbl.ofNat 1, .fin true 5629499534213120 (-51), .fin false 4503599627370496 (-53),
    Dbl.ofNat 0, .fin false 7318349394477056 (-51)] := by decide +kernel
theorem cut1 : wordsOf (text 1) = .ok [Dbl.ofNat 1, .fin true 5629499534213120 (-51), .fin false 4503599627370496 (-53),
    Dbl.ofNat 0, Dbl.ofNat 3] := by decide +kernel

end C74

/-- The full claim: the beginning of a file is refused or read as the table of the file. -/
def C74Statement : Prop := ∀ (F : Formats) (content p : Str) (t t' : Table), Table.fromFile F content = .ok t →
  p <+: content → Table.fromFile F p = .ok t' → t' = t

/-- Without the last three characters the word 3.25 is read as 3, and nothing is said. -/
theorem C74_false : ¬ C74Statement := by
  intro h
  obtain ⟨t, h1, h2⟩ := C74.of_words C74.cut4
  obtain ⟨t', h3, h4⟩ := C74.of_words C74.cut1
  have := h _ _ _ _ _ h1 ((List.prefix_append_right_inj _).mpr (by exact ⟨".25".toList, rfl⟩)) h3
  rw [this, h2] at h4
  exact absurd h4 (by decide +kernel)

/-- Words of which nothing is left are read as zero. -/
theorem C74_lost : C74.wordsOf (C74.eight 80) = .ok ([1, 0, 0, 0, 1, 2, 3, 4].map Dbl.ofNat) ∧
    C74.wordsOf (C74.eight 40) = .ok ([1, 0, 0, 0, 1, 2, 0, 0].map Dbl.ofNat) := by
  decide +kernel

/-- A concatenated file of two tables that ends after the first is a file of one table. -/
theorem C74_fewer : (Table.fromConcatenatedFile Decimal.std (C74.text 4 ++ newline :: C74.eight 80)).map (·.length) = .ok 2 ∧
    (Table.fromConcatenatedFile Decimal.std (C74.text 4)).map (·.length) = .ok 1 := by
  decide +kernel

namespace C74

theorem parse4 : ∃ t, Table.parse Decimal.std (text 4 ++ newline :: eight 80) = .ok (t, eight 80) := by
  have h : (Table.parse Decimal.std (text 4 ++ newline :: eight 80)).map (·.2) = .ok (eight 80) := by decide +kernel
  cases hp : Table.parse Decimal.std (text 4 ++ newline :: eight 80) with
  | error e => rw [hp] at h; cases h
  | ok t =>
    rw [hp] at h
    obtain ⟨t, r⟩ := t
    obtain rfl : r = eight 80 := Except.ok.inj h
    exact ⟨t, rfl⟩

end C74

/-- Hypotheses of `C74_cut_partial` that are met: the first of two tables, three characters left of its last word. -/
example : ∃ t t', Table.parse Decimal.std (C74.text 4 ++ newline :: C74.eight 80) = .ok (t, C74.eight 80) ∧
    Table.fromFile Decimal.std (C74.text 1) = .ok t' ∧
    ((t' = t ∧ C74.text 4 ++ [newline] <+: C74.text 1) ∨ ∃ cut, CutText (C74.text 4 ++ [newline]) (C74.text 1) cut ∧
      t.CutLine t' cut.length) := by
  obtain ⟨t, h⟩ := C74.parse4
  obtain ⟨t', h', _⟩ := C74.of_words C74.cut1
  refine ⟨t, t', h, h', C74_cut_partial _ _ _ _ t t' (List.append_cons _ _ _) h (C74.text 1) ?_ h'⟩
  refine List.IsPrefix.trans ?_ (List.prefix_append _ _)
  exact (List.prefix_append_right_inj _).mpr ⟨".25".toList, rfl⟩

/-- Hypotheses of `C74_lines` that are met: the last two lines are lost. -/
example : ∃ t, Table.parse Decimal.std (C74.text 4 ++ newline :: C74.eight 80) = .ok (t, C74.eight 80) ∧
    ∀ t', Table.fromFile Decimal.std (textOf (C62.otherHead ++ C62.otherBody.take 10)) ≠ .ok t' := by
  obtain ⟨t, h⟩ := C74.parse4
  refine ⟨t, h, C74_lines _ _ _ _ t (List.append_cons _ _ _) h _ ?_ (by decide +kernel)⟩
  refine ⟨textOf ["1.0                 -25E-1              +.5".toList] ++ "3.25".toList ++ newline :: C74.eight 80, ?_⟩
  simp [C74.text, textOf, C62.otherHead, C62.otherBody]

/-- Hypotheses of `C74_concatenated` that are met: the second of two tables is cut. -/
example : ∃ l l', Table.fromConcatenatedFile Decimal.std (C74.text 4 ++ newline :: C74.eight 80) = .ok l ∧
    Table.fromConcatenatedFile Decimal.std (C74.text 4 ++ newline :: C74.eight 50) = .ok l' ∧
    ((∃ k, l' = l.take k) ∨ ∃ k t t' cut, l[k]? = some t ∧ l' = l.take k ++ [t'] ∧ t.CutLine t' cut) := by
  have h1 : (Table.fromConcatenatedFile Decimal.std (C74.text 4 ++ newline :: C74.eight 80)).isOk = true := by decide +kernel
  have h2 : (Table.fromConcatenatedFile Decimal.std (C74.text 4 ++ newline :: C74.eight 50)).isOk = true := by decide +kernel
  cases e1 : Table.fromConcatenatedFile Decimal.std (C74.text 4 ++ newline :: C74.eight 80) with
  | error e => rw [e1] at h1; cases h1
  | ok l =>
    cases e2 : Table.fromConcatenatedFile Decimal.std (C74.text 4 ++ newline :: C74.eight 50) with
    | error e => rw [e2] at h2; cases h2
    | ok l' =>
      refine ⟨l, l', rfl, rfl, C74_concatenated _ _ _ l l' e1 ?_ e2⟩
      refine (List.prefix_append_right_inj _).mpr (List.cons_prefix_cons.mpr ⟨rfl, ?_⟩)
      exact (List.prefix_append_right_inj _).mpr ⟨"         3                   4".toList, by decide +kernel⟩

end ACE.Props

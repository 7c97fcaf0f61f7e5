import Verif.Lemmas.Lines
import Verif.Props.C62

/-!
# C75: lines and their ends; files one behind the other

Editors and other programs remove blanks at the ends of lines, or fill the lines with blanks, and leave the last
newline out. Libraries are made by appending files.
-/

namespace ACE.Props
open ACE ACE.Text ACE.Lines

/-- Blanks at the ends of lines and the last newline mean nothing to `fromFile`, whatever it answers. -/
theorem C75_file (F : Formats) (s s' : Str) (h : SameLines s s') : Table.fromFile F s = Table.fromFile F s' := by
  unfold Table.fromFile
  cases hp : Table.parse F s with
  | error e => rw [(table F next_lines h).error trivial e hp]
  | ok r =>
    obtain ⟨t, a⟩ := r
    obtain ⟨a', e', _⟩ := (table F next_lines h).ok t a hp
    rw [e']
    rfl

/-- Nor to `fromConcatenatedFile`. -/
theorem C75_files (F : Formats) (s s' : Str) (h : SameLines s s') :
    Table.fromConcatenatedFile F s = Table.fromConcatenatedFile F s' :=
  tables_same F _ _ s s' h (Nat.le_refl _) (Nat.le_refl _)

/-- Nor to the rest of the text: a table is followed by the same lines. -/
theorem C75_rest (F : Formats) (s s' rest : Str) (t : Table) (h : SameLines s s') (hp : Table.parse F s = .ok (t, rest)) :
    ∃ rest', Table.parse F s' = .ok (t, rest') ∧ SameLines rest rest' :=
  (table F next_lines h).ok t rest hp

/-- `linesOf` gives the lines of a text back. -/
theorem C75_lines : ∀ lines : List Str, (∀ l ∈ lines, newline ∉ l) → linesOf (textOf lines) = lines
  | [], _ => rfl
  | l :: lines, h => by
    have : textOf (l :: lines) = l ++ newline :: textOf lines := by
      simp [textOf, newline]
    rw [this, linesOf_line _ _ (h l (List.mem_cons_self ..)), C75_lines lines fun x hx => h x (List.mem_cons_of_mem _ hx)]

/-- A text that does not end with a newline has the same lines with a newline behind it. -/
theorem C75_last : ∀ s : Str, s ≠ [] → s.getLast? ≠ some newline → linesOf (s ++ [newline]) = linesOf s
  | [], h, _ => absurd rfl h
  | [c], _, h => by
    have h : c ≠ newline := fun e => h (by rw [e]; rfl)
    simp [linesOf, h]
  | c :: d :: s, _, h => by
    rw [List.cons_append, linesOf, C75_last (d :: s) (List.cons_ne_nil _ _) (by rwa [List.getLast?_cons_cons] at h)]
    conv => rhs; rw [linesOf]

theorem C75.same_refl {s s' : Str} (h : linesOf s = linesOf s') : SameLines s s' :=
  ⟨by rw [h], fun i l l' h1 h2 => by
    rw [h, h2] at h1
    obtain rfl := Option.some.inj h1
    exact ⟨0, 0, rfl⟩⟩

/-- The last newline of a file can be missing. -/
theorem C75_newline (F : Formats) (s : Str) (h0 : s ≠ []) (h : s.getLast? ≠ some newline) :
    Table.fromFile F (s ++ [newline]) = Table.fromFile F s ∧
      Table.fromConcatenatedFile F (s ++ [newline]) = Table.fromConcatenatedFile F s :=
  ⟨C75_file F _ _ (C75.same_refl (C75_last s h0 h)), C75_files F _ _ (C75.same_refl (C75_last s h0 h))⟩

/-- Blanks at the ends of lines. -/
theorem C75_blanks (F : Formats) (lines : List (Str × Nat)) (h : ∀ l ∈ lines, newline ∉ l.1) :
    Table.fromFile F (textOf (lines.map fun l => l.1 ++ blanks l.2)) = Table.fromFile F (textOf (lines.map (·.1))) ∧
      Table.fromConcatenatedFile F (textOf (lines.map fun l => l.1 ++ blanks l.2)) =
        Table.fromConcatenatedFile F (textOf (lines.map (·.1))) := by
  have key : SameLines (textOf (lines.map fun l => l.1 ++ blanks l.2)) (textOf (lines.map (·.1))) := by
    unfold SameLines
    rw [C75_lines, C75_lines]
    · refine ⟨by simp, fun i l l' h1 h2 => ?_⟩
      rw [List.getElem?_map] at h1 h2
      cases hi : lines[i]? with
      | none => rw [hi] at h1; cases h1
      | some x =>
        rw [hi] at h1 h2
        obtain rfl := Option.some.inj h1
        obtain rfl := Option.some.inj h2
        exact ⟨0, x.2, by simp [blanks]⟩
    · intro l hl
      obtain ⟨x, hx, rfl⟩ := List.mem_map.mp hl
      exact h x hx
    · intro l hl
      obtain ⟨x, hx, rfl⟩ := List.mem_map.mp hl
      intro hn
      rcases List.mem_append.mp hn with hn | hn
      · exact h x hx hn
      · exact absurd (List.eq_of_mem_replicate hn) (by decide)
  exact ⟨C75_file F _ _ key, C75_files F _ _ key⟩

/-- Files one behind the other are read as the tables of the one and the tables of the other, if the first ends with
a newline. -/
theorem C75_append (F : Formats) (s s' : Str) (l : List Table) (h : Table.fromConcatenatedFile F s = .ok l)
    (hs : s = [] ∨ s.getLast? = some newline) :
    Table.fromConcatenatedFile F (s ++ s') = Table.fromConcatenatedFile F s' >>= fun l' => .ok (l ++ l') := by
  unfold Table.fromConcatenatedFile
  rw [tables_longer F s' _ _ s l hs h (Nat.le_refl _), C41_ends F _ s' (by simp)]
  rfl

/-- What is behind the first table does not change it. -/
theorem C75_first (F : Formats) (s s' : Str) (t : Table) (h : Table.fromFile F s = .ok t)
    (hs : s.getLast? = some newline) : Table.fromFile F (s ++ s') = .ok t := by
  obtain ⟨⟨u, a⟩, h1, h2⟩ := bind_eq_ok.mp h
  obtain rfl : u = t := Except.ok.inj h2
  obtain ⟨a', e', _⟩ := (table F (next_longer s') ⟨rfl, .inr hs⟩).ok u a h1
  unfold Table.fromFile
  rw [e']
  rfl

/-- An empty line at the end of a file: an exception, and no table is given back. -/
theorem C75_empty_line (F : Formats) (s : Str) (l : List Table) (h : Table.fromConcatenatedFile F s = .ok l)
    (hs : s = [] ∨ s.getLast? = some newline) : Table.fromConcatenatedFile F (s ++ [newline]) = .error .thrown := by
  have hr : F.read (column [] 10 12) = .ok (Dbl.ofNat 0) := C62.RealIn.read (.blank 12)
  have hr2 : F.read (column [] 22 12) = .ok (Dbl.ofNat 0) := C62.RealIn.read (.blank 12)
  have hp : Header.parse F [newline] = .error .thrown := by
    unfold Header.parse
    rw [show nextLine [newline] = .ok ([], []) from rfl, ok_bind]
    dsimp only
    rw [hr, hr2]
    rfl
  have ht : Table.fromConcatenatedFile F [newline] = .error .thrown := by
    show (Table.parse F [newline] >>= fun b => Table.tables F 0 b.2 >>= fun l => .ok (b.1 :: l)) = _
    unfold Table.parse Table.parseHeader
    rw [show Table.readVersion [newline] = .ok [] from rfl, ok_bind]
    dsimp only
    rw [if_neg (by decide), hp]
    rfl
  rw [C75_append F s [newline] l h hs, ht]
  rfl

namespace C75

/-- Two tables. -/
def two : Str := textOf (C62.otherHead ++ C62.otherBody) ++ textOf (C62.otherHead2 ++ C62.otherBody)

theorem two_tables : Table.fromConcatenatedFile Decimal.std two =
    .ok [⟨.v1 C62.otherHeader, C62.otherData⟩, ⟨.v2 C62.otherHeader2, C62.otherData⟩] := by
  have := C62_concatenated Decimal.std [(C62.otherHead ++ C62.otherBody, ⟨.v1 C62.otherHeader, C62.otherData⟩),
    (C62.otherHead2 ++ C62.otherBody, ⟨.v2 C62.otherHeader2, C62.otherData⟩)]
    (List.forall_mem_cons.mpr ⟨C62.other_lines.1, List.forall_mem_cons.mpr ⟨C62.other_lines.2, fun _ h => nomatch h⟩⟩)
    (List.forall_mem_cons.mpr ⟨C62.other_table1, List.forall_mem_cons.mpr ⟨C62.other_table2, fun _ h => nomatch h⟩⟩)
  unfold two
  simpa only [List.map_cons, List.map_nil, List.flatten_cons, List.flatten_nil, List.append_nil] using this

theorem two_ends : two.getLast? = some newline := by decide +kernel

end C75

/-- The hypotheses are met: four tables in two files, a line behind them, the same without the last newline. -/
example : Table.fromConcatenatedFile Decimal.std (C75.two ++ C75.two) =
    .ok [⟨.v1 C62.otherHeader, C62.otherData⟩, ⟨.v2 C62.otherHeader2, C62.otherData⟩,
      ⟨.v1 C62.otherHeader, C62.otherData⟩, ⟨.v2 C62.otherHeader2, C62.otherData⟩] := by
  rw [C75_append _ _ _ _ C75.two_tables (.inr C75.two_ends), C75.two_tables]
  rfl
example : Table.fromConcatenatedFile Decimal.std (C75.two ++ [newline]) = .error .thrown :=
  C75_empty_line _ _ _ C75.two_tables (.inr C75.two_ends)
example : Table.fromConcatenatedFile Decimal.std C75.two.dropLast =
    .ok [⟨.v1 C62.otherHeader, C62.otherData⟩, ⟨.v2 C62.otherHeader2, C62.otherData⟩] := by
  rw [← (C75_newline Decimal.std C75.two.dropLast (by decide +kernel) (by decide +kernel)).2]
  exact Eq.trans (congrArg _ (by decide +kernel)) C75.two_tables
example : SameLines "1 \n2".toList "1\n2  \n".toList := by
  refine ⟨by decide, fun i l l' h1 h2 => ?_⟩
  match i with
  | 0 => obtain rfl := Option.some.inj h1; obtain rfl := Option.some.inj h2; exact ⟨0, 1, by decide⟩
  | 1 => obtain rfl := Option.some.inj h1; obtain rfl := Option.some.inj h2; exact ⟨2, 0, by decide⟩
  | i + 2 => cases h1
example : Table.fromFile Decimal.std (C75.two ++ "anything".toList) = .ok ⟨.v1 C62.otherHeader, C62.otherData⟩ := by
  refine C75_first _ _ _ _ ?_ C75.two_ends
  unfold Table.fromFile C75.two
  rw [C62_table Decimal.std _ _ C62.other_lines.1 C62.other_table1]
  rfl
example : (Table.fromFile Decimal.std (textOf ([("a line".toList, 3)].map fun l => l.1 ++ blanks l.2))) =
    Table.fromFile Decimal.std (textOf ["a line".toList]) := (C75_blanks _ [("a line".toList, 3)] (by decide)).1

end ACE.Props

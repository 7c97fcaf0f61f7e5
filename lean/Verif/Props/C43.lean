import Verif.Lemmas.Xsdir
import Verif.Props.C38

/-!
# C43: printing an xsdir entry ends, with lines of at most 100 characters
-/

namespace ACE.Props
open ACE ACE.Text

/-- A non-empty string without white space. -/
def IsWord (s : Str) : Prop := s ≠ [] ∧ ∀ c ∈ s, isSpace c = false

/-- The strings of an entry are words that fit on a line, its numbers are unsigned integers, and its reals
are written as numbers of at most twelve characters. -/
structure EntryFits (F : Formats) (e : XsdirEntry) : Prop where
  zaid : IsWord e.zaid ∧ e.zaid.length ≤ 100
  awr : ∃ y, Written F 12 (F.fixed 6 e.awr) y
  fileName : IsWord e.fileName ∧ e.fileName.length ≤ 95
  access : ∀ a, e.access = some a → IsWord a ∧ a.length ≤ 95
  numbers : e.fileType < 2 ^ 32 ∧ e.address < 2 ^ 32 ∧ e.tableLength < 2 ^ 32
  record : ∀ r n, e.recordLength = some r → e.entries = some n → r < 2 ^ 32 ∧ n < 2 ^ 32
  temperature : ∀ t, e.temperature = some t → ∃ y, Written F 12 (F.sci 'e' 6 t) y

/-- The text of lines: each but the last is followed by a continuation sign. -/
def continuedLines : List Str → Str → Str
  | [], last => last ++ "\n".toList
  | line :: lines, last => line ++ " +\n".toList ++ continuedLines lines last

namespace C43
open XsdirEntry

/-- The words behind the ZAID with the blanks in front of them. -/
def optional (F : Formats) (e : XsdirEntry) : List (Nat × Str) :=
  (match e.recordLength, e.entries with
    | some r, some n => [(1, ofNat r), (1, ofNat n)]
    | _, _ => if e.temperature.isSome || e.ptable then [(1, "0".toList), (1, "0".toList)] else []) ++
  (match e.temperature with
    | some t => [(13 - (F.sci 'e' 6 t).length, F.sci 'e' 6 t)]
    | none => if e.ptable then [(1, "0".toList)] else []) ++
  (if e.ptable then [(1, "ptable".toList)] else [])

def fields (F : Formats) (e : XsdirEntry) : List (Nat × Str) :=
  [(13 - (F.fixed 6 e.awr).length, F.fixed 6 e.awr), (1, e.fileName), (1, e.access.getD "0".toList),
    (1, ofNat e.fileType), (1, ofNat e.address), (1, ofNat e.tableLength)] ++ optional F e

theorem optional_eq (F : Formats) (e : XsdirEntry) :
    spaced (optional F e) = e.printRecord ++ e.printTemperature F ++ (if e.ptable then " ptable".toList else []) := by
  unfold optional printRecord printTemperature
  rw [spaced_append, spaced_append]
  rcases e with ⟨_, _, _, _, _, _, _, rl, en, tm, pt⟩
  cases rl <;> cases en <;> cases tm <;> cases pt <;> simp [spaced, pad]

theorem oneLine_eq (F : Formats) (e : XsdirEntry) :
    e.oneLine F = spaced ((10 - e.zaid.length, e.zaid) :: fields F e) ++ [newline] := by
  unfold oneLine fields
  rw [spaced, spaced_append, optional_eq]
  simp [spaced, pad]

theorem ofNat_word (n : Nat) : IsWord (ofNat n) :=
  ⟨ofNat_ne n, fun _ hc => isDigit_space (ofNat_isDigit n _ hc)⟩

theorem mk_word {g : Nat} {s : Str} (hg : 1 ≤ g) (h : IsWord s) : Word (g, s) := ⟨hg, h.1, h.2⟩

theorem ofNat_fits {n : Nat} (h : n < 2 ^ 32) : (ofNat n).length ≤ 10 := ofNat_length_le (by decide) (by omega)

/-- Words that end a line. -/
def Small (p : Nat × Str) : Prop := Word p ∧ p.1 + p.2.length ≤ 95

theorem small_nat {n : Nat} (h : n < 2 ^ 32) : Small (1, ofNat n) :=
  ⟨mk_word (by decide) (ofNat_word n), by have := ofNat_fits h; simp only; omega⟩

theorem small_real {F : Formats} {s : Str} {y : Dbl} (h : Written F 12 s y) : Small (13 - s.length, s) := by
  have := h.fits
  exact ⟨mk_word (by omega) ⟨h.some, h.noSpace⟩, by simp only; omega⟩

theorem small_lit (s : Str) (h : IsWord s) (hl : s.length ≤ 10) : Small (1, s) :=
  ⟨mk_word (by decide) h, by simp only; omega⟩

theorem zero_word : IsWord "0".toList := ⟨by decide, by decide⟩
theorem ptable_word : IsWord "ptable".toList := ⟨by decide, by decide⟩

theorem optional_small (F : Formats) (e : XsdirEntry) (h : EntryFits F e) : ∀ p ∈ optional F e, Small p := by
  intro p hp
  unfold optional at hp
  rw [List.mem_append, List.mem_append] at hp
  rcases hp with (hp | hp) | hp
  · split at hp
    · rename_i r n h1 h2
      have := h.record r n h1 h2
      simp at hp
      rcases hp with rfl | rfl
      · exact small_nat this.1
      · exact small_nat this.2
    · split at hp
      · simp at hp
        subst hp
        exact small_lit _ zero_word (by decide)
      · cases hp
  · split at hp
    · rename_i t ht
      obtain ⟨y, hy⟩ := h.temperature t ht
      simp at hp
      subst hp
      exact small_real hy
    · split at hp
      · simp at hp
        subst hp
        exact small_lit _ zero_word (by decide)
      · cases hp
  · split at hp
    · simp at hp
      subst hp
      exact small_lit _ ptable_word (by decide)
    · cases hp

theorem access_word (F : Formats) (e : XsdirEntry) (h : EntryFits F e) :
    IsWord (e.access.getD "0".toList) ∧ (e.access.getD "0".toList).length ≤ 95 := by
  cases ha : e.access with
  | none => exact ⟨zero_word, by decide⟩
  | some a => exact h.access a ha

theorem fields_words (F : Formats) (e : XsdirEntry) (h : EntryFits F e) : ∀ p ∈ fields F e,
    Word p ∧ p.1 + p.2.length ≤ 96 := by
  have small : ∀ p, Small p → Word p ∧ p.1 + p.2.length ≤ 96 := fun p hp => ⟨hp.1, by have := hp.2; omega⟩
  intro p hp
  unfold fields at hp
  rw [List.mem_append] at hp
  rcases hp with hp | hp
  · simp only [List.mem_cons, List.not_mem_nil, or_false] at hp
    obtain ⟨y, hy⟩ := h.awr
    rcases hp with rfl | rfl | rfl | rfl | rfl | rfl
    · exact small _ (small_real hy)
    · exact ⟨mk_word (by decide) h.fileName.1, by have := h.fileName.2; simp only; omega⟩
    · have := access_word F e h
      exact ⟨mk_word (by decide) this.1, by have := this.2; simp only; omega⟩
    · exact small _ (small_nat h.numbers.1)
    · exact small _ (small_nat h.numbers.2.1)
    · exact small _ (small_nat h.numbers.2.2)
  · exact small _ (optional_small F e h p hp)

theorem fields_last (F : Formats) (e : XsdirEntry) (h : EntryFits F e) : ∀ p, (fields F e).getLast? = some p →
    p.1 + p.2.length ≤ 95 := by
  intro p hp
  unfold fields at hp
  rw [List.getLast?_append] at hp
  cases ho : (optional F e).getLast? with
  | none =>
    rw [ho] at hp
    simp at hp
    subst hp
    exact (small_nat h.numbers.2.2).2
  | some q =>
    rw [ho] at hp
    simp at hp
    subst hp
    exact (optional_small F e h q (List.mem_of_getLast? ho)).2

theorem fields_length (F : Formats) (e : XsdirEntry) : (fields F e).length ≤ 10 := by
  unfold fields optional
  simp only [List.length_append]
  have a : (match e.recordLength, e.entries with
    | some r, some n => [((1 : Nat), ofNat r), (1, ofNat n)]
    | _, _ => if e.temperature.isSome || e.ptable then [(1, "0".toList), (1, "0".toList)] else []).length ≤ 2 := by
    split
    · simp
    · split <;> simp
  have b : (match e.temperature with
    | some t => [(13 - (F.sci 'e' 6 t).length, F.sci 'e' 6 t)]
    | none => if e.ptable then [(1, "0".toList)] else []).length ≤ 1 := by
    split
    · simp
    · split <;> simp
  have c : (if e.ptable then [((1 : Nat), "ptable".toList)] else []).length ≤ 1 := by split <;> simp
  simp only [List.length_cons, List.length_nil]
  omega

/-- The printed entry is broken into lines, and the number of steps does not matter. -/
theorem print_broken (F : Formats) (e : XsdirEntry) (h : EntryFits F e) : ∃ text,
    e.print F = .ok text ∧ (∀ fuel, 10 ≤ fuel → split fuel (e.oneLine F) = .ok text) ∧
      Broken (e.zaid :: (fields F e).map (·.2)) text ∧ text.head? = (e.oneLine F).head? := by
  have key : ∀ fuel, 10 ≤ fuel → ∃ text, split fuel (e.oneLine F) = .ok text ∧
      Broken (e.zaid :: (fields F e).map (·.2)) text ∧ text.head? = (e.oneLine F).head? := by
    intro fuel hf
    have hz := h.zaid.2
    have hl := fields_length F e
    have hw := fields_words F e h
    obtain ⟨text, h1, h2, h3⟩ := split_ok (fields F e).length (fields F e) (10 - e.zaid.length) e.zaid
      (Nat.le_refl _) h.zaid.1.1 h.zaid.1.2 (fun p hp => (hw p hp).1) (by omega)
      (fun he => by unfold fields at he; simp at he) (fun p hp => (hw p hp).2) (fields_last F e h) fuel (by omega)
    rw [← oneLine_eq] at h1 h3
    exact ⟨text, h1, h2, h3⟩
  have hlen : 10 ≤ (e.oneLine F).length := by
    rw [oneLine_eq]
    simp only [spaced, List.length_append, List.length_replicate]
    omega
  obtain ⟨text, h1, h2, h3⟩ := key 10 (Nat.le_refl _)
  have mono : ∀ (n m : Nat) (s text : Str), split n s = .ok text → n ≤ m → split m s = .ok text := by
    intro n
    induction n with
    | zero =>
      intro m s text h _
      unfold split at h
      split at h
      · rename_i hs
        cases m with
        | zero => unfold split; rw [if_pos hs]; exact h
        | succ m => unfold split; rw [if_pos hs]; exact h
      · cases h
    | succ n ih =>
      intro m s text h hm
      obtain ⟨m, rfl⟩ : ∃ k, m = k + 1 := ⟨m - 1, by omega⟩
      unfold split at h ⊢
      split at h
      · rename_i hs; rw [if_pos hs]; exact h
      · rename_i hs
        obtain ⟨r, hr, h⟩ := bind_eq_ok.mp h
        obtain ⟨rest, hrest, h⟩ := bind_eq_ok.mp h
        rw [if_neg hs, hr, ok_bind, ih m _ rest hrest (by omega), ok_bind]
        exact h
  exact ⟨text, mono 10 _ _ _ h1 hlen, fun fuel hf => mono 10 fuel _ _ h1 hf, h2, h3⟩

theorem broken_lines {ws : List Str} {text : Str} (h : Broken ws text) : ∃ lines last,
    text = continuedLines lines last ∧ (∀ line ∈ lines, line.length ≤ 100 ∧ '\n' ∉ line) ∧ last.length < 100 ∧
      '\n' ∉ last := by
  induction h with
  | last line ws hn hl hw _ => exact ⟨[], line, rfl, (by intro l hl; cases hl), hl, hn⟩
  | more line rest ws1 ws2 hn hl hw hne hr hb ih =>
    obtain ⟨lines, last, h1, h2, h3, h4⟩ := ih
    refine ⟨line :: lines, last, by rw [h1]; rfl, ?_, h3, h4⟩
    intro l hl'
    rcases List.mem_cons.mp hl' with rfl | hl'
    · exact ⟨hl, hn⟩
    · exact h2 l hl'

end C43

/-- An entry whose words fit is printed on lines of at most 100 characters. -/
theorem C43_lines_partial (F : Formats) (e : XsdirEntry) (h : EntryFits F e) : ∃ lines last,
    e.print F = .ok (continuedLines lines last) ∧ (∀ line ∈ lines, line.length ≤ 100 ∧ '\n' ∉ line) ∧
      last.length < 100 ∧ '\n' ∉ last := by
  obtain ⟨text, h1, _, h2, _⟩ := C43.print_broken F e h
  obtain ⟨lines, last, h3, h4⟩ := C43.broken_lines h2
  exact ⟨lines, last, by rw [h1, h3], h4⟩

/-- The loop takes at most ten steps: with any larger bound the result is the same. -/
theorem C43_steps (F : Formats) (e : XsdirEntry) (h : EntryFits F e) (fuel : Nat) (hf : 10 ≤ fuel) :
    XsdirEntry.split fuel (e.oneLine F) = e.print F := by
  obtain ⟨text, h1, h2, _, _⟩ := C43.print_broken F e h
  rw [h1, h2 fuel hf]

/-- An entry of at most 100 characters (with its newline) is printed on one line. -/
theorem C43_short (F : Formats) (e : XsdirEntry) (h : (e.oneLine F).length ≤ 100) :
    e.print F = .ok (e.oneLine F) := by
  unfold XsdirEntry.print XsdirEntry.split
  split <;> rw [if_pos h]

/-! ## Long words -/

namespace C43
open XsdirEntry

/-- A word of at least 96 characters behind at least four others: the loop does not end. -/
theorem endless (t rest : Str) (ht : ' ' ∉ t) (hl : 96 ≤ t.length) : ∀ (fuel : Nat) (pre : Str), 4 ≤ pre.length →
    (∃ a b, pre ++ [' '] = a ++ ' ' :: b ∧ a.length ≤ 100) →
    split fuel (pre ++ ' ' :: t ++ rest) = .error .endless := by
  intro fuel
  induction fuel with
  | zero =>
    intro pre hp _
    unfold split
    rw [if_neg (by simp; omega)]
  | succ fuel ih =>
    intro pre hp ⟨a, b, hab, ha⟩
    unfold split
    rw [if_neg (by simp; omega)]
    obtain ⟨front, back, c1, c2, c3, c4⟩ := cut_of (s := pre ++ ' ' :: t ++ rest) (a := a) (b := b ++ (t ++ rest))
      (by rw [show pre ++ ' ' :: t ++ rest = (pre ++ [' ']) ++ (t ++ rest) by simp, hab]; simp) ha
      (by simp; omega)
    have hle : front.length ≤ pre.length := by
      by_cases h : front.length ≤ pre.length
      · exact h
      · exfalso
        have e : (pre ++ ' ' :: t ++ rest)[front.length]? = some ' ' := by
          rw [c2, List.getElem?_append_right (Nat.le_refl _)]; simp
        rw [List.append_assoc, List.cons_append, List.getElem?_append_right (by omega)] at e
        obtain ⟨k, hk⟩ : ∃ k, front.length - pre.length = k + 1 := ⟨front.length - pre.length - 1, by omega⟩
        rw [hk, List.getElem?_cons_succ, List.getElem?_append_left (by omega)] at e
        exact ht (List.mem_of_getElem? e)
    rw [c1, ok_bind]
    have hd : (pre ++ ' ' :: t ++ rest).drop front.reverse.length = pre.drop front.length ++ ' ' :: t ++ rest := by
      rw [List.length_reverse, List.append_assoc, List.append_assoc, List.drop_append_of_le_length hle]
    rw [hd]
    have := ih ("    ".toList ++ pre.drop front.length) (by simp)
      ⟨[], "   ".toList ++ pre.drop front.length ++ [' '], by simp, by simp⟩
    rw [show "    ".toList ++ (pre.drop front.length ++ ' ' :: t ++ rest) =
      ("    ".toList ++ pre.drop front.length) ++ ' ' :: t ++ rest by simp, this]
    rfl

end C43

/-- A file name of 96 characters or more (without blanks): the loop does not end, whatever bound is used. -/
theorem C43_endless (F : Formats) (e : XsdirEntry) (hz : e.zaid.length ≤ 100) (y : Dbl)
    (ha : Written F 12 (F.fixed 6 e.awr) y) (hn : ' ' ∉ e.fileName) (hl : 96 ≤ e.fileName.length) (fuel : Nat) :
    XsdirEntry.split fuel (e.oneLine F) = .error .endless := by
  have hf := ha.fits
  obtain ⟨k, hk⟩ : ∃ k, 13 - (F.fixed 6 e.awr).length = k + 1 := ⟨12 - (F.fixed 6 e.awr).length, by omega⟩
  have e1 : ∃ rest, e.oneLine F = (pad 10 e.zaid ++ pad 13 (F.fixed 6 e.awr)) ++ ' ' :: e.fileName ++ rest :=
    ⟨[' '] ++ e.access.getD "0".toList ++
    [' '] ++ ofNat e.fileType ++ [' '] ++ ofNat e.address ++ [' '] ++ ofNat e.tableLength ++
    e.printRecord ++ e.printTemperature F ++ (if e.ptable then " ptable".toList else []) ++ [newline], by
      unfold XsdirEntry.oneLine; simp⟩
  obtain ⟨rest, e1⟩ := e1
  rw [e1]
  refine C43.endless _ _ hn hl fuel _ ?_ ⟨pad 10 e.zaid, List.replicate k ' ' ++ F.fixed 6 e.awr ++ [' '], ?_, ?_⟩
  · simp [pad]; omega
  · rw [show pad 13 (F.fixed 6 e.awr) = ' ' :: (List.replicate k ' ' ++ F.fixed 6 e.awr) by
      unfold pad; rw [hk, List.replicate_succ]; rfl]
    simp
  · simp [pad]; omega

/-- The full statement: every entry can be printed. -/
def C43Statement : Prop := ∀ (F : Formats) (e : XsdirEntry), IsWord e.zaid → IsWord e.fileName →
  (∃ y, Written F 12 (F.fixed 6 e.awr) y) → ∃ text, e.print F = .ok text

/-- An entry with the given file name. -/
def exEntry (name : Str) : XsdirEntry :=
  ⟨"92235.80c".toList, exAwr, name, none, 1, 2, 3, none, none, some exTemp, true⟩

theorem C43_false : ¬ C43Statement := by
  intro h
  obtain ⟨text, ht⟩ := h Decimal.std (exEntry (List.replicate 96 'x')) ⟨by decide, by decide⟩ ⟨by decide, by decide⟩
    ⟨exAwr, exAwr_written⟩
  have := C43_endless Decimal.std (exEntry (List.replicate 96 'x')) (by decide) exAwr exAwr_written (by decide)
    (by decide) ((exEntry (List.replicate 96 'x')).oneLine Decimal.std).length
  rw [XsdirEntry.print, this] at ht
  cases ht

/-! ## Examples -/

theorem exTemp_entry : Written Decimal.std 12 (Decimal.std.sci 'e' 6 exTemp) exTemp where
  some := by decide +kernel
  fits := by decide +kernel
  real := by decide +kernel
  value := by decide +kernel

theorem exEntry_zaid : IsWord "92235.80c".toList ∧ "92235.80c".toList.length ≤ 100 :=
  ⟨⟨by decide, by decide⟩, by decide⟩

theorem exEntry_fits (name : Str) (h : IsWord name) (hl : name.length ≤ 95) : EntryFits Decimal.std (exEntry name) where
  zaid := exEntry_zaid
  awr := ⟨exAwr, exAwr_written⟩
  fileName := ⟨h, hl⟩
  access := by intro a ha; cases ha
  numbers := ⟨show 1 < 2 ^ 32 by decide, show 2 < 2 ^ 32 by decide, show 3 < 2 ^ 32 by decide⟩
  record := by intro r n h; cases h
  temperature := by
    intro t ht
    injection ht with ht
    subst ht
    exact ⟨exTemp, exTemp_entry⟩

/-- One line, three lines. -/
example : (exEntry "name".toList).print Decimal.std =
    .ok " 92235.80c   233.024800 name 0 1 2 3 0 0 2.530000e-08 ptable\n".toList := by decide +kernel
example : (exEntry ("".pushn 'x' 95).toList).print Decimal.std =
    .ok (" 92235.80c   233.024800 +\n     ".toList ++ ("".pushn 'x' 95).toList ++
      " +\n     0 1 2 3 0 0 2.530000e-08 ptable\n".toList) := by decide +kernel

/-- The hypotheses of the theorems are met. -/
example := C43_lines_partial Decimal.std _ (exEntry_fits (List.replicate 95 'x') ⟨by decide, by decide⟩ (by decide))
example := C43_steps Decimal.std _ (exEntry_fits (List.replicate 95 'x') ⟨by decide, by decide⟩ (by decide)) 10 (by decide)
example := C43_short Decimal.std (exEntry "name".toList) (by decide +kernel)
example := C43_endless Decimal.std (exEntry (List.replicate 96 'x')) (by decide) exAwr exAwr_written (by decide) (by decide)

end ACE.Props

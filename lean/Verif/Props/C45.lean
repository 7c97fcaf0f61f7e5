import Verif.Props.C44

/-!
# C45: failed reads of xsdir entries and files
-/

namespace ACE.Props
open ACE ACE.Text

/-- The full statement for an entry: reading succeeds, or the target is unchanged and the stream is where it was and
has failed. -/
def C45EntryStatement : Prop := ∀ (F : Formats) (target : XsdirEntry) (st : IStream), st.good = true →
  st.pos ≤ st.content.length → ∃ target' st', XsdirEntry.readInto F target id st = .ok (target', st') ∧
    (st'.good = true ∨ (target' = target ∧ st' = { st with fail := true }))

/-- The full statement for a file. -/
def C45FileStatement : Prop := ∀ (F : Formats) (target : Xsdir) (st : IStream), st.good = true →
  st.pos ≤ st.content.length → ∃ target' st', Xsdir.readInto F target st = .ok (target', st') ∧
    (st'.fail = false ∨ (target' = target ∧ st' = { st with fail := true }))

namespace C45
open XsdirEntry IStream

/-- Streams on the way: when one has failed it is at the end. -/
def Fine (st : IStream) : Prop := st.fail = true → st.eof = true

theorem getline_fine (cur : Str) {st : IStream} (h : Fine st) : Fine (st.getline cur).2 := by
  by_cases hg : st.good = true
  · unfold Fine
    unfold IStream.getline
    rw [hg]
    have hg' : st.eof = false ∧ st.fail = false := by unfold good at hg; simpa using hg
    simp only [Bool.not_true, Bool.false_eq_true, if_false]
    split
    · intro _; rfl
    · split
      · intro _; rfl
      · intro hf; simp [hg'.2] at hf
  · unfold IStream.getline
    rw [if_pos (by simpa using hg)]
    intro _
    cases he : st.eof with
    | true => rfl
    | false =>
      cases hf : st.fail with
      | true => exact (he ▸ h hf : false = true) ▸ rfl
      | false => exact absurd (by unfold good; rw [he, hf]; rfl) hg

theorem skipComments_fine : ∀ (fuel : Nat) (cur : Str) (st : IStream) {line : Str} {st' : IStream},
    skipComments fuel cur st = .ok (line, st') → Fine st → Fine st'
  | 0, cur, st, line, st', h, hf => by
    unfold skipComments at h
    split at h
    · cases h
    · injection h with h; injection h with h1 h2; subst h2; exact hf
  | fuel + 1, cur, st, line, st', h, hf => by
    unfold skipComments at h
    split at h
    · exact skipComments_fine fuel _ _ h (getline_fine _ hf)
    · injection h with h; injection h with h1 h2; subst h2; exact hf

theorem readLine_fine {st st' : IStream} {line : Str} (h : readLine st = .ok (line, st')) (hf : Fine st) : Fine st' := by
  unfold readLine at h
  simp only at h
  obtain ⟨⟨a, b⟩, h1, h2⟩ := bind_eq_ok.mp h
  injection h2 with h2; injection h2 with h2 h3; subst h3
  exact skipComments_fine _ _ _ h1 (getline_fine _ hf)

theorem continued_fine : ∀ (fuel : Nat) (line : Str) (st : IStream) {line' : Str} {st' : IStream},
    continued fuel line st = .ok (line', st') → Fine st → Fine st' ∧ st'.content = st.content
  | fuel, line, st, line', st', h, hf => by
    unfold continued at h
    cases hl : line.getLast? with
    | none => rw [hl] at h; cases h
    | some c =>
      rw [hl] at h
      simp only at h
      split at h
      · cases fuel with
        | zero => cases h
        | succ fuel =>
          simp only at h
          obtain ⟨⟨a, b⟩, h1, h2⟩ := bind_eq_ok.mp h
          simp only at h2
          have := continued_fine fuel _ _ h2 (readLine_fine h1 hf)
          exact ⟨this.1, by rw [this.2, readLine_content h1]⟩
      · injection h with h; injection h with h1 h2; subst h2; exact ⟨hf, rfl⟩

end C45

/-- Reading an entry from a good stream, when it comes to an end: the entry is read and the stream is good, or the
target is unchanged, and then the stream is where it was and has failed unless its end was found. -/
theorem C45_entry_partial (F : Formats) (target : XsdirEntry) (st : IStream) (hg : st.good = true)
    (hp : st.pos ≤ st.content.length) (target' : XsdirEntry) (st' : IStream)
    (h : XsdirEntry.readInto F target id st = .ok (target', st')) :
    (XsdirEntry.parse F st = .ok (some target', st') ∧ st'.good = true ∧ st'.content = st.content) ∨
    (target' = target ∧ (st' = { st with fail := true } ∨ st'.eof = true)) := by
  unfold XsdirEntry.readInto at h
  have ht : st.tellg = (some st.pos, st) := by unfold IStream.tellg; rw [if_pos hg]
  have hg' : st.eof = false ∧ st.fail = false := by unfold IStream.good at hg; simpa using hg
  obtain ⟨⟨e, st1⟩, h1, h2⟩ := bind_eq_ok.mp h
  simp only at h2
  have hparse := h1
  unfold XsdirEntry.parse at h1
  rw [ht] at h1
  simp only at h1
  obtain ⟨⟨l1, st2⟩, h3, h4⟩ := bind_eq_ok.mp h1
  simp only at h4
  obtain ⟨⟨l2, st3⟩, h5, h6⟩ := bind_eq_ok.mp h4
  simp only at h6
  have f1 : C45.Fine st := fun hf => by rw [hg'.2] at hf; cases hf
  have f2 := C45.readLine_fine h3 f1
  obtain ⟨f3, f4⟩ := C45.continued_fine _ _ _ h5 f2
  have f5 : st3.content = st.content := by rw [f4, XsdirEntry.readLine_content h3]
  cases he : st3.eof with
  | false =>
    rw [he] at h6
    simp only [Bool.not_false, if_true] at h6
    have hf : st3.fail = false := by
      cases hf : st3.fail with
      | false => rfl
      | true => have := f3 hf; rw [he] at this; cases this
    cases ho : XsdirEntry.ofLine F l2 with
    | some e2 =>
      rw [ho] at h6
      simp only at h6
      injection h6 with h6
      injection h6 with h6 h7
      subst h6; subst h7
      simp only at h2
      injection h2 with h2
      injection h2 with h8 h9
      subst h9
      left
      exact ⟨by rw [hparse, ← h8]; rfl, by unfold IStream.good; rw [he, hf]; rfl, f5⟩
    | none =>
      rw [ho] at h6
      simp only at h6
      injection h6 with h6
      injection h6 with h6 h7
      subst h6; subst h7
      simp only at h2
      injection h2 with h2
      injection h2 with h8 h9
      subst h8; subst h9
      right
      refine ⟨rfl, .inl ?_⟩
      unfold IStream.clear IStream.seekg IStream.setFail
      simp only [Bool.false_eq_true, if_false]
      rw [if_pos (by rw [f5]; exact hp), f5]
      simp [hg'.1]
  | true =>
    rw [he] at h6
    simp only [Bool.not_true, Bool.false_eq_true, if_false] at h6
    injection h6 with h6
    injection h6 with h6 h7
    subst h6; subst h7
    simp only at h2
    injection h2 with h2
    injection h2 with h8 h9
    subst h8; subst h9
    exact .inr ⟨rfl, .inr he⟩

/-- A last line without a newline: the target is unchanged, but the stream has not failed and is at its end. -/
theorem C45_unfinished (F : Formats) (target : XsdirEntry) (before line : Str) (h : newline ∉ line)
    (h1 : line.head? ≠ some '#') (h2 : (strip line).getLast? ≠ some '+') (h3 : strip line ≠ []) :
    XsdirEntry.readInto F target id ⟨before ++ line, before.length, false, false⟩ =
      .ok (target, ⟨before ++ line, (before ++ line).length, true, false⟩) := by
  have hne : line ≠ [] := by rintro rfl; exact h3 rfl
  have hl : XsdirEntry.readLine (IStream.at' before line) =
      .ok (strip line, ⟨before ++ line, (before ++ line).length, true, false⟩) := by
    unfold XsdirEntry.readLine
    rw [IStream.getline_last h hne]
    simp only
    rw [XsdirEntry.skipComments_of (by unfold XsdirEntry.isComment; simpa using h1)]
    rfl
  show XsdirEntry.readInto F target id (IStream.at' before line) = _
  unfold XsdirEntry.readInto XsdirEntry.parse
  rw [IStream.at_tellg]
  simp only
  rw [hl, ok_bind]
  simp only
  have hc : ∀ fuel st, XsdirEntry.continued fuel (strip line) st = .ok (strip line, st) := by
    intro fuel st
    unfold XsdirEntry.continued
    cases hs : (strip line).getLast? with
    | none => exact absurd (List.getLast?_eq_none_iff.mp hs) h3
    | some c =>
      simp only
      rw [if_neg (by
        intro hc
        rw [hs] at h2
        simp at hc
        subst hc
        exact h2 rfl)]
  rw [hc]
  rfl

/-- At the end of a stream, and at an empty line or a line of blanks, the last character of an empty string is used. -/
theorem C45_empty (F : Formats) (target : XsdirEntry) (before line rest : Str) (h : ∀ c ∈ line, c = ' ') :
    XsdirEntry.readInto F target id ⟨before ++ line, before.length, false, false⟩ = .error .ub ∧
    XsdirEntry.readInto F target id ⟨before ++ (line ++ newline :: rest), before.length, false, false⟩ = .error .ub := by
  have hn : newline ∉ line := fun hc => absurd (h _ hc) (by decide)
  have hcm : XsdirEntry.isComment line = false := by
    unfold XsdirEntry.isComment
    cases line with
    | nil => rfl
    | cons c l => have := h c (by simp); subst this; rfl
  have hs : strip line = [] := by
    unfold strip
    have : line.dropWhile isSpace = [] := words_nil (words_allSpace fun c hc => by rw [h c hc]; decide)
    simp [this]
  constructor
  · have hl : ∃ st, XsdirEntry.readLine (IStream.at' before line) = .ok ([], st) := by
      unfold XsdirEntry.readLine
      by_cases hne : line = []
      · subst hne
        rw [IStream.getline_end]
        simp only
        rw [XsdirEntry.skipComments_of (by rfl), ok_bind]
        exact ⟨_, rfl⟩
      · rw [IStream.getline_last hn hne]
        simp only
        rw [XsdirEntry.skipComments_of hcm, ok_bind]
        simp only [hs]
        exact ⟨_, rfl⟩
    obtain ⟨st, hl⟩ := hl
    show XsdirEntry.readInto F target id (IStream.at' before line) = _
    unfold XsdirEntry.readInto XsdirEntry.parse
    rw [IStream.at_tellg]
    simp only
    rw [hl, ok_bind]
    simp only
    unfold XsdirEntry.continued
    rfl
  · show XsdirEntry.readInto F target id (IStream.at' before (line ++ newline :: rest)) = _
    unfold XsdirEntry.readInto XsdirEntry.parse
    rw [IStream.at_tellg]
    simp only
    rw [XsdirEntry.readLine_at hn hcm, hs, ok_bind]
    simp only
    unfold XsdirEntry.continued
    rfl

/-- A comment without a newline at the end of a stream: the loop over comment lines never ends. -/
theorem C45_comment (before line : Str) (h : newline ∉ line) (h1 : line.head? = some '#') (fuel : Nat) :
    XsdirEntry.skipComments fuel ((IStream.mk (before ++ line) before.length false false).getline []).1
      ((IStream.mk (before ++ line) before.length false false).getline []).2 = .error .endless := by
  have hne : line ≠ [] := by rintro rfl; cases h1
  have hc : XsdirEntry.isComment line = true := by unfold XsdirEntry.isComment; rw [h1]; rfl
  have hall : ∀ (fuel : Nat) (st : IStream), st.eof = true → XsdirEntry.skipComments fuel line st = .error .endless := by
    intro fuel
    induction fuel with
    | zero => intro st _; unfold XsdirEntry.skipComments; rw [if_pos hc]
    | succ f ih =>
      intro st he
      unfold XsdirEntry.skipComments
      rw [if_pos hc]
      have : st.getline line = (line, { st with fail := true }) := by
        unfold IStream.getline
        rw [if_pos (by unfold IStream.good; rw [he]; rfl)]
      rw [this]
      exact ih _ he
  rw [show IStream.mk (before ++ line) before.length false false = IStream.at' before line from rfl,
    IStream.getline_last h hne]
  exact hall fuel _ rfl

theorem C45_false : ¬ C45EntryStatement := by
  intro h
  obtain ⟨target', st', h1, h2⟩ := h Decimal.std (exEntry []) (IStream.ofText "1001.80c".toList) rfl (Nat.zero_le _)
  have := C45_unfinished Decimal.std (exEntry []) [] "1001.80c".toList (by decide) (by decide) (by decide) (by decide)
  have h3 := Except.ok.inj (h1.symm.trans this)
  injection h3 with h3 h4
  subst h4
  rcases h2 with h2 | ⟨_, h2⟩
  · revert h2; decide
  · have := congrArg IStream.eof h2
    revert this; decide

/-! ## Files -/

namespace C45
open Xsdir

theorem failAt_failed (st : IStream) (p : Option Nat) : (failAt st p).fail = true ∧ (failAt st p).eof = false := by
  unfold failAt IStream.setFail IStream.seekg IStream.clear
  refine ⟨rfl, ?_⟩
  simp only [Bool.false_eq_true, if_false]
  split
  · split <;> rfl
  · rfl

theorem readRatios_failed {F : Formats} : ∀ (fuel : Nat) (cur : Str) (pos : Option Nat) (m : Ratios) (st : IStream)
    {pos' : Option Nat} {st' : IStream}, readRatios F fuel cur pos m st = .ok (none, pos', st') →
    st'.fail = true ∧ st'.eof = false
  | fuel, cur, pos, m, st, pos', st', h => by
    unfold readRatios at h
    split at h
    · injection h with h; injection h with h; cases h
    · cases fuel with
      | zero => cases h
      | succ fuel =>
        simp only at h
        obtain ⟨⟨c2, p2, st2⟩, h1, h2⟩ := bind_eq_ok.mp h
        simp only at h2
        split at h2
        · injection h2 with h2
          injection h2 with h3 h4
          injection h4 with h4 h5
          subst h5
          exact failAt_failed _ _
        · exact readRatios_failed fuel _ _ _ _ h2

end C45

/-- Reading a file, when it comes to an end: the file is read and the stream is at its end, or the target is
unchanged and the stream has failed. -/
theorem C45_file_partial (F : Formats) (target : Xsdir) (st : IStream) (target' : Xsdir) (st' : IStream)
    (h : Xsdir.readInto F target st = .ok (target', st')) :
    (Xsdir.parse F st = .ok (some target', st') ∧ st'.eof = true) ∨
    (target' = target ∧ st'.fail = true ∧ st'.eof = false) := by
  unfold Xsdir.readInto at h
  obtain ⟨⟨d, s1⟩, h1, h2⟩ := bind_eq_ok.mp h
  simp only at h2
  have hparse := h1
  unfold Xsdir.parse at h1
  obtain ⟨⟨path, cur, pos, s2⟩, h3, h4⟩ := bind_eq_ok.mp h1
  simp only at h4
  have done : ∀ x : IStream, x.fail = true ∧ x.eof = false → (d, s1) = (none, x) →
      (Xsdir.parse F st = .ok (some target', st') ∧ st'.eof = true) ∨
      (target' = target ∧ st'.fail = true ∧ st'.eof = false) := by
    intro x hx he
    injection he with e1 e2
    subst e1; subst e2
    simp only at h2
    injection h2 with h2
    injection h2 with h5 h6
    subst h5; subst h6
    exact .inr ⟨rfl, hx⟩
  split at h4
  · injection h4 with h4
    exact done _ (C45.failAt_failed _ _) h4.symm
  · obtain ⟨⟨c2, p2, s3⟩, h5, h6⟩ := bind_eq_ok.mp h4
    simp only at h6
    obtain ⟨⟨m, p3, s4⟩, h7, h8⟩ := bind_eq_ok.mp h6
    cases m with
    | none =>
      simp only at h8
      injection h8 with h8
      exact done _ (C45.readRatios_failed _ _ _ _ _ h7) h8.symm
    | some m =>
      simp only at h8
      unfold Xsdir.readDirectory at h8
      obtain ⟨⟨es, p4, s5⟩, h9, h10⟩ := bind_eq_ok.mp h8
      simp only at h10
      split at h10
      · injection h10 with h10
        exact done _ (C45.failAt_failed _ _) h10.symm
      · rename_i he
        injection h10 with h10
        injection h10 with h10 h11
        subst h10; subst h11
        simp only at h2
        injection h2 with h2
        injection h2 with h12 h13
        subst h13
        left
        exact ⟨by rw [hparse, ← h12], by simpa using he⟩

/-- The stream is not where it was, but at the line that was not understood. -/
theorem C45_not_rewound (F : Formats) (target : Xsdir) (front : List Str) (hf : ∀ n ∈ front, IsNoise n) (title rest : Str)
    (h1 : title.map Char.toLower = "atomic weight ratios".toList) (h2 : title ≠ "atomic weight ratios".toList) :
    Xsdir.readInto F target (IStream.ofText (linesText front ++ (title ++ newline :: rest))) =
      .ok (target, ⟨linesText front ++ (title ++ newline :: rest), (linesText front).length, false, true⟩) := by
  unfold Xsdir.readInto
  rw [C44_title F front hf title rest h1 h2, ok_bind]
  rfl

/-- A file that ends with a newline is read, but the stream has failed afterwards. -/
theorem C45_success_failed (F : Formats) (target : Xsdir) (t : XsdirText) (h : t.Ok F) (he : t.ending = []) :
    ∃ d st, Xsdir.parse F (IStream.ofText t.text) = .ok (some d, st) ∧
      Xsdir.readInto F target (IStream.ofText t.text) = .ok (d, st) ∧ st.fail = true := by
  obtain ⟨d, h1, _⟩ := C44_read_partial F t h
  refine ⟨d, _, h1, ?_, by rw [he]; rfl⟩
  unfold Xsdir.readInto
  rw [h1, ok_bind]
  rfl

/-- Reading from a stream that has failed already never ends. -/
theorem C45_failed_stream (content : Str) (pos fuel : Nat) :
    Xsdir.skipLines fuel (Xsdir.tellLine [] (IStream.mk content pos false true)) = .error .endless := by
  have hs : Xsdir.tellLine [] (IStream.mk content pos false true) = ([], none, IStream.mk content pos false true) := rfl
  rw [hs]
  induction fuel with
  | zero => rfl
  | succ f ih =>
    unfold Xsdir.skipLines
    rw [if_pos (by rfl)]
    simp only
    rw [hs]
    exact ih

theorem C45_file_false : ¬ C45FileStatement := by
  intro h
  obtain ⟨target', st', h1, h2⟩ := h Decimal.std (Xsdir.mk' [] [] none)
    (IStream.ofText (linesText [[]] ++ ("Atomic weight ratios".toList ++ newline :: []))) rfl (Nat.zero_le _)
  rw [C45_not_rewound Decimal.std _ [[]] (by intro n hn; simp at hn; subst hn; exact ⟨by decide, .inl rfl⟩) _ _
    (by decide) (by decide)] at h1
  injection h1 with h1
  injection h1 with h3 h4
  subst h4
  rcases h2 with h2 | ⟨_, h2⟩
  · cases h2
  · have := congrArg IStream.pos h2
    revert this; decide

/-! ## Examples -/

/-- A line that is not an entry: the stream is rewound. -/
example : XsdirEntry.readInto Decimal.std (exEntry []) id ⟨"#\n1001.80c x\nrest".toList, 2, false, false⟩ =
    .ok (exEntry [], ⟨"#\n1001.80c x\nrest".toList, 2, false, true⟩) := by decide +kernel

/-- An entry is read. -/
example : XsdirEntry.readInto Decimal.std (exEntry []) id (IStream.ofText (exText1 ++ "rest".toList)) =
    .ok (exEntry "name".toList, ⟨exText1 ++ "rest".toList, exText1.length, false, false⟩) := by decide +kernel

example (target : Xsdir) : ∃ d st, Xsdir.parse Decimal.std (IStream.ofText exFile.text) = .ok (some d, st) ∧
      Xsdir.readInto Decimal.std target (IStream.ofText exFile.text) = .ok (d, st) ∧ st.fail = true :=
  C45_success_failed _ _ _ exFile_ok rfl

/-- A file that is not understood. -/
example : Xsdir.readInto Decimal.std (Xsdir.mk' [] [] none) (IStream.ofText "\nwhat\n".toList) =
    .ok (Xsdir.mk' [] [] none, ⟨"\nwhat\n".toList, 1, false, true⟩) := by decide +kernel

/-- The hypotheses of the other theorems are met too. -/
example := C45_entry_partial Decimal.std (exEntry []) (IStream.ofText (exText1 ++ "rest".toList)) rfl (by decide)
  (exEntry "name".toList) ⟨exText1 ++ "rest".toList, exText1.length, false, false⟩ (by decide +kernel)
example := C45_entry_partial Decimal.std (exEntry []) ⟨"#\n1001.80c x\nrest".toList, 2, false, false⟩ rfl (by decide)
  (exEntry []) ⟨"#\n1001.80c x\nrest".toList, 2, false, true⟩ (by decide +kernel)
example := C45_unfinished Decimal.std (exEntry []) "first\n".toList "1001.80c 1.0 name 0 1 2 3".toList (by decide) (by decide)
  (by decide) (by decide)
example := C45_empty Decimal.std (exEntry []) "first\n".toList "  ".toList "rest".toList (by decide)
example := C45_comment "first\n".toList "# last".toList (by decide) (by decide)
example := C45_file_partial Decimal.std (Xsdir.mk' [] [] none) (IStream.ofText "\nwhat\n".toList) (Xsdir.mk' [] [] none)
  ⟨"\nwhat\n".toList, 1, false, true⟩ (by decide +kernel)
example := C45_not_rewound Decimal.std (Xsdir.mk' [] [] none) [[], "# what".toList] (by unfold IsNoise; decide +kernel)
  "Atomic Weight Ratios".toList "1001 1.0\n".toList (by decide +kernel) (by decide)

end ACE.Props

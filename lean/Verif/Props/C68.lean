import Verif.Props.C44

/-!
# C68: an xsdir entry that was written by hand is read as its words

`C42` is about entries that were printed. Here the text is any text: comment lines, lines of any length, any
number of blanks and tabs between the words, and lines that are continued with a plus sign anywhere.
-/

namespace ACE.Props
open ACE ACE.Text

/-- A line that ends with a plus sign, perhaps followed by blanks, is continued on the next line; `front` is
what is in front of the plus sign. -/
def IsContinued (line front : Str) : Prop := ∃ tail, line = front ++ '+' :: tail ∧ ∀ c ∈ tail, isSpace c = true

/-- Comment lines. -/
def Comments (lines : List Str) : Prop := ∀ line ∈ lines, newline ∉ line ∧ line.head? = some '#'

/-- The lines of an entry, and its words: comment lines are left out, and lines that are continued are joined
without the plus sign. -/
inductive EntryLines : Str → List Str → Prop where
  | last (comments : List Str) (line : Str) (hc : Comments comments) (hn : newline ∉ line)
      (hh : line.head? ≠ some '#') (he : ∀ front, ¬ IsContinued line front) :
      EntryLines (linesText comments ++ (line ++ [newline])) (words line)
  | more (comments : List Str) (line front text : Str) (ws : List Str) (hc : Comments comments) (hn : newline ∉ line)
      (hh : line.head? ≠ some '#') (he : IsContinued line front) (ht : EntryLines text ws) :
      EntryLines (linesText comments ++ (line ++ newline :: text)) (words front ++ ws)

/-- A word that is a whole number: digits, perhaps with a plus sign in front. -/
def WholeNumber (w : Str) (n : Nat) : Prop :=
  ∃ ds, ds ≠ [] ∧ (∀ c ∈ ds, c.isDigit = true) ∧ (w = ds ∨ w = '+' :: ds) ∧ n = toNat ds

/-- A word that does not begin like a whole number. -/
def NoNumber (w : Str) : Prop :=
  (∀ c ds, w = c :: ds → c.isDigit = false) ∧ ∀ s c ds, w = s :: c :: ds → s = '+' ∨ s = '-' → c.isDigit = false

/-- The seven words that each entry has, and the entry without the optional values: a ZAID, an atomic weight
ratio, the name of the file, the access route (0 for none), and three numbers. -/
structure Seven (F : Formats) (ws : List Str) (e : XsdirEntry) : Prop where
  reads : ∃ zaid wAwr fileName access wType wAddress wLength : Str, ∃ (awr : Dbl) (type address length : Nat),
    ws = [zaid, wAwr, fileName, access, wType, wAddress, wLength] ∧ Written F wAwr.length wAwr awr ∧
    WholeNumber wType type ∧ WholeNumber wAddress address ∧ WholeNumber wLength length ∧
    type < 2 ^ 32 ∧ address < 2 ^ 32 ∧ length < 2 ^ 32 ∧
    e = ⟨zaid, awr, fileName, if access = "0".toList then none else some access, type, address, length,
      none, none, none, false⟩

/-- An entry is read from a text, wherever the text is in a stream, and the stream is then behind it. -/
def ReadAs (F : Formats) (text : Str) (e : XsdirEntry) : Prop :=
  ∀ before rest : Str, XsdirEntry.parse F ⟨before ++ (text ++ rest), before.length, false, false⟩ =
    .ok (some e, ⟨before ++ (text ++ rest), before.length + text.length, false, false⟩)

/-- An exception is thrown, and the stream has failed and is where it was. -/
def Refused (F : Formats) (text : Str) : Prop :=
  ∀ before rest : Str, XsdirEntry.parse F ⟨before ++ (text ++ rest), before.length, false, false⟩ =
    .ok (none, ⟨before ++ (text ++ rest), before.length, false, true⟩)

/-- An optional number: zero stands for none. -/
def optional (n : Nat) : Option Nat := if n = 0 then none else some n

/-- An optional temperature: zero stands for none. -/
def optionalReal (t : Dbl) : Option Dbl := if t.eqInt 0 then none else some t

namespace C68
open IStream XsdirEntry

theorem comments (cs : List Str) (hc : Comments cs) : ∀ (line : Str), newline ∉ line → line.head? ≠ some '#' →
    ∀ (b rest : Str) (fuel : Nat) (cur : Str), cs.length ≤ fuel →
    skipComments fuel ((at' b (linesText cs ++ (line ++ newline :: rest))).getline cur).1
        ((at' b (linesText cs ++ (line ++ newline :: rest))).getline cur).2 =
      .ok (line, at' (b ++ (linesText cs ++ (line ++ [newline]))) rest) := by
  induction cs with
  | nil =>
    intro line hn hh b rest fuel cur _
    have e : linesText [] = [] := rfl
    rw [e, List.nil_append, getline_at hn]
    simp only
    rw [skipComments_of (by unfold isComment; simp [hh])]
    simp
  | cons c cs ih =>
    intro line hn hh b rest fuel cur hf
    obtain ⟨h1, h2⟩ := hc c (by simp)
    have e : linesText (c :: cs) ++ (line ++ newline :: rest) =
        c ++ newline :: (linesText cs ++ (line ++ newline :: rest)) := by simp [linesText]
    rw [e, getline_at h1]
    cases fuel with
    | zero => simp at hf
    | succ fuel =>
      simp only
      unfold skipComments
      rw [if_pos (by unfold isComment; simp [h2])]
      simp only
      rw [ih (fun l hl => hc l (by simp [hl])) line hn hh (b ++ c ++ [newline]) rest fuel c (by simpa using hf)]
      simp [linesText]

theorem readLine_comments {cs : List Str} (hc : Comments cs) {line : Str} (hn : newline ∉ line)
    (hh : line.head? ≠ some '#') (b rest : Str) :
    readLine (at' b (linesText cs ++ (line ++ newline :: rest))) =
      .ok (strip line, at' (b ++ (linesText cs ++ (line ++ [newline]))) rest) := by
  unfold readLine
  simp only
  rw [comments cs hc line hn hh]
  · rfl
  · have : ∀ l : List Str, l.length ≤ (linesText l).length := by
      intro l
      induction l with
      | nil => simp
      | cons a l ih => simp only [linesText, List.map_cons, List.flatten_cons, List.length_append, List.length_cons] at ih ⊢; omega
    have := this cs
    simp only [at', List.length_append]
    omega

theorem strip_continued {line front : Str} (h : IsContinued line front) :
    strip line = front.dropWhile isSpace ++ ['+'] := by
  obtain ⟨tail, rfl, ht⟩ := h
  have hd : (front ++ '+' :: tail).dropWhile isSpace = front.dropWhile isSpace ++ '+' :: tail := by
    rw [List.dropWhile_append]
    cases hx : front.dropWhile isSpace with
    | nil =>
      rw [if_pos (by rfl), List.dropWhile_cons_of_neg (by decide)]
      rfl
    | cons c t => rw [if_neg (by simp)]
  unfold strip
  simp only [hd]
  rw [List.reverse_append, List.reverse_cons, List.append_assoc,
    List.dropWhile_append_of_pos (by intro c hc; exact ht c (by simpa using hc)),
    List.singleton_append, List.dropWhile_cons_of_neg (by decide)]
  simp

theorem strip_other {line : Str} (h : ∀ front, ¬ IsContinued line front) : (strip line).getLast? ≠ some '+' := by
  intro hc
  obtain ⟨a, b, e, _, hb⟩ := strip_split line
  obtain ⟨s, hs⟩ := List.getLast?_eq_some_iff.mp hc
  refine h (a ++ s) ⟨b, ?_, hb⟩
  rw [hs] at e
  rw [e]
  simp

theorem not_continued {line : Str} (h : (strip line).getLast? ≠ some '+') : ∀ front, ¬ IsContinued line front := by
  intro front hc
  rw [strip_continued hc, List.getLast?_concat] at h
  exact h rfl

theorem join (acc : Str) (h : acc = [] ∨ ∃ a, acc = a ++ [' ']) (x : Str) : words (acc ++ x) = words acc ++ words x := by
  rcases h with rfl | ⟨a, rfl⟩
  · rfl
  · rw [List.append_assoc, List.singleton_append, words_snoc_space a (by decide),
      words_append_space a (by simp; decide)]

/-- The lines are joined. -/
theorem joined {text : Str} {ws : List Str} (h : EntryLines text ws) :
    ∀ (acc : Str), (acc = [] ∧ ws ≠ [] ∨ ∃ a, acc = a ++ [' ']) → ∀ (b rest : Str) (fuel : Nat), text.length ≤ fuel →
    ∃ line, (do
        let (next, st) ← readLine (at' b (text ++ rest))
        continued fuel (acc ++ next) st) = .ok (line, at' (b ++ text) rest) ∧ words line = words acc ++ ws := by
  induction h with
  | last cs line hc hn hh he =>
    intro acc hacc b rest fuel hfuel
    have e : linesText cs ++ (line ++ [newline]) ++ rest = linesText cs ++ (line ++ newline :: rest) := by simp
    refine ⟨acc ++ strip line, ?_, ?_⟩
    · rw [e, readLine_comments hc hn hh, ok_bind]
      simp only
      unfold continued
      have hl : ∃ c, (acc ++ strip line).getLast? = some c ∧ c ≠ '+' := by
        rw [List.getLast?_append]
        cases hs : (strip line).getLast? with
        | some c => exact ⟨c, by simp, fun hx => strip_other he (by rw [hs, hx])⟩
        | none =>
          rcases hacc with ⟨_, hne⟩ | ⟨a, rfl⟩
          · have : strip line = [] := by simpa using hs
            exact absurd (by rw [← words_strip, this]; rfl) hne
          · exact ⟨' ', by simp, by decide⟩
      obtain ⟨c, l1, l2⟩ := hl
      rw [l1]
      simp only
      rw [if_neg (by simpa using l2)]
    · rw [join acc (hacc.imp And.left id), words_strip]
  | more cs line front text ws hc hn hh he ht ih =>
    intro acc hacc b rest fuel hfuel
    have e : linesText cs ++ (line ++ newline :: text) ++ rest = linesText cs ++ (line ++ newline :: (text ++ rest)) := by simp
    cases fuel with
    | zero => simp at hfuel
    | succ fuel =>
      obtain ⟨line2, r1, r2⟩ := ih (acc ++ front.dropWhile isSpace ++ [' ']) (.inr ⟨_, rfl⟩)
        (b ++ (linesText cs ++ (line ++ [newline]))) rest fuel (by simp at hfuel; omega)
      refine ⟨line2, ?_, ?_⟩
      · rw [e, readLine_comments hc hn hh, ok_bind]
        simp only
        unfold continued
        rw [strip_continued he, ← List.append_assoc, List.getLast?_concat]
        simp only [beq_self_eq_true, if_true]
        rw [List.dropLast_concat, r1]
        simp
      · rw [r2, words_append_space _ (by simp; decide), join acc (hacc.imp And.left id), words_dropWhile,
          List.append_assoc]

/-- Reading is reading the joined line. -/
theorem parsed {F : Formats} {text : Str} {ws : List Str} (h : EntryLines text ws) (hne : ws ≠ []) (b rest : Str) :
    ∃ line, words line = ws ∧ XsdirEntry.parse F ⟨b ++ (text ++ rest), b.length, false, false⟩ =
      .ok (match ofLine F line with
        | some e => (some e, ⟨b ++ (text ++ rest), b.length + text.length, false, false⟩)
        | none => (none, ⟨b ++ (text ++ rest), b.length, false, true⟩)) := by
  obtain ⟨line, r1, r2⟩ := joined h [] (.inl ⟨rfl, hne⟩) b rest ((b ++ (text ++ rest)).length + 1) (by simp; omega)
  refine ⟨line, by rw [r2]; rfl, ?_⟩
  obtain ⟨⟨next, st⟩, r3, r4⟩ := bind_eq_ok.mp r1
  simp only [List.nil_append] at r4
  have hcont : st.content = b ++ (text ++ rest) := XsdirEntry.readLine_content r3
  unfold XsdirEntry.parse
  show (XsdirEntry.readLine (IStream.at' b (text ++ rest)) >>= _) = _
  rw [r3, ok_bind]
  simp only
  rw [hcont, r4, ok_bind]
  simp only [IStream.at']
  cases ofLine F line with
  | some e' => simp
  | none => simp [IStream.clear, IStream.seekg, IStream.setFail]

theorem read_of {F : Formats} {text : Str} {ws : List Str} {e : XsdirEntry} (h : EntryLines text ws) (hne : ws ≠ [])
    (hl : ∀ line, words line = ws → ofLine F line = some e) : ReadAs F text e := by
  intro b rest
  obtain ⟨line, h1, h2⟩ := parsed (F := F) h hne b rest
  rw [h2, hl line h1]

theorem refused_of {F : Formats} {text : Str} {ws : List Str} (h : EntryLines text ws) (hne : ws ≠ [])
    (hl : ∀ line, words line = ws → ofLine F line = none) : Refused F text := by
  intro b rest
  obtain ⟨line, h1, h2⟩ := parsed (F := F) h hne b rest
  rw [h2, hl line h1]

/-! ## Numbers -/

theorem digits_all {ds rest : Str} (hd : ∀ c ∈ ds, c.isDigit = true) (h4 : ∀ c, rest.head? = some c → isSpace c = true) :
    (ds ++ rest).takeWhile (·.isDigit) = ds ∧ (ds ++ rest).dropWhile (·.isDigit) = rest := by
  constructor
  · rw [List.takeWhile_append_of_pos hd]
    cases rest with
    | nil => simp
    | cons d r => rw [List.takeWhile_cons, if_neg (by simp [space_notDigit (h4 d rfl)]), List.append_nil]
  · rw [List.dropWhile_append_of_pos hd]
    cases rest with
    | nil => simp
    | cons d r => rw [List.dropWhile_cons, if_neg (by simp [space_notDigit (h4 d rfl)])]

/-- A number with or without sign in front of the rest. -/
theorem signed {ds rest : Str} (hne : ds ≠ []) (hd : ∀ c ∈ ds, c.isDigit = true)
    (h4 : ∀ c, rest.head? = some c → isSpace c = true) {s w : Str} (hs : s.dropWhile isSpace = w ++ rest) :
    (w = ds ∨ w = '+' :: ds →
      extractNat s = (if 4294967296 ≤ toNat ds then none else some (toNat ds, rest)) ∧ failedNat s = 4294967295) ∧
    (w = '-' :: ds →
      extractNat s = (if 4294967296 ≤ toNat ds then none else some ((4294967296 - toNat ds) % 4294967296, rest)) ∧
      failedNat s = 4294967295) := by
  obtain ⟨t1, t2⟩ := digits_all hd h4
  constructor
  · rintro (rfl | rfl)
    · obtain ⟨c, t, rfl⟩ := List.exists_cons_of_ne_nil hne
      have ⟨m1, m2⟩ := digit_notSign (hd c (by simp))
      have b1 : ((c :: t ++ rest).head? == some '-') = false := by simp [m1]
      have b2 : ((c :: t ++ rest).head? == some '+') = false := by simp [m2]
      unfold extractNat failedNat
      simp only [hs, b1, b2, Bool.or_false, Bool.false_eq_true, if_false, t1, t2, hne, false_or, and_self]
    · have b1 : (('+' :: ds ++ rest).head? == some '-') = false := rfl
      have b2 : (('+' :: ds ++ rest).head? == some '+') = true := rfl
      have b3 : ('+' :: ds ++ rest).drop 1 = ds ++ rest := rfl
      unfold extractNat failedNat
      simp only [hs, b1, b2, b3, Bool.or_true, Bool.false_eq_true, if_true, if_false, t1, t2, hne, false_or, and_self]
  · rintro rfl
    have b1 : (('-' :: ds ++ rest).head? == some '-') = true := rfl
    have b3 : ('-' :: ds ++ rest).drop 1 = ds ++ rest := rfl
    unfold extractNat failedNat
    simp only [hs, b1, b3, Bool.true_or, if_true, t1, t2, hne, false_or, if_false, and_self]

theorem number {w : Str} {n : Nat} (hw : WholeNumber w n) (hn : n < 2 ^ 32) {s : Str} {ws : List Str}
    (h : words s = w :: ws) : ∃ rest, extractNat s = some (n, rest) ∧ words rest = ws := by
  obtain ⟨rest, h1, h2, h3, h4, h5⟩ := words_inv h
  obtain ⟨ds, d1, d2, d3, rfl⟩ := hw
  refine ⟨rest, ?_, h5⟩
  rw [((signed d1 d2 h4 h1).1 d3).1, if_neg (by omega)]

theorem large {w : Str} {n : Nat} (hw : WholeNumber w n) (hn : 2 ^ 32 ≤ n) {s : Str} {ws : List Str}
    (h : words s = w :: ws) : extractNat s = none ∧ failedNat s = 4294967295 := by
  obtain ⟨rest, h1, h2, h3, h4, h5⟩ := words_inv h
  obtain ⟨ds, d1, d2, d3, rfl⟩ := hw
  have := (signed d1 d2 h4 h1).1 d3
  exact ⟨by rw [this.1, if_pos (by omega)], this.2⟩

theorem negative {w : Str} {n : Nat} (hw : WholeNumber w n) (hp : w.head? ≠ some '+') (hn : n < 2 ^ 32) {s : Str}
    {ws : List Str} (h : words s = ('-' :: w) :: ws) :
    ∃ rest, extractNat s = some ((2 ^ 32 - n) % 2 ^ 32, rest) ∧ words rest = ws := by
  obtain ⟨rest, h1, h2, h3, h4, h5⟩ := words_inv h
  obtain ⟨ds, d1, d2, d3 | d3, rfl⟩ := hw
  · subst d3
    refine ⟨rest, ?_, h5⟩
    rw [((signed d1 d2 h4 h1).2 rfl).1, if_neg (by omega)]
  · rw [d3] at hp; exact absurd rfl hp

theorem noNumber {w : Str} (hw : NoNumber w) {s : Str} {ws : List Str} (h : words s = w :: ws) :
    extractNat s = none ∧ failedNat s = 0 := by
  obtain ⟨rest, h1, h2, h3, h4, h5⟩ := words_inv h
  obtain ⟨c, t, rfl⟩ := List.exists_cons_of_ne_nil h2
  have hc := hw.1 c t rfl
  have key : (if (c :: t ++ rest).head? == some '-' || (c :: t ++ rest).head? == some '+' then (c :: t ++ rest).drop 1
      else c :: t ++ rest).takeWhile (·.isDigit) = [] := by
    split
    · rename_i hs
      have hs' : c = '+' ∨ c = '-' := by simpa [or_comm] using hs
      show (t ++ rest).takeWhile (·.isDigit) = []
      cases t with
      | nil =>
        cases rest with
        | nil => rfl
        | cons d r => exact List.takeWhile_cons_of_neg (by simp [space_notDigit (h4 d rfl)])
      | cons d t => exact List.takeWhile_cons_of_neg (by simp [hw.2 c d t rfl hs'])
    · exact List.takeWhile_cons_of_neg (by simp [hc])
  unfold extractNat failedNat
  simp only [h1, key, true_or, if_true, and_self]

theorem zero (n : Nat) : nonZero n = optional n := rfl

/-! ## The seven words -/

theorem seven {F : Formats} {ws : List Str} {e : XsdirEntry} (h : Seven F ws e) {line : Str} {more : List Str}
    (hl : words line = ws ++ more) : ∃ rest, words rest = more ∧ ofLine F line =
      (options F rest).map fun o =>
        { e with recordLength := optional o.1, entries := optional o.2.1, temperature := optionalReal o.2.2.1, ptable := o.2.2.2 } := by
  obtain ⟨zaid, wa, name, access, wt, wad, wl, awr, t, a, l, rfl, q1, q2, q3, q4, l1, l2, l3, rfl⟩ := h.reads
  obtain ⟨s1, h1, w1⟩ := extract_words hl
  obtain ⟨s2, h2, w2⟩ := extractReal_words w1 q1
  obtain ⟨s3, h3, w3⟩ := extract_words w2
  obtain ⟨s4, h4, w4⟩ := extract_words w3
  obtain ⟨s5, h5, w5⟩ := number q2 l1 w4
  obtain ⟨s6, h6, w6⟩ := number q3 l2 w5
  obtain ⟨s7, h7, w7⟩ := number q4 l3 w6
  refine ⟨s7, w7, ?_⟩
  unfold ofLine
  rw [h1]; simp only
  rw [h2]; simp only
  rw [h3]; simp only
  rw [h4]; simp only
  rw [h5]; simp only
  rw [h6]; simp only
  rw [h7]; simp only
  cases options F s7 with
  | none => rfl
  | some o => rfl

theorem seven_ne {F : Formats} {ws : List Str} {e : XsdirEntry} (h : Seven F ws e) (more : List Str) : ws ++ more ≠ [] := by
  obtain ⟨_, _, _, _, _, _, _, _, _, _, _, rfl, _⟩ := h.reads
  simp

theorem seven_same {F : Formats} {ws : List Str} {e : XsdirEntry} (h : Seven F ws e) :
    e = { e with recordLength := none, entries := none, temperature := none, ptable := false } := by
  obtain ⟨_, _, _, _, _, _, _, _, _, _, _, _, _, _, _, _, _, _, _, rfl⟩ := h.reads
  rfl

theorem zeroReal : optionalReal (Dbl.ofNat 0) = none := by decide +kernel

end C68
open C68

/-- Seven words. -/
theorem C68_seven (F : Formats) (text : Str) (ws : List Str) (e : XsdirEntry) (ht : EntryLines text ws)
    (h : Seven F ws e) : ReadAs F text e := by
  refine read_of ht (by simpa using seven_ne h []) ?_
  intro line hl
  obtain ⟨rest, h1, h2⟩ := seven h (more := []) (by rw [hl, List.append_nil])
  obtain ⟨n1, n2⟩ := extractNat_nil h1
  rw [h2]
  unfold XsdirEntry.options
  rw [n1]
  simp only [n2, Option.map_some]
  rw [zeroReal]
  exact congrArg some (seven_same h).symm

/-- Ten words: the record length, the number of entries and the temperature; zero stands for none. -/
theorem C68_ten (F : Formats) (text : Str) (ws : List Str) (e : XsdirEntry) (wr wn wt : Str) (r n : Nat) (t : Dbl)
    (ht : EntryLines text (ws ++ [wr, wn, wt])) (h : Seven F ws e) (hr : WholeNumber wr r) (hr' : r < 2 ^ 32)
    (hn : WholeNumber wn n) (hn' : n < 2 ^ 32) (hw : Written F wt.length wt t) :
    ReadAs F text { e with recordLength := optional r, entries := optional n, temperature := optionalReal t } := by
  refine read_of ht (seven_ne h _) ?_
  intro line hl
  obtain ⟨rest, h1, h2⟩ := seven h hl
  obtain ⟨s1, e1, w1⟩ := number hr hr' h1
  obtain ⟨s2, e2, w2⟩ := number hn hn' w1
  obtain ⟨s3, e3, w3⟩ := extractReal_words w2 hw
  rw [h2]
  unfold XsdirEntry.options
  rw [e1]; simp only
  rw [e2]; simp only
  rw [e3]; simp only
  rw [extract_nil w3]
  have := seven_same h
  rw [Option.map_some, this]

/-- Eleven words: the last one is `ptable`. Whatever is behind it is ignored. -/
theorem C68_ptable (F : Formats) (text : Str) (ws more : List Str) (e : XsdirEntry) (wr wn wt : Str) (r n : Nat) (t : Dbl)
    (ht : EntryLines text (ws ++ wr :: wn :: wt :: "ptable".toList :: more)) (h : Seven F ws e)
    (hr : WholeNumber wr r) (hr' : r < 2 ^ 32) (hn : WholeNumber wn n) (hn' : n < 2 ^ 32)
    (hw : Written F wt.length wt t) :
    ReadAs F text
      { e with recordLength := optional r, entries := optional n, temperature := optionalReal t, ptable := true } := by
  refine read_of ht (seven_ne h _) ?_
  intro line hl
  obtain ⟨rest, h1, h2⟩ := seven h hl
  obtain ⟨s1, e1, w1⟩ := number hr hr' h1
  obtain ⟨s2, e2, w2⟩ := number hn hn' w1
  obtain ⟨s3, e3, w3⟩ := extractReal_words w2 hw
  obtain ⟨s4, e4, w4⟩ := extract_words w3
  rw [h2]
  unfold XsdirEntry.options
  rw [e1]; simp only
  rw [e2]; simp only
  rw [e3]; simp only
  rw [e4]; simp only
  rw [if_pos trivial, Option.map_some]

/-- Another eleventh word is refused. -/
theorem C68_other_word (F : Formats) (text : Str) (ws more : List Str) (e : XsdirEntry) (wr wn wt word : Str) (r n : Nat)
    (t : Dbl) (ht : EntryLines text (ws ++ wr :: wn :: wt :: word :: more)) (h : Seven F ws e)
    (hr : WholeNumber wr r) (hr' : r < 2 ^ 32) (hn : WholeNumber wn n) (hn' : n < 2 ^ 32)
    (hw : Written F wt.length wt t) (hp : word ≠ "ptable".toList) : Refused F text := by
  refine refused_of ht (seven_ne h _) ?_
  intro line hl
  obtain ⟨rest, h1, h2⟩ := seven h hl
  obtain ⟨s1, e1, w1⟩ := number hr hr' h1
  obtain ⟨s2, e2, w2⟩ := number hn hn' w1
  obtain ⟨s3, e3, w3⟩ := extractReal_words w2 hw
  obtain ⟨s4, e4, w4⟩ := extract_words w3
  rw [h2]
  unfold XsdirEntry.options
  rw [e1]; simp only
  rw [e2]; simp only
  rw [e3]; simp only
  rw [e4]; simp only
  rw [if_neg hp, Option.map_none]

/-- A record length without a number of entries, or both without a temperature, is refused. Missing: an eighth word that
is not a number, or a number that is too large, should be refused too (`C68_eighth_ignored`,
`C68_eighth_large`). -/
theorem C68_incomplete_partial (F : Formats) (hF : F.extract [] = none) (text : Str) (ws : List Str) (e : XsdirEntry) (wr : Str) (r : Nat)
    (more : List Str) (ht : EntryLines text (ws ++ wr :: more)) (h : Seven F ws e) (hr : WholeNumber wr r) (hr' : r < 2 ^ 32)
    (hm : more = [] ∨ ∃ wn n, more = [wn] ∧ WholeNumber wn n ∧ n < 2 ^ 32) : Refused F text := by
  refine refused_of ht (seven_ne h _) ?_
  intro line hl
  obtain ⟨rest, h1, h2⟩ := seven h hl
  obtain ⟨s1, e1, w1⟩ := number hr hr' h1
  rw [h2]
  unfold XsdirEntry.options
  rw [e1]; simp only
  rcases hm with rfl | ⟨wn, n, rfl, hn, hn'⟩
  · rw [(extractNat_nil w1).1]
    rfl
  · obtain ⟨s2, e2, w2⟩ := number hn hn' w1
    have : F.extract s2 = none := by
      have hd := words_nil w2
      unfold Formats.extract at hF ⊢
      rw [hd]
      exact hF
    rw [e2]; simp only
    rw [this]
    rfl

/-- Fewer than seven words are refused. -/
theorem C68_short (F : Formats) (hF : F.extract [] = none) (text : Str) (ws more : List Str) (e : XsdirEntry) (h : Seven F (ws ++ more) e)
    (hm : more ≠ []) (hw : ws ≠ []) (ht : EntryLines text ws) : Refused F text := by
  refine refused_of ht hw ?_
  intro line hl
  obtain ⟨zaid, wa, name, access, wt, wad, wl, awr, t, a, l, q0, q1, q2, q3, q4, l1, l2, l3, -⟩ := h.reads
  have hx : ∀ s, words s = [] → F.extract s = none := by
    intro s hs
    have hd := words_nil hs
    unfold Formats.extract at hF ⊢
    rw [hd]
    exact hF
  have hlen : ws.length < 7 := by
    have h1 := congrArg List.length q0
    rw [List.length_append] at h1
    have h2 : 0 < more.length := List.length_pos_iff.mpr hm
    have h3 : [zaid, wa, name, access, wt, wad, wl].length = 7 := rfl
    omega
  unfold XsdirEntry.ofLine
  match ws, hlen, q0 with
  | [], _, _ => exact absurd rfl hw
  | [a1], _, q0 =>
    injection q0 with q0 _; subst q0
    obtain ⟨s1, h1, w1⟩ := extract_words hl
    rw [h1]; simp only
    rw [hx _ w1]
  | [a1, a2], _, q0 =>
    simp only [List.cons_append, List.cons.injEq] at q0
    obtain ⟨rfl, rfl, _⟩ := q0
    obtain ⟨s1, h1, w1⟩ := extract_words hl
    obtain ⟨s2, h2, w2⟩ := extractReal_words w1 q1
    rw [h1]; simp only
    rw [h2]; simp only
    rw [extract_nil w2]
  | [a1, a2, a3], _, q0 =>
    simp only [List.cons_append, List.cons.injEq] at q0
    obtain ⟨rfl, rfl, rfl, _⟩ := q0
    obtain ⟨s1, h1, w1⟩ := extract_words hl
    obtain ⟨s2, h2, w2⟩ := extractReal_words w1 q1
    obtain ⟨s3, h3, w3⟩ := extract_words w2
    rw [h1]; simp only
    rw [h2]; simp only
    rw [h3]; simp only
    rw [extract_nil w3]
  | [a1, a2, a3, a4], _, q0 =>
    simp only [List.cons_append, List.cons.injEq] at q0
    obtain ⟨rfl, rfl, rfl, rfl, _⟩ := q0
    obtain ⟨s1, h1, w1⟩ := extract_words hl
    obtain ⟨s2, h2, w2⟩ := extractReal_words w1 q1
    obtain ⟨s3, h3, w3⟩ := extract_words w2
    obtain ⟨s4, h4, w4⟩ := extract_words w3
    rw [h1]; simp only
    rw [h2]; simp only
    rw [h3]; simp only
    rw [h4]; simp only
    rw [(extractNat_nil w4).1]
  | [a1, a2, a3, a4, a5], _, q0 =>
    simp only [List.cons_append, List.cons.injEq] at q0
    obtain ⟨rfl, rfl, rfl, rfl, rfl, _⟩ := q0
    obtain ⟨s1, h1, w1⟩ := extract_words hl
    obtain ⟨s2, h2, w2⟩ := extractReal_words w1 q1
    obtain ⟨s3, h3, w3⟩ := extract_words w2
    obtain ⟨s4, h4, w4⟩ := extract_words w3
    obtain ⟨s5, h5, w5⟩ := number q2 l1 w4
    rw [h1]; simp only
    rw [h2]; simp only
    rw [h3]; simp only
    rw [h4]; simp only
    rw [h5]; simp only
    rw [(extractNat_nil w5).1]
  | [a1, a2, a3, a4, a5, a6], _, q0 =>
    simp only [List.cons_append, List.cons.injEq] at q0
    obtain ⟨rfl, rfl, rfl, rfl, rfl, rfl, _⟩ := q0
    obtain ⟨s1, h1, w1⟩ := extract_words hl
    obtain ⟨s2, h2, w2⟩ := extractReal_words w1 q1
    obtain ⟨s3, h3, w3⟩ := extract_words w2
    obtain ⟨s4, h4, w4⟩ := extract_words w3
    obtain ⟨s5, h5, w5⟩ := number q2 l1 w4
    obtain ⟨s6, h6, w6⟩ := number q3 l2 w5
    rw [h1]; simp only
    rw [h2]; simp only
    rw [h3]; simp only
    rw [h4]; simp only
    rw [h5]; simp only
    rw [h6]; simp only
    rw [(extractNat_nil w6).1]

/-- A file type, an address or a table length that does not begin like a whole number, or is too large, is
refused. Missing: `C68_eighth_ignored`, `C68_eighth_large` and `C68_negative`. -/
theorem C68_numbers_partial (F : Formats) (text : Str) (zaid wAwr fileName access : Str) (good more : List Str)
    (bad : Str) (awr : Dbl) (ht : EntryLines text ([zaid, wAwr, fileName, access] ++ (good ++ bad :: more)))
    (hw : Written F wAwr.length wAwr awr) (hg : ∀ w ∈ good, ∃ n, WholeNumber w n ∧ n < 2 ^ 32) (hl : good.length < 3)
    (hb : NoNumber bad ∨ ∃ n, WholeNumber bad n ∧ 2 ^ 32 ≤ n) : Refused F text := by
  refine refused_of ht (by simp) ?_
  intro line hl'
  obtain ⟨s1, h1, w1⟩ := extract_words hl'
  obtain ⟨s2, h2, w2⟩ := extractReal_words w1 hw
  obtain ⟨s3, h3, w3⟩ := extract_words w2
  obtain ⟨s4, h4, w4⟩ := extract_words w3
  have hbad : ∀ s, words s = bad :: more → extractNat s = none := by
    intro s hs
    rcases hb with hb | ⟨n, hb, hn⟩
    · exact (noNumber hb hs).1
    · exact (large hb hn hs).1
  unfold XsdirEntry.ofLine
  rw [h1]; simp only
  rw [h2]; simp only
  rw [h3]; simp only
  rw [h4]; simp only
  match good, hl, hg, w4 with
  | [], _, _, w4 => rw [hbad _ w4]
  | [a], _, hg, w4 =>
    obtain ⟨n, g1, g2⟩ := hg a (by simp)
    obtain ⟨s5, h5, w5⟩ := number g1 g2 w4
    rw [h5]; simp only
    rw [hbad _ w5]
  | [a, b], _, hg, w4 =>
    obtain ⟨n, g1, g2⟩ := hg a (by simp)
    obtain ⟨m, g3, g4⟩ := hg b (by simp)
    obtain ⟨s5, h5, w5⟩ := number g1 g2 w4
    obtain ⟨s6, h6, w6⟩ := number g3 g4 w5
    rw [h5]; simp only
    rw [h6]; simp only
    rw [hbad _ w6]

/-- Not refused: when the eighth word does not begin like a whole number it is ignored, with everything behind
it. -/
theorem C68_eighth_ignored (F : Formats) (text : Str) (ws more : List Str) (e : XsdirEntry) (word : Str)
    (ht : EntryLines text (ws ++ word :: more)) (h : Seven F ws e) (hw : NoNumber word) : ReadAs F text e := by
  refine read_of ht (seven_ne h _) ?_
  intro line hl
  obtain ⟨rest, h1, h2⟩ := seven h hl
  obtain ⟨n1, n2⟩ := noNumber hw h1
  rw [h2]
  unfold XsdirEntry.options
  rw [n1]
  simp only [n2, Option.map_some]
  rw [zeroReal]
  exact congrArg some (seven_same h).symm

/-- Not refused: a record length that is too large becomes 4294967295, and everything behind it is ignored. -/
theorem C68_eighth_large (F : Formats) (text : Str) (ws more : List Str) (e : XsdirEntry) (wr : Str) (r : Nat)
    (ht : EntryLines text (ws ++ wr :: more)) (h : Seven F ws e) (hr : WholeNumber wr r) (hr' : 2 ^ 32 ≤ r) :
    ReadAs F text { e with recordLength := some 4294967295 } := by
  refine read_of ht (seven_ne h _) ?_
  intro line hl
  obtain ⟨rest, h1, h2⟩ := seven h hl
  obtain ⟨n1, n2⟩ := large hr hr' h1
  rw [h2]
  unfold XsdirEntry.options
  rw [n1]
  simp only [n2, Option.map_some]
  rw [zeroReal, seven_same h]
  rfl

/-- Not refused: a negative address becomes a large one. -/
theorem C68_negative (F : Formats) (text : Str) (zaid wAwr fileName access wType wAddress wLength : Str) (awr : Dbl)
    (type address length : Nat)
    (ht : EntryLines text [zaid, wAwr, fileName, access, wType, '-' :: wAddress, wLength])
    (hw : Written F wAwr.length wAwr awr) (h1 : WholeNumber wType type) (h2 : WholeNumber wAddress address)
    (hs : wAddress.head? ≠ some '+') (h3 : WholeNumber wLength length)
    (b1 : type < 2 ^ 32) (b2 : address < 2 ^ 32) (b3 : length < 2 ^ 32) (hp : 0 < address) :
    ReadAs F text ⟨zaid, awr, fileName, if access = "0".toList then none else some access, type, 2 ^ 32 - address, length,
      none, none, none, false⟩ := by
  refine read_of ht (by simp) ?_
  intro line hl
  obtain ⟨s1, e1, w1⟩ := extract_words hl
  obtain ⟨s2, e2, w2⟩ := extractReal_words w1 hw
  obtain ⟨s3, e3, w3⟩ := extract_words w2
  obtain ⟨s4, e4, w4⟩ := extract_words w3
  obtain ⟨s5, e5, w5⟩ := number h1 b1 w4
  obtain ⟨s6, e6, w6⟩ := negative h2 hs b2 w5
  obtain ⟨s7, e7, w7⟩ := number h3 b3 w6
  obtain ⟨n1, n2⟩ := extractNat_nil w7
  unfold XsdirEntry.ofLine
  rw [e1]; simp only
  rw [e2]; simp only
  rw [e3]; simp only
  rw [e4]; simp only
  rw [e5]; simp only
  rw [e6]; simp only
  rw [e7]; simp only
  unfold XsdirEntry.options
  rw [n1]
  simp only [n2]
  have z := zeroReal
  unfold optionalReal at z
  rw [z, Nat.mod_eq_of_lt (by omega)]
  rfl

/-- A text that does not begin with a comment line can be an entry of an xsdir file (`C44`). -/
theorem C68_entry_text (F : Formats) (text : Str) (e : XsdirEntry) (h : ReadAs F text e)
    (hf : ∃ line rest, text = line ++ newline :: rest ∧ IsLine line) : EntryText F text e :=
  ⟨hf, h⟩

/-! ## Examples -/

/-- Three lines with comments in front of them and between them, tabs, and a plus sign with blanks behind it. -/
def handWritten (options : String) : Str :=
  "# one\n# two\n 92235.80c\t+233.0248 name +  \n#three\n0 +1\t\t2 00003+\n".toList ++ options.toList ++ [newline]

theorem handWritten_lines (options : String) (hn : newline ∉ options.toList) (hh : options.toList.head? ≠ some '#')
    (hp : (strip options.toList).getLast? ≠ some '+') : EntryLines (handWritten options)
      (["92235.80c", "+233.0248", "name", "0", "+1", "2", "00003"].map (·.toList) ++ words options.toList) := by
  have h3 : EntryLines (options.toList ++ [newline]) (words options.toList) :=
    EntryLines.last [] options.toList (by intro l hl; cases hl) hn hh (not_continued hp)
  have h2 := EntryLines.more ["#three".toList] "0 +1\t\t2 00003+".toList "0 +1\t\t2 00003".toList _ _
    (by unfold Comments; decide +kernel) (by decide +kernel) (by decide +kernel) ⟨[], by decide +kernel, by simp⟩ h3
  have h1 := EntryLines.more ["# one".toList, "# two".toList] " 92235.80c\t+233.0248 name +  ".toList
    " 92235.80c\t+233.0248 name ".toList _ _
    (by unfold Comments; decide +kernel) (by decide +kernel) (by decide +kernel)
    ⟨"  ".toList, by decide +kernel, by decide +kernel⟩ h2
  have e1 : handWritten options = linesText ["# one".toList, "# two".toList] ++
      (" 92235.80c\t+233.0248 name +  ".toList ++ newline :: (linesText ["#three".toList] ++
        ("0 +1\t\t2 00003+".toList ++ newline :: (options.toList ++ [newline])))) := by
    unfold handWritten
    have : ("# one\n# two\n 92235.80c\t+233.0248 name +  \n#three\n0 +1\t\t2 00003+\n".toList : Str) =
        linesText ["# one".toList, "# two".toList] ++ (" 92235.80c\t+233.0248 name +  ".toList ++
          newline :: (linesText ["#three".toList] ++ ("0 +1\t\t2 00003+".toList ++ [newline]))) := by decide +kernel
    rw [this]
    simp only [List.append_assoc, List.cons_append, List.nil_append]
  have e2 : ["92235.80c", "+233.0248", "name", "0", "+1", "2", "00003"].map (·.toList) ++ words options.toList =
      words " 92235.80c\t+233.0248 name ".toList ++ (words "0 +1\t\t2 00003".toList ++ words options.toList) := by
    rw [← List.append_assoc]
    congr 1
  rw [e1, e2]
  exact h1

theorem handWritten_seven : Seven Decimal.std (["92235.80c", "+233.0248", "name", "0", "+1", "2", "00003"].map (·.toList))
    ⟨"92235.80c".toList, exAwr, "name".toList, none, 1, 2, 3, none, none, none, false⟩ where
  reads := ⟨"92235.80c".toList, "+233.0248".toList, "name".toList, "0".toList, "+1".toList, "2".toList, "00003".toList,
    exAwr, 1, 2, 3, rfl, ⟨by decide +kernel, by decide +kernel, by decide +kernel, by decide +kernel⟩,
    ⟨"1".toList, by decide +kernel, by decide +kernel, .inr (by decide +kernel), by decide +kernel⟩,
    ⟨"2".toList, by decide +kernel, by decide +kernel, .inl (by decide +kernel), by decide +kernel⟩,
    ⟨"00003".toList, by decide +kernel, by decide +kernel, .inl (by decide +kernel), by decide +kernel⟩,
    by decide, by decide, by decide, by decide +kernel⟩

theorem handWritten_number (w : String) (h1 : w.toList ≠ []) (h2 : ∀ c ∈ w.toList, c.isDigit = true) :
    WholeNumber w.toList (toNat w.toList) := ⟨w.toList, h1, h2, .inl rfl, rfl⟩

theorem handWritten_temperature : Written Decimal.std "2.53e-8".toList.length "2.53e-8".toList exTemp :=
  ⟨by decide +kernel, by decide +kernel, by decide +kernel, by decide +kernel⟩

example : ReadAs Decimal.std (handWritten "")
    ⟨"92235.80c".toList, exAwr, "name".toList, none, 1, 2, 3, none, none, none, false⟩ :=
  C68_seven _ _ _ _ (handWritten_lines "" (by decide +kernel) (by decide +kernel) (by decide +kernel)) (by
    have : words "".toList = [] := by decide +kernel
    rw [this, List.append_nil]
    exact handWritten_seven)

example : ReadAs Decimal.std (handWritten " 4096 0 2.53e-8")
    ⟨"92235.80c".toList, exAwr, "name".toList, none, 1, 2, 3, some 4096, none, some exTemp, false⟩ :=
  C68_ten _ _ _ _ "4096".toList "0".toList "2.53e-8".toList 4096 0 exTemp (by
    have := handWritten_lines " 4096 0 2.53e-8" (by decide +kernel) (by decide +kernel) (by decide +kernel)
    rw [show words " 4096 0 2.53e-8".toList = ["4096".toList, "0".toList, "2.53e-8".toList] by decide +kernel] at this
    exact this) handWritten_seven (handWritten_number "4096" (by decide +kernel) (by decide +kernel)) (by decide)
    (handWritten_number "0" (by decide +kernel) (by decide +kernel)) (by decide) handWritten_temperature

example : ReadAs Decimal.std (handWritten " 4096 512 2.53e-8 ptable and more")
    ⟨"92235.80c".toList, exAwr, "name".toList, none, 1, 2, 3, some 4096, some 512, some exTemp, true⟩ :=
  C68_ptable _ _ _ ["and".toList, "more".toList] _ "4096".toList "512".toList "2.53e-8".toList 4096 512 exTemp (by
    have := handWritten_lines " 4096 512 2.53e-8 ptable and more" (by decide +kernel) (by decide +kernel) (by decide +kernel)
    rw [show words " 4096 512 2.53e-8 ptable and more".toList = ["4096".toList, "512".toList, "2.53e-8".toList,
      "ptable".toList, "and".toList, "more".toList] by decide +kernel] at this
    exact this) handWritten_seven (handWritten_number "4096" (by decide +kernel) (by decide +kernel)) (by decide)
    (handWritten_number "512" (by decide +kernel) (by decide +kernel)) (by decide) handWritten_temperature

example : Refused Decimal.std (handWritten " 4096 512 2.53e-8 table") :=
  C68_other_word _ _ _ [] _ "4096".toList "512".toList "2.53e-8".toList "table".toList 4096 512 exTemp (by
    have := handWritten_lines " 4096 512 2.53e-8 table" (by decide +kernel) (by decide +kernel) (by decide +kernel)
    rw [show words " 4096 512 2.53e-8 table".toList = ["4096".toList, "512".toList, "2.53e-8".toList,
      "table".toList] by decide +kernel] at this
    exact this) handWritten_seven (handWritten_number "4096" (by decide +kernel) (by decide +kernel)) (by decide)
    (handWritten_number "512" (by decide +kernel) (by decide +kernel)) (by decide) handWritten_temperature
    (by decide +kernel)

example : Refused Decimal.std (handWritten " 4096 512") :=
  C68_incomplete_partial _ (by decide +kernel) _ _ _ "4096".toList 4096 ["512".toList] (by
    have := handWritten_lines " 4096 512" (by decide +kernel) (by decide +kernel) (by decide +kernel)
    rw [show words " 4096 512".toList = ["4096".toList, "512".toList] by decide +kernel] at this
    exact this) handWritten_seven (handWritten_number "4096" (by decide +kernel) (by decide +kernel)) (by decide)
    (.inr ⟨"512".toList, 512, rfl, handWritten_number "512" (by decide +kernel) (by decide +kernel), by decide⟩)

example : Refused Decimal.std "92235.80c +233.0248 name 0 +1 2\n".toList := by
  refine C68_short _ (by decide +kernel) _ (["92235.80c", "+233.0248", "name", "0", "+1", "2"].map (fun s : String => s.toList)) ["00003".toList] _
    (show Seven _ (["92235.80c", "+233.0248", "name", "0", "+1", "2"].map (fun s : String => s.toList) ++ ["00003".toList]) _
      from handWritten_seven) (by simp) (by simp) ?_
  have := EntryLines.last [] "92235.80c +233.0248 name 0 +1 2".toList (by intro l hl; cases hl) (by decide +kernel)
    (by decide +kernel) (not_continued (by decide +kernel))
  rw [show words "92235.80c +233.0248 name 0 +1 2".toList =
    ["92235.80c", "+233.0248", "name", "0", "+1", "2"].map (·.toList) by decide +kernel] at this
  exact this

example : Refused Decimal.std "92235.80c +233.0248 name 0 1 4294967296 3\n".toList := by
  refine C68_numbers_partial _ _ "92235.80c".toList "+233.0248".toList "name".toList "0".toList ["1".toList]
    ["3".toList] "4294967296".toList exAwr ?_ ⟨by decide +kernel, by decide +kernel, by decide +kernel, by decide +kernel⟩
    ?_ (by decide)
    (.inr ⟨4294967296, ⟨"4294967296".toList, by decide +kernel, by decide +kernel, .inl rfl, by decide +kernel⟩, by decide⟩)
  · have := EntryLines.last [] "92235.80c +233.0248 name 0 1 4294967296 3".toList (by intro l hl; cases hl)
      (by decide +kernel) (by decide +kernel) (not_continued (by decide +kernel))
    rw [show words "92235.80c +233.0248 name 0 1 4294967296 3".toList = ["92235.80c".toList, "+233.0248".toList,
      "name".toList, "0".toList, "1".toList, "4294967296".toList, "3".toList] by decide +kernel] at this
    exact this
  · intro w hw
    rw [List.mem_singleton.mp hw]
    exact ⟨1, handWritten_number "1" (by decide +kernel) (by decide +kernel), by decide⟩

example : ReadAs Decimal.std (handWritten "ptable 4096 512")
    ⟨"92235.80c".toList, exAwr, "name".toList, none, 1, 2, 3, none, none, none, false⟩ :=
  C68_eighth_ignored _ _ _ ["4096".toList, "512".toList] _ "ptable".toList (by
    have := handWritten_lines "ptable 4096 512" (by decide +kernel) (by decide +kernel) (by decide +kernel)
    rw [show words "ptable 4096 512".toList = ["ptable".toList, "4096".toList, "512".toList] by decide +kernel] at this
    exact this) handWritten_seven
    ⟨by
      intro c ds hc
      rw [show "ptable".toList = 'p' :: "table".toList by decide +kernel] at hc
      injection hc with hc _
      rw [← hc]; decide,
     by
      intro s c ds hc hs
      rw [show "ptable".toList = 'p' :: "table".toList by decide +kernel] at hc
      injection hc with hc _
      rw [← hc] at hs
      exact absurd hs (by decide)⟩

example : ReadAs Decimal.std (handWritten "4294967296 512 2.53e-8 ptable")
    ⟨"92235.80c".toList, exAwr, "name".toList, none, 1, 2, 3, some 4294967295, none, none, false⟩ :=
  C68_eighth_large _ _ _ ["512".toList, "2.53e-8".toList, "ptable".toList] _ "4294967296".toList 4294967296 (by
    have := handWritten_lines "4294967296 512 2.53e-8 ptable" (by decide +kernel) (by decide +kernel) (by decide +kernel)
    rw [show words "4294967296 512 2.53e-8 ptable".toList =
      ["4294967296".toList, "512".toList, "2.53e-8".toList, "ptable".toList] by decide +kernel] at this
    exact this) handWritten_seven
    ⟨"4294967296".toList, by decide +kernel, by decide +kernel, .inl rfl, by decide +kernel⟩ (by decide)

example : ReadAs Decimal.std "92235.80c +233.0248 name dir 1 -2 3\n".toList
    ⟨"92235.80c".toList, exAwr, "name".toList, some "dir".toList, 1, 4294967294, 3, none, none, none, false⟩ := by
  have h := EntryLines.last [] "92235.80c +233.0248 name dir 1 -2 3".toList (by intro l hl; cases hl) (by decide +kernel)
    (by decide +kernel) (not_continued (by decide +kernel))
  rw [show words "92235.80c +233.0248 name dir 1 -2 3".toList =
    ["92235.80c".toList, "+233.0248".toList, "name".toList, "dir".toList, "1".toList, '-' :: "2".toList, "3".toList]
    by decide +kernel] at h
  have := C68_negative Decimal.std _ _ _ _ _ _ _ _ exAwr 1 2 3 h
    ⟨by decide +kernel, by decide +kernel, by decide +kernel, by decide +kernel⟩
    (handWritten_number "1" (by decide +kernel) (by decide +kernel))
    (handWritten_number "2" (by decide +kernel) (by decide +kernel)) (by decide +kernel)
    (handWritten_number "3" (by decide +kernel) (by decide +kernel)) (by decide) (by decide) (by decide) (by decide)
  exact this

example : EntryText Decimal.std "92235.80c +233.0248 name 0 +1 2 00003\n".toList
    ⟨"92235.80c".toList, exAwr, "name".toList, none, 1, 2, 3, none, none, none, false⟩ := by
  have h := EntryLines.last [] "92235.80c +233.0248 name 0 +1 2 00003".toList (by intro l hl; cases hl) (by decide +kernel)
    (by decide +kernel) (not_continued (by decide +kernel))
  rw [show words "92235.80c +233.0248 name 0 +1 2 00003".toList =
    ["92235.80c", "+233.0248", "name", "0", "+1", "2", "00003"].map (·.toList) by decide +kernel] at h
  exact C68_entry_text _ _ _ (C68_seven _ _ _ _ h handWritten_seven)
    ⟨"92235.80c +233.0248 name 0 +1 2 00003".toList, [], by decide +kernel, by decide +kernel, by decide +kernel, by decide +kernel⟩

end ACE.Props

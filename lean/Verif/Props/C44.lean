import Verif.Lemmas.XsdirFile
import Verif.Props.C42

/-!
# C44: reading xsdir files, and looking entries up
-/

namespace ACE.Props
open ACE ACE.Text

/-- An xsdir file: lines that say nothing; possibly a line with the data path, as
`datapath` (in any case), blanks, `=` and the path, and more lines that say nothing; the title line; the lines with
the atomic weight ratios; the directory line; comments; entries, each followed by lines that say nothing; a last
line without a newline. -/
structure XsdirText where
  front : List Str
  path : Option (Str × Str × Str × List Str)
  title : Str
  ratioText : Str
  ratios : List (Nat × Dbl)
  directory : Str
  comments : List Str
  entries : List (Str × XsdirEntry × List Str)
  ending : Str

namespace XsdirText

/-- The line with the data path and the lines behind it. -/
def pathText (t : XsdirText) : Str :=
  match t.path with
  | none => []
  | some (key, gap, path, ns) => key ++ gap ++ '=' :: path ++ newline :: linesText ns

/-- The text up to the directory line. -/
def head (t : XsdirText) : Str :=
  linesText t.front ++ t.pathText ++ t.title ++ newline :: t.ratioText ++ t.directory ++ [newline]

def text (t : XsdirText) : Str :=
  t.head ++ linesText t.comments ++ entriesText (t.entries.map fun x => (x.1, x.2.2)) ++ t.ending

/-- The lines up to the directory line. -/
structure HeadOk (F : Formats) (t : XsdirText) : Prop where
  front : ∀ n ∈ t.front, IsNoise n
  path : ∀ key gap path ns, t.path = some (key, gap, path, ns) → key.map Char.toLower = "datapath".toList ∧
    (∀ c ∈ gap, c = ' ') ∧ path ≠ [] ∧ newline ∉ path ∧ (∀ c, path.getLast? = some c → isSpace c = false) ∧
    ∀ n ∈ ns, IsNoise n
  /-- upper case is understood behind a data path only -/
  title : t.title.map Char.toLower = "atomic weight ratios".toList ∧
    (t.path = none → t.title = "atomic weight ratios".toList)
  ratioText : RatioText F t.ratioText t.ratios
  /-- upper case is understood behind atomic weight ratios only -/
  directory : t.directory.map Char.toLower = "directory".toList ∧
    (t.ratios = [] → t.directory = "directory".toList)

structure Ok (F : Formats) (t : XsdirText) : Prop where
  head : t.HeadOk F
  comments : ∀ c ∈ t.comments, newline ∉ c ∧ c.head? = some '#'
  some : t.entries ≠ []
  entries : ∀ x ∈ t.entries, EntryText F x.1 x.2.1 ∧ ∀ n ∈ x.2.2, IsNoise n
  ending : newline ∉ t.ending

end XsdirText

namespace C44
open Xsdir IStream

theorem special_lower {c : Char} (h : isSpace c = true) : c.toLower = c := by
  unfold isSpace Ident.isSpace at h
  simp at h
  rcases h with h | h | h | h | h | h <;> subst h <;> decide

/-- A text without white space at its ends. -/
theorem strip_of {a x b : Str} (ha : ∀ c ∈ a, isSpace c = true) (hb : ∀ c ∈ b, isSpace c = true)
    (h1 : ∀ c, x.head? = some c → isSpace c = false) (h2 : ∀ c, x.getLast? = some c → isSpace c = false) (hx : x ≠ []) :
    strip (a ++ x ++ b) = x := by
  have e1 : (a ++ x ++ b).dropWhile isSpace = x ++ b := by
    rw [List.append_assoc, List.dropWhile_append_of_pos ha]
    cases x with
    | nil => exact absurd rfl hx
    | cons c x => rw [List.cons_append, List.dropWhile_cons, if_neg (by rw [h1 c rfl]; simp)]
  unfold strip
  simp only
  rw [e1, List.reverse_append, List.dropWhile_append_of_pos (by intro c hc; exact hb c (by simpa using hc))]
  have e2 : x.reverse.dropWhile isSpace = x.reverse := by
    cases hr : x.reverse with
    | nil => rfl
    | cons c r =>
      rw [List.dropWhile_cons, if_neg (by
        rw [h2 c (by rw [← List.head?_reverse, hr]; rfl)]; simp)]
  rw [e2, List.reverse_reverse]

theorem strip_self {x : Str} (h1 : ∀ c, x.head? = some c → isSpace c = false)
    (h2 : ∀ c, x.getLast? = some c → isSpace c = false) (hx : x ≠ []) : strip x = x := by
  have := strip_of (a := []) (b := []) (by simp) (by simp) h1 h2 hx
  simpa using this

theorem head_lower {t : Str} {T : Str} (h : t.map Char.toLower = T) {c : Char} (hc : t.head? = some c) :
    T.head? = some c.toLower := by
  rw [← h, List.head?_map, hc]; rfl

theorem last_lower {t : Str} {T : Str} (h : t.map Char.toLower = T) {c : Char} (hc : t.getLast? = some c) :
    T.getLast? = some c.toLower := by
  rw [← h, List.getLast?_map, hc]; rfl

theorem not_space {c : Char} (h : isSpace c.toLower = false) : isSpace c = false := by
  cases hs : isSpace c with
  | false => rfl
  | true => rw [special_lower hs, hs] at h; cases h

/-- A line that is a given text but for upper case. -/
theorem line_of {t T : Str} (h : t.map Char.toLower = T) (h1 : newline ∉ T) (h2 : T ≠ []) (h3 : T.head? ≠ some '#')
    (h4 : ∀ c, T.head? = some c → isSpace c = false) (h5 : ∀ c, T.getLast? = some c → isSpace c = false) :
    IsLine t ∧ strip t = t := by
  have hne : t ≠ [] := by rintro rfl; exact h2 h.symm
  refine ⟨⟨?_, hne, ?_⟩, strip_self (fun c hc => ?_) (fun c hc => ?_) hne⟩
  · intro hn
    apply h1
    rw [← h, List.mem_map]
    exact ⟨newline, hn, by decide⟩
  · intro hh
    exact h3 (by rw [head_lower h hh]; decide)
  · exact not_space (h4 _ (head_lower h hc))
  · exact not_space (h5 _ (last_lower h hc))

theorem title_line {t : Str} (h : t.map Char.toLower = "atomic weight ratios".toList) : IsLine t ∧ strip t = t :=
  line_of h (by decide) (by decide) (by decide) (by decide) (by decide)

theorem directory_line {t : Str} (h : t.map Char.toLower = "directory".toList) : IsLine t ∧ strip t = t :=
  line_of h (by decide) (by decide) (by decide) (by decide) (by decide)

theorem path_line {key gap path : Str} (h1 : key.map Char.toLower = "datapath".toList) (h2 : ∀ c ∈ gap, c = ' ')
    (h3 : path ≠ []) (h4 : newline ∉ path) (h5 : ∀ c, path.getLast? = some c → isSpace c = false) :
    IsLine (key ++ gap ++ '=' :: path) ∧ strip (key ++ gap ++ '=' :: path) = key ++ gap ++ '=' :: path := by
  have hk : key ≠ [] := by rintro rfl; revert h1; decide
  have hh : ∀ c, (key ++ gap ++ '=' :: path).head? = some c → key.head? = some c := by
    intro c hc
    cases key with
    | nil => exact absurd rfl hk
    | cons k key => simpa using hc
  have hl : ∀ c, (key ++ gap ++ '=' :: path).getLast? = some c → path.getLast? = some c := by
    intro c hc
    rw [List.getLast?_append, List.getLast?_cons] at hc
    cases hp : path.getLast? with
    | none => exact absurd (List.getLast?_eq_none_iff.mp hp) h3
    | some x => rw [hp] at hc; simpa using hc
  refine ⟨⟨?_, ?_, ?_⟩, strip_self (fun c hc => ?_) (fun c hc => h5 c (hl c hc)) ?_⟩
  · simp only [List.mem_append, List.mem_cons, not_or]
    refine ⟨⟨fun hn => ?_, fun hn => ?_⟩, by decide, h4⟩
    · have : newline ∈ key.map Char.toLower := List.mem_map.mpr ⟨newline, hn, by decide⟩
      rw [h1] at this
      revert this; decide
    · exact absurd (h2 _ hn) (by decide)
  · simp
  · intro hc
    have := head_lower h1 (hh _ hc)
    revert this; decide
  · have := head_lower h1 (hh _ hc)
    apply not_space
    simp at this
    rw [← this]; decide
  · simp

theorem readPath_of {key gap path : Str} (h1 : key.map Char.toLower = "datapath".toList) (h2 : ∀ c ∈ gap, c = ' ')
    (h3 : path ≠ []) (h5 : ∀ c, path.getLast? = some c → isSpace c = false) :
    (key ++ gap ++ '=' :: path).take 8 = key ∧ readPath (key ++ gap ++ '=' :: path) = some path := by
  have hk : key.length = 8 := by
    have := congrArg List.length h1
    rw [List.length_map] at this
    rw [this]; decide
  have e2 : (key ++ gap ++ '=' :: path).drop 8 = gap ++ '=' :: path := by
    rw [List.append_assoc, ← hk, List.drop_left]
  refine ⟨by rw [List.append_assoc, ← hk, List.take_left], ?_⟩
  unfold readPath
  rw [e2]
  have : strip (gap ++ '=' :: path) = '=' :: path := by
    have := strip_of (a := gap) (x := '=' :: path) (b := []) (by intro c hc; rw [h2 c hc]; decide) (by simp)
      (by intro c hc; simp at hc; subst hc; decide) (by
        intro c hc
        rw [List.getLast?_cons] at hc
        cases hp : path.getLast? with
        | none => exact absurd (List.getLast?_eq_none_iff.mp hp) h3
        | some x => rw [hp] at hc; simp at hc; subst hc; exact h5 _ hp) (by simp)
    simpa using this
  rw [this]
  simp only
  rw [if_pos h3]

theorem text_at (s : Str) : IStream.ofText s = at' [] s := rfl

/-- The start of the file. -/
theorem readStart_ok {F : Formats} {t : XsdirText} (h : t.HeadOk F) (rest : Str) : ∃ title pos,
    readStart (at' [] (linesText t.front ++ t.pathText ++ t.title ++ newline :: rest)) =
      .ok (t.path.map (·.2.2.1), title, pos, at' (linesText t.front ++ t.pathText ++ t.title ++ [newline]) rest) ∧
    title = "atomic weight ratios".toList := by
  obtain ⟨t1, t2⟩ := title_line h.title.1
  unfold readStart
  rw [at_tellg]
  simp only
  cases hp : t.path with
  | none =>
    have e : t.pathText = [] := by unfold XsdirText.pathText; rw [hp]
    rw [e, List.append_nil]
    refine ⟨t.title, some ([] ++ linesText t.front).length, ?_, h.title.2 hp⟩
    rw [List.append_assoc, getline_noise h.front t1, ok_bind]
    simp only
    rw [t2, if_neg (by rw [h.title.2 hp]; decide)]
    simp
  | some p =>
    obtain ⟨key, gap, path, ns⟩ := p
    obtain ⟨p1, p2, p3, p4, p5, p6⟩ := h.path _ _ _ _ hp
    obtain ⟨l1, l2⟩ := path_line p1 p2 p3 p4 p5
    obtain ⟨q1, q2⟩ := readPath_of p1 p2 p3 p5
    have e : t.pathText = key ++ gap ++ '=' :: path ++ newline :: linesText ns := by unfold XsdirText.pathText; rw [hp]
    rw [e]
    have e1 : linesText t.front ++ (key ++ gap ++ '=' :: path ++ newline :: linesText ns) ++ t.title ++ newline :: rest =
        linesText t.front ++ ((key ++ gap ++ '=' :: path) ++ newline :: (linesText ns ++ (t.title ++ newline :: rest))) := by
      simp
    rw [e1, getline_noise h.front l1, ok_bind]
    simp only
    rw [l2, if_pos (by
      rw [q1]
      unfold toLower
      rw [p1]
      simp), getline_noise p6 t1, ok_bind]
    simp only
    rw [q2, t2]
    refine ⟨toLower t.title, some ([] ++ linesText t.front ++ (key ++ gap ++ '=' :: path) ++ [newline] ++ linesText ns).length, ?_, h.title.1⟩
    simp

/-- Reading goes on behind the directory line. -/
theorem parse_head {F : Formats} {t : XsdirText} (h : t.HeadOk F) (rest : Str) : ∃ pos,
    Xsdir.parse F (IStream.ofText (t.head ++ rest)) =
      readDirectory F (t.path.map (·.2.2.1)) (assignAll t.ratios []) pos (at' t.head rest) := by
  rw [text_at]
  have e1 : t.head ++ rest = linesText t.front ++ t.pathText ++ t.title ++ newline :: (t.ratioText ++ (t.directory ++ newline ::
      rest)) := by
    unfold XsdirText.head
    simp
  obtain ⟨title, pos, r1, r2⟩ := readStart_ok h (t.ratioText ++ (t.directory ++ newline :: rest))
  obtain ⟨d1, d2⟩ := directory_line h.directory.1
  rw [← e1] at r1
  unfold Xsdir.parse
  rw [r1, ok_bind]
  simp only
  rw [if_neg (by rw [r2]; simp)]
  obtain ⟨cur, position, st, pos', g1, g2, g3, g4⟩ := readRatios_ok (F := F) d1 (by rw [d2]; exact h.directory.1) h.ratioText id
    (fun _ _ => rfl) (fun hm => by rw [d2]; exact h.directory.2 hm) [] (by simp) ((t.head ++ rest).length + 2)
    (by rw [e1]; simp; omega) [] (linesText t.front ++ t.pathText ++ t.title ++ [newline]) rest
  rw [linesText_nil, List.nil_append] at g1
  have hlen : st.content.length = (t.head ++ rest).length := by
    rw [g3, e1, linesText_nil]
    simp
  rw [g1, ok_bind]
  simp only
  rw [hlen]
  simp only [id] at g4
  rw [g4, ok_bind]
  refine ⟨pos', ?_⟩
  simp only [linesText_nil]
  congr 1
  unfold XsdirText.head
  simp

theorem parse_ok {F : Formats} {t : XsdirText} (h : t.Ok F) :
    Xsdir.parse F (IStream.ofText t.text) =
      .ok (some (mk' (assignAll t.ratios []) (t.entries.map (·.2.1)) (t.path.map (·.2.2.1))),
        ended t.text t.ending.isEmpty) := by
  have e1 : t.text = t.head ++ (linesText t.comments ++ (entriesText (t.entries.map fun x => (x.1, x.2.2)) ++ t.ending)) := by
    unfold XsdirText.text
    simp
  obtain ⟨pos', hp⟩ := parse_head h.head (linesText t.comments ++ (entriesText (t.entries.map fun x => (x.1, x.2.2)) ++ t.ending))
  rw [e1, hp]
  unfold readDirectory
  obtain ⟨pos2, g5⟩ := readEntries_ok (F := F) h.ending t.entries h.some h.entries t.comments h.comments
    ((at' t.head (linesText t.comments ++ (entriesText (t.entries.map fun x => (x.1, x.2.2)) ++ t.ending))).content.length + 1)
    (by
      have : ∀ l : List (Str × XsdirEntry × List Str), (∀ x ∈ l, EntryText F x.1 x.2.1 ∧ ∀ n ∈ x.2.2, IsNoise n) →
          l.length ≤ (entriesText (l.map fun x => (x.1, x.2.2))).length := by
        intro l
        induction l with
        | nil => intro _; simp
        | cons x l ih =>
          intro hl
          have := ih fun y hy => hl y (by simp [hy])
          obtain ⟨line, rest, hx, _⟩ := (hl x (by simp)).1.first
          simp [entriesText, hx]
          omega
      have := this t.entries h.entries
      simp [at']
      omega) none pos' t.head
  rw [g5, ok_bind]
  simp only [ended]
  simp

/-! ## Lookups -/

theorem lookup_assign (za : Nat) (x : Dbl) : ∀ (m : Ratios) (k : Nat),
    (assign za x m).lookup k = if k = za then some x else m.lookup k
  | [], k => by
    unfold assign
    by_cases h : k = za
    · subst h; simp [List.lookup]
    · simp [List.lookup, h, beq_false_of_ne h]
  | (z, y) :: m, k => by
    unfold assign
    split
    · by_cases h : k = za
      · subst h; simp [List.lookup]
      · rw [List.lookup, beq_false_of_ne h, if_neg h]
    · split
      · rename_i h1 h2
        subst h2
        by_cases h : k = za
        · subst h; simp [List.lookup]
        · rw [List.lookup, beq_false_of_ne h, if_neg h, List.lookup, beq_false_of_ne h]
      · rename_i h1 h2
        by_cases hz : k = z
        · subst hz
          rw [if_neg (by omega)]
          simp [List.lookup]
        · rw [List.lookup, beq_false_of_ne hz, lookup_assign za x m k, List.lookup, beq_false_of_ne hz]

theorem lookup_all : ∀ (ps : List (Nat × Dbl)) (m : Ratios) (k : Nat),
    (assignAll ps m).lookup k = (ps.reverse.lookup k).or (m.lookup k)
  | [], m, k => by simp [assignAll]
  | p :: ps, m, k => by
    have : assignAll (p :: ps) m = assignAll ps (assign p.1 p.2 m) := rfl
    rw [this, lookup_all ps, lookup_assign, List.reverse_cons, List.lookup_append]
    cases ps.reverse.lookup k with
    | some v => rfl
    | none =>
      by_cases h : k = p.1
      · subst h; simp [List.lookup]
      · simp [List.lookup, beq_false_of_ne h, h]

theorem indices_append : ∀ (es : List XsdirEntry) (e : XsdirEntry) (i : Nat) (m : List (Str × Nat)),
    indicesFrom i (es ++ [e]) m = (e.zaid, i + es.length) :: indicesFrom i es m
  | [], e, i, m => rfl
  | x :: es, e, i, m => by
    rw [List.cons_append, indicesFrom, indices_append es e, indicesFrom]
    simp
    omega

theorem entry_reverse (zaid : Str) : ∀ (r : List XsdirEntry),
    match (indicesFrom 0 r.reverse []).lookup zaid with
    | some i => ∃ e, r.reverse[i]? = some e ∧ r.find? (fun e => e.zaid == zaid) = some e
    | none => r.find? (fun e => e.zaid == zaid) = none
  | [] => rfl
  | e :: r => by
    have ih := entry_reverse zaid r
    rw [List.reverse_cons, indices_append, List.lookup]
    by_cases h : zaid = e.zaid
    · subst h
      simp
    · rw [beq_false_of_ne h]
      simp only
      have h' : (e.zaid == zaid) = false := beq_false_of_ne fun hc => h hc.symm
      split at ih
      · rename_i i hi
        obtain ⟨x, h1, h2⟩ := ih
        refine ⟨x, ?_, ?_⟩
        · rw [List.getElem?_append_left (by have := List.getElem?_eq_some_iff.mp h1; exact this.1)]
          exact h1
        · simp [List.find?, h', h2]
      · rename_i hi
        simp [List.find?, h', ih]

end C44

/-- Looking up an entry in an xsdir made of any entries: the last entry with the ZAID, and an exception when there
is none. -/
theorem C44_entry (awr : Ratios) (es : List XsdirEntry) (path : Option Str) (zaid : Str) :
    (Xsdir.mk' awr es path).entry zaid =
      match es.reverse.find? (fun e => e.zaid == zaid) with
      | some e => .ok e
      | none => .error .thrown := by
  have h := C44.entry_reverse zaid es.reverse
  rw [List.reverse_reverse] at h
  unfold Xsdir.entry Xsdir.mk'
  simp only
  split at h
  · rename_i i hi
    obtain ⟨e, h1, h2⟩ := h
    rw [hi, h2]
    simp only
    rw [h1]
  · rename_i hi
    rw [hi, h]

/-- An entry is found iff there is one with the ZAID, and it has that ZAID. -/
theorem C44_found (awr : Ratios) (es : List XsdirEntry) (path : Option Str) (zaid : Str) :
    ((∃ e, (Xsdir.mk' awr es path).entry zaid = .ok e) ↔ ∃ e ∈ es, e.zaid = zaid) ∧
    ∀ e, (Xsdir.mk' awr es path).entry zaid = .ok e → e ∈ es ∧ e.zaid = zaid := by
  rw [C44_entry]
  cases h : es.reverse.find? (fun e => e.zaid == zaid) with
  | some e =>
    have h1 := List.find?_some h
    have h2 := List.mem_of_find?_eq_some h
    simp at h1 h2
    refine ⟨⟨fun _ => ⟨e, h2, h1⟩, fun _ => ⟨e, rfl⟩⟩, ?_⟩
    intro x hx
    injection hx with hx
    subst hx
    exact ⟨h2, h1⟩
  | none =>
    rw [List.find?_eq_none] at h
    refine ⟨⟨?_, ?_⟩, ?_⟩
    · rintro ⟨e, he⟩; cases he
    · rintro ⟨e, he1, he2⟩
      have := h e (by simpa using he1)
      exact absurd he2 (by simpa using this)
    · intro e he; cases he

/-- A file is read: the data path, all entries in order, and for each ZA number the last atomic weight ratio in
the file. The stream is at its end. (A last line that does not end with a newline is not read.) -/
theorem C44_read_partial (F : Formats) (t : XsdirText) (h : t.Ok F) : ∃ d : Xsdir,
    Xsdir.parse F (IStream.ofText t.text) = .ok (some d, ⟨t.text, t.text.length, true, t.ending.isEmpty⟩) ∧
    d.dataPath = t.path.map (·.2.2.1) ∧
    d.entries = t.entries.map (·.2.1) ∧
    (∀ zaid, d.entry zaid =
      match d.entries.reverse.find? (fun e => e.zaid == zaid) with
      | some e => .ok e
      | none => .error .thrown) ∧
    ∀ za, d.atomicWeightRatio za =
      match t.ratios.reverse.lookup za with
      | some x => .ok x
      | none => .error .thrown := by
  refine ⟨_, C44.parse_ok h, rfl, rfl, fun zaid => C44_entry _ _ _ zaid, fun za => ?_⟩
  unfold Xsdir.atomicWeightRatio Xsdir.mk'
  simp only
  rw [C44.lookup_all]
  cases t.ratios.reverse.lookup za <;> rfl

/-! ## What goes wrong -/

/-- The text behind the last newline is not read: a last entry without a newline is lost. -/
theorem C44_last_line (F : Formats) (t : XsdirText) (h : t.Ok F) : ∃ d st,
    Xsdir.parse F (IStream.ofText { t with ending := [] }.text) =
      .ok (some d, ⟨{ t with ending := [] }.text, { t with ending := [] }.text.length, true, true⟩) ∧
    Xsdir.parse F (IStream.ofText t.text) = .ok (some d, st) := by
  have h' : { t with ending := [] }.Ok F :=
    ⟨⟨h.head.front, h.head.path, h.head.title, h.head.ratioText, h.head.directory⟩, h.comments, h.some, h.entries, by simp⟩
  exact ⟨_, _, C44.parse_ok h', C44.parse_ok h⟩

/-- When there is no entry that ends with a newline, behaviour is undefined: the last character of an empty line is
used, or an entry that was not initialised is moved. -/
theorem C44_no_entry (F : Formats) (t : XsdirText) (h : t.HeadOk F) (ending : Str) (he : newline ∉ ending)
    (h1 : ending.head? ≠ some '#') (h2 : (strip ending).getLast? ≠ some '+') :
    Xsdir.parse F (IStream.ofText (t.head ++ ending)) = .error .ub := by
  obtain ⟨pos, hp⟩ := C44.parse_head h ending
  rw [hp]
  have hg : (IStream.at' t.head ending).getline [] = (ending, Xsdir.ended (t.head ++ ending) ending.isEmpty) := by
    have := Xsdir.tellLine_end he [] t.head
    unfold Xsdir.tellLine at this
    rw [IStream.at_tellg] at this
    simp only at this
    injection this with t1 t2
    injection t2 with t2 t3
    exact Prod.ext t1 t3
  have hl : XsdirEntry.readLine (IStream.at' t.head ending) =
      .ok (strip ending, Xsdir.ended (t.head ++ ending) ending.isEmpty) := by
    unfold XsdirEntry.readLine
    rw [hg]
    simp only
    rw [XsdirEntry.skipComments_of (by unfold XsdirEntry.isComment; simpa using h1)]
    rfl
  unfold Xsdir.readDirectory Xsdir.readEntries XsdirEntry.readInto XsdirEntry.parse
  rw [IStream.at_tellg]
  simp only
  rw [hl, ok_bind]
  simp only
  cases hs : (strip ending).getLast? with
  | none =>
    unfold XsdirEntry.continued
    rw [hs]
    rfl
  | some c =>
    have hc : XsdirEntry.continued ((Xsdir.ended (t.head ++ ending) ending.isEmpty).content.length + 1) (strip ending)
        (Xsdir.ended (t.head ++ ending) ending.isEmpty) = .ok (strip ending, Xsdir.ended (t.head ++ ending) ending.isEmpty) := by
      unfold XsdirEntry.continued
      rw [hs]
      simp only
      rw [if_neg (by
        intro hc
        rw [hs] at h2
        simp at hc
        subst hc
        exact h2 rfl)]
    rw [hc]
    have hne : ending.isEmpty = false := by
      cases hx : ending with
      | nil => rw [hx] at hs; cases hs
      | cons => rfl
    rw [hne]
    rfl

/-- An empty line behind the directory line: the last character of an empty line is used. -/
theorem C44_blank (F : Formats) (t : XsdirText) (h : t.HeadOk F) (rest : Str) :
    Xsdir.parse F (IStream.ofText (t.head ++ (newline :: rest))) = .error .ub := by
  obtain ⟨pos, hp⟩ := C44.parse_head h (newline :: rest)
  rw [hp]
  unfold Xsdir.readDirectory Xsdir.readEntries XsdirEntry.readInto XsdirEntry.parse
  rw [IStream.at_tellg]
  simp only
  have := XsdirEntry.readLine_at (line := []) (by simp) rfl t.head rest
  rw [List.nil_append] at this
  rw [this, ok_bind]
  simp only
  unfold XsdirEntry.continued
  rfl

/-- Without a data path the title is not understood in upper case. -/
theorem C44_title (F : Formats) (front : List Str) (hf : ∀ n ∈ front, IsNoise n) (title rest : Str)
    (h1 : title.map Char.toLower = "atomic weight ratios".toList) (h2 : title ≠ "atomic weight ratios".toList) :
    Xsdir.parse F (IStream.ofText (linesText front ++ (title ++ newline :: rest))) =
      .ok (none, ⟨linesText front ++ (title ++ newline :: rest), (linesText front).length, false, true⟩) := by
  obtain ⟨t1, t2⟩ := C44.title_line h1
  rw [C44.text_at]
  unfold Xsdir.parse Xsdir.readStart
  rw [IStream.at_tellg]
  simp only
  rw [Xsdir.getline_noise hf t1, ok_bind]
  simp only
  have h3 : (!(strip title).isEmpty && Xsdir.toLower ((strip title).take 8) == "datapath".toList) = false := by
    rw [t2]
    have : Xsdir.toLower (title.take 8) = ("atomic weight ratios".toList).take 8 := by
      unfold Xsdir.toLower
      rw [List.map_take, h1]
    rw [this, Bool.and_eq_false_iff]
    right; decide
  rw [if_neg (by rw [h3]; simp)]
  rw [pure_bind]
  simp only
  rw [if_pos (by rw [t2]; exact h2)]
  simp [Xsdir.failAt, IStream.clear, IStream.seekg, IStream.setFail, IStream.at']

/-- The full statement: the entries are read whatever blank lines and comment lines there are, and whether or not
the last line ends with a newline. -/
def C44Statement : Prop := ∀ (F : Formats) (t : XsdirText), t.HeadOk F → ∀ (noise : List Str)
  (l : List (Str × XsdirEntry)), (∀ n ∈ noise, IsNoise n) → (∀ x ∈ l, EntryText F x.1 x.2) → l ≠ [] →
  ∀ text, (text = (l.map (·.1)).flatten ∨ text ++ [newline] = (l.map (·.1)).flatten) →
  ∃ d st, Xsdir.parse F (IStream.ofText (t.head ++ (linesText noise ++ text))) = .ok (some d, st) ∧
    d.entries = l.map (·.2)

/-! ## Examples -/

theorem exEntry_text (name : Str) (h : IsWord name) (hl : name.length ≤ 95) (text : Str)
    (ht : (exEntry name).print Decimal.std = .ok text) (hf : ∃ line rest, text = line ++ newline :: rest ∧ IsLine line) :
    EntryText Decimal.std text (exEntry name) := by
  refine ⟨hf, fun b rest => ?_⟩
  obtain ⟨text', h1, h2⟩ := C42_round_trip_partial _ _ _ _ (exEntry_prints name h hl) (exEntry_kept name)
  have h1 := Except.ok.inj (ht.symm.trans h1)
  rw [h1]
  have e : { exEntry name with awr := exAwr, temperature := some exTemp } = exEntry name := rfl
  rw [e] at h2
  exact h2 b rest

def exText1 : Str := " 92235.80c   233.024800 name 0 1 2 3 0 0 2.530000e-08 ptable\n".toList
def exText2 : Str := " 92235.80c   233.024800 other 0 1 2 3 0 0 2.530000e-08 ptable\n".toList

theorem exText1_ok : EntryText Decimal.std exText1 (exEntry "name".toList) :=
  exEntry_text _ ⟨by decide, by decide⟩ (by decide) _ (by decide +kernel)
    ⟨" 92235.80c   233.024800 name 0 1 2 3 0 0 2.530000e-08 ptable".toList, [], by decide, by decide, by decide, by decide⟩

theorem exText2_ok : EntryText Decimal.std exText2 (exEntry "other".toList) :=
  exEntry_text _ ⟨by decide, by decide⟩ (by decide) _ (by decide +kernel)
    ⟨" 92235.80c   233.024800 other 0 1 2 3 0 0 2.530000e-08 ptable".toList, [], by decide, by decide, by decide, by decide⟩

theorem exOne_written : Written Decimal.std 9 "233.02480".toList exAwr := ⟨by decide, by decide, by decide, by decide +kernel⟩

/-- A file with a data path, atomic weight ratios over two lines, comments and blank lines. -/
def exFile : XsdirText where
  front := ["# a file".toList, []]
  path := some ("DataPath".toList, " ".toList, "/home/xs".toList, [[]])
  title := "Atomic Weight Ratios".toList
  ratioText := "# ratios\n  1001 233.02480  1002 233.02480\n\n  92235 233.02480\n".toList
  ratios := [(1001, exAwr), (1002, exAwr), (92235, exAwr)]
  directory := "Directory".toList
  comments := ["# entries".toList]
  entries := [(exText1, exEntry "name".toList, [[], "#".toList]), (exText2, exEntry "other".toList, [])]
  ending := []

theorem exLine1 : PairLine Decimal.std "  1001 233.02480  1002 233.02480".toList
    [(1001, "233.02480".toList, exAwr), (1002, "233.02480".toList, exAwr)] where
  says := ⟨by decide, by decide, by decide⟩
  content := by decide +kernel
  some := by simp
  pairs := by
    intro p hp
    simp at hp
    rcases hp with rfl | rfl
    · exact ⟨by decide, exOne_written⟩
    · exact ⟨by decide, exOne_written⟩
  lower := by decide

theorem exLine2 : PairLine Decimal.std "  92235 233.02480".toList [(92235, "233.02480".toList, exAwr)] where
  says := ⟨by decide, by decide, by decide⟩
  content := by decide +kernel
  some := by simp
  pairs := by
    intro p hp
    simp at hp
    subst hp
    exact ⟨by decide, exOne_written⟩
  lower := by decide

theorem exRatios : RatioText Decimal.std exFile.ratioText exFile.ratios :=
  .noise "# ratios".toList _ _ ⟨by decide, .inr (by decide)⟩
    (.line _ _ _ _ exLine1 (.noise [] _ _ ⟨by decide, .inl rfl⟩ (.line _ _ _ _ exLine2 .nil)))

theorem exFile_ok : exFile.Ok Decimal.std where
  head := {
    front := by
      intro n hn
      simp [exFile] at hn
      rcases hn with rfl | rfl
      · exact ⟨by decide, .inr (by decide)⟩
      · exact ⟨by decide, .inl rfl⟩
    path := by
      intro key gap path ns h
      simp only [exFile] at h
      injection h with h
      injection h with h1 h
      injection h with h2 h
      injection h with h3 h4
      subst h1; subst h2; subst h3; subst h4
      refine ⟨by decide, by decide, by decide, by decide, by decide, ?_⟩
      intro n hn
      simp at hn
      subst hn
      exact ⟨by decide, .inl rfl⟩
    title := ⟨by decide, by intro h; cases h⟩
    ratioText := exRatios
    directory := ⟨by decide, by intro h; cases h⟩ }
  comments := by
    intro c hc
    simp [exFile] at hc
    subst hc
    decide
  some := by simp [exFile]
  entries := by
    intro x hx
    simp only [exFile, List.mem_cons, List.not_mem_nil, or_false] at hx
    rcases hx with rfl | rfl
    · refine ⟨exText1_ok, ?_⟩
      intro n hn
      simp at hn
      rcases hn with rfl | rfl
      · exact ⟨by decide, .inl rfl⟩
      · exact ⟨by decide, .inr rfl⟩
    · exact ⟨exText2_ok, by intro n hn; cases hn⟩
  ending := by decide

/-- Both entries have the same ZAID; the last one is found. -/
example : ∃ d : Xsdir, Xsdir.parse Decimal.std (IStream.ofText exFile.text) =
      .ok (some d, ⟨exFile.text, exFile.text.length, true, true⟩) ∧
    d.dataPath = some "/home/xs".toList ∧ d.entries = [exEntry "name".toList, exEntry "other".toList] ∧
    d.entry "92235.80c".toList = .ok (exEntry "other".toList) ∧ d.atomicWeightRatio 1002 = .ok exAwr ∧
    d.atomicWeightRatio 1003 = .error .thrown := by
  obtain ⟨d, h1, h2, h3, h4, h5⟩ := C44_read_partial _ _ exFile_ok
  refine ⟨d, h1, h2, h3, ?_, ?_, ?_⟩
  · rw [h4, h3]; rfl
  · rw [h5]; rfl
  · rw [h5]; rfl

theorem C44_false : ¬ C44Statement := by
  intro h
  obtain ⟨d, st, h1, _⟩ := h Decimal.std exFile exFile_ok.head [[]] [(exText1, exEntry "name".toList)]
    (by intro n hn; simp at hn; subst hn; exact ⟨by decide, .inl rfl⟩)
    (by intro x hx; simp at hx; subst hx; exact exText1_ok) (by simp) exText1 (.inl (by simp))
  have := C44_blank Decimal.std exFile exFile_ok.head exText1
  have e : linesText [[]] ++ exText1 = newline :: exText1 := rfl
  rw [e, this] at h1
  cases h1

/-- A file with one entry that does not end with a newline: undefined behaviour. -/
example : Xsdir.parse Decimal.std (IStream.ofText (exFile.head ++ "1001.80c 1.0 name 0 1 2 3".toList)) = .error .ub :=
  C44_no_entry _ _ exFile_ok.head _ (by decide) (by decide) (by decide)

/-- A file whose last entry does not end with a newline: the entry is lost. -/
example : ∃ d st, Xsdir.parse Decimal.std (IStream.ofText { exFile with ending := "1001.80c 1.0 name 0 1 2 3".toList }.text) =
      .ok (some d, st) ∧ d.entries = [exEntry "name".toList, exEntry "other".toList] := by
  have h : { exFile with ending := "1001.80c 1.0 name 0 1 2 3".toList }.Ok Decimal.std :=
    ⟨⟨exFile_ok.head.front, exFile_ok.head.path, exFile_ok.head.title, exFile_ok.head.ratioText, exFile_ok.head.directory⟩,
      exFile_ok.comments, exFile_ok.some, exFile_ok.entries, by decide⟩
  obtain ⟨d, h1, _, h3, _⟩ := C44_read_partial _ _ h
  exact ⟨d, _, h1, h3⟩

/-- The hypotheses of the other theorems are met too. -/
example := C44_blank Decimal.std _ exFile_ok.head "directory".toList
example := C44_title Decimal.std [[], "# what".toList] (by unfold IsNoise; decide +kernel) "Atomic Weight Ratios".toList "1001 1.0\n".toList (by decide +kernel) (by decide)

end ACE.Props

import Verif.Model.Xsdir
import Verif.Props.XsdirSpec

/-!
# Reading xsdir files
-/

namespace ACE.Xsdir
open Text IStream Props

theorem linesText_cons (l : Str) (ls : List Str) : linesText (l :: ls) = l ++ newline :: linesText ls := by
  simp [linesText]

theorem linesText_nil : linesText [] = [] := rfl

theorem noise_skipped {line : Str} (h : IsNoise line) : (XsdirEntry.isComment line || line.isEmpty) = true := by
  rcases h.2 with h | h
  · subst h; rfl
  · unfold XsdirEntry.isComment; rw [h]; rfl

theorem line_kept {line : Str} (h : IsLine line) : (XsdirEntry.isComment line || line.isEmpty) = false := by
  unfold XsdirEntry.isComment
  have h2 : line.isEmpty = false := by cases hl : line with
    | nil => exact absurd hl h.2.1
    | cons => rfl
  rw [h2]
  simpa using h.2.2

theorem tellLine_at {line : Str} (h : newline ∉ line) (cur b rest : Str) :
    tellLine cur (at' b (line ++ newline :: rest)) = (line, some b.length, at' (b ++ line ++ [newline]) rest) := by
  unfold tellLine
  rw [at_tellg]
  simp only
  rw [getline_at h]

theorem skipLines_done {r : Str × Option Nat × IStream}
    (h : (!r.2.2.eof && (XsdirEntry.isComment r.1 || r.1.isEmpty)) = false) (fuel : Nat) : skipLines fuel r = .ok r := by
  cases fuel with
  | zero => unfold skipLines; rw [if_neg (by rw [h]; simp)]
  | succ f => unfold skipLines; rw [if_neg (by rw [h]; simp)]

theorem skipLines_noise : ∀ (ns : List Str), (∀ n ∈ ns, IsNoise n) → ∀ {line : Str}, IsLine line →
    ∀ (fuel : Nat), ns.length ≤ fuel → ∀ cur b rest : Str,
    skipLines fuel (tellLine cur (at' b (linesText ns ++ (line ++ newline :: rest)))) =
      .ok (line, some (b ++ linesText ns).length, at' (b ++ linesText ns ++ line ++ [newline]) rest)
  | [], _, line, h, fuel, _, cur, b, rest => by
    rw [linesText_nil, List.nil_append, tellLine_at h.1, skipLines_done (by simp only [line_kept h, Bool.and_false])]
    simp
  | n :: ns, hn, line, h, fuel, hf, cur, b, rest => by
    cases fuel with
    | zero => simp at hf
    | succ fuel =>
      rw [linesText_cons, List.append_assoc, List.cons_append, tellLine_at (hn n (by simp)).1]
      unfold skipLines
      rw [if_pos (by simp only [noise_skipped (hn n (by simp)), at']; rfl)]
      simp only
      rw [skipLines_noise ns (fun x hx => hn x (by simp [hx])) h fuel (by simpa using hf)]
      simp

/-- The state of a stream at the end of a text. -/
def ended (text : Str) (fail : Bool) : IStream := ⟨text, text.length, true, fail⟩

theorem tellLine_end {ending : Str} (h : newline ∉ ending) (cur b : Str) :
    tellLine cur (at' b ending) = (ending, some b.length, ended (b ++ ending) ending.isEmpty) := by
  unfold tellLine
  rw [at_tellg]
  simp only
  by_cases he : ending = []
  · subst he; rw [getline_end]; simp [ended]
  · rw [getline_last h he]
    cases ending with
    | nil => exact absurd rfl he
    | cons => rfl

theorem skipLines_end : ∀ (ns : List Str), (∀ n ∈ ns, IsNoise n) → ∀ {ending : Str}, newline ∉ ending →
    ∀ (fuel : Nat), ns.length ≤ fuel → ∀ cur b : Str,
    skipLines fuel (tellLine cur (at' b (linesText ns ++ ending))) =
      .ok (ending, some (b ++ linesText ns).length, ended (b ++ linesText ns ++ ending) ending.isEmpty)
  | [], _, ending, h, fuel, _, cur, b => by
    rw [linesText_nil, List.nil_append, tellLine_end h, skipLines_done rfl]
    simp
  | n :: ns, hn, ending, h, fuel, hf, cur, b => by
    cases fuel with
    | zero => simp at hf
    | succ fuel =>
      rw [linesText_cons, List.append_assoc, List.cons_append, tellLine_at (hn n (by simp)).1]
      unfold skipLines
      rw [if_pos (by simp only [noise_skipped (hn n (by simp)), at']; rfl)]
      simp only
      rw [skipLines_end ns (fun x hx => hn x (by simp [hx])) h fuel (by simpa using hf)]
      simp

theorem lines_length : ∀ ns : List Str, ns.length ≤ (linesText ns).length
  | [] => Nat.le_refl _
  | n :: ns => by rw [linesText_cons]; have := lines_length ns; simp; omega

theorem getline_noise {ns : List Str} (hn : ∀ n ∈ ns, IsNoise n) {line : Str} (h : IsLine line) (b rest : Str) :
    getline (at' b (linesText ns ++ (line ++ newline :: rest))) =
      .ok (strip line, some (b ++ linesText ns).length, at' (b ++ linesText ns ++ line ++ [newline]) rest) := by
  unfold getline
  rw [skipLines_noise ns hn h _ (by have := lines_length ns; simp [at']; omega), ok_bind]
  rfl

theorem getline_finish {ns : List Str} (hn : ∀ n ∈ ns, IsNoise n) {ending : Str} (h : newline ∉ ending) (b : Str) :
    getline (at' b (linesText ns ++ ending)) =
      .ok (strip ending, some (b ++ linesText ns).length, ended (b ++ linesText ns ++ ending) ending.isEmpty) := by
  unfold getline
  rw [skipLines_end ns hn h _ (by have := lines_length ns; simp [at']; omega), ok_bind]
  rfl

/-! ## Entries -/

theorem readInto_at {F : Formats} {text : Str} {e : XsdirEntry} (h : EntryText F text e) (t : Option XsdirEntry)
    (b rest : Str) : XsdirEntry.readInto F t some (at' b (text ++ rest)) = .ok (some e, at' (b ++ text) rest) := by
  unfold XsdirEntry.readInto
  have := h.read b rest
  show (XsdirEntry.parse F ⟨b ++ (text ++ rest), b.length, false, false⟩ >>= _) = _
  rw [this, ok_bind]
  simp [at']

theorem skipComments_lines : ∀ (cs : List Str), (∀ c ∈ cs, newline ∉ c ∧ c.head? = some '#') → ∀ {line : Str},
    IsLine line → ∀ (fuel : Nat), cs.length ≤ fuel → ∀ cur b rest : Str,
    XsdirEntry.skipComments fuel ((at' b (linesText cs ++ (line ++ newline :: rest))).getline cur).1
        ((at' b (linesText cs ++ (line ++ newline :: rest))).getline cur).2 =
      .ok (line, at' (b ++ linesText cs ++ line ++ [newline]) rest)
  | [], _, line, h, fuel, _, cur, b, rest => by
    rw [linesText_nil, List.nil_append, getline_at h.1, XsdirEntry.skipComments_of
      (by have := line_kept h; rw [Bool.or_eq_false_iff] at this; exact this.1)]
    simp
  | c :: cs, hc, line, h, fuel, hf, cur, b, rest => by
    cases fuel with
    | zero => simp at hf
    | succ fuel =>
      rw [linesText_cons, List.append_assoc, List.cons_append, getline_at (hc c (by simp)).1]
      unfold XsdirEntry.skipComments
      rw [if_pos (by unfold XsdirEntry.isComment; rw [(hc c (by simp)).2]; rfl)]
      simp only
      rw [skipComments_lines cs (fun x hx => hc x (by simp [hx])) h fuel (by simpa using hf)]
      simp

/-- Comment lines in front of an entry are skipped. -/
theorem readInto_comments {F : Formats} {text : Str} {e : XsdirEntry} (h : EntryText F text e) {cs : List Str}
    (hc : ∀ c ∈ cs, newline ∉ c ∧ c.head? = some '#') (t : Option XsdirEntry) (b rest : Str) :
    XsdirEntry.readInto F t some (at' b (linesText cs ++ (text ++ rest))) =
      .ok (some e, at' (b ++ linesText cs ++ text) rest) := by
  obtain ⟨line, more, h1, h2⟩ := h.first
  have hr := h.read (b ++ linesText cs) rest
  have hr1 : XsdirEntry.readLine (at' b (linesText cs ++ (text ++ rest))) =
      .ok (strip line, at' (b ++ linesText cs ++ line ++ [newline]) (more ++ rest)) := by
    unfold XsdirEntry.readLine
    simp only [h1, List.append_assoc, List.cons_append]
    rw [skipComments_lines cs hc h2 _ (by have := lines_length cs; simp [at']; omega), ok_bind]
    simp
  have hr2 : XsdirEntry.readLine (at' (b ++ linesText cs) (text ++ rest)) =
      .ok (strip line, at' (b ++ linesText cs ++ line ++ [newline]) (more ++ rest)) := by
    rw [h1, List.append_assoc, List.cons_append, XsdirEntry.readLine_at h2.1
      (by have := line_kept h2; rw [Bool.or_eq_false_iff] at this; exact this.1)]
  unfold XsdirEntry.parse at hr
  have hr' := hr
  change (XsdirEntry.readLine (at' (b ++ linesText cs) (text ++ rest)) >>= _) = _ at hr'
  rw [hr2, ok_bind] at hr'
  simp only at hr'
  obtain ⟨⟨ln, st⟩, hc1, hc2⟩ := bind_eq_ok.mp hr'
  unfold XsdirEntry.readInto XsdirEntry.parse
  show ((XsdirEntry.readLine (at' b (linesText cs ++ (text ++ rest))) >>= _) >>= _) = _
  rw [hr1, ok_bind]
  simp only
  rw [hc1, ok_bind]
  simp only at hc2 ⊢
  split at hc2
  · rename_i heof
    rw [if_pos heof]
    split at hc2
    · rename_i e' he'
      injection hc2 with hc2
      injection hc2 with hc2 hc3
      subst hc3
      injection hc2 with hc2
      subst hc2
      simp [at']
      omega
    · injection hc2 with hc2
      injection hc2 with hc2
      cases hc2
  · injection hc2 with hc2
    injection hc2 with hc2
    cases hc2

theorem seek_at (b rest : Str) (x : IStream) (h : x.content = b ++ rest) :
    (x.clear.seekg (some b.length)) = at' b rest := by
  unfold IStream.seekg IStream.clear
  simp [h, at']

/-- The rest of the entries. -/
theorem readEntries_ok {F : Formats} {ending : Str} (he : newline ∉ ending) :
    ∀ (l : List (Str × XsdirEntry × List Str)), l ≠ [] → (∀ x ∈ l, EntryText F x.1 x.2.1 ∧ ∀ n ∈ x.2.2, IsNoise n) →
    ∀ (cs : List Str), (∀ c ∈ cs, newline ∉ c ∧ c.head? = some '#') →
    ∀ (fuel : Nat), l.length ≤ fuel → ∀ (t : Option XsdirEntry) (pos : Option Nat) (b : Str), ∃ pos',
    readEntries F fuel t pos (at' b (linesText cs ++ (entriesText (l.map fun x => (x.1, x.2.2)) ++ ending))) =
      .ok (l.map (·.2.1), pos', ended (b ++ linesText cs ++ entriesText (l.map fun x => (x.1, x.2.2)) ++ ending) ending.isEmpty)
  | [], hne, _, _, _, _, _, _, _, _ => absurd rfl hne
  | (text, e, ns) :: l, _, hl, cs, hcs, fuel, hf, t, pos, b => by
    obtain ⟨h1, h2⟩ := hl (text, e, ns) (by simp)
    cases fuel with
    | zero => simp at hf
    | succ fuel =>
      unfold readEntries
      simp only [List.map_cons, entriesText]
      rw [List.append_assoc text, List.append_assoc text, List.append_assoc (linesText ns), readInto_comments h1 hcs, ok_bind]
      simp only [at', Bool.false_eq_true, if_false]
      cases l with
      | nil =>
        simp only [List.map_nil, entriesText, List.nil_append]
        have := getline_finish h2 he (b ++ linesText cs ++ text)
        simp only [at'] at this
        rw [this, ok_bind]
        simp only [ended, Bool.not_true, Bool.false_eq_true, if_false]
        exact ⟨_, by simp; rfl⟩
      | cons y l =>
        obtain ⟨text2, e2, ns2⟩ := y
        obtain ⟨g1, g2⟩ := hl (text2, e2, ns2) (by simp)
        obtain ⟨line, more, g3, g4⟩ := g1.first
        simp only at g3
        have := getline_noise h2 g4 (b ++ linesText cs ++ text)
          (more ++ (linesText ns2 ++ entriesText (l.map fun x => (x.1, x.2.2)) ++ ending))
        simp only [at'] at this
        have hx : linesText ns ++ (entriesText (((text2, e2, ns2) :: l).map fun x => (x.1, x.2.2)) ++ ending) =
            linesText ns ++ (line ++ newline :: (more ++ (linesText ns2 ++ entriesText (l.map fun x => (x.1, x.2.2)) ++ ending))) := by
          simp [entriesText, g3]
        rw [hx, this, ok_bind]
        simp only [Bool.not_false, if_true]
        rw [seek_at (b ++ linesText cs ++ text ++ linesText ns)
          (entriesText (((text2, e2, ns2) :: l).map fun x => (x.1, x.2.2)) ++ ending) _ (by
            simp [entriesText, g3])]
        obtain ⟨pos', ih⟩ := readEntries_ok he ((text2, e2, ns2) :: l) (by simp) (fun x hx => hl x (by simp [hx])) []
          (by simp) fuel (by simpa using hf) (some (movedFrom e)) _ (b ++ linesText cs ++ text ++ linesText ns)
        rw [linesText_nil, List.nil_append] at ih
        rw [ih, ok_bind]
        exact ⟨pos', by simp⟩

/-! ## Atomic weight ratios -/

/-- The pairs are stored one by one. -/
def assignAll (ps : List (Nat × Dbl)) (m : Ratios) : Ratios := ps.foldl (fun m p => assign p.1 p.2 m) m

theorem pairs_ok {F : Formats} : ∀ (ps : List (Nat × Str × Dbl)),
    (∀ p ∈ ps, p.1 < 2 ^ 32 ∧ Written F p.2.1.length p.2.1 p.2.2) → ∀ (fuel : Nat), ps.length ≤ fuel → ∀ (s : Str),
    words s = pairWords ps → ∀ m, pairs F fuel s m = assignAll (ps.map fun p => (p.1, p.2.2)) m
  | [], _, fuel, _, s, hw, m => by
    cases fuel with
    | zero => rfl
    | succ f =>
      unfold pairs
      rw [(extractNat_nil hw).1]
      rfl
  | (za, w, x) :: ps, hp, fuel, hf, s, hw, m => by
    cases fuel with
    | zero => simp at hf
    | succ f =>
      obtain ⟨h1, h2⟩ := hp (za, w, x) (by simp)
      rw [pairWords] at hw
      obtain ⟨s1, r1, w1⟩ := extractNat_words hw h1
      obtain ⟨s2, r2, w2⟩ := extractReal_words w1 h2
      unfold pairs
      rw [r1]
      simp only
      rw [r2]
      simp only
      rw [pairs_ok ps (fun p h => hp p (by simp [h])) f (by simpa using hf) s2 w2]
      rfl

theorem words_length : ∀ s : Str, (words s).length ≤ s.length
  | [] => Nat.le_refl _
  | c :: s => by
    have ih := words_length s
    rw [words]
    split
    · simp; omega
    · unfold addWord
      split
      · simp
      · split <;> simp at ih ⊢ <;> omega

theorem pairWords_length : ∀ ps : List (Nat × Str × Dbl), ps.length ≤ (pairWords ps).length
  | [] => Nat.le_refl _
  | (_, _, _) :: ps => by have := pairWords_length ps; simp [pairWords]; omega

theorem toLower_id {s : Str} (h : ∀ c ∈ s, c.toLower = c) : toLower s = s := by
  unfold toLower
  rw [List.map_congr_left h, List.map_id']

theorem strip_mem {s : Str} {c : Char} (h : c ∈ strip s) : c ∈ s := by
  obtain ⟨a, b, hs, _, _⟩ := strip_split s
  rw [hs]
  simp [h]

theorem pair_notDirectory {F : Formats} {line : Str} {ps : List (Nat × Str × Dbl)} (h : PairLine F line ps) :
    strip line ≠ "directory".toList := by
  intro hc
  have h1 := h.content
  rw [← words_strip, hc] at h1
  have h2 : words "directory".toList = ["directory".toList] := by decide
  rw [h2] at h1
  cases ps with
  | nil => exact h.some rfl
  | cons p ps =>
    obtain ⟨za, w, x⟩ := p
    rw [pairWords] at h1
    injection h1 with h1 h3
    cases h3

theorem readRatios_ok {F : Formats} {dir : Str} (hd : IsLine dir) (hd2 : toLower (strip dir) = "directory".toList) :
    ∀ {text : Str} {m : List (Nat × Dbl)}, RatioText F text m → ∀ (f : Str → Str),
    (∀ line : Str, (∀ c ∈ line, c.toLower = c) → f line = line) → (m = [] → f (strip dir) = "directory".toList) →
    ∀ (ns : List Str), (∀ n ∈ ns, IsNoise n) → ∀ (fuel : Nat), text.length ≤ fuel → ∀ (m0 : Ratios) (b rest : Str),
    ∃ current position st pos, getline (at' b (linesText ns ++ (text ++ (dir ++ newline :: rest)))) =
        .ok (current, position, st) ∧ st.fail = false ∧ st.content.length = (b ++ linesText ns ++ text ++ dir ++ [newline] ++ rest).length ∧
      readRatios F fuel (f current) position m0 st =
        .ok (some (assignAll m m0), pos, at' (b ++ linesText ns ++ text ++ dir ++ [newline]) rest) := by
  intro text m ht
  induction ht with
  | nil =>
    intro f hf1 hf2 ns hns fuel hfuel m0 b rest
    rw [List.nil_append, getline_noise hns hd]
    refine ⟨_, _, _, some (b ++ linesText ns).length, rfl, rfl, by simp [at'], ?_⟩
    rw [hf2 rfl]
    unfold readRatios
    rw [if_pos rfl]
    simp [assignAll]
  | noise line text m h ht ih =>
    intro f hf1 hf2 ns hns fuel hfuel m0 b rest
    obtain ⟨cur, position, st, pos, ih, ih1, ih2, ih3⟩ := ih f hf1 hf2 (ns ++ [line]) (by
      intro n hn
      rw [List.mem_append] at hn
      rcases hn with hn | hn
      · exact hns n hn
      · simp at hn; subst hn; exact h) fuel (by simp at hfuel; omega) m0 b rest
    have e1 : linesText (ns ++ [line]) = linesText ns ++ (line ++ [newline]) := by simp [linesText]
    rw [e1] at ih ih2 ih3
    refine ⟨cur, position, st, pos, ?_, ih1, ?_, ?_⟩
    · simpa using ih
    · simpa using ih2
    · simpa using ih3
  | line line ps text m h ht ih =>
    intro f hf1 hf2 ns hns fuel hfuel m0 b rest
    cases fuel with
    | zero => simp at hfuel
    | succ fuel =>
    have hlow : f (strip line) = strip line := hf1 _ fun c hc => h.lower c (strip_mem hc)
    obtain ⟨cur, position, st, pos, ih, ih1, ih2, ih3⟩ := ih toLower (fun l hl => toLower_id hl) (fun _ => hd2) []
      (by simp) fuel (by simp at hfuel; omega) (assignAll (ps.map fun p => (p.1, p.2.2)) m0)
      (b ++ linesText ns ++ line ++ [newline]) rest
    rw [linesText_nil, List.nil_append] at ih
    rw [show line ++ newline :: text ++ (dir ++ newline :: rest) = line ++ newline :: (text ++ (dir ++ newline :: rest)) by simp,
      getline_noise hns h.says]
    refine ⟨_, _, _, pos, rfl, rfl, by simp [at'], ?_⟩
    rw [hlow]
    unfold readRatios
    rw [if_neg (pair_notDirectory h)]
    simp only
    rw [pairs_ok ps h.pairs _ (by
      have h1 := words_length (strip line)
      have h2 := pairWords_length ps
      rw [words_strip, h.content] at h1
      omega) (strip line) (by rw [words_strip]; exact h.content)]
    rw [ih, ok_bind]
    simp only
    rw [ih1]
    simp only [Bool.false_eq_true, if_false]
    rw [ih3]
    simp [assignAll, List.foldl_append, linesText_nil]

end ACE.Xsdir

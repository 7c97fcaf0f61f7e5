import Verif.Props.C44

/-!
# C50: xsdir files survive printing and reading
-/

namespace ACE.Props
open ACE ACE.Text

/-- An xsdir that can be printed and read: `ratios` are the ZA numbers with the atomic weight ratios and the values
that are read for them, `entries` the entries with the atomic weight ratios and temperatures that are read. -/
structure XsdirPrints (F : Formats) (d : Xsdir) (ratios : List (Nat × Dbl × Dbl))
    (entries : List (XsdirEntry × Dbl × Option Dbl)) : Prop where
  path : ∀ p, d.dataPath = some p → p ≠ [] ∧ newline ∉ p ∧ ∀ c, p.getLast? = some c → isSpace c = false
  awr : d.awr = ratios.map fun r => (r.1, r.2.1)
  /-- a map has increasing keys -/
  keys : ratios.Pairwise fun a b => a.1 < b.1
  /-- a ZA number has seven digits at most -/
  written : ∀ r ∈ ratios, r.1 < 10 ^ 7 ∧ Written F 12 (F.fixed 8 r.2.1) r.2.2 ∧ ∀ c ∈ F.fixed 8 r.2.1, c.toLower = c
  directory : d.entries = entries.map (·.1)
  some : entries ≠ []
  prints : ∀ x ∈ entries, EntryPrints F x.1 x.2.1 x.2.2 ∧ EntryKept x.1 x.2.2

namespace C50
open Xsdir XsdirEntry

/-- A line with ratios that is not yet complete. -/
def Begun (F : Formats) (line : Str) (ps : List (Nat × Str × Dbl)) : Prop :=
  (line = [] ∧ ps = []) ∨ PairLine F line ps

theorem pairWords_append : ∀ a b : List (Nat × Str × Dbl), pairWords (a ++ b) = pairWords a ++ pairWords b
  | [], _ => rfl
  | (z, w, x) :: a, b => by rw [List.cons_append, pairWords, pairWords, pairWords_append a b]; rfl

theorem begun_add {F : Formats} {line : Str} {ps : List (Nat × Str × Dbl)} (h : Begun F line ps) {za : Nat} {w : Str}
    {y : Dbl} (hz : za < 10 ^ 7) (hw : Written F 12 w y) (hl : ∀ c ∈ w, c.toLower = c) (k : Nat) :
    PairLine F (line ++ List.replicate k ' ' ++ pad 8 (ofNat za) ++ pad 13 w) (ps ++ [(za, w, y)]) := by
  have hlen : (ofNat za).length ≤ 7 := ofNat_length_le (by decide) (by omega)
  have hw13 := hw.fits
  have e : line ++ List.replicate k ' ' ++ pad 8 (ofNat za) ++ pad 13 w =
      line ++ spaced [(k + (8 - (ofNat za).length), ofNat za), (13 - w.length, w)] := by
    simp only [pad, spaced]
    rw [← List.replicate_append_replicate]
    simp only [List.append_assoc, List.append_nil]
  have hwords : ∀ p ∈ [(k + (8 - (ofNat za).length), ofNat za), (13 - w.length, w)], Word p := by
    intro p hp
    simp at hp
    rcases hp with rfl | rfl
    · exact ⟨by simp only; omega, ofNat_ne za, fun c hc => isDigit_space (ofNat_isDigit za c hc)⟩
    · exact ⟨by simp only; omega, hw.some, hw.noSpace⟩
  have hhead : (spaced [(k + (8 - (ofNat za).length), ofNat za), (13 - w.length, w)]).head? = some ' ' := by
    obtain ⟨j, hj⟩ : ∃ j, k + (8 - (ofNat za).length) = j + 1 := ⟨k + (7 - (ofNat za).length), by omega⟩
    rw [hj, spaced, List.replicate_succ]
    rfl
  have hn2 := newline_spaced [(k + (8 - (ofNat za).length), ofNat za), (13 - w.length, w)]
    (fun p hp => (hwords p hp).noSpace)
  have hwd : words (spaced [(k + (8 - (ofNat za).length), ofNat za), (13 - w.length, w)]) = [ofNat za, w] := by
    have := words_spaced _ hwords []
    simpa [words] using this
  have hline : newline ∉ line ∧ line.head? ≠ some '#' ∧ words line = pairWords ps ∧ (∀ c ∈ line, c.toLower = c) ∧
      ∀ p ∈ ps, p.1 < 2 ^ 32 ∧ Written F p.2.1.length p.2.1 p.2.2 := by
    rcases h with ⟨rfl, rfl⟩ | h
    · exact ⟨by simp, by simp, rfl, by simp, by simp⟩
    · exact ⟨h.says.1, h.says.2.2, h.content, h.lower, h.pairs⟩
  obtain ⟨l1, l2, l3, l4, l5⟩ := hline
  rw [e]
  refine ⟨⟨?_, ?_, ?_⟩, ?_, by simp, ?_, ?_⟩
  · rw [List.mem_append, not_or]; exact ⟨l1, hn2⟩
  · intro hc
    have := (List.append_eq_nil_iff.mp hc).2
    rw [this] at hhead
    cases hhead
  · rw [List.head?_append]
    intro hc
    cases hx : line.head? with
    | none => rw [hx, hhead] at hc; revert hc; decide
    | some c => rw [hx] at hc; exact l2 (by rw [hx]; simpa using hc)
  · rw [words_append line (by intro c hc; rw [hhead] at hc; injection hc with hc; subst hc; decide), l3, hwd,
      pairWords_append]
    rfl
  · intro p hp
    rw [List.mem_append] at hp
    rcases hp with hp | hp
    · exact l5 p hp
    · simp at hp
      subst hp
      exact ⟨by simp only; omega, hw.some, Nat.le_refl _, hw.real, hw.value⟩
  · intro c hc
    rw [List.mem_append] at hc
    rcases hc with hc | hc
    · exact l4 c hc
    · have hd : ∀ c : Char, c.isDigit = true → c.toLower = c := by
        intro c hc
        unfold Char.toLower
        rw [dif_neg]
        unfold Char.isDigit at hc
        simp at hc
        intro hx
        have h1 := hc.2
        have h2 := hx.1
        simp [UInt32.le_iff_toNat_le] at h1 h2
        omega
      have hb : ∀ n (c : Char), c ∈ List.replicate n ' ' → c.toLower = c := by
        intro n c hc
        rw [List.mem_replicate] at hc
        rw [hc.2]; decide
      simp only [spaced, List.mem_append, List.append_nil] at hc
      rcases hc with (hc | hc) | hc | hc
      · exact hb _ _ hc
      · exact hd _ (ofNat_isDigit za c hc)
      · exact hb _ _ hc
      · exact hl c hc

theorem begun_text {F : Formats} {line : Str} {ps : List (Nat × Str × Dbl)} (h : Begun F line ps) {text : Str}
    {m : List (Nat × Dbl)} (ht : RatioText F text m) :
    RatioText F (line ++ newline :: text) (ps.map (fun p => (p.1, p.2.2)) ++ m) := by
  rcases h with ⟨rfl, rfl⟩ | h
  · exact .noise [] text m ⟨by simp, .inl rfl⟩ ht
  · exact .line line ps text m h ht

theorem printRatios_text {F : Formats} {text : Str} {more : List (Nat × Dbl)} (ht : RatioText F text more) :
    ∀ (m : List (Nat × Dbl × Dbl)),
    (∀ r ∈ m, r.1 < 10 ^ 7 ∧ Written F 12 (F.fixed 8 r.2.1) r.2.2 ∧ ∀ c ∈ F.fixed 8 r.2.1, c.toLower = c) →
    ∀ (count : Int) (line : Str) (ps : List (Nat × Str × Dbl)), Begun F line ps →
    RatioText F (line ++ printRatios F count (m.map fun r => (r.1, r.2.1)) ++ newline :: text)
      (ps.map (fun p => (p.1, p.2.2)) ++ m.map (fun r => (r.1, r.2.2)) ++ more)
  | [], _, count, line, ps, h => by
    have := begun_text h ht
    simpa [printRatios] using this
  | (za, x, y) :: m, hm, count, line, ps, h => by
    obtain ⟨h1, h2, h3⟩ := hm (za, x, y) (by simp)
    have next : ∀ (c : Int) (k : Nat) (line : Str) (ps : List (Nat × Str × Dbl)), Begun F line ps →
        RatioText F (line ++ (List.replicate k ' ' ++ (pad 8 (ofNat za) ++ (pad 13 (F.fixed 8 x) ++
          (printRatios F c (m.map fun r => (r.1, r.2.1)) ++ newline :: text)))))
          (ps.map (fun p => (p.1, p.2.2)) ++ ((za, y) :: m.map (fun r => (r.1, r.2.2))) ++ more) := by
      intro c k line ps hb
      have := printRatios_text ht m (fun r hr => hm r (by simp [hr])) c _ _ (.inr (begun_add hb h1 h2 h3 k))
      simpa using this
    have fresh : ∀ (c : Int) (k : Nat), RatioText F (line ++ newline :: (List.replicate k ' ' ++ (pad 8 (ofNat za) ++ (pad 13 (F.fixed 8 x) ++
          (printRatios F c (m.map fun r => (r.1, r.2.1)) ++ newline :: text)))))
          (ps.map (fun p => (p.1, p.2.2)) ++ ((za, y) :: m.map (fun r => (r.1, r.2.2))) ++ more) := by
      intro c k
      have := begun_text h (next c k [] [] (.inl ⟨rfl, rfl⟩))
      simpa using this
    simp only [List.map_cons, printRatios]
    generalize hc : newElement za count = e
    obtain ⟨sep, c⟩ := e
    simp only
    have hp21 : pad 21 [' '] = List.replicate 21 ' ' := by decide
    unfold newElement at hc
    split at hc
    · split at hc
      · injection hc with hc1 hc2
        subst hc1; subst hc2
        have hw : wrap (-1) = [] := by decide
        rw [hw]
        have := fresh (-1 + 1) 0
        simpa using this
      · injection hc with hc1 hc2
        subst hc1; subst hc2
        have hw : wrap (-1) = [] := by decide
        rw [hw]
        have := next (-1 + 1) 0 line ps h
        simpa using this
    · injection hc with hc1 hc2
      subst hc1; subst hc2
      unfold wrap
      split
      · rw [hp21]
        have := fresh (count + 1) 21
        simpa using this
      · have := next (count + 1) 0 line ps h
        simpa using this

theorem assign_last (za : Nat) (x : Dbl) : ∀ (m : Ratios), (∀ p ∈ m, p.1 < za) → assign za x m = m ++ [(za, x)]
  | [], _ => rfl
  | (z, y) :: m, h => by
    have h1 := h (z, y) (by simp)
    simp only at h1
    unfold assign
    rw [if_neg (by omega), if_neg (by omega), assign_last za x m fun p hp => h p (by simp [hp])]
    rfl

theorem assignAll_sorted : ∀ (ps : List (Nat × Dbl)) (m : Ratios), (ps.Pairwise fun a b => a.1 < b.1) →
    (∀ p ∈ m, ∀ q ∈ ps, p.1 < q.1) → assignAll ps m = m ++ ps
  | [], m, _, _ => by simp [assignAll]
  | p :: ps, m, hs, hm => by
    have : assignAll (p :: ps) m = assignAll ps (assign p.1 p.2 m) := rfl
    rw [List.pairwise_cons] at hs
    rw [this, assign_last p.1 p.2 m fun q hq => hm q hq p (by simp), assignAll_sorted ps _ hs.2 ?_]
    · simp
    · intro q hq r hr
      rw [List.mem_append] at hq
      rcases hq with hq | hq
      · exact hm q hq r (by simp [hr])
      · simp at hq; subst hq; exact hs.1 r hr

/-- The entries. -/
theorem print_entries {F : Formats} : ∀ (l : List (XsdirEntry × Dbl × Option Dbl)),
    (∀ x ∈ l, EntryPrints F x.1 x.2.1 x.2.2 ∧ EntryKept x.1 x.2.2) →
    ∃ texts : List Str, (l.map (·.1)).mapM (fun e => e.print F) = .ok texts ∧ texts.length = l.length ∧
      ∀ x ∈ texts.zip l, EntryText F x.1 { x.2.1 with awr := x.2.2.1, temperature := x.2.2.2 }
  | [], _ => ⟨[], rfl, rfl, by simp⟩
  | (e, a, t) :: l, h => by
    obtain ⟨texts, h1, h2, h3⟩ := print_entries l fun x hx => h x (by simp [hx])
    obtain ⟨g1, g2⟩ := h (e, a, t) (by simp)
    obtain ⟨text, p1, p2⟩ := C42_round_trip_partial F e a t g1 g2
    obtain ⟨text', p3, _, p4, p5⟩ := C43.print_broken F e g1.fits
    have ht : text' = text := Except.ok.inj (p3.symm.trans p1)
    subst ht
    refine ⟨text' :: texts, ?_, by simp [h2], ?_⟩
    · rw [List.map_cons, List.mapM_cons, p1, ok_bind, h1]
      rfl
    · intro x hx
      rw [List.zip_cons_cons, List.mem_cons] at hx
      rcases hx with rfl | hx
      · refine ⟨?_, p2⟩
        have hhead : text'.head? ≠ some '#' := by rw [p5]; exact C42.not_comment g1.fits.zaid.1 g1.first
        clear p2 p1 p3 p5
        generalize e.zaid :: (C43.fields F e).map (·.2) = ws at p4
        cases p4 with
        | last line ws hn hl hw hne =>
          refine ⟨line, [], rfl, hn, ?_, ?_⟩
          · rintro rfl
            exact hne (by rw [← hw]; rfl)
          · intro hc
            apply hhead
            rw [List.head?_append, hc]
            rfl
        | more line rest ws1 ws2 hn hl hw hne hr hb =>
          refine ⟨line ++ " +".toList, rest, by simp [newline], ?_, by simp, ?_⟩
          · rw [List.mem_append, not_or]
            exact ⟨hn, by decide⟩
          · intro hc
            apply hhead
            rw [show line ++ " +\n".toList ++ rest = line ++ " +".toList ++ ("\n".toList ++ rest) by simp,
              List.head?_append, hc]
            rfl
      · exact h3 x hx

theorem entriesText_plain : ∀ (l : List Str), entriesText (l.map fun t => (t, [])) = l.flatten
  | [] => rfl
  | t :: l => by rw [List.map_cons, entriesText, entriesText_plain l]; simp [linesText]

theorem printPath_some (p : Str) : printPath (some p) = "datapath".toList ++ '=' :: (p ++ [newline]) := by
  have e : "datapath=".toList = "datapath".toList ++ ['='] := by decide
  unfold printPath
  rw [e]
  generalize "datapath".toList = P
  simp

/-- The printed text. -/
theorem joined (path : Option Str) (R E A D : Str) :
    linesText (if path.isSome then [] else [[]]) ++
      (match path.map fun p => ("datapath".toList, ([] : Str), p, ([] : List Str)) with
        | none => []
        | some (key, gap, path, ns) => key ++ gap ++ '=' :: path ++ newline :: linesText ns) ++
      A ++ newline :: (R ++ newline :: [newline]) ++ D ++ [newline] ++ linesText [] ++ E ++ [] =
    printPath path ++ A ++ [newline] ++ R ++ [newline] ++ [newline] ++ D ++ [newline] ++ E := by
  have h := printPath_some
  have h0 : printPath none = [newline] := rfl
  generalize "datapath".toList = P at *
  generalize printPath = pp at *
  cases path with
  | none => rw [h0]; simp [linesText]
  | some p =>
    rw [h]
    simp [linesText]

end C50

/-- An xsdir is returned from its printed form. -/
theorem C50_round_trip (F : Formats) (awr : Ratios) (es : List XsdirEntry) (path : Option Str)
    (ratios : List (Nat × Dbl × Dbl)) (entries : List (XsdirEntry × Dbl × Option Dbl))
    (h : XsdirPrints F (Xsdir.mk' awr es path) ratios entries) : ∃ text,
    (Xsdir.mk' awr es path).print F = .ok text ∧
    Xsdir.parse F (IStream.ofText text) =
      .ok (some (Xsdir.mk' (ratios.map fun r => (r.1, r.2.2))
          (entries.map fun x => { x.1 with awr := x.2.1, temperature := x.2.2 }) path),
        ⟨text, text.length, true, true⟩) := by
  obtain ⟨texts, p1, p2, p3⟩ := C50.print_entries entries h.prints
  have hes : es = entries.map (·.1) := h.directory
  have hawr : awr = ratios.map fun r => (r.1, r.2.1) := h.awr
  let t : XsdirText := {
    front := if path.isSome then [] else [[]]
    path := path.map fun p => ("datapath".toList, [], p, [])
    title := "atomic weight ratios".toList
    ratioText := Xsdir.printRatios F (-1) (ratios.map fun r => (r.1, r.2.1)) ++ newline :: [newline]
    ratios := ratios.map fun r => (r.1, r.2.2)
    directory := "directory".toList
    comments := []
    entries := (texts.zip entries).map fun x => (x.1, { x.2.1 with awr := x.2.2.1, temperature := x.2.2.2 }, [])
    ending := [] }
  have hok : t.Ok F := by
    have t1 : ("atomic weight ratios".toList).map Char.toLower = "atomic weight ratios".toList := by decide
    have t2 : ("directory".toList).map Char.toLower = "directory".toList := by decide
    refine ⟨⟨?_, ?_, ⟨t1, fun _ => rfl⟩, ?_, ⟨t2, fun _ => rfl⟩⟩, (fun c hc => by cases hc), ?_, ?_, (by simp [t])⟩
    · intro n hn
      simp only [t] at hn
      split at hn
      · cases hn
      · simp at hn; subst hn; exact ⟨by decide, .inl rfl⟩
    · intro key gap p ns hp
      simp only [t] at hp
      cases hpath : path with
      | none => rw [hpath] at hp; cases hp
      | some q =>
        rw [hpath] at hp
        simp only [Option.map_some] at hp
        injection hp with hp
        injection hp with e1 hp
        injection hp with e2 hp
        injection hp with e3 e4
        subst e1; subst e2; subst e3; subst e4
        obtain ⟨q1, q2, q3⟩ := h.path q hpath
        exact ⟨by decide, by simp, q1, q2, q3, by simp⟩
    · have hl : RatioText F [newline] [] := .noise [] [] [] ⟨by simp, .inl rfl⟩ .nil
      have := C50.printRatios_text hl ratios h.written (-1) [] [] (.inl ⟨rfl, rfl⟩)
      simpa [t] using this
    · intro hc
      simp only [t, List.map_eq_nil_iff] at hc
      have := congrArg List.length hc
      simp only [List.length_zip, p2, Nat.min_self, List.length_nil] at this
      exact h.some (List.length_eq_zero_iff.mp this)
    · intro x hx
      simp only [t, List.mem_map] at hx
      obtain ⟨y, hy, rfl⟩ := hx
      exact ⟨p3 y hy, by simp⟩
  have he1 : t.entries.map (·.2.1) = entries.map fun x => { x.1 with awr := x.2.1, temperature := x.2.2 } := by
    simp only [t, List.map_map]
    have : ((texts.zip entries).map (·.2)) = entries := List.map_snd_zip (by omega)
    conv => rhs; rw [← this]
    rw [List.map_map]
    rfl
  have he2 : entriesText (t.entries.map fun x => (x.1, x.2.2)) = texts.flatten := by
    simp only [t, List.map_map]
    have : ((texts.zip entries).map (·.1)) = texts := List.map_fst_zip (by omega)
    conv => rhs; rw [← this]
    rw [← C50.entriesText_plain, List.map_map]
    rfl
  have htext : (Xsdir.mk' awr es path).print F = .ok t.text := by
    unfold Xsdir.print
    simp only [Xsdir.mk']
    rw [hes, p1, ok_bind, hawr]
    refine congrArg Except.ok ?_
    rw [← C50.joined]
    unfold XsdirText.text XsdirText.head XsdirText.pathText
    rw [he2]
    rfl
  refine ⟨t.text, htext, ?_⟩
  rw [C44.parse_ok hok, he1]
  have hm : Xsdir.assignAll t.ratios [] = ratios.map fun r => (r.1, r.2.2) := by
    have := C50.assignAll_sorted t.ratios [] (by
      simp only [t]
      rw [List.pairwise_map]
      exact h.keys) (by simp)
    simpa [t] using this
  rw [hm]
  have hp : t.path.map (·.2.2.1) = path := by
    cases path <;> rfl
  rw [hp]
  rfl

/-! ## Examples -/

theorem exRatio_written : Written Decimal.std 12 (Decimal.std.fixed 8 exAwr) exAwr ∧
    ∀ c ∈ Decimal.std.fixed 8 exAwr, c.toLower = c :=
  ⟨⟨by decide +kernel, by decide +kernel, by decide +kernel, by decide +kernel⟩, by decide +kernel⟩

def exXsdir : Xsdir := Xsdir.mk' [(1, exAwr), (1001, exAwr), (2000, exAwr), (2003, exAwr)]
  [exEntry "name".toList, exEntry (List.replicate 95 'x')] (some "/home/xs".toList)

def exXsdirRatios : List (Nat × Dbl × Dbl) :=
  [(1, exAwr, exAwr), (1001, exAwr, exAwr), (2000, exAwr, exAwr), (2003, exAwr, exAwr)]

def exXsdirEntries : List (XsdirEntry × Dbl × Option Dbl) :=
  [(exEntry "name".toList, exAwr, some exTemp), (exEntry (List.replicate 95 'x'), exAwr, some exTemp)]

theorem exXsdir_prints : XsdirPrints Decimal.std exXsdir exXsdirRatios exXsdirEntries where
  path := by
    intro p hp
    injection hp with hp
    subst hp
    exact ⟨by decide, by decide, by decide⟩
  awr := rfl
  keys := by unfold exXsdirRatios; simp
  written := by
    intro r hr
    unfold exXsdirRatios at hr
    simp only [List.mem_cons, List.not_mem_nil, or_false] at hr
    rcases hr with rfl | rfl | rfl | rfl
    · exact ⟨show 1 < 10 ^ 7 by decide, exRatio_written⟩
    · exact ⟨show 1001 < 10 ^ 7 by decide, exRatio_written⟩
    · exact ⟨show 2000 < 10 ^ 7 by decide, exRatio_written⟩
    · exact ⟨show 2003 < 10 ^ 7 by decide, exRatio_written⟩
  directory := rfl
  some := by unfold exXsdirEntries; simp
  prints := by
    intro x hx
    unfold exXsdirEntries at hx
    simp only [List.mem_cons, List.not_mem_nil, or_false] at hx
    rcases hx with rfl | rfl
    · exact ⟨exEntry_prints _ ⟨by decide, by decide⟩ (by decide), exEntry_kept _⟩
    · exact ⟨exEntry_prints _ ⟨by decide, by decide⟩ (by decide), exEntry_kept _⟩

/-- The whole file comes back. -/
example : ∃ text, exXsdir.print Decimal.std = .ok text ∧
    Xsdir.parse Decimal.std (IStream.ofText text) = .ok (some exXsdir, ⟨text, text.length, true, true⟩) :=
  C50_round_trip _ _ _ _ _ _ exXsdir_prints

/-- Two lines of ratios: an element number begins a new line. -/
example : Xsdir.printRatios Decimal.std (-1) exXsdir.awr =
    "       1 233.02480000    1001 233.02480000\n    2000 233.02480000    2003 233.02480000".toList := by decide +kernel

/-! ## The lines of the ratios -/

/-- A ratio: the ZA number in eight columns, the value in thirteen with eight decimals. -/
def ratioItem (F : Formats) (p : Nat × Dbl) : Str := pad 8 (ofNat p.1) ++ pad 13 (F.fixed 8 p.2)

/-- Continuation lines: at most three ratios behind 21 blanks. -/
def continuationLines (F : Formats) : List (Nat × Dbl) → Str
  | [] => []
  | p :: ps =>
      newline :: (List.replicate 21 ' ' ++ ((p :: ps).take 3).flatMap (ratioItem F)) ++
        continuationLines F (ps.drop 2)
termination_by ps => ps.length
decreasing_by simp; omega

/-- The lines of an element: four ratios on the first one. -/
def elementLines (F : Formats) (ps : List (Nat × Dbl)) : Str :=
  (ps.take 4).flatMap (ratioItem F) ++ continuationLines F (ps.drop 4)

/-- A ZA number that begins an element: the neutron, or a natural element. -/
def BeginsElement (za : Nat) : Prop := za = 1 ∨ 1000 ∣ za

namespace C50
open Xsdir

theorem new_no {za : Nat} (h : ¬ BeginsElement za) (c : Int) : newElement za c = ([], c) := by
  unfold newElement
  rw [if_neg]
  rintro (h1 | h1)
  · exact h (.inl h1)
  · exact h (.inr ⟨za / 1000, by omega⟩)

theorem new_yes {za : Nat} (h : BeginsElement za) (c : Int) :
    newElement za c = (if za = 1 then [] else [newline], -1) := by
  unfold newElement
  have : za = 1 ∨ za % 1000 = 0 := by
    rcases h with h | ⟨z, h⟩
    · exact .inl h
    · exact .inr (by omega)
  rw [if_pos this]
  by_cases h1 : za = 1 <;> simp [h1]

theorem wrap_no {k : Nat} (h : k = 0 ∨ k % 3 ≠ 0) : wrap (k : Int) = [] := by
  unfold wrap
  rw [if_neg]
  rintro ⟨h1, h2⟩
  have : k % 3 = 0 := by
    have : ((k : Int).tmod 3) = ((k % 3 : Nat) : Int) := by rw [Int.tmod_eq_emod_of_nonneg (by omega)]; omega
    omega
  omega

theorem wrap_yes {k : Nat} (h : k ≠ 0) (h2 : k % 3 = 0) : wrap (k : Int) = newline :: List.replicate 21 ' ' := by
  unfold wrap
  have : ((k : Int).tmod 3) = ((k % 3 : Nat) : Int) := by rw [Int.tmod_eq_emod_of_nonneg (by omega)]; omega
  rw [if_pos ⟨by omega, by omega⟩]
  rfl

/-- One ratio that does not begin an element. -/
theorem step (F : Formats) (c : Int) (p : Nat × Dbl) (m : Ratios) (h : ¬ BeginsElement p.1) :
    printRatios F c (p :: m) = wrap c ++ ratioItem F p ++ printRatios F (c + 1) m := by
  simp only [printRatios, new_no h, ratioItem, List.nil_append, List.append_assoc]

/-- Ratios on a line that is not full: `k` more fit. -/
theorem fill (F : Formats) (m : Ratios) : ∀ (k : Nat) (c : Nat) (ps : List (Nat × Dbl)),
    (∀ p ∈ ps, ¬ BeginsElement p.1) → (c + k) % 3 = 0 → (c = 0 ∨ 0 < c % 3 ∨ k = 0) → k ≤ 3 → (k = 3 → c = 0) →
    ∃ c', printRatios F (c : Int) (ps ++ m) = (ps.take k).flatMap (ratioItem F) ++
      (printRatios F c' (ps.drop k ++ m)) ∧ (k ≤ ps.length → c' = ((c + k : Nat) : Int))
  | 0, c, ps, _, _, _, _, _ => ⟨c, by simp, by simp⟩
  | k + 1, c, [], _, _, _, _, _ => ⟨c, by simp, by simp⟩
  | k + 1, c, p :: ps, hp, h1, h2, h3, h4 => by
      obtain ⟨c', e1, e2⟩ := fill F m k (c + 1) ps (fun q hq => hp q (by simp [hq])) (by omega) (by omega)
        (by omega) (by omega)
      refine ⟨c', ?_, fun h => ?_⟩
      · rw [List.cons_append, step F _ p _ (hp p (by simp)), wrap_no (by omega)]
        rw [show ((c : Int) + 1) = ((c + 1 : Nat) : Int) by omega, e1]
        simp
      · have := e2 (by simpa using h)
        omega

/-- The continuation lines. -/
theorem continued (F : Formats) (m : Ratios) (hm : ∀ p, m.head? = some p → BeginsElement p.1) :
    ∀ (n : Nat) (c : Nat) (ps : List (Nat × Dbl)), ps.length ≤ n → (∀ p ∈ ps, ¬ BeginsElement p.1) → c % 3 = 0 → c ≠ 0 →
    printRatios F (c : Int) (ps ++ m) = continuationLines F ps ++ printRatios F (-1) m := by
  have hend : ∀ c, printRatios F c m = printRatios F (-1) m := by
    intro c
    cases m with
    | nil => rfl
    | cons p m => simp only [printRatios, new_yes (hm p rfl)]
  intro n
  induction n with
  | zero =>
    intro c ps h _ _ _
    have : ps = [] := by simpa using h
    subst this
    simp [continuationLines, hend c]
  | succ n ih =>
    intro c ps hl hp h1 h2
    cases ps with
    | nil => simp [continuationLines, hend c]
    | cons p ps =>
      rw [List.cons_append, step F _ p _ (hp p (by simp)), wrap_yes h2 h1,
        show ((c : Int) + 1) = ((c + 1 : Nat) : Int) by omega]
      obtain ⟨c', e1, e2⟩ := fill F m 2 (c + 1) ps (fun q hq => hp q (by simp [hq])) (by omega) (by omega)
        (by omega) (by omega)
      rw [e1, continuationLines]
      have hd : printRatios F c' (ps.drop 2 ++ m) = continuationLines F (ps.drop 2) ++ printRatios F (-1) m := by
        by_cases h : 2 ≤ ps.length
        · rw [e2 h]
          exact ih _ _ (by simp at hl ⊢; omega) (fun q hq => hp q (by simp [List.mem_of_mem_drop hq])) (by omega)
            (by omega)
        · have : ps.drop 2 = [] := by simp; omega
          rw [this]
          simp [continuationLines, hend c']
      rw [hd]
      simp
end C50

/-- The ratios of an element, and those behind it. -/
theorem C50_lines (F : Formats) (p : Nat × Dbl) (ps m : Ratios) (hp : ∀ q ∈ ps, ¬ BeginsElement q.1)
    (hm : ∀ q, m.head? = some q → BeginsElement q.1) :
    Xsdir.printRatios F (-1) (p :: ps ++ m) =
      (if 1000 ∣ p.1 then [newline] else []) ++ elementLines F (p :: ps) ++
        Xsdir.printRatios F (-1) m := by
  have h0 : Xsdir.printRatios F (-1) (p :: ps ++ m) =
      (if 1000 ∣ p.1 then [newline] else []) ++ (ratioItem F p ++ Xsdir.printRatios F 0 (ps ++ m)) := by
    have e : Xsdir.newElement p.1 (-1) = (if 1000 ∣ p.1 then [newline] else [], -1) := by
      by_cases h : BeginsElement p.1
      · rw [C50.new_yes h]
        by_cases h1 : p.1 = 1
        · rw [if_pos h1, if_neg]
          rintro ⟨z, hz⟩; omega
        · rw [if_neg h1, if_pos (h.resolve_left h1)]
      · rw [C50.new_no h, if_neg (fun hz => h (.inr hz))]
    simp only [List.cons_append, Xsdir.printRatios, e, ratioItem]
    simp [Xsdir.wrap]
  have hend : ∀ c, Xsdir.printRatios F c m = Xsdir.printRatios F (-1) m := by
    intro c
    cases m with
    | nil => rfl
    | cons p m => simp only [Xsdir.printRatios, C50.new_yes (hm p rfl)]
  rw [h0]
  obtain ⟨c', e1, e2⟩ := C50.fill F m 3 0 ps hp (by omega) (by omega) (by omega) (by omega)
  have e1' : Xsdir.printRatios F 0 (ps ++ m) = _ := e1
  rw [e1']
  have hd : Xsdir.printRatios F c' (ps.drop 3 ++ m) = continuationLines F (ps.drop 3) ++ Xsdir.printRatios F (-1) m := by
    by_cases h : 3 ≤ ps.length
    · rw [e2 h]
      exact C50.continued F m hm _ _ _ (Nat.le_refl _) (fun q hq => hp q (List.mem_of_mem_drop hq)) (by omega) (by omega)
    · have : ps.drop 3 = [] := by simp; omega
      rw [this]
      simp [continuationLines, hend c']
  rw [hd, elementLines]
  simp

/-- An element with six ratios: two lines. -/
example : (∀ q ∈ ([(26054, exAwr), (26055, exAwr), (26056, exAwr), (26057, exAwr), (26058, exAwr)] : Ratios),
      ¬ BeginsElement q.1) ∧
    elementLines Decimal.std [(26000, exAwr), (26054, exAwr), (26055, exAwr), (26056, exAwr), (26057, exAwr), (26058, exAwr)] =
      ("   26000 233.02480000   26054 233.02480000   26055 233.02480000   26056 233.02480000\n" ++
       "                        26057 233.02480000   26058 233.02480000").toList := by
  refine ⟨?_, ?_⟩
  · intro q hq
    simp only [List.mem_cons, List.not_mem_nil, or_false] at hq
    rcases hq with rfl | rfl | rfl | rfl | rfl <;> (rintro (h | ⟨z, h⟩) <;> simp at h <;> omega)
  · simp only [elementLines, List.take, List.drop, continuationLines]
    decide +kernel

/-- Without entries the printed form cannot be read: behaviour is undefined. -/
theorem C50_no_entries : ∃ text, (Xsdir.mk' [] [] none).print Decimal.std = .ok text ∧
    Xsdir.parse Decimal.std (IStream.ofText text) = .error .ub :=
  ⟨"\natomic weight ratios\n\n\ndirectory\n".toList, by decide +kernel, by decide +kernel⟩

/-- A ZA number of eight digits is printed right behind the ratio in front of it. -/
theorem C50_long_za : Xsdir.printRatios Decimal.std (-1) [(1, exAwr), (12345678, exAwr)] =
      "       1 233.0248000012345678 233.02480000".toList ∧
    (Xsdir.pairs Decimal.std 50 "       1 233.0248000012345678 233.02480000".toList []).lookup 12345678 = none :=
  ⟨by decide +kernel, by decide +kernel⟩

example := C50_lines Decimal.std (26000, exAwr) [(26054, exAwr), (26055, exAwr)] [(27000, exAwr), (27059, exAwr)]
  (by unfold BeginsElement; decide) (by intro q hq; injection hq with hq; subst hq; unfold BeginsElement; decide)

end ACE.Props

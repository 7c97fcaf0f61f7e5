import Verif.Props.C43

/-!
# C42: xsdir entries survive printing and reading
-/

namespace ACE.Props
open ACE ACE.Text

/-- An entry that can be printed: the atomic weight ratio is read as `awr` and the temperature, if there is one,
as `temperature`. -/
structure EntryPrints (F : Formats) (e : XsdirEntry) (awr : Dbl) (temperature : Option Dbl) : Prop where
  fits : EntryFits F e
  /-- the line is not a comment -/
  first : e.zaid.head? ≠ some '#'
  awr : Written F 12 (F.fixed 6 e.awr) awr
  temperature : (e.temperature = none ∧ temperature = none) ∨
    ∃ t y, e.temperature = some t ∧ temperature = some y ∧ Written F 12 (F.sci 'e' 6 t) y ∧
      (F.sci 'e' 6 t).getLast? ≠ some '+'
  /-- "0" is read as zero, nothing is not read -/
  zero : ∃ z, F.value "0".toList = some z ∧ z.eqInt 0 = true
  empty : F.value [] = none

/-- Zero is no temperature. -/
def someTemperature : Option Dbl → Option Dbl
  | none => none
  | some t => if t.eqInt 0 then none else some t

/-- What is read from the printed form of an entry. -/
def entryBack (e : XsdirEntry) (awr : Dbl) (temperature : Option Dbl) : Option XsdirEntry :=
  if e.recordLength.isSome && e.entries.isSome && e.temperature.isNone && !e.ptable then none
  else some { e with
    awr := awr
    access := if e.access = some "0".toList then none else e.access
    recordLength := if e.recordLength = some 0 ∨ e.entries = none then none else e.recordLength
    entries := if e.entries = some 0 ∨ e.recordLength = none then none else e.entries
    temperature := someTemperature temperature }

/-- An entry that survives: the values that stand for "not given" are not given, the record length and the
number of entries are both given or both not given, and when they are given they are followed by something. -/
structure EntryKept (e : XsdirEntry) (temperature : Option Dbl) : Prop where
  access : e.access ≠ some "0".toList
  record : (e.recordLength = none ∧ e.entries = none) ∨
    ∃ r n, e.recordLength = some r ∧ e.entries = some n ∧ r ≠ 0 ∧ n ≠ 0 ∧ (e.temperature.isSome ∨ e.ptable = true)
  temperature : ∀ t, temperature = some t → t.eqInt 0 = false

namespace C42
open XsdirEntry IStream

theorem options_nil {F : Formats} {s : Str} (h : words s = []) : options F s = some (0, 0, Dbl.ofNat 0, false) := by
  obtain ⟨h1, h2⟩ := extractNat_nil h
  unfold options
  rw [h1]
  simp only [h2]

theorem options_of {F : Formats} {s T : Str} {r n : Nat} {y : Dbl} {pt : Bool} (hr : r < 2 ^ 32) (hn : n < 2 ^ 32)
    (hT : Written F 12 T y)
    (h : words s = ofNat r :: ofNat n :: T :: (if pt then ["ptable".toList] else [])) :
    options F s = some (r, n, y, pt) := by
  obtain ⟨s1, h1, w1⟩ := extractNat_words h (by omega)
  obtain ⟨s2, h2, w2⟩ := extractNat_words w1 (by omega)
  obtain ⟨s3, h3, w3⟩ := extractReal_words w2 hT
  unfold options
  rw [h1]
  simp only
  rw [h2]
  simp only
  rw [h3]
  simp only
  cases pt with
  | false =>
    rw [extract_nil w3]
  | true =>
    obtain ⟨s4, h4, _⟩ := extract_words w3
    rw [h4]
    simp only [if_true]

theorem zero_written {F : Formats} {z : Dbl} (h : F.value "0".toList = some z) : Written F 12 "0".toList z :=
  ⟨by decide, by decide, by decide, h⟩

theorem options_short {F : Formats} {s : Str} {r n : Nat} (hr : r < 2 ^ 32) (hn : n < 2 ^ 32)
    (hF : F.value [] = none) (h : words s = [ofNat r, ofNat n]) : options F s = none := by
  obtain ⟨s1, h1, w1⟩ := extractNat_words h (by omega)
  obtain ⟨s2, h2, w2⟩ := extractNat_words w1 (by omega)
  unfold options
  rw [h1]
  simp only
  rw [h2]
  simp only
  have : F.extract s2 = none := by
    unfold Formats.extract
    simp only [words_nil w2, List.takeWhile_nil, hF]
  rw [this]

/-- The last part of an entry. -/
def tail (e : XsdirEntry) (temperature : Option Dbl) : Option Nat × Option Nat × Option Dbl :=
  (if e.recordLength = some 0 ∨ e.entries = none then none else e.recordLength,
   if e.entries = some 0 ∨ e.recordLength = none then none else e.entries,
   someTemperature temperature)

theorem nonZero_of (n m : Nat) : nonZero n = if some n = some 0 ∨ some m = (none : Option Nat) then none else some n := by
  unfold nonZero
  by_cases h : n = 0 <;> simp [h]

/-- The values behind the table length. -/
theorem options_fields {F : Formats} {e : XsdirEntry} {awr : Dbl} {temperature : Option Dbl}
    (h : EntryPrints F e awr temperature) {s : Str} (hw : words s = (C43.optional F e).map (·.2)) :
    if e.recordLength.isSome && e.entries.isSome && e.temperature.isNone && !e.ptable then options F s = none
    else ∃ r n t, options F s = some (r, n, t, e.ptable) ∧
      (nonZero r, nonZero n, if t.eqInt 0 then none else some t) = tail e temperature := by
  obtain ⟨z, hz1, hz2⟩ := h.zero
  have h0 : ("0".toList : Str) = ofNat 0 := by decide
  have hrec := h.fits.record
  have htmp := h.temperature
  have hemp := h.empty
  clear h
  unfold C43.optional at hw
  unfold tail
  rcases e with ⟨zd, aw, fn, ac, ft, ad, tl, rl, en, tm, pt⟩
  simp only at hw hrec htmp ⊢
  have hz3 : (if z.eqInt 0 = true then none else some z) = none := by rw [if_pos hz2]
  rcases htmp with ⟨rfl, rfl⟩ | ⟨t, y, rfl, rfl, t3, t4⟩
  · cases pt with
    | false =>
      cases rl with
      | none => exact ⟨0, 0, _, options_nil (by simpa using hw), by cases en <;> simp [nonZero, someTemperature]; all_goals decide⟩
      | some r => cases en with
        | none => exact ⟨0, 0, _, options_nil (by simpa using hw), by simp [nonZero, someTemperature]; decide⟩
        | some n =>
          obtain ⟨b1, b2⟩ := hrec r n rfl rfl
          exact options_short b1 b2 hemp (by simpa using hw)
    | true =>
      have hb : ∀ r n : Nat, r < 2 ^ 32 → n < 2 ^ 32 → words s = [ofNat r, ofNat n, "0".toList, "ptable".toList] →
          options F s = some (r, n, z, true) := fun r n b1 b2 hw =>
        options_of (T := "0".toList) b1 b2 (zero_written hz1) (by rw [hw]; rfl)
      cases rl with
      | none =>
        rw [if_neg (by simp)]
        refine ⟨0, 0, z, hb 0 0 (by decide) (by decide) (by rw [hw, ← h0]; rfl), ?_⟩
        rw [hz3]; cases en <;> simp [nonZero, someTemperature]
      | some r => cases en with
        | none =>
          rw [if_neg (by simp)]
          refine ⟨0, 0, z, hb 0 0 (by decide) (by decide) (by rw [hw, ← h0]; rfl), ?_⟩
          rw [hz3]; simp [nonZero, someTemperature]
        | some n =>
          obtain ⟨b1, b2⟩ := hrec r n rfl rfl
          rw [if_neg (by simp)]
          refine ⟨r, n, z, hb r n b1 b2 (by rw [hw]; rfl), ?_⟩
          rw [hz3, nonZero_of r n, nonZero_of n r]; rfl
  · have hb : ∀ r n : Nat, r < 2 ^ 32 → n < 2 ^ 32 →
        words s = ofNat r :: ofNat n :: F.sci 'e' 6 t :: (if pt then ["ptable".toList] else []) →
        options F s = some (r, n, y, pt) := fun r n b1 b2 hw => options_of b1 b2 t3 hw
    cases rl with
    | none =>
      rw [if_neg (by simp)]
      refine ⟨0, 0, y, hb 0 0 (by decide) (by decide) (by rw [hw, ← h0]; cases pt <;> rfl), ?_⟩
      cases en <;> simp [nonZero, someTemperature]
    | some r => cases en with
      | none =>
        rw [if_neg (by simp)]
        refine ⟨0, 0, y, hb 0 0 (by decide) (by decide) (by rw [hw, ← h0]; cases pt <;> rfl), ?_⟩
        simp [nonZero, someTemperature]
      | some n =>
        obtain ⟨b1, b2⟩ := hrec r n rfl rfl
        rw [if_neg (by simp)]
        refine ⟨r, n, y, hb r n b1 b2 (by rw [hw]; cases pt <;> rfl), ?_⟩
        rw [nonZero_of r n, nonZero_of n r]; rfl

/-- An entry is read from any line with its words. -/
theorem ofLine_words {F : Formats} {e : XsdirEntry} {awr : Dbl} {temperature : Option Dbl}
    (h : EntryPrints F e awr temperature) {line : Str} (hw : words line = e.zaid :: (C43.fields F e).map (·.2)) :
    ofLine F line = entryBack e awr temperature := by
  rw [C43.fields, List.map_append] at hw
  simp only [List.map_cons, List.map_nil, List.cons_append, List.nil_append] at hw
  obtain ⟨s1, h1, w1⟩ := extract_words hw
  obtain ⟨s2, h2, w2⟩ := extractReal_words w1 h.awr
  obtain ⟨s3, h3, w3⟩ := extract_words w2
  obtain ⟨s4, h4, w4⟩ := extract_words w3
  obtain ⟨s5, h5, w5⟩ := extractNat_words w4 (by have := h.fits.numbers.1; omega)
  obtain ⟨s6, h6, w6⟩ := extractNat_words w5 (by have := h.fits.numbers.2.1; omega)
  obtain ⟨s7, h7, w7⟩ := extractNat_words w6 (by have := h.fits.numbers.2.2; omega)
  have h8 := options_fields h w7
  have e4 : (if e.access.getD "0".toList = "0".toList then none else some (e.access.getD "0".toList)) =
      if e.access = some "0".toList then none else e.access := by
    cases e.access with
    | none => rfl
    | some a =>
      simp only [Option.getD_some]
      by_cases ha : a = "0".toList
      · rw [if_pos ha, if_pos (by rw [ha])]
      · rw [if_neg ha, if_neg (by intro hc; injection hc with hc; exact ha hc)]
  unfold ofLine entryBack
  rw [h1]; simp only
  rw [h2]; simp only
  rw [h3]; simp only
  rw [h4]; simp only
  rw [h5]; simp only
  rw [h6]; simp only
  rw [h7]; simp only
  split at h8
  · rename_i hc
    rw [h8, if_pos hc]
  · rename_i hc
    obtain ⟨r, n, t, h9, h10⟩ := h8
    unfold tail at h10
    injection h10 with e1 e5
    injection e5 with e2 e3
    rw [h9, if_neg hc]
    simp only
    rw [e1, e2, e3, e4]

theorem last_word {F : Formats} {e : XsdirEntry} {awr : Dbl} {temperature : Option Dbl}
    (h : EntryPrints F e awr temperature) :
    ∀ w, (e.zaid :: (C43.fields F e).map (·.2)).getLast? = some w → w.getLast? ≠ some '+' := by
  have hd : ∀ n, (ofNat n).getLast? ≠ some '+' := fun n hc =>
    (digit_notSign (ofNat_isDigit n _ (List.mem_of_getLast? hc))).2 rfl
  have hne : (C43.fields F e).map (·.2) ≠ [] := by unfold C43.fields; simp
  intro w hw
  have hw' : ((C43.fields F e).map (·.2)).getLast? = some w := by
    cases hx : (C43.fields F e).map (·.2) with
    | nil => exact absurd hx hne
    | cons a l => rw [hx] at hw; simpa using hw
  rw [C43.fields, List.map_append, List.getLast?_append] at hw'
  cases ho : ((C43.optional F e).map (·.2)).getLast? with
  | none => rw [ho] at hw'; simp at hw'; subst hw'; exact hd _
  | some u =>
    rw [ho] at hw'
    simp at hw'
    subst hw'
    have hm := List.mem_of_getLast? ho
    rw [List.mem_map] at hm
    obtain ⟨p, hp, rfl⟩ := hm
    unfold C43.optional at hp
    rw [List.mem_append, List.mem_append] at hp
    rcases hp with (hp | hp) | hp
    · split at hp
      · simp at hp
        rcases hp with rfl | rfl <;> exact hd _
      · split at hp
        · simp at hp; subst hp; decide
        · cases hp
    · split at hp
      · rename_i t ht
        simp at hp; subst hp
        rcases h.temperature with ⟨t1, _⟩ | ⟨t', y, t1, _, _, t5⟩
        · rw [ht] at t1; cases t1
        · rw [ht] at t1; injection t1 with t1; subst t1; exact t5
      · split at hp
        · simp at hp; subst hp; decide
        · cases hp
    · split at hp
      · simp at hp; subst hp; decide
      · cases hp

theorem not_comment {F : Formats} {e : XsdirEntry} (hz : IsWord e.zaid) (hf : e.zaid.head? ≠ some '#') :
    (e.oneLine F).head? ≠ some '#' := by
  rw [C43.oneLine_eq, XsdirEntry.spaced]
  intro hc
  by_cases hz' : 10 - e.zaid.length = 0
  · rw [hz'] at hc
    cases hzz : e.zaid with
    | nil => exact hz.1 hzz
    | cons c z =>
      rw [hzz] at hc
      simp at hc
      subst hc
      exact hf (by rw [hzz]; rfl)
  · obtain ⟨k, hk⟩ : ∃ k, 10 - e.zaid.length = k + 1 := ⟨9 - e.zaid.length, by omega⟩
    rw [hk, List.replicate_succ] at hc
    simp at hc

end C42

/-- What is read from the printed form of an entry, also when it is broken into several lines, wherever it is in
a stream. The stream is then behind it; when nothing can be read it is where it was, and it has failed. -/
theorem C42_read (F : Formats) (e : XsdirEntry) (awr : Dbl) (temperature : Option Dbl)
    (h : EntryPrints F e awr temperature) : ∃ text, e.print F = .ok text ∧ ∀ before rest : Str,
      XsdirEntry.parse F ⟨before ++ (text ++ rest), before.length, false, false⟩ =
        .ok (match entryBack e awr temperature with
          | some e' => (some e', ⟨before ++ (text ++ rest), before.length + text.length, false, false⟩)
          | none => (none, ⟨before ++ (text ++ rest), before.length, false, true⟩)) := by
  obtain ⟨text, h1, _, h2, h3⟩ := C43.print_broken F e h.fits
  refine ⟨text, h1, ?_⟩
  intro b rest
  obtain ⟨line, r1, r2⟩ := XsdirEntry.continued_broken h2 (by simp) (C42.last_word h)
    (by rw [h3]; exact C42.not_comment h.fits.zaid.1 h.first) [] (.inl rfl) b rest
    ((b ++ (text ++ rest)).length + 1) (by simp; omega)
  obtain ⟨⟨next, st⟩, r3, r4⟩ := bind_eq_ok.mp r1
  simp only [List.nil_append] at r4
  have hcont : st.content = b ++ (text ++ rest) := XsdirEntry.readLine_content r3
  unfold XsdirEntry.parse
  show (XsdirEntry.readLine (IStream.at' b (text ++ rest)) >>= _) = _
  rw [r3, ok_bind]
  simp only
  rw [hcont, r4, ok_bind]
  have hw := C42.ofLine_words h (line := line) (by rw [r2]; rfl)
  simp only [IStream.at', hw]
  cases entryBack e awr temperature with
  | some e' => simp
  | none => simp [IStream.clear, IStream.seekg, IStream.setFail]

/-- Entries survive. -/
theorem C42_round_trip_partial (F : Formats) (e : XsdirEntry) (awr : Dbl) (temperature : Option Dbl)
    (h : EntryPrints F e awr temperature) (hk : EntryKept e temperature) :
    ∃ text, e.print F = .ok text ∧ ∀ before rest : Str,
      XsdirEntry.parse F ⟨before ++ (text ++ rest), before.length, false, false⟩ =
        .ok (some { e with awr := awr, temperature := temperature },
          ⟨before ++ (text ++ rest), before.length + text.length, false, false⟩) := by
  obtain ⟨text, h1, h2⟩ := C42_read F e awr temperature h
  refine ⟨text, h1, fun b rest => ?_⟩
  rw [h2 b rest]
  have hb : entryBack e awr temperature = some { e with awr := awr, temperature := temperature } := by
    have h3 := hk.temperature
    have h4 := hk.access
    have h5 := hk.record
    clear hk h2 h
    unfold entryBack
    rw [if_neg h4]
    have h6 : someTemperature temperature = temperature := by
      cases temperature with
      | none => rfl
      | some t => simp [someTemperature, h3 t rfl]
    rw [h6]
    rcases h5 with ⟨r1, r2⟩ | ⟨r, n, r1, r2, r3, r4, r5⟩
    · rw [r1, r2]; simp
    · rw [r1, r2, if_neg (by
        rcases r5 with r5 | r5
        · cases ht : e.temperature with
          | none => rw [ht] at r5; cases r5
          | some t => simp
        · rw [r5]; simp), if_neg (by simp [r3]), if_neg (by simp [r4])]
  rw [hb]

/-! ## The entries that do not survive -/

/-- With a record length and a number of entries but no temperature and no ptable the printed form cannot be
read. -/
theorem C42_record (F : Formats) (e : XsdirEntry) (awr : Dbl) (h : EntryPrints F e awr none) (r n : Nat)
    (h1 : e.recordLength = some r) (h2 : e.entries = some n) (h3 : e.temperature = none) (h4 : e.ptable = false) :
    ∃ text, e.print F = .ok text ∧
      XsdirEntry.parse F (IStream.ofText text) = .ok (none, ⟨text, 0, false, true⟩) := by
  obtain ⟨text, p1, p2⟩ := C42_read F e awr none h
  refine ⟨text, p1, ?_⟩
  have := p2 [] []
  have hb : entryBack e awr none = none := by
    unfold entryBack
    rw [h1, h2, h3, h4]; rfl
  rw [hb] at this
  simpa [IStream.ofText] using this

/-- The full statement: an entry is returned from its printed form. -/
def C42Statement : Prop := ∀ (F : Formats) (e : XsdirEntry) (awr : Dbl) (temperature : Option Dbl),
  EntryPrints F e awr temperature → ∃ text st, e.print F = .ok text ∧
    XsdirEntry.parse F (IStream.ofText text) = .ok (some { e with awr := awr, temperature := temperature }, st)

/-! ## Examples -/

theorem exEntry_prints (name : Str) (h : IsWord name) (hl : name.length ≤ 95) :
    EntryPrints Decimal.std (exEntry name) exAwr (some exTemp) where
  fits := exEntry_fits name h hl
  first := show "92235.80c".toList.head? ≠ some '#' by decide
  awr := exAwr_written
  temperature := .inr ⟨exTemp, exTemp, rfl, rfl, exTemp_entry, by decide +kernel⟩
  zero := ⟨Dbl.ofNat 0, by decide +kernel, by decide +kernel⟩
  empty := by decide +kernel

theorem exEntry_kept (name : Str) : EntryKept (exEntry name) (some exTemp) where
  access := by intro h; cases h
  record := .inl ⟨rfl, rfl⟩
  temperature := by
    intro t ht
    injection ht with ht
    subst ht
    decide +kernel

/-- The whole of an entry, on three lines. -/
example : ∃ text, (exEntry (List.replicate 95 'x')).print Decimal.std = .ok text ∧ ∀ before rest : Str,
    XsdirEntry.parse Decimal.std ⟨before ++ (text ++ rest), before.length, false, false⟩ =
      .ok (some (exEntry (List.replicate 95 'x')), ⟨before ++ (text ++ rest), before.length + text.length, false, false⟩) :=
  C42_round_trip_partial _ _ _ _ (exEntry_prints _ ⟨by decide, by decide⟩ (by decide)) (exEntry_kept _)

/-- An entry with the optional values. -/
def exOptions (access : Option Str) (record entries : Option Nat) (t : Option Dbl) : XsdirEntry :=
  ⟨"92235.80c".toList, exAwr, "name".toList, access, 1, 2, 3, record, entries, t, false⟩

theorem exOptions_prints (access : Option Str) (record entries : Option Nat)
    (ha : ∀ a, access = some a → IsWord a ∧ a.length ≤ 95)
    (hr : ∀ r n, record = some r → entries = some n → r < 2 ^ 32 ∧ n < 2 ^ 32) :
    EntryPrints Decimal.std (exOptions access record entries none) exAwr none where
  fits := ⟨exEntry_zaid, ⟨exAwr, exAwr_written⟩, ⟨⟨show "name".toList ≠ [] by decide, show ∀ c ∈ "name".toList, _ by decide⟩,
      show "name".toList.length ≤ 95 by decide⟩, ha,
    ⟨show 1 < 2 ^ 32 by decide, show 2 < 2 ^ 32 by decide, show 3 < 2 ^ 32 by decide⟩, hr, by intro t ht; cases ht⟩
  first := show "92235.80c".toList.head? ≠ some '#' by decide
  awr := exAwr_written
  temperature := .inl ⟨rfl, rfl⟩
  zero := ⟨Dbl.ofNat 0, by decide +kernel, by decide +kernel⟩
  empty := by decide +kernel

theorem C42_false : ¬ C42Statement := by
  intro h
  have hp := exOptions_prints none (some 4) (some 5) (by intro a ha; cases ha)
    (by intro r n hr hn; injection hr with hr; injection hn with hn; omega)
  obtain ⟨text, st, h1, h2⟩ := h _ _ _ _ hp
  obtain ⟨text', h3, h4⟩ := C42_record _ _ _ hp 4 5 rfl rfl rfl rfl
  rw [h1] at h3
  injection h3 with h3
  subst h3
  rw [h2] at h4
  injection h4 with h4
  injection h4 with h4
  cases h4

/-- A record length without a number of entries is lost, and so is the access route "0". -/
example : entryBack (exOptions (some "0".toList) (some 4) none none) exAwr none =
    some (exOptions none none none none) := by decide +kernel

/-- A temperature of zero is lost. -/
example : (entryBack (exOptions none none none (some (Dbl.ofNat 0))) exAwr (some (Dbl.ofNat 0))).map (·.temperature) =
    some none := by decide +kernel

/-- An atomic weight ratio of thirteen characters is printed right behind the ZAID, and the text cannot be read. -/
example : XsdirEntry.print Decimal.std { exEntry "name".toList with awr := Dbl.ofNat 123456 } =
    .ok " 92235.80c123456.000000 name 0 1 2 3 0 0 2.530000e-08 ptable\n".toList := by decide +kernel
example : XsdirEntry.parse Decimal.std
      (IStream.ofText " 92235.80c123456.000000 name 0 1 2 3 0 0 2.530000e-08 ptable\n".toList) =
    .ok (none, ⟨" 92235.80c123456.000000 name 0 1 2 3 0 0 2.530000e-08 ptable\n".toList, 0, false, true⟩) := by
  decide +kernel

/-- The hypotheses of the other theorems are met too. -/
example := C42_read Decimal.std _ _ _ (exEntry_prints "name".toList ⟨by decide, by decide⟩ (by decide))

example := C42_record Decimal.std _ _ (exOptions_prints none (some 4) (some 5) (by intro a ha; cases ha)
    (by intro r n hr hn; injection hr with hr; injection hn with hn; omega)) 4 5 rfl rfl rfl rfl

end ACE.Props

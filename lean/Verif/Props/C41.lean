import Verif.Props.C39
import Verif.Props.C40

/-!
# C41: tables and concatenated files
-/

namespace ACE.Props
open ACE ACE.Text

/-- A table can be printed, and is read as the table `t'` (the same strings and integers; the reals are
what the printed reals are read as). -/
inductive TableFits (F : Formats) : Table → Table → Prop where
  /-- version 1: the ZAID does not begin with a version number -/
  | v1 (h : Header) (d : TableData) (awr temp : Dbl) (aw xss : Words) (hf : HeaderFits h) (hd : DataFits F d aw xss)
      (hn : d.NXS 1 = .ok (d.xss.length : Int))
      (ha : Written F 12 (F.fixed 6 h.awr) awr) (ht : Written F 12 (F.sci 'E' 4 h.temp) temp)
      (pa : awr.isNeg = false) (pt : temp.isNeg = false) (hz : h.zaid ≠ [])
      (h0 : ¬ "2.0.0".toList <+: h.zaid) (h1 : ¬ "2.0.1".toList <+: h.zaid) :
      TableFits F ⟨.v1 h, d⟩ ⟨.v1 { h with awr := awr, temp := temp }, { d with aw := aw, xss := xss }⟩
  /-- version 2 -/
  | v2 (h : Header201) (d : TableData) (awr temp : Dbl) (aw xss : Words) (hf : Header201Fits h)
      (hd : DataFits F d aw xss) (hn : d.NXS 1 = .ok (d.xss.length : Int))
      (ha : Written F 12 (F.fixed 6 h.awr) awr) (ht : Written F 12 (F.sci 'E' 4 h.temp) temp)
      (pa : awr.isNeg = false) (pt : temp.isNeg = false) :
      TableFits F ⟨.v2 h, d⟩ ⟨.v2 { h with awr := awr, temp := temp }, { d with aw := aw, xss := xss }⟩

namespace C41

theorem takeWhile_space (s t : Str) (h : ∀ c ∈ s, isSpace c = false) :
    (s ++ t).takeWhile (!isSpace ·) = s ++ t.takeWhile (!isSpace ·) :=
  List.takeWhile_append_of_pos (fun c hc => by simp [h c hc])

/-- A word that begins a string which has a space is a prefix of it. -/
theorem token_prefix (z t : Str) (h : ∃ c ∈ z, isSpace c = true) :
    (z ++ t).takeWhile (!isSpace ·) <+: z := by
  induction z with
  | nil => obtain ⟨c, hc, _⟩ := h; cases hc
  | cons a z ih =>
    rw [List.cons_append, List.takeWhile_cons]
    cases ha : isSpace a with
    | true => simp
    | false =>
      simp only [Bool.not_false, if_true]
      have : ∃ c ∈ z, isSpace c = true := by
        obtain ⟨c, hc, hs⟩ := h
        rcases List.mem_cons.mp hc with rfl | hc
        · rw [ha] at hs; cases hs
        · exact ⟨c, hc, hs⟩
      exact List.cons_prefix_cons.mpr ⟨rfl, ih this⟩

theorem extract_first (n : Nat) (z t : Str) (hz : z ≠ []) (ht : Trim z) :
    extract (List.replicate n ' ' ++ (z ++ t)) =
      some ((z ++ t).takeWhile (!isSpace ·), (z ++ t).dropWhile (!isSpace ·)) := by
  have hd : (List.replicate n ' ' ++ (z ++ t)).dropWhile isSpace = z ++ t := by
    rw [dropWhile_replicate]
    refine dropWhile_eq_self ?_
    intro c hc
    refine ht.front c ?_
    cases z with
    | nil => exact absurd rfl hz
    | cons a z => simpa using hc
  unfold extract
  simp only [hd]
  rw [if_neg (by simp [hz])]

/-- The first word of a version 1 header is not a version. -/
theorem version1 (F : Formats) (h : Header) (hf : HeaderFits h) (awr temp : Dbl)
    (ha : Written F 12 (F.fixed 6 h.awr) awr) (ht : Written F 12 (F.sci 'E' 4 h.temp) temp)
    (hz : h.zaid ≠ []) (h0 : ¬ "2.0.0".toList <+: h.zaid) (h1 : ¬ "2.0.1".toList <+: h.zaid) (rest : Str) :
    ∃ v, Table.readVersion (headerText F h ++ rest) = .ok v ∧ v ≠ "2.0.0".toList ∧ v ≠ "2.0.1".toList := by
  obtain ⟨l1, l2, l3, l4⟩ := hf.lines
  have n1 : newline ∉ pad 10 h.zaid ++ (pad 12 (F.fixed 6 h.awr) ++ (pad 12 (F.sci 'E' 4 h.temp) ++
      ([' '] ++ pad 10 h.date))) := by
    have a := pad_newline (n := 10) l1
    have b := pad_newline (n := 10) l2
    have c := ha.newline
    have d := ht.newline
    simp only [List.mem_append, not_or, List.mem_singleton]
    exact ⟨a, c, d, by decide, b⟩
  have e : headerText F h ++ rest = (pad 10 h.zaid ++ (pad 12 (F.fixed 6 h.awr) ++ (pad 12 (F.sci 'E' 4 h.temp) ++
      ([' '] ++ pad 10 h.date)))) ++ newline :: (leftIn 70 h.title ++ rightIn 10 h.material ++ "\n".toList ++ rest) := by
    simp [headerText, rightIn, leftIn, pad, newline]
  have hlen : (pad 10 h.zaid ++ (pad 12 (F.fixed 6 h.awr) ++ (pad 12 (F.sci 'E' 4 h.temp) ++
      ([' '] ++ pad 10 h.date)))).length = 45 := by
    have := pad_length hf.zaid
    have := pad_length hf.date
    have := ha.length
    have := ht.length
    simp; omega
  let more := (pad 12 (F.sci 'E' 4 h.temp) ++ ([' '] ++ pad 10 h.date)) ++ List.replicate (80 - 45) ' '
  refine ⟨(h.zaid ++ (pad 12 (F.fixed 6 h.awr) ++ more)).takeWhile (!isSpace ·), ?_, ?_⟩
  · unfold Table.readVersion
    rw [e, nextLine_append n1, ok_bind]
    simp only
    rw [column_whole (by omega), hlen]
    have := extract_first (10 - h.zaid.length) h.zaid (pad 12 (F.fixed 6 h.awr) ++ more) hz hf.trim.1
    rw [show (pad 10 h.zaid ++ (pad 12 (F.fixed 6 h.awr) ++ (pad 12 (F.sci 'E' 4 h.temp) ++
      ([' '] ++ pad 10 h.date)))) ++ List.replicate (80 - 45) ' ' =
      List.replicate (10 - h.zaid.length) ' ' ++ (h.zaid ++ (pad 12 (F.fixed 6 h.awr) ++ more)) by
        simp [pad, more], this]
    rfl
  · have key : ∀ v : Str, v.length = 5 → ¬ v <+: h.zaid →
        (h.zaid ++ (pad 12 (F.fixed 6 h.awr) ++ more)).takeWhile (!isSpace ·) ≠ v := by
      intro v hv hp he
      by_cases hs : ∃ c ∈ h.zaid, isSpace c = true
      · exact hp (he ▸ token_prefix h.zaid _ hs)
      · have hs : ∀ c ∈ h.zaid, isSpace c = false := by
          intro c hc
          cases hb : isSpace c with
          | false => rfl
          | true => exact absurd ⟨c, hc, hb⟩ hs
        rw [takeWhile_space _ _ hs] at he
        by_cases hl : (F.fixed 6 h.awr).length = 12
        · have e12 : pad 12 (F.fixed 6 h.awr) = F.fixed 6 h.awr := by unfold pad; simp [hl]
          rw [e12, takeWhile_space _ _ ha.noSpace] at he
          have := congrArg List.length he
          simp only [List.length_append, hl, hv] at this
          omega
        · have hf2 := ha.fits
          obtain ⟨k, hk⟩ : ∃ k, 12 - (F.fixed 6 h.awr).length = k + 1 := ⟨11 - (F.fixed 6 h.awr).length, by omega⟩
          have e0 : (pad 12 (F.fixed 6 h.awr) ++ more).takeWhile (!isSpace ·) = [] := by
            unfold pad
            rw [hk, List.replicate_succ, List.cons_append, List.cons_append, List.takeWhile_cons,
              if_neg (by decide)]
          rw [e0, List.append_nil] at he
          exact hp (he ▸ List.prefix_refl _)
    exact ⟨key _ (by decide) h0, key _ (by decide) h1⟩

/-- The first word of a version 2 header is its version. -/
theorem version2 (F : Formats) (h : Header201) (hf : Header201Fits h) (rest : Str) :
    Table.readVersion (header201Text F h ++ rest) = .ok h.vers := by
  obtain ⟨l1, l2⟩ := hf.lines
  have hv : h.vers.length ≤ 10 := by rcases hf.version with e | e <;> rw [e] <;> decide
  have lv : '\n' ∉ h.vers := by rcases hf.version with e | e <;> rw [e] <;> decide
  have sv : ∀ c ∈ h.vers, isSpace c = false := by rcases hf.version with e | e <;> rw [e] <;> decide
  have nv : h.vers ≠ [] := by rcases hf.version with e | e <;> rw [e] <;> decide
  have n1 : newline ∉ left h.vers 10 ++ ([' '] ++ (pad 24 h.szaid ++ ([' '] ++ pad 24 h.src))) := by
    have a := left_newline (n := 10) lv
    have b := pad_newline (n := 24) l1
    have c := pad_newline (n := 24) l2
    simp only [List.mem_append, not_or, List.mem_singleton]
    exact ⟨a, by decide, b, by decide, c⟩
  have hlen : (left h.vers 10 ++ ([' '] ++ (pad 24 h.szaid ++ ([' '] ++ pad 24 h.src)))).length = 60 := by
    have := pad_length hf.szaid
    have := pad_length hf.source
    have := left_length h.vers 10
    simp; omega
  have e : ∃ tail, header201Text F h ++ rest = (left h.vers 10 ++ ([' '] ++ (pad 24 h.szaid ++ ([' '] ++ pad 24 h.src)))) ++
      newline :: tail := by
    refine ⟨rightIn 12 (F.fixed 6 h.awr) ++ " ".toList ++ rightIn 12 (F.sci 'E' 4 h.temp) ++ " ".toList ++
      rightIn 10 h.date ++ " ".toList ++ rightIn 10 (Text.ofNat h.comments.length) ++ "\n".toList ++
      (h.comments.map (· ++ "\n".toList)).flatten ++ rest, ?_⟩
    rw [left_of hv]
    simp [header201Text, rightIn, leftIn, pad, newline]
  obtain ⟨tail, e⟩ := e
  unfold Table.readVersion
  rw [e, nextLine_append n1, ok_bind]
  simp only
  rw [column_whole (by omega), hlen, left_of hv]
  have := extract_token nv sv (rest := List.replicate (10 - h.vers.length) ' ' ++ ([' '] ++ (pad 24 h.szaid ++
      ([' '] ++ pad 24 h.src)) ++ List.replicate (80 - 60) ' '))
    (by
      intro c hc
      cases hk : 10 - h.vers.length with
      | zero => rw [hk] at hc; simp at hc; subst hc; decide
      | succ k => rw [hk, List.replicate_succ] at hc; simp at hc; subst hc; decide) 0
  rw [show (h.vers ++ List.replicate (10 - h.vers.length) ' ' ++ ([' '] ++ (pad 24 h.szaid ++ ([' '] ++
      pad 24 h.src)))) ++ List.replicate (80 - 60) ' ' = List.replicate 0 ' ' ++ (h.vers ++
        (List.replicate (10 - h.vers.length) ' ' ++ ([' '] ++ (pad 24 h.szaid ++
      ([' '] ++ pad 24 h.src)) ++ List.replicate (80 - 60) ' '))) by simp, this]
  rfl

theorem print_cons {F : Formats} {t : Table} {text : Str} (h : t.print F = .ok text) : text ≠ [] := by
  unfold Table.print at h
  obtain ⟨a, ha, h⟩ := bind_eq_ok.mp h
  obtain ⟨b, hb, h⟩ := bind_eq_ok.mp h
  injection h with h
  subst h
  intro he
  obtain rfl := (List.append_eq_nil_iff.mp he).1
  cases hh : t.header with
  | v1 x =>
    rw [hh] at ha
    unfold AnyHeader.print Header.print at ha
    obtain ⟨_, _, ha⟩ := bind_eq_ok.mp ha
    obtain ⟨_, _, ha⟩ := bind_eq_ok.mp ha
    obtain ⟨_, _, ha⟩ := bind_eq_ok.mp ha
    injection ha with ha
    simp at ha
  | v2 x =>
    rw [hh] at ha
    unfold AnyHeader.print Header201.print at ha
    obtain ⟨_, _, ha⟩ := bind_eq_ok.mp ha
    obtain ⟨_, _, ha⟩ := bind_eq_ok.mp ha
    obtain ⟨_, _, ha⟩ := bind_eq_ok.mp ha
    injection ha with ha
    simp at ha

end C41

/-- A table is returned from its printed form with the same header version, whatever follows it. -/
theorem C41_table (F : Formats) (t t' : Table) (h : TableFits F t t') (rest : Str) :
    ∃ text, t.print F = .ok text ∧ Table.parse F (text ++ rest) = .ok (t', rest) := by
  cases h with
  | v1 h d awr temp aw xss hf hd hn ha ht pa pt hz h0 h1 =>
    obtain ⟨text2, hp2, hr2⟩ := C40_round_trip F d aw xss hd rest
    obtain ⟨text1, hp1, hr1⟩ := C38_round_trip F h hf awr temp ha ht pa pt (text2 ++ rest)
    obtain ⟨v, hv, hv0, hv1⟩ := C41.version1 F h hf awr temp ha ht hz h0 h1 (text2 ++ rest)
    obtain rfl : text1 = headerText F h := by
      have := C38_printed F h hf
      rw [hp1] at this
      injection this
    refine ⟨headerText F h ++ text2, ?_, ?_⟩
    · unfold Table.print AnyHeader.print
      simp only
      rw [hp1, ok_bind, hp2, ok_bind]
      rfl
    · have hn1 : (d.xss.length : Int) :: d.nxs.drop 1 = d.nxs := C40.nxs_of hd.sized hn
      unfold Table.parse Table.parseHeader
      rw [List.append_assoc, hv, ok_bind, if_neg (by simp only [Bool.or_eq_true, beq_iff_eq, not_or]; exact ⟨hv0, hv1⟩), hr1, ok_bind]
      simp only [pure_eq_ok, ok_bind]
      rw [hr2, ok_bind, hn1]
  | v2 h d awr temp aw xss hf hd hn ha ht pa pt =>
    obtain ⟨text2, hp2, hr2⟩ := C40_round_trip F d aw xss hd rest
    obtain ⟨text1, hp1, hr1⟩ := C39_round_trip_partial F h hf awr temp ha ht pa pt (text2 ++ rest)
    have hv := C41.version2 F h hf (text2 ++ rest)
    obtain rfl : text1 = header201Text F h := by
      have := C39_printed F h hf
      rw [hp1] at this
      injection this
    refine ⟨header201Text F h ++ text2, ?_, ?_⟩
    · unfold Table.print AnyHeader.print
      simp only
      rw [hp1, ok_bind, hp2, ok_bind]
      rfl
    · have hn1 : (d.xss.length : Int) :: d.nxs.drop 1 = d.nxs := C40.nxs_of hd.sized hn
      unfold Table.parse Table.parseHeader
      rw [List.append_assoc, hv, ok_bind, if_pos (by rcases hf.version with e | e <;> rw [e] <;> decide), hr1, ok_bind]
      simp only [pure_eq_ok, ok_bind]
      rw [hr2, ok_bind, hn1]

/-- A file made of any number of printed tables is split into exactly these tables, in order. -/
theorem C41_concatenated (F : Formats) : ∀ l : List (Table × Table), (∀ p ∈ l, TableFits F p.1 p.2) →
    ∃ texts : List Str, l.mapM (fun p => p.1.print F) = .ok texts ∧
      Table.fromConcatenatedFile F texts.flatten = .ok (l.map (·.2)) := by
  have key : ∀ l : List (Table × Table), (∀ p ∈ l, TableFits F p.1 p.2) →
      ∃ texts : List Str, l.mapM (fun p => p.1.print F) = .ok texts ∧
        ∀ fuel, texts.flatten.length ≤ fuel → Table.tables F fuel texts.flatten = .ok (l.map (·.2)) := by
    intro l
    induction l with
    | nil => exact fun _ => ⟨[], rfl, fun fuel _ => by simp [Table.tables]⟩
    | cons p l ih =>
      intro h
      obtain ⟨texts, hm, ht⟩ := ih fun q hq => h q (by simp [hq])
      obtain ⟨text, hp, hr⟩ := C41_table F p.1 p.2 (h p (by simp)) texts.flatten
      refine ⟨text :: texts, by rw [List.mapM_cons, hp, ok_bind, hm, ok_bind]; rfl, ?_⟩
      intro fuel hfuel
      have hne := C41.print_cons hp
      rw [List.flatten_cons] at hfuel ⊢
      cases text with
      | nil => exact absurd rfl hne
      | cons c text =>
        cases fuel with
        | zero => simp at hfuel
        | succ fuel =>
          simp only [List.length_append, List.length_cons] at hfuel
          rw [List.cons_append] at hr ⊢
          rw [Table.tables, hr, ok_bind]
          simp only
          rw [ht fuel (by omega), ok_bind]
          rfl
  intro l h
  obtain ⟨texts, hm, ht⟩ := key l h
  exact ⟨texts, hm, ht _ (Nat.le_refl _)⟩

/-- `fromFile` returns the first table of such a file. -/
theorem C41_first (F : Formats) (t t' : Table) (h : TableFits F t t') (rest : Str) :
    ∃ text, t.print F = .ok text ∧ Table.fromFile F (text ++ rest) = .ok t' := by
  obtain ⟨text, hp, hr⟩ := C41_table F t t' h rest
  refine ⟨text, hp, ?_⟩
  unfold Table.fromFile
  rw [hr]
  rfl

/-! ## Reading a file ends -/

namespace C41

theorem nextLine_shorter {s line rest : Str} (h : nextLine s = .ok (line, rest)) : rest.length < s.length := by
  cases s with
  | nil => cases h
  | cons c s =>
    unfold nextLine at h
    injection h with h
    injection h with _ h
    subst h
    have h1 : ((c :: s).dropWhile (· != newline)).length ≤ (c :: s).length :=
      (List.dropWhile_sublist _).length_le
    rw [List.length_drop]
    simp only [List.length_cons] at h1 ⊢
    omega

theorem parseIZAW_le {F : Formats} : ∀ {n : Nat} {s : Str} {r}, TableData.parseIZAW F n s = .ok r →
    r.2.length ≤ s.length
  | 0, s, r, h => by injection h with h; subst h; exact Nat.le_refl _
  | n + 1, s, r, h => by
      unfold TableData.parseIZAW at h
      obtain ⟨⟨line, s1⟩, h1, h⟩ := bind_eq_ok.mp h
      obtain ⟨_, _, h⟩ := bind_eq_ok.mp h
      obtain ⟨⟨more, s2⟩, h2, h⟩ := bind_eq_ok.mp h
      injection h with h
      subst h
      have := nextLine_shorter h1
      have := parseIZAW_le h2
      simp only at *
      omega

theorem parseInts_le : ∀ {n : Nat} {s : Str} {r}, TableData.parseInts n s = .ok r → r.2.length ≤ s.length
  | 0, s, r, h => by injection h with h; subst h; exact Nat.le_refl _
  | n + 1, s, r, h => by
      unfold TableData.parseInts at h
      obtain ⟨⟨line, s1⟩, h1, h⟩ := bind_eq_ok.mp h
      obtain ⟨_, _, h⟩ := bind_eq_ok.mp h
      obtain ⟨⟨more, s2⟩, h2, h⟩ := bind_eq_ok.mp h
      injection h with h
      subst h
      have := nextLine_shorter h1
      have := parseInts_le h2
      simp only at *
      omega

theorem parseLines_le {F : Formats} : ∀ {n : Nat} {s : Str} {r}, TableData.parseLines F n s = .ok r →
    r.2.length ≤ s.length
  | 0, s, r, h => by injection h with h; subst h; exact Nat.le_refl _
  | n + 1, s, r, h => by
      unfold TableData.parseLines at h
      obtain ⟨⟨line, s1⟩, h1, h⟩ := bind_eq_ok.mp h
      obtain ⟨_, _, h⟩ := bind_eq_ok.mp h
      obtain ⟨⟨more, s2⟩, h2, h⟩ := bind_eq_ok.mp h
      injection h with h
      subst h
      have := nextLine_shorter h1
      have := parseLines_le h2
      simp only at *
      omega

theorem parseXSS_le {F : Formats} {n : Int} {s : Str} {r} (h : TableData.parseXSS F n s = .ok r) :
    r.2.length ≤ s.length := by
  unfold TableData.parseXSS at h
  obtain ⟨_, _, h⟩ := bind_eq_ok.mp h
  obtain ⟨⟨l1, s1⟩, h1, h⟩ := bind_eq_ok.mp h
  obtain ⟨⟨l2, s2⟩, h2, h⟩ := bind_eq_ok.mp h
  injection h with h
  subst h
  have h1 := parseLines_le h1
  unfold TableData.parseLast at h2
  split at h2
  · obtain ⟨⟨line, s3⟩, h3, h2⟩ := bind_eq_ok.mp h2
    obtain ⟨_, _, h2⟩ := bind_eq_ok.mp h2
    injection h2 with h2
    injection h2 with _ h2
    subst h2
    have := nextLine_shorter h3
    simp only at *
    omega
  · injection h2 with h2
    injection h2 with _ h2
    subst h2
    exact h1

theorem parseData_le {F : Formats} {s : Str} {r} (h : TableData.parse F s = .ok r) : r.2.length ≤ s.length := by
  unfold TableData.parse at h
  obtain ⟨⟨_, s1⟩, h1, h⟩ := bind_eq_ok.mp h
  obtain ⟨⟨_, s2⟩, h2, h⟩ := bind_eq_ok.mp h
  obtain ⟨⟨_, s3⟩, h3, h⟩ := bind_eq_ok.mp h
  obtain ⟨⟨_, s4⟩, h4, h⟩ := bind_eq_ok.mp h
  injection h with h
  subst h
  have h1 := parseIZAW_le h1
  have h2 := parseInts_le h2
  have h3 := parseInts_le h3
  have h4 := parseXSS_le h4
  simp only at *
  omega

theorem header_shorter {F : Formats} {s : Str} {r} (h : Header.parse F s = .ok r) : r.2.length < s.length := by
  unfold Header.parse at h
  obtain ⟨⟨_, s1⟩, h1, h⟩ := bind_eq_ok.mp h
  obtain ⟨_, _, h⟩ := bind_eq_ok.mp h
  obtain ⟨_, _, h⟩ := bind_eq_ok.mp h
  obtain ⟨_, _, h⟩ := bind_eq_ok.mp h
  obtain ⟨_, _, h⟩ := bind_eq_ok.mp h
  obtain ⟨⟨_, s2⟩, h2, h⟩ := bind_eq_ok.mp h
  injection h with h
  subst h
  have h1 := nextLine_shorter h1
  have h2 := nextLine_shorter h2
  simp only at *
  omega

theorem parseComments_le : ∀ {n : Nat} {s : Str} {r}, Header201.parseComments n s = .ok r →
    r.2.length ≤ s.length
  | 0, s, r, h => by injection h with h; subst h; exact Nat.le_refl _
  | n + 1, s, r, h => by
      unfold Header201.parseComments at h
      obtain ⟨⟨line, s1⟩, h1, h⟩ := bind_eq_ok.mp h
      obtain ⟨⟨more, s2⟩, h2, h⟩ := bind_eq_ok.mp h
      injection h with h
      subst h
      have := nextLine_shorter h1
      have := parseComments_le h2
      simp only at *
      omega

theorem header201_shorter {F : Formats} {s : Str} {r} (h : Header201.parse F s = .ok r) :
    r.2.length < s.length := by
  unfold Header201.parse at h
  obtain ⟨⟨_, s1⟩, h1, h⟩ := bind_eq_ok.mp h
  obtain ⟨_, _, h⟩ := bind_eq_ok.mp h
  obtain ⟨⟨_, s2⟩, h2, h⟩ := bind_eq_ok.mp h
  obtain ⟨⟨_, _, _, _⟩, _, h⟩ := bind_eq_ok.mp h
  obtain ⟨_, _, h⟩ := bind_eq_ok.mp h
  obtain ⟨_, _, h⟩ := bind_eq_ok.mp h
  obtain ⟨_, _, h⟩ := bind_eq_ok.mp h
  obtain ⟨⟨_, s3⟩, h3, h⟩ := bind_eq_ok.mp h
  injection h with h
  subst h
  have h1 := nextLine_shorter h1
  have h2 := nextLine_shorter h2
  have h3 := parseComments_le h3
  simp only at *
  omega

theorem parseHeader_shorter {F : Formats} {s : Str} {r} (h : Table.parseHeader F s = .ok r) :
    r.2.length < s.length := by
  unfold Table.parseHeader at h
  obtain ⟨_, _, h⟩ := bind_eq_ok.mp h
  split at h
  · obtain ⟨⟨_, s1⟩, h1, h⟩ := bind_eq_ok.mp h
    injection h with h
    subst h
    exact header201_shorter h1
  · obtain ⟨⟨_, s1⟩, h1, h⟩ := bind_eq_ok.mp h
    injection h with h
    subst h
    exact header_shorter h1

/-- Reading a table takes at least one character. -/
theorem parse_shorter {F : Formats} {s : Str} {r} (h : Table.parse F s = .ok r) : r.2.length < s.length := by
  unfold Table.parse at h
  obtain ⟨⟨_, s1⟩, h1, h⟩ := bind_eq_ok.mp h
  obtain ⟨⟨_, s2⟩, h2, h⟩ := bind_eq_ok.mp h
  injection h with h
  subst h
  have h1 := parseHeader_shorter h1
  have h2 := parseData_le h2
  simp only at *
  omega

end C41

/-- Whatever a file contains: each table that is read takes at least one character, so there are at most as
many tables as characters, and more steps of the loop change nothing. -/
theorem C41_ends (F : Formats) : ∀ (n : Nat) (content : Str), content.length ≤ n →
    Table.tables F n content = Table.fromConcatenatedFile F content := by
  have key : ∀ (n m : Nat) (s : Str), s.length ≤ n → s.length ≤ m → Table.tables F n s = Table.tables F m s := by
    intro n
    induction n with
    | zero =>
      intro m s hn _
      obtain rfl : s = [] := List.length_eq_zero_iff.mp (by omega)
      simp [Table.tables]
    | succ n ih =>
      intro m s hn hm
      cases s with
      | nil => simp [Table.tables]
      | cons c s =>
        cases m with
        | zero => simp at hm
        | succ m =>
          unfold Table.tables
          cases hp : Table.parse F (c :: s) with
          | error e => rfl
          | ok r =>
            have := C41.parse_shorter hp
            rw [ok_bind, ok_bind]
            simp only [List.length_cons] at hn hm this ⊢
            rw [ih m r.2 (by omega) (by omega)]
  intro n content h
  exact key n _ content h (Nat.le_refl _)

/-- The tables of a file are not more than its characters. -/
theorem C41_number (F : Formats) (content : Str) (l : List Table)
    (h : Table.fromConcatenatedFile F content = .ok l) : l.length ≤ content.length := by
  have key : ∀ (n : Nat) (s : Str) (l : List Table), Table.tables F n s = .ok l → l.length ≤ s.length := by
    intro n
    induction n with
    | zero =>
      intro s l h
      cases s with
      | nil => simp [Table.tables] at h; subst h; simp
      | cons c s => simp [Table.tables] at h
    | succ n ih =>
      intro s l h
      cases s with
      | nil => simp [Table.tables] at h; subst h; simp
      | cons c s =>
        unfold Table.tables at h
        obtain ⟨⟨t, s1⟩, h1, h⟩ := bind_eq_ok.mp h
        obtain ⟨l1, h2, h⟩ := bind_eq_ok.mp h
        injection h with h
        subst h
        have a := C41.parse_shorter h1
        have b := ih _ _ h2
        simp only [List.length_cons] at *
        omega
  exact key _ _ _ h

/-! ## Examples -/

/-- A version 1 and a version 2 table. -/
def exTable1 : Table := ⟨.v1 exHeader, exBody⟩
def exTable2 : Table := ⟨.v2 (exHeader201 "12/19/12" ["  two", "comments"]), exBody⟩

theorem exTable1_fits : TableFits Decimal.std exTable1 ⟨.v1 exHeader, { exBody with xss := exRead }⟩ :=
  .v1 exHeader exBody exAwr exTemp exBody.aw exRead exHeader_fits exBody_fits (by decide +kernel) exAwr_written
    exTemp_written (by decide +kernel) (by decide +kernel) (by decide +kernel) (by decide +kernel)
    (by decide +kernel)

theorem exTable2_fits : TableFits Decimal.std exTable2
    ⟨.v2 (exHeader201 "12/19/12" ["  two", "comments"]), { exBody with xss := exRead }⟩ :=
  .v2 _ exBody exAwr exTemp exBody.aw exRead exHeader201_fits exBody_fits (by decide +kernel) exAwr_written
    exTemp_written (by decide +kernel) (by decide +kernel)

example : ∃ texts : List Str,
    [exTable1, exTable2, exTable1].mapM (fun t => t.print Decimal.std) = .ok texts ∧
      (Table.fromConcatenatedFile Decimal.std texts.flatten).map (fun l => l.map (·.header)) =
        .ok [exTable1.header, exTable2.header, exTable1.header] := by
  obtain ⟨texts, h1, h2⟩ := C41_concatenated Decimal.std [(exTable1, _), (exTable2, _), (exTable1, _)] (by
    intro p hp
    simp only [List.mem_cons, List.not_mem_nil, or_false] at hp
    rcases hp with rfl | rfl | rfl
    · exact exTable1_fits
    · exact exTable2_fits
    · exact exTable1_fits)
  refine ⟨texts, ?_, ?_⟩
  · have := List.mapM_map (m := Except Err) (f := fun p : Table × Table => p.1) (g := fun t : Table => t.print Decimal.std)
      (l := [(exTable1, (⟨.v1 exHeader, { exBody with xss := exRead }⟩ : Table)),
        (exTable2, ⟨.v2 (exHeader201 "12/19/12" ["  two", "comments"]), { exBody with xss := exRead }⟩),
        (exTable1, ⟨.v1 exHeader, { exBody with xss := exRead }⟩)])
    exact this.trans h1
  · rw [h2]; rfl

/-- A version 1 header with the ZAID "2.0.0" is printed, and then read as a version 2 header. -/
theorem C41_zaid : ∃ text, Header.print Decimal.std { exHeader with zaid := "2.0.0".toList } = .ok text ∧
    Header.parse Decimal.std text = .ok ({ exHeader with zaid := "2.0.0".toList }, []) ∧
    Table.readVersion text = .ok "2.0.0".toList ∧ Table.parseHeader Decimal.std text = .error .ub := by
  refine ⟨_, rfl, ?_, ?_, ?_⟩ <;> decide +kernel

/-- The hypotheses of the other theorems are met too. -/
example := C41_first Decimal.std _ _ exTable2_fits
example := C41_number Decimal.std [] [] (by decide)

end ACE.Props

import Verif.Lemmas.TableText
import Verif.Props.C38

/-!
# C40: the table body survives printing and parsing
-/

namespace ACE.Props
open ACE ACE.Text ACE.TableData

/-- Rows of `k` values, the last one may be shorter (at most `n` rows). -/
def rows {α : Type} (k : Nat) : Nat → List α → List (List α)
  | 0, _ => []
  | n + 1, l => if l.isEmpty then [] else l.take k :: rows k n (l.drop k)

/-- Fields in lines of `k`. -/
def inLines (k : Nat) (fields : List Str) : Str :=
  ((rows k fields.length fields).map fun r => r.flatten ++ "\n".toList).flatten

/-- The text of the body: four pairs per line, eight integers per line, four reals per line. NXS(1) is the
number of words. -/
def dataText (F : Formats) (d : TableData) : Str :=
  inLines 4 ((d.iz.zip d.aw).map fun p => rightIn 7 (Text.ofInt p.1) ++ rightIn 11 (F.fixed 7 p.2)) ++
    inLines 8 (((d.xss.length : Int) :: d.nxs.drop 1).map fun i => rightIn 9 (Text.ofInt i)) ++
    inLines 8 (d.jxs.map fun i => rightIn 9 (Text.ofInt i)) ++
    inLines 4 (d.xss.map fun x => rightIn 20 (F.sci 'E' 12 x))

/-- The data fit their columns, and the reals are read as `aw` and `xss`. -/
structure DataFits (F : Formats) (d : TableData) (aw xss : Words) : Prop where
  sized : d.Sized
  iz : ∀ i ∈ d.iz, FitsField 7 i
  aw : aw.length = 16 ∧ ∀ p ∈ d.aw.zip aw, Written F 11 (F.fixed 7 p.1) p.2
  nxs : ∀ i ∈ d.nxs, FitsField 9 i
  jxs : ∀ i ∈ d.jxs, FitsField 9 i
  length : FitsField 9 (d.xss.length : Int)
  xss : xss.length = d.xss.length ∧ ∀ p ∈ d.xss.zip xss, Written F 20 (F.sci 'E' 12 p.1) p.2

namespace C40

theorem rows_add {α : Type} (k : Nat) (hk : 1 ≤ k) : ∀ (n m : Nat) (l : List α), l.length ≤ n → l.length ≤ m →
    rows k n l = rows k m l
  | 0, m, l, hn, _ => by
      obtain rfl : l = [] := List.length_eq_zero_iff.mp (by omega)
      cases m <;> simp [rows]
  | n + 1, 0, l, _, hm => by
      obtain rfl : l = [] := List.length_eq_zero_iff.mp (by omega)
      simp [rows]
  | n + 1, m + 1, l, hn, hm => by
      unfold rows
      cases l with
      | nil => rfl
      | cons a l =>
        simp only [List.isEmpty_cons]
        rw [rows_add k hk n m _ (by simp only [List.length_drop]; omega) (by simp only [List.length_drop]; omega)]

theorem inLines_cons (k : Nat) (hk : 1 ≤ k) (a b : List Str) (h : a.length = k) :
    inLines k (a ++ b) = a.flatten ++ "\n".toList ++ inLines k b := by
  unfold inLines
  have hne : (a ++ b).isEmpty = false := by
    cases a with
    | nil => simp at h; omega
    | cons _ _ => rfl
  rw [rows_add k hk (a ++ b).length (b.length + 1 + k) _ (by omega) (by simp; omega),
    show b.length + 1 + k = (b.length + k) + 1 by omega, rows, hne]
  simp only [Bool.false_eq_true, if_false, ← h, List.take_left, List.drop_left, List.map_cons, List.flatten_cons]
  rw [rows_add a.length (by omega) (b.length + a.length) b.length b (by omega) (by omega)]

theorem xssText_eq (F : Formats) : ∀ w : Words,
    xssText F w = inLines 4 (w.map fun x => rightIn 20 (F.sci 'E' 12 x))
  | [] => rfl
  | [a] => by
      simp [xssText, wordsText, printWord, inLines, rows, rightIn, pad, newline]
  | [a, b] => by
      simp [xssText, wordsText, printWord, inLines, rows, rightIn, pad, newline]
  | [a, b, c] => by
      simp [xssText, wordsText, printWord, inLines, rows, rightIn, pad, newline]
  | a :: b :: c :: d :: w => by
      have := inLines_cons 4 (by decide) ([a, b, c, d].map fun x => rightIn 20 (F.sci 'E' 12 x))
        (w.map fun x => rightIn 20 (F.sci 'E' 12 x)) rfl
      rw [xssText, xssText_eq F w]
      simp only [List.map_cons, List.map_nil, List.cons_append, List.nil_append] at this ⊢
      rw [this]
      simp [wordsText, printWord, rightIn, pad, newline]

theorem inLines_step (k : Nat) (hk : 1 ≤ k) (l : List Str) (h : k ≤ l.length) :
    inLines k l = (l.take k).flatten ++ "\n".toList ++ inLines k (l.drop k) := by
  have := inLines_cons k hk (l.take k) (l.drop k) (by rw [List.length_take]; omega)
  rwa [List.take_append_drop] at this

theorem inLines_nil (k : Nat) : inLines k [] = [] := rfl

/-- The fields of the IZAW lines. -/
def pairFields (F : Formats) (d : TableData) : List Str :=
  (d.iz.zip d.aw).map fun p => rightIn 7 (Text.ofInt p.1) ++ rightIn 11 (F.fixed 7 p.2)

theorem fetch_of {α : Type} (l : List α) {i : Nat} (h : i < l.length) : fetch l (i + 1) = .ok l[i] := by
  unfold fetch verifyIndex
  rw [if_neg (by omega), ok_bind]
  simp [List.getElem?_eq_getElem h]

theorem printPair_of (F : Formats) (d : TableData) (hi : d.iz.length = 16) (ha : d.aw.length = 16) {i : Nat}
    (h : i < 16) : d.printPair F (i + 1) = .ok ((pairFields F d)[i]'(by simp [pairFields]; omega)) := by
  unfold printPair
  rw [fetch_of _ (by omega), ok_bind, fetch_of _ (by omega), ok_bind, pure_eq_ok]
  simp [pairFields, rightIn, pad]

theorem printPairs_of (F : Formats) (d : TableData) (hi : d.iz.length = 16) (ha : d.aw.length = 16) {i : Nat}
    (h : i + 4 ≤ 16) : d.printPairs F (i + 1) = .ok ((((pairFields F d).drop i).take 4).flatten ++ "\n".toList) := by
  have hl : (pairFields F d).length = 16 := by simp [pairFields]; omega
  have e : ((pairFields F d).drop i).take 4 = [(pairFields F d)[i], (pairFields F d)[i + 1],
      (pairFields F d)[i + 2], (pairFields F d)[i + 3]] := by
    rw [List.drop_eq_getElem_cons (by omega), List.drop_eq_getElem_cons (by omega),
      List.drop_eq_getElem_cons (by omega), List.drop_eq_getElem_cons (by omega)]
    rfl
  unfold printPairs
  rw [printPair_of F d hi ha (by omega), ok_bind, show i + 1 + 1 = (i + 1) + 1 from rfl,
    printPair_of F d hi ha (by omega), ok_bind, show i + 1 + 2 = (i + 2) + 1 from rfl,
    printPair_of F d hi ha (by omega), ok_bind, show i + 1 + 3 = (i + 3) + 1 from rfl,
    printPair_of F d hi ha (by omega), ok_bind, pure_eq_ok, e]
  simp [newline]

theorem inLines16 (l : List Str) (h : l.length = 16) : inLines 4 l =
    ((l.drop 0).take 4).flatten ++ "\n".toList ++ (((l.drop 4).take 4).flatten ++ "\n".toList) ++
      (((l.drop 8).take 4).flatten ++ "\n".toList) ++ (((l.drop 12).take 4).flatten ++ "\n".toList) := by
  rw [inLines_step 4 (by decide) l (by omega), inLines_step 4 (by decide) _ (by rw [List.length_drop]; omega),
    inLines_step 4 (by decide) _ (by rw [List.length_drop, List.length_drop]; omega),
    inLines_step 4 (by decide) _ (by rw [List.length_drop, List.length_drop, List.length_drop]; omega)]
  simp only [List.drop_drop, Nat.reduceAdd]
  rw [List.drop_of_length_le (i := 16) (by omega), inLines_nil]
  simp

/-- The fields of integers. -/
def intFields (l : List Int) : List Str := l.map fun i => rightIn 9 (Text.ofInt i)

theorem printInts_eq (l : List Int) : printInts l = (intFields l).flatten ++ "\n".toList := rfl

theorem ints16 (l : List Int) (h : l.length = 16) :
    printInts (l.take 8) ++ printInts (l.drop 8) = inLines 8 (intFields l) := by
  rw [inLines_step 8 (by decide) _ (by simp [intFields]; omega),
    inLines_step 8 (by decide) _ (by simp [intFields]; omega), List.drop_drop,
    List.drop_of_length_le (i := 8 + 8) (by simp [intFields]; omega), inLines_nil, printInts_eq, printInts_eq]
  have : (intFields (l.drop 8)) = ((intFields l).drop 8).take 8 := by
    rw [List.take_of_length_le (by simp [intFields]; omega)]
    simp [intFields]
  rw [this, show intFields (l.take 8) = (intFields l).take 8 by simp [intFields]]
  simp

theorem ints32 (l : List Int) (h : l.length = 32) :
    printInts (l.take 8) ++ printInts ((l.drop 8).take 8) ++ printInts ((l.drop 16).take 8) ++
      printInts (l.drop 24) = inLines 8 (intFields l) := by
  have h2 := ints16 (l.drop 16) (by rw [List.length_drop]; omega)
  rw [List.drop_drop] at h2
  rw [inLines_step 8 (by decide) _ (by simp [intFields]; omega),
    inLines_step 8 (by decide) _ (by simp [intFields]; omega), List.drop_drop,
    show (intFields l).drop (8 + 8) = intFields (l.drop 16) by simp [intFields], ← h2, printInts_eq (l.take 8),
    printInts_eq ((l.drop 8).take 8)]
  simp [intFields]

end C40

/-- Every table whose arrays have their sizes is printed, in this form. -/
theorem C40_printed (F : Formats) (d : TableData) (hs : d.Sized) : d.print F = .ok (dataText F d) := by
  have hp : ∀ i, i + 4 ≤ 16 → d.printPairs F (i + 1) = _ := fun i h => C40.printPairs_of F d hs.iz hs.aw h
  have hn : d.printedNXS = .ok ((d.xss.length : Int) :: d.nxs.drop 1) := by
    unfold printedNXS
    rw [show (fun i => d.NXS i) = fun i => fetch d.nxs i from rfl, mapM_fetch d.nxs 1 15 hs.nxs.symm]
    rfl
  have hj : (List.range' 1 32).mapM (fun i => d.JXS i) = .ok d.jxs := by
    rw [show (fun i => d.JXS i) = fun i => fetch d.jxs i from rfl, mapM_fetch d.jxs 0 32 (by have := hs.jxs; omega)]
    rfl
  unfold TableData.print
  rw [hp 0 (by omega), ok_bind, hp 4 (by omega), ok_bind, hp 8 (by omega), ok_bind, hp 12 (by omega), ok_bind]
  simp only
  rw [hn, ok_bind, hj, ok_bind, printXSS_eq, ok_bind, pure_eq_ok, C40.xssText_eq]
  have h1 := C40.inLines16 (C40.pairFields F d) (by simp [C40.pairFields, hs.iz, hs.aw])
  have h2 := C40.ints16 ((d.xss.length : Int) :: d.nxs.drop 1) (by simp [hs.nxs])
  have h3 := C40.ints32 d.jxs hs.jxs
  unfold dataText
  rw [show (d.iz.zip d.aw).map (fun p => rightIn 7 (Text.ofInt p.1) ++ rightIn 11 (F.fixed 7 p.2)) =
      C40.pairFields F d from rfl, h1,
    show (((d.xss.length : Int) :: d.nxs.drop 1).map fun i => rightIn 9 (Text.ofInt i)) = C40.intFields _ from rfl,
    ← h2, show (d.jxs.map fun i => rightIn 9 (Text.ofInt i)) = C40.intFields _ from rfl, ← h3]
  simp only [List.append_assoc]

/-- The body is returned from its printed form, whatever follows: NXS(1) becomes the number of words. -/
theorem C40_round_trip (F : Formats) (d : TableData) (aw xss : Words) (hf : DataFits F d aw xss) (rest : Str) :
    ∃ text, d.print F = .ok text ∧ TableData.parse F (text ++ rest) =
      .ok (⟨d.iz, aw, (d.xss.length : Int) :: d.nxs.drop 1, d.jxs, xss⟩, rest) := by
  refine ⟨_, C40_printed F d hf.sized, ?_⟩
  have hs := hf.sized
  -- the lines of the four parts
  let t : List Pair := d.iz.zip (d.aw.zip aw)
  have htl : t.length = 16 := by simp [t, hs.iz, hs.aw, hf.aw.1]
  have htok : ∀ p ∈ t, PairOk F p := by
    intro p hp
    have := List.of_mem_zip hp
    exact ⟨hf.iz _ this.1, hf.aw.2 _ this.2⟩
  have hft : C40.pairFields F d = t.map (pairText F) := by
    refine List.ext_getElem (by simp [C40.pairFields, htl, hs.iz, hs.aw]) ?_
    intro i h1 h2
    simp [C40.pairFields, t, pairText, rightIn, pad]
  have e1 : inLines 4 (C40.pairFields F d) =
      ([t.take 4, (t.drop 4).take 4, (t.drop 8).take 4, (t.drop 12).take 4].map fun l =>
        (l.map (pairText F)).flatten ++ [newline]).flatten := by
    rw [C40.inLines16 _ (by rw [hft]; simp [htl]), hft]
    simp [newline]
  have p1 : ∀ rest, parseIZAW F 4 (inLines 4 (C40.pairFields F d) ++ rest) =
      .ok (t.map fun p => (p.1, p.2.2), rest) := by
    intro rest
    rw [e1]
    have := parseIZAW_eq F [t.take 4, (t.drop 4).take 4, (t.drop 8).take 4, (t.drop 12).take 4] rest (by
      intro l hl
      simp only [List.mem_cons, List.not_mem_nil, or_false] at hl
      rcases hl with rfl | rfl | rfl | rfl
      · exact ⟨by simp [htl], fun p hp => htok p (List.mem_of_mem_take hp)⟩
      · exact ⟨by simp [htl], fun p hp => htok p (List.mem_of_mem_drop (List.mem_of_mem_take hp))⟩
      · exact ⟨by simp [htl], fun p hp => htok p (List.mem_of_mem_drop (List.mem_of_mem_take hp))⟩
      · exact ⟨by simp [htl], fun p hp => htok p (List.mem_of_mem_drop (List.mem_of_mem_take hp))⟩)
    have ht : [t.take 4, (t.drop 4).take 4, (t.drop 8).take 4, (t.drop 12).take 4].flatten = t := by
      have a1 : (t.drop 12).take 4 = t.drop 12 := List.take_of_length_le (by simp [htl])
      have a2 : (t.drop 8).take 4 ++ t.drop 12 = t.drop 8 := by
        have := List.take_append_drop 4 (t.drop 8); rwa [List.drop_drop] at this
      have a3 : (t.drop 4).take 4 ++ t.drop 8 = t.drop 4 := by
        have := List.take_append_drop 4 (t.drop 4); rwa [List.drop_drop] at this
      simp only [List.flatten_cons, List.flatten_nil, List.append_nil]
      rw [a1, a2, a3, List.take_append_drop]
    rw [ht] at this
    exact this
  have ints : ∀ (ls : List (List Int)) (n : Nat) (l : List Int) (rest : Str), n = ls.length → ls.flatten = l →
      (∀ m ∈ ls, m.length = 8) → (∀ i ∈ l, FitsField 9 i) →
      parseInts n ((ls.map printInts).flatten ++ rest) = .ok (l, rest) := by
    intro ls n l rest hn hl h8 hf
    subst hn hl
    exact parseInts_eq ls rest fun m hm => ⟨h8 m hm, fun i hi => hf i (List.mem_flatten.mpr ⟨m, hm, hi⟩)⟩
  have p2 : ∀ rest, parseInts 2 (inLines 8 (C40.intFields ((d.xss.length : Int) :: d.nxs.drop 1)) ++ rest) =
      .ok ((d.xss.length : Int) :: d.nxs.drop 1, rest) := by
    intro rest
    have h16 : ((d.xss.length : Int) :: d.nxs.drop 1).length = 16 := by simp [hs.nxs]
    generalize hl : (d.xss.length : Int) :: d.nxs.drop 1 = l at h16
    rw [← C40.ints16 l h16]
    have := ints [l.take 8, l.drop 8] 2 l rest rfl (by simp) (by simp [h16]) (by
      rw [← hl]
      intro i hi
      simp only [List.mem_cons] at hi
      rcases hi with rfl | hi
      · exact hf.length
      · exact hf.nxs i (List.mem_of_mem_drop hi))
    simpa using this
  have p3 : ∀ rest, parseInts 4 (inLines 8 (C40.intFields d.jxs) ++ rest) = .ok (d.jxs, rest) := by
    intro rest
    rw [← C40.ints32 d.jxs hs.jxs]
    have := ints [d.jxs.take 8, (d.jxs.drop 8).take 8, (d.jxs.drop 16).take 8, d.jxs.drop 24] 4 d.jxs rest rfl
      (by
        have a2 : (d.jxs.drop 16).take 8 ++ d.jxs.drop 24 = d.jxs.drop 16 := by
          have := List.take_append_drop 8 (d.jxs.drop 16); rwa [List.drop_drop] at this
        have a3 : (d.jxs.drop 8).take 8 ++ d.jxs.drop 16 = d.jxs.drop 8 := by
          have := List.take_append_drop 8 (d.jxs.drop 8); rwa [List.drop_drop] at this
        simp only [List.flatten_cons, List.flatten_nil, List.append_nil]
        rw [a2, a3, List.take_append_drop])
      (by simp [hs.jxs]) hf.jxs
    simpa using this
  have p4 : parseXSS F (d.xss.length : Int) (xssText F d.xss ++ rest) = .ok (xss, rest) := by
    have hz := parseXSS_eq F (d.xss.zip xss) rest hf.xss.2
    have hx := hf.xss.1
    rw [List.map_fst_zip (by omega), List.map_snd_zip (by omega), List.length_zip, hf.xss.1, Nat.min_self] at hz
    exact hz
  have e : dataText F d ++ rest = inLines 4 (C40.pairFields F d) ++
      (inLines 8 (C40.intFields ((d.xss.length : Int) :: d.nxs.drop 1)) ++
        (inLines 8 (C40.intFields d.jxs) ++ (xssText F d.xss ++ rest))) := by
    rw [C40.xssText_eq]
    simp only [dataText, C40.pairFields, C40.intFields, List.append_assoc]
  unfold TableData.parse
  rw [e, p1, ok_bind]
  simp only
  rw [p2, ok_bind]
  simp only
  rw [p3, ok_bind]
  simp only [List.headD_cons]
  rw [p4, ok_bind]
  simp only [pure_eq_ok, t]
  have m1 : ((d.iz.zip (d.aw.zip aw)).map fun p => (p.1, p.2.2)).map (·.1) = d.iz := by
    rw [List.map_map, show ((fun x : Int × Dbl => x.1) ∘ fun p : Int × Dbl × Dbl => (p.1, p.2.2)) = (·.1) from rfl,
      List.map_fst_zip (by simp [hs.iz, hs.aw, hf.aw.1])]
  have m2 : ((d.iz.zip (d.aw.zip aw)).map fun p => (p.1, p.2.2)).map (·.2) = aw := by
    rw [List.map_map, show ((fun x : Int × Dbl => x.2) ∘ fun p : Int × Dbl × Dbl => (p.1, p.2.2)) =
      (fun p : Dbl × Dbl => p.2) ∘ (fun p : Int × Dbl × Dbl => p.2) from rfl,
      ← List.map_map, List.map_snd_zip (by simp [hs.iz, hs.aw, hf.aw.1]),
      List.map_snd_zip (by simp [hs.aw, hf.aw.1])]
  rw [m1, m2]

theorem C40.nxs_of {d : TableData} (hs : d.Sized) (h1 : d.NXS 1 = .ok (d.xss.length : Int)) :
    (d.xss.length : Int) :: d.nxs.drop 1 = d.nxs := by
  have hn := hs.nxs
  cases hx : d.nxs with
  | nil => rw [hx] at hn; simp at hn
  | cons a l =>
    unfold NXS fetch verifyIndex at h1
    rw [hx] at h1
    rw [if_neg (by simp), ok_bind] at h1
    simp at h1
    simp [h1]

/-- With the number of words in NXS(1) everything is returned. -/
theorem C40_exact (F : Formats) (d : TableData) (hf : DataFits F d d.aw d.xss)
    (h1 : d.NXS 1 = .ok (d.xss.length : Int)) (rest : Str) :
    ∃ text, d.print F = .ok text ∧ TableData.parse F (text ++ rest) = .ok (d, rest) := by
  obtain ⟨text, hp, hr⟩ := C40_round_trip F d d.aw d.xss hf rest
  refine ⟨text, hp, ?_⟩
  rw [hr, C40.nxs_of hf.sized h1]

/-! ## Examples -/

/-- A table body with five words. -/
def exBody : TableData where
  iz := 1001 :: List.replicate 15 0
  aw := Dbl.ofNat 1 :: List.replicate 15 (Dbl.ofNat 0)
  nxs := 5 :: 92235 :: List.replicate 14 0
  jxs := 1 :: -7 :: List.replicate 30 0
  xss := [Dbl.ofNat 1, .fin true 25 (-1), Dbl.ofNat 1234567890123, .fin false 3 (-40), Dbl.ofNat 0]

theorem exBody_reals :
    (∀ p ∈ exBody.aw.zip exBody.aw, Decimal.std.fixed 7 p.1 ≠ [] ∧ (Decimal.std.fixed 7 p.1).length ≤ 11 ∧
      (Decimal.std.fixed 7 p.1).all isReal = true ∧ Decimal.std.value (Decimal.std.fixed 7 p.1) = some p.2) := by
  decide +kernel

/-- What these words are read as: `3 * 2^-40` is rounded to 13 digits. -/
def exRead : Words := [Dbl.ofNat 1, .fin true 7036874417766400 (-49), Dbl.ofNat 1234567890123,
  .fin false 6755399441056277 (-91), Dbl.ofNat 0]

theorem exBody_words :
    (∀ p ∈ exBody.xss.zip exRead, Decimal.std.sci 'E' 12 p.1 ≠ [] ∧ (Decimal.std.sci 'E' 12 p.1).length ≤ 20 ∧
      (Decimal.std.sci 'E' 12 p.1).all isReal = true ∧ Decimal.std.value (Decimal.std.sci 'E' 12 p.1) = some p.2) := by
  decide +kernel

theorem exBody_fits : DataFits Decimal.std exBody exBody.aw exRead where
  sized := ⟨rfl, rfl, rfl, rfl⟩
  iz := by unfold FitsField; decide +kernel
  aw := ⟨rfl, fun p hp => by
    obtain ⟨h1, h2, h3, h4⟩ := exBody_reals p hp
    exact ⟨h1, h2, by simpa using h3, h4⟩⟩
  nxs := by unfold FitsField; decide +kernel
  jxs := by unfold FitsField; decide +kernel
  length := by unfold FitsField; decide +kernel
  xss := ⟨rfl, fun p hp => by
    obtain ⟨h1, h2, h3, h4⟩ := exBody_words p hp
    exact ⟨h1, h2, by simpa using h3, h4⟩⟩

example : ∃ text, exBody.print Decimal.std = .ok text ∧
    TableData.parse Decimal.std (text ++ "more".toList) = .ok ({ exBody with xss := exRead }, "more".toList) :=
  C40_round_trip Decimal.std exBody exBody.aw exRead exBody_fits _

/-- The body that is read from a printed body. -/
def rereadBody (d : TableData) : Res TableData := do
  return (← TableData.parse Decimal.std (← d.print Decimal.std)).1

/-- Another NXS(1) is replaced by the number of words. -/
theorem C40_wrong_count : (rereadBody { exBody with nxs := 3 :: List.replicate 15 0 }).map (·.nxs) =
    .ok (5 :: List.replicate 15 0) := by decide +kernel

/-- An integer of ten digits moves the columns behind it: the numbers that are read are others. -/
theorem C40_ten_digits : (rereadBody { exBody with jxs := 1234567890 :: List.replicate 31 0 }).map (·.jxs.take 2) =
    .ok [123456789, 0] := by decide +kernel

/-- The hypotheses of the other theorems are met too: a body whose numbers have few digits is read exactly. -/
def exExact : TableData := { exBody with xss := [Dbl.ofNat 1, Dbl.ofNat 0, Dbl.ofNat 12, Dbl.ofInt (-3), Dbl.ofNat 20] }
theorem exExact_words :
    (∀ p ∈ exExact.xss.zip exExact.xss, Decimal.std.sci 'E' 12 p.1 ≠ [] ∧ (Decimal.std.sci 'E' 12 p.1).length ≤ 20 ∧
      (Decimal.std.sci 'E' 12 p.1).all isReal = true ∧ Decimal.std.value (Decimal.std.sci 'E' 12 p.1) = some p.2) := by
  decide +kernel
example := C40_printed Decimal.std exExact ⟨rfl, rfl, rfl, rfl⟩
example := C40_exact Decimal.std exExact ⟨⟨rfl, rfl, rfl, rfl⟩, exBody_fits.iz, exBody_fits.aw, exBody_fits.nxs, exBody_fits.jxs,
  exBody_fits.length, ⟨rfl, fun p hp => by
    obtain ⟨h1, h2, h3, h4⟩ := exExact_words p hp
    exact ⟨h1, h2, by simpa using h3, h4⟩⟩⟩ rfl

end ACE.Props

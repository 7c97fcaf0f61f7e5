import Verif.Lemmas.Columns
import Verif.Lemmas.TabDist
import Verif.Lemmas.Lookup
import Verif.Model.Located

/-! # Helper lemmas about blocks with locators -/

namespace ACE

theorem mapM_range_ok {α : Type} (f : Nat → Res α) (l : List α) (k n : Nat)
    (hn : n = l.length) (h : ∀ (i : Nat) (hi : i < l.length), f (k + i) = .ok l[i]) :
    (List.range' k n).mapM f = .ok l := by
  subst hn
  induction l generalizing k with
  | nil => rfl
  | cons a l ih =>
    have h0 := h 0 (by simp)
    have hs := ih (k + 1) (fun i hi => by
      have := h (i + 1) (by simpa using hi)
      simpa [Nat.add_assoc, Nat.add_comm 1 i] using this)
    simp only [Nat.add_zero] at h0
    simp [List.range'_succ, List.mapM_cons, h0, hs]

theorem mapM_range_eq {α : Type} (f : Nat → Res α) (l : List α) (n : Nat) (hn : n = l.length)
    (h : ∀ (i : Nat) (hi : i < l.length), f i = .ok l[i]) :
    (List.range n).mapM f = .ok l := by
  rw [List.range_eq_range']
  exact mapM_range_ok f l 0 n hn (fun i hi => by simpa using h i hi)

/-- The number of words before part `i`. -/
def startOf (parts : List Words) (i : Nat) : Nat := (parts.take i).flatten.length

@[simp] theorem startOf_zero (parts : List Words) : startOf parts 0 = 0 := by simp [startOf]

theorem startOf_succ (parts : List Words) (i : Nat) (h : i < parts.length) :
    startOf parts (i + 1) = startOf parts i + parts[i].length := by
  unfold startOf
  rw [List.take_add_one, List.getElem?_eq_getElem h, List.flatten_append, List.length_append]
  simp only [Option.toList_some, List.flatten_cons, List.flatten_nil, List.append_nil]

theorem startOf_length (parts : List Words) : startOf parts parts.length = parts.flatten.length := by
  simp [startOf]

theorem startOf_le (parts : List Words) (i : Nat) : startOf parts i ≤ parts.flatten.length := by
  have : parts.flatten = (parts.take i).flatten ++ (parts.drop i).flatten := by
    rw [← List.flatten_append, List.take_append_drop]
  rw [this, List.length_append]; exact Nat.le_add_right _ _

theorem startOf_mono (parts : List Words) {i j : Nat} (h : i ≤ j) :
    startOf parts i ≤ startOf parts j := by
  have : parts.take i = (parts.take j).take i := by simp [List.take_take, Nat.min_eq_left h]
  unfold startOf
  rw [this]
  exact startOf_le (parts.take j) i

theorem startOf_add_le (parts : List Words) (i : Nat) (h : i < parts.length) :
    startOf parts i + parts[i].length ≤ parts.flatten.length := by
  rw [← startOf_succ parts i h]; exact startOf_le parts _

/-- The locators written for the parts, the first one at offset `k`. -/
def locsFrom (loc : Nat → Dbl) (k : Nat) : List Words → Words
  | [] => []
  | d :: ds => loc k :: locsFrom loc (k + d.length) ds

@[simp] theorem locsFrom_length (loc : Nat → Dbl) (k : Nat) (ds : List Words) :
    (locsFrom loc k ds).length = ds.length := by
  induction ds generalizing k with
  | nil => rfl
  | cons d ds ih => simp [locsFrom, ih]

theorem locsFrom_getElem (loc : Nat → Dbl) (k : Nat) (ds : List Words) (i : Nat)
    (h : i < (locsFrom loc k ds).length) :
    (locsFrom loc k ds)[i] = loc (k + startOf ds i) := by
  induction ds generalizing k i with
  | nil => simp [locsFrom] at h
  | cons d ds ih =>
    cases i with
    | zero => simp [locsFrom]
    | succ i =>
      simp only [locsFrom, List.getElem_cons_succ]
      rw [ih]
      simp [startOf, Nat.add_assoc]

theorem locatorLoop_spec (loc : Nat → Dbl) (n : Nat) (ds : List Words) (locs acc : Words) (z : Dbl)
    (hn : n = locs.length + ds.length) :
    locatorLoop loc n ds (locs ++ List.replicate ds.length z ++ acc) locs.length =
      locs ++ locsFrom loc acc.length ds ++ acc ++ ds.flatten := by
  induction ds generalizing locs acc with
  | nil => simp [locatorLoop, locsFrom]
  | cons d ds ih =>
    have hlen : (locs ++ List.replicate (d :: ds).length z ++ acc).length - n = acc.length := by
      simp at hn ⊢; omega
    have hset : (locs ++ List.replicate (d :: ds).length z ++ acc).set locs.length (loc acc.length) ++ d
        = (locs ++ [loc acc.length]) ++ List.replicate ds.length z ++ (acc ++ d) := by
      simp [List.replicate_succ]
    unfold locatorLoop
    rw [hlen, hset]
    have := ih (locs ++ [loc acc.length]) (acc ++ d) (by simp at hn ⊢; omega)
    simp only [List.length_append, List.length_singleton] at this
    rw [this]
    simp [locsFrom]

namespace LocBlock

/-- The locator words of the parts. -/
def header (flag : Bool) (parts : List Words) : Words :=
  locsFrom (fun k => Dbl.ofNat (if flag then k + 1 else k)) 0 parts

@[simp] theorem header_length (flag : Bool) (parts : List Words) :
    (header flag parts).length = parts.length := by simp [header]

theorem generateXSS_eq (flag : Bool) (parts : List Words) :
    generateXSS flag parts = header flag parts ++ parts.flatten := by
  have := locatorLoop_spec (fun k => Dbl.ofNat (if flag then k + 1 else k)) parts.length parts [] []
    (Dbl.ofNat 0) (by simp)
  simpa [generateXSS, header] using this

/-- The locator of part `i` whatever follows the header. -/
theorem LLOCof_header (flag : Bool) (parts : List Words) (tail : Words) (i : Nat)
    (hi : i < parts.length) (hf : FitsN (startOf parts i + 1)) :
    LLOCof (header flag parts ++ tail) parts.length flag (i + 1) = .ok (startOf parts i + 1) := by
  have hlt : i < (header flag parts).length := by simpa using hi
  obtain ⟨p, q, hpq, hp⟩ := getElem_split (header flag parts) i hlt
  have hv : (header flag parts)[i] = Dbl.ofNat (if flag then startOf parts i + 1 else startOf parts i) := by
    simp only [header, locsFrom_getElem, Nat.zero_add]
  rw [hv] at hpq
  have hx : ∀ v : Nat, (if flag then startOf parts i + 1 else startOf parts i) = v →
      FitsN v → Base.IXSS (header flag parts ++ tail) (i + 1) = .ok (v : Int) := by
    intro v hv hfv
    refine Base.IXSS_ofNat (a := p) (c := q ++ tail) ?_ (by omega) hfv
    rw [hpq, hv]; simp
  unfold LLOCof verifyDataIndex
  rw [if_neg (by omega)]
  cases flag with
  | true =>
    rw [if_pos rfl, hx _ rfl hf]
    simp only [ok_bind, pure_eq_ok, if_true]
    rw [sizeOfInt_natCast hf]
  | false =>
    rw [if_neg (by simp), hx _ rfl (by simp only [Bool.false_eq_true, if_false]; omega)]
    simp only [ok_bind, pure_eq_ok, Bool.false_eq_true, if_false]
    have : ((startOf parts i : Nat) : Int) + 1 = ((startOf parts i + 1 : Nat) : Int) := by omega
    rw [this, sizeOfInt_natCast hf]

/-- What the sub block `i` is cut to: the words of part `i`, and for the last one what follows. -/
def cut (parts : List Words) (rest : Words) (i : Nat) (h : i < parts.length) : Words :=
  if i + 1 = parts.length then parts[i] ++ rest else parts[i]

variable {D : Type}

theorem generateBlock_ok (gen : Nat → Words → Res D) (flag : Bool) (parts : List Words)
    (gap rest : Words) (i : Nat) (hi : i < parts.length) (hf : FitsN (parts.flatten.length + 1)) :
    generateBlock gen (header flag parts ++ gap ++ parts.flatten ++ rest) parts.length flag
      (parts.length + gap.length) i = gen (startOf parts i + 1) (cut parts rest i hi) := by
  have hs := startOf_le parts i
  have e : header flag parts ++ gap ++ parts.flatten ++ rest =
      header flag parts ++ (gap ++ parts.flatten ++ rest) := by simp
  have hl1 := LLOCof_header flag parts (gap ++ parts.flatten ++ rest) i hi (by omega)
  rw [← e] at hl1
  generalize hxs : header flag parts ++ gap ++ parts.flatten ++ rest = xs at hl1
  have hxl : xs.length = parts.length + gap.length + parts.flatten.length + rest.length := by
    rw [← hxs]; simp; omega
  unfold generateBlock
  simp only [hl1, ok_bind]
  have he1 := startOf_succ parts i hi
  have he2 := startOf_le parts (i + 1)
  rw [Base.iterator_ok (by omega) (by omega)]
  simp only [ok_bind]
  have hsplit := flatten_split parts i hi
  by_cases hlast : i + 1 = parts.length
  · simp only [if_pos hlast, pure_eq_ok, ok_bind]
    have hd : (parts.drop (i + 1)).flatten = [] := by
      rw [hlast]; simp
    have : sub xs (parts.length + gap.length + 1 + (startOf parts i + 1) - 1 - 1) xs.length =
        .ok (parts[i] ++ rest) := by
      refine sub_of_eq (a := header flag parts ++ gap ++ (parts.take i).flatten) (c := []) ?_ ?_ ?_
      · rw [← hxs, hsplit, hd]; simp
      · simp [startOf]; omega
      · rw [hxl, List.length_append, List.length_append, List.length_append, header_length]
        have : (parts.take i).flatten.length = startOf parts i := rfl
        rw [this]
        have := startOf_length parts
        rw [← hlast] at this
        omega
    rw [this]
    simp [cut, hlast]
  · simp only [if_neg hlast]
    have hl2 := LLOCof_header flag parts (gap ++ parts.flatten ++ rest) (i + 1) (by omega) (by omega)
    rw [← e, hxs] at hl2
    rw [hl2]
    simp only [ok_bind]
    rw [Base.iterator_ok (by omega) (by omega)]
    simp only [ok_bind]
    have : sub xs (parts.length + gap.length + 1 + (startOf parts i + 1) - 1 - 1)
        (parts.length + gap.length + 1 + (startOf parts (i + 1) + 1) - 1 - 1) =
        .ok parts[i] := by
      refine sub_of_eq (a := header flag parts ++ gap ++ (parts.take i).flatten)
        (c := (parts.drop (i + 1)).flatten ++ rest) ?_ ?_ ?_
      · rw [← hxs, hsplit]; simp
      · simp [startOf]; omega
      · rw [he1]
        rw [List.length_append, List.length_append, header_length]
        have : (parts.take i).flatten.length = startOf parts i := rfl
        omega
    rw [this]
    simp [cut, hlast]

/-- What a successful step of the reader has found. -/
theorem generateBlock_inv {gen : Nat → Words → Res D} {xs : Words} {n : Nat} {flag : Bool}
    {iter i : Nat} {e : D} (h : generateBlock gen xs n flag iter i = .ok e) :
    ∃ loc left right ys, LLOCof xs n flag (i + 1) = .ok loc ∧
      Base.iterator xs (iter + 1 + loc - 1) = .ok left ∧
      (i + 1 ≠ n → ∃ loc', LLOCof xs n flag (i + 2) = .ok loc' ∧
        Base.iterator xs (iter + 1 + loc' - 1) = .ok right) ∧
      sub xs left right = .ok ys ∧ gen loc ys = .ok e := by
  unfold generateBlock at h
  simp only at h
  obtain ⟨loc, h1, h⟩ := bind_eq_ok.mp h
  obtain ⟨left, h2, h⟩ := bind_eq_ok.mp h
  by_cases hn : i + 1 = n
  · simp only [hn, if_true, pure_eq_ok, ok_bind] at h
    obtain ⟨ys, h3, h⟩ := bind_eq_ok.mp h
    exact ⟨loc, left, _, ys, h1, h2, fun hc => absurd hn hc, h3, h⟩
  · simp only [hn, if_false] at h
    obtain ⟨loc', h4, h⟩ := bind_eq_ok.mp h
    obtain ⟨right, h5, h⟩ := bind_eq_ok.mp h
    obtain ⟨ys, h3, h⟩ := bind_eq_ok.mp h
    exact ⟨loc, left, right, ys, h1, h2, fun _ => ⟨loc', h4, h5⟩, h3, h⟩

/-- Reading the words of the block gives one sub block per part. -/
theorem generateBlocks_ok (gen : Nat → Words → Res D) (flag : Bool) (parts : List Words)
    (gap rest : Words) (ds : List D) (hl : ds.length = parts.length)
    (hf : FitsN (parts.flatten.length + 1))
    (h : ∀ (i : Nat) (hi : i < parts.length),
      gen (startOf parts i + 1) (cut parts rest i hi) = .ok (ds[i]'(by omega))) :
    generateBlocks gen (header flag parts ++ gap ++ parts.flatten ++ rest) parts.length flag
      (parts.length + gap.length) =
    .ok ⟨header flag parts ++ gap ++ parts.flatten ++ rest, parts.length, flag,
      parts.length + gap.length, ds⟩ := by
  unfold generateBlocks
  rw [mapM_range_eq _ ds _ hl.symm (fun i hi => by
    rw [generateBlock_ok gen flag parts gap rest i (by omega) hf, h i (by omega)])]
  rfl

theorem ofRange_ok (gen : Nat → Words → Res D) (flag : Bool) (parts : List Words)
    (gap rest : Words) (ds : List D) (hl : ds.length = parts.length)
    (hf : FitsN (parts.flatten.length + 1))
    (h : ∀ (i : Nat) (hi : i < parts.length),
      gen (startOf parts i + 1) (cut parts rest i hi) = .ok (ds[i]'(by omega))) :
    ofRange gen (header flag parts ++ gap ++ parts.flatten ++ rest) (parts.length + gap.length)
      parts.length flag =
    .ok ⟨header flag parts ++ gap ++ parts.flatten ++ rest, parts.length, flag,
      parts.length + gap.length, ds⟩ := by
  unfold ofRange
  rw [guardThrow_not_lt (by omega), ok_bind]
  exact generateBlocks_ok gen flag parts gap rest ds hl hf h

theorem ofData_ok (wordsOf : D → Words) (gen : Nat → Words → Res D) (flag : Bool) (bs ds : List D)
    (hl : ds.length = bs.length) (hf : FitsN ((bs.map wordsOf).flatten.length + 1))
    (h : ∀ (i : Nat) (hi : i < bs.length),
      gen (startOf (bs.map wordsOf) i + 1) (wordsOf bs[i]) = .ok (ds[i]'(by omega))) :
    ofData wordsOf gen flag bs =
    .ok ⟨header flag (bs.map wordsOf) ++ (bs.map wordsOf).flatten, bs.length, flag, bs.length, ds⟩ := by
  have := generateBlocks_ok gen flag (bs.map wordsOf) [] [] ds (by simpa using hl) hf
    (fun i hi => by
      have := h i (by simpa using hi)
      simpa [cut] using this)
  unfold ofData
  rw [generateXSS_eq]
  simpa using this

theorem get_ok (b : LocBlock D) (hn : b.n = b.data.length) (i : Nat) (hi : i < b.data.length) :
    b.get (i + 1) = .ok b.data[i] := by
  unfold get verifyDataIndex
  rw [if_neg (by omega)]
  simp [List.getElem?_eq_getElem hi]

end LocBlock
end ACE

import Verif.Props.C14

/-!
# C15: angular distribution blocks (AND, ANDP, ANDH)

An entry is specified by what it was built from (`EntrySpec`). `AngBlockGives b zero es orders`
says that the block `b` holds the entries `es`, the first one at index 0 (elastic scattering, AND)
or at index 1 (ANDP, ANDH), the distributions of entry `i` in the order `orders i`.
-/

namespace ACE.Props
open ACE

/-- What an entry is built from: nothing, or distributions made for some base locator. -/
inductive EntrySpec where
  | fullyIsotropic
  | givenElsewhere
  | data (vs : List AngSpec) (locb : Nat)

namespace EntrySpec
/-- The constructors. -/
def build (sort : StdSort AngDist.energy) : EntrySpec → Res AngEntry
  | fullyIsotropic => .ok .fullyIsotropic
  | givenElsewhere => .ok .givenElsewhere
  | data vs locb => do return .data (← AngularData.mk' sort (← vs.mapM AngSpec.build) locb)
/-- The number of words it takes in the data. -/
def size : EntrySpec → Nat
  | data vs _ => angBefore vs vs.length
  | _ => 0
/-- Energies are numbers, integers in range. -/
def InRange : EntrySpec → Prop
  | data vs locb => (∀ v ∈ vs, v.InRange ∧ v.energy ≠ .nan) ∧ FitsN (locb + angBefore vs vs.length + 1)
  | _ => True
/-- `order` is the sorted list of distributions. -/
def Sorted : EntrySpec → List AngSpec → Prop
  | data vs _, order => IsSort AngSpec.energy vs order
  | _, _ => True
/-- The locator `LAND` when `n` words of data come before. -/
def land (n : Nat) : EntrySpec → Int
  | fullyIsotropic => 0
  | givenElsewhere => -1
  | data _ _ => ((n + 1 : Nat) : Int)
/-- What is returned for the entry. -/
def Gives (n : Nat) (order : List AngSpec) : EntrySpec → AngEntry → Prop
  | fullyIsotropic, x => x = .fullyIsotropic
  | givenElsewhere, x => x = .givenElsewhere
  | data _ _, x => ∃ d, x = .data d ∧ AngularGives d (n + 1) order
end EntrySpec

/-- Words of data before entry `i`. -/
def entryBefore (es : List EntrySpec) (i : Nat) : Nat := ((es.take i).map EntrySpec.size).sum

/-- The first index. -/
def firstIndex (zero : Bool) : Nat := if zero then 0 else 1

structure AngBlockGives (b : AngularBlock) (zero : Bool) (es : List EntrySpec)
    (orders : Nat → List AngSpec) : Prop where
  land : ∀ (i : Nat) (h : i < es.length),
    b.LAND (i + firstIndex zero) = .ok (es[i].land (entryBefore es i))
  isotropic : ∀ (i : Nat) (h : i < es.length),
    b.isFullyIsotropic (i + firstIndex zero) = .ok (match es[i] with | .fullyIsotropic => true | _ => false)
  given : ∀ (i : Nat) (h : i < es.length),
    b.isGiven (i + firstIndex zero) = .ok (match es[i] with | .givenElsewhere => false | _ => true)
  entry : ∀ (i : Nat) (h : i < es.length), ∃ x, b.get (i + firstIndex zero) = .ok x ∧
    es[i].Gives (entryBefore es i) (orders i) x
  refused : ∀ i, i < firstIndex zero ∨ es.length + firstIndex zero ≤ i →
    b.LAND i = .error .range ∧ b.isFullyIsotropic i = .error .range ∧
    b.isGiven i = .error .range ∧ b.get i = .error .range

/-! ## The words -/

/-- The words of the data of an entry, for its locator. -/
def entryWords (sort : StdSort AngDist.energy) (k : Nat) : AngEntry → Words
  | .data d => AngularData.wordsOf k (sort.run d.distributions)
  | _ => []
/-- The locator of an entry. -/
def entryLoc (k : Nat) : AngEntry → Int
  | .fullyIsotropic => 0
  | .givenElsewhere => -1
  | .data _ => (k : Int)

def blockWords (sort : StdSort AngDist.energy) (k : Nat) : List AngEntry → List Words
  | [] => []
  | e :: es => entryWords sort k e :: blockWords sort (k + (entryWords sort k e).length) es
def blockLocs (sort : StdSort AngDist.energy) (k : Nat) : List AngEntry → Words
  | [] => []
  | e :: es => Dbl.ofInt (entryLoc k e) :: blockLocs sort (k + (entryWords sort k e).length) es

@[simp] theorem blockWords_length (sort : StdSort AngDist.energy) (k : Nat) (es : List AngEntry) :
    (blockWords sort k es).length = es.length := by
  induction es generalizing k with
  | nil => rfl
  | cons e es ih => simp [blockWords, ih]
@[simp] theorem blockLocs_length (sort : StdSort AngDist.energy) (k : Nat) (es : List AngEntry) :
    (blockLocs sort k es).length = es.length := by
  induction es generalizing k with
  | nil => rfl
  | cons e es ih => simp [blockLocs, ih]

theorem blockWords_getElem (sort : StdSort AngDist.energy) (k : Nat) (es : List AngEntry) (i : Nat)
    (h : i < es.length) : (blockWords sort k es)[i]'(by simpa using h) =
      entryWords sort (k + startOf (blockWords sort k es) i) es[i] := by
  induction es generalizing k i with
  | nil => simp at h
  | cons e es ih =>
    cases i with
    | zero => simp [blockWords]
    | succ i =>
      simp only [blockWords, List.getElem_cons_succ]
      rw [ih _ i (by simpa using h)]
      have : ∀ (a : Words) (l : List Words), startOf (a :: l) (i + 1) = a.length + startOf l i := by
        intro a l; simp [startOf]
      rw [this, Nat.add_assoc]

theorem blockLocs_getElem (sort : StdSort AngDist.energy) (k : Nat) (es : List AngEntry) (i : Nat)
    (h : i < es.length) : (blockLocs sort k es)[i]'(by simpa using h) =
      Dbl.ofInt (entryLoc (k + startOf (blockWords sort k es) i) es[i]) := by
  induction es generalizing k i with
  | nil => simp at h
  | cons e es ih =>
    cases i with
    | zero => simp [blockLocs]
    | succ i =>
      simp only [blockLocs, blockWords, List.getElem_cons_succ]
      rw [ih _ i (by simpa using h)]
      have : ∀ (a : Words) (l : List Words), startOf (a :: l) (i + 1) = a.length + startOf l i := by
        intro a l; simp [startOf]
      rw [this, Nat.add_assoc]

/-- Making the data of an entry again succeeds for its locator. -/
def Remade (sort : StdSort AngDist.energy) (k : Nat) : AngEntry → Prop
  | .data d => ∃ x, AngularData.mk' sort d.distributions k = .ok x ∧
      x.xss = AngularData.wordsOf k (sort.run d.distributions)
  | _ => True

theorem block_loop (sort : StdSort AngDist.energy) (nr : Nat) (es : List AngEntry) (pre acc : Words)
    (z : Dbl) (hn : nr = pre.length + es.length)
    (hm : ∀ (i : Nat) (h : i < es.length),
      Remade sort (acc.length + 1 + startOf (blockWords sort (acc.length + 1) es) i) es[i]) :
    AngularBlock.loop sort nr es (pre ++ List.replicate es.length z ++ acc) pre.length =
      .ok (pre ++ blockLocs sort (acc.length + 1) es ++ acc ++
        (blockWords sort (acc.length + 1) es).flatten) := by
  induction es generalizing pre acc with
  | nil => simp [AngularBlock.loop, blockLocs, blockWords]
  | cons e es ih =>
    have e1 : ∀ x, (pre ++ List.replicate (e :: es).length z ++ acc).set pre.length x =
        (pre ++ [x]) ++ List.replicate es.length z ++ acc := by
      intro x
      simp [List.replicate_succ]
    have hs : ∀ (a : Words) (l : List Words) (i : Nat),
        startOf (a :: l) (i + 1) = a.length + startOf l i := by
      intro a l i; simp [startOf]
    have hidx : ∀ x : Dbl, pre.length + 1 = (pre ++ [x]).length := by intro x; simp
    have ih' := fun (x : Dbl) (w : Words) (hw : entryWords sort (acc.length + 1) e = w) =>
      ih (pre ++ [x]) (acc ++ w) (by simp at hn ⊢; omega) (fun i h => by
        have := hm (i + 1) (by simpa using h)
        simp only [blockWords, hs, hw, List.getElem_cons_succ] at this
        have e2 : (acc ++ w).length + 1 = acc.length + 1 + w.length := by
          rw [List.length_append]; omega
        rw [e2]
        rw [← Nat.add_assoc] at this
        exact this)
    have e3 : ∀ w : Words, (acc ++ w).length + 1 = acc.length + 1 + w.length := by
      intro w; rw [List.length_append]; omega
    cases e with
    | fullyIsotropic =>
      unfold AngularBlock.loop
      rw [e1, hidx (Dbl.ofNat 0)]
      have := ih' (Dbl.ofNat 0) [] rfl
      rw [List.append_nil] at this
      rw [this]
      simp [blockLocs, blockWords, entryWords, entryLoc, Dbl.ofNat]
    | givenElsewhere =>
      unfold AngularBlock.loop
      rw [e1, hidx (Dbl.ofInt (-1))]
      have := ih' (Dbl.ofInt (-1)) [] rfl
      rw [List.append_nil] at this
      rw [this]
      simp [blockLocs, blockWords, entryWords, entryLoc]
    | data d =>
      have hlen : (pre ++ List.replicate (AngEntry.data d :: es).length z ++ acc).length - nr + 1 =
          acc.length + 1 := by
        simp at hn ⊢; omega
      have h0 := hm 0 (by simp)
      have hz : startOf (blockWords sort (acc.length + 1) (AngEntry.data d :: es)) 0 = 0 := by
        simp [startOf]
      rw [hz, Nat.add_zero] at h0
      obtain ⟨x, hx, hxx⟩ := h0
      unfold AngularBlock.loop
      rw [hlen, hx, ok_bind, e1, hxx, List.append_assoc,
        hidx (Dbl.ofNat (acc.length + 1))]
      have := ih' (Dbl.ofNat (acc.length + 1))
        (AngularData.wordsOf (acc.length + 1) (sort.run d.distributions)) rfl
      rw [← List.append_assoc] at this ⊢
      rw [this, e3]
      simp [blockLocs, blockWords, entryWords, entryLoc, Dbl.ofNat]

theorem block_generateXSS (sort : StdSort AngDist.energy) (es : List AngEntry)
    (hm : ∀ (i : Nat) (h : i < es.length),
      Remade sort (1 + startOf (blockWords sort 1 es) i) es[i]) :
    AngularBlock.generateXSS sort es =
      .ok (blockLocs sort 1 es ++ (blockWords sort 1 es).flatten) := by
  have := block_loop sort es.length es [] [] (Dbl.ofNat 0) (by simp) (by simpa using hm)
  simpa [AngularBlock.generateXSS] using this

/-- The words of the entry are read as data satisfying `P`. -/
def EntryReads (sort : StdSort AngDist.energy) (k : Nat) (P : AngEntry → Prop) : AngEntry → Prop
  | .data d => ∀ rest, ∃ r, AngularData.ofRange k
      (AngularData.wordsOf k (sort.run d.distributions) ++ rest) = .ok r ∧ P (.data r)
  | e => P e

theorem block_land (sort : StdSort AngDist.energy) (zero : Bool) (es : List AngEntry)
    (tail : Words) (nr : Nat) (hnr : nr + 1 = es.length + firstIndex zero)
    (hf : FitsN ((blockWords sort 1 es).flatten.length + 1)) (i : Nat) (h : i < es.length) :
    AngularBlock.LANDof (blockLocs sort 1 es ++ tail) nr zero (i + firstIndex zero) =
      .ok (entryLoc (1 + startOf (blockWords sort 1 es) i) es[i]) := by
  have hle := startOf_le (blockWords sort 1 es) i
  unfold AngularBlock.LANDof
  have hz : (if zero = true then 0 else 1) = firstIndex zero := rfl
  rw [hz, if_neg (by omega)]
  obtain ⟨p, q, hpq, hp⟩ := getElem_split (blockLocs sort 1 es) i (by simpa using h)
  have hfit : Fits (entryLoc (1 + startOf (blockWords sort 1 es) i) es[i]) := by
    unfold Fits
    generalize hm : 1 + startOf (blockWords sort 1 es) i = m
    have : m < 2147483648 := by omega
    cases es[i] <;> simp [entryLoc] <;> omega
  rw [blockLocs_getElem sort 1 es i h] at hpq
  refine Base.IXSS_of_eq (a := p) (c := q ++ tail) (by rw [hpq]; simp) ?_ hfit
  rw [hp]
  cases zero <;> simp [firstIndex]

theorem block_read (sort : StdSort AngDist.energy) (zero : Bool) (es : List AngEntry)
    (gap rest : Words) (nr : Nat) (hnr : nr + 1 = es.length + firstIndex zero)
    (P : Nat → AngEntry → Prop)
    (hne : ∀ (i : Nat) (h : i < es.length) (d : AngularData), es[i] = .data d →
      AngularData.wordsOf (1 + startOf (blockWords sort 1 es) i) (sort.run d.distributions) ≠ [])
    (hr : ∀ (i : Nat) (h : i < es.length),
      EntryReads sort (1 + startOf (blockWords sort 1 es) i) (P i) es[i])
    (hf : FitsN (es.length + gap.length + (blockWords sort 1 es).flatten.length + 1)) :
    ∃ out, AngularBlock.generateBlocks (blockLocs sort 1 es ++ gap ++ (blockWords sort 1 es).flatten ++ rest)
        nr zero (es.length + gap.length) =
      .ok ⟨blockLocs sort 1 es ++ gap ++ (blockWords sort 1 es).flatten ++ rest, nr, zero,
        es.length + gap.length, out⟩ ∧ out.length = es.length ∧
      ∀ (i : Nat) (h : i < out.length), P i out[i] := by
  let ws := blockWords sort 1 es
  let A := blockLocs sort 1 es ++ gap
  have hAl : A.length = es.length + gap.length := by simp [A]
  have hwl : ws.length = es.length := by simp [ws]
  have hxA : blockLocs sort 1 es ++ gap ++ ws.flatten ++ rest = A ++ ws.flatten ++ rest := rfl
  have hxT : A ++ ws.flatten ++ rest = blockLocs sort 1 es ++ (gap ++ ws.flatten ++ rest) := by
    simp [A]
  have hf' : FitsN (es.length + gap.length + ws.flatten.length + 1) := hf
  have hland := fun (i : Nat) (h : i < es.length) =>
    block_land sort zero es (gap ++ ws.flatten ++ rest) nr hnr
      (show FitsN (ws.flatten.length + 1) by omega) i h
  rw [← hxT] at hland
  have hw : ∀ (i : Nat) (h : i < es.length), ws[i]'(by omega) = entryWords sort (1 + startOf ws i) es[i] :=
    fun i h => blockWords_getElem sort 1 es i h
  have hbound : ∀ i, startOf ws i ≤ ws.flatten.length := startOf_le ws
  -- the locators of the entries as seen by the search for the next one
  have hnext : ∀ (j : Nat) (hj : j < ws.length), ∃ v : Nat,
      AngularBlock.next (A ++ ws.flatten ++ rest) nr zero A.length (j + firstIndex zero) = .ok (v : Int) ∧
      (ws[j] = [] → v ≤ A.length) ∧ (ws[j] ≠ [] → v = A.length + startOf ws j + 1) := by
    intro j hj
    have hj' : j < es.length := by omega
    have hb := hbound j
    have hlj := hland j hj'
    unfold AngularBlock.next
    rw [hlj, ok_bind, hw j hj']
    have hne' := hne j hj'
    cases hd : es[j] with
    | fullyIsotropic =>
      refine ⟨A.length, ?_, fun _ => Nat.le_refl _, fun hc => absurd rfl hc⟩
      have e : ((A.length + 1 : Nat) : Int) + entryLoc (1 + startOf ws j) .fullyIsotropic - 1 =
          ((A.length : Nat) : Int) := by
        simp only [entryLoc]; omega
      have e' : sizeOfInt (((A.length + 1 : Nat) : Int) + entryLoc (1 + startOf ws j) .fullyIsotropic - 1)
          = A.length := by rw [e, sizeOfInt_natCast (by omega)]
      exact congrArg (fun n : Nat => Except.ok (n : Int)) e'
    | givenElsewhere =>
      refine ⟨A.length - 1, ?_, fun _ => by omega, fun hc => absurd rfl hc⟩
      have e : ((A.length + 1 : Nat) : Int) + entryLoc (1 + startOf ws j) .givenElsewhere - 1 =
          ((A.length - 1 : Nat) : Int) := by
        simp only [entryLoc]; omega
      have e' : sizeOfInt (((A.length + 1 : Nat) : Int) + entryLoc (1 + startOf ws j) .givenElsewhere - 1)
          = A.length - 1 := by rw [e, sizeOfInt_natCast (by omega)]
      exact congrArg (fun n : Nat => Except.ok (n : Int)) e'
    | data d =>
      refine ⟨A.length + startOf ws j + 1, ?_, fun hc => absurd hc (hne' d hd), fun _ => rfl⟩
      have e : ((A.length + 1 : Nat) : Int) + entryLoc (1 + startOf ws j) (.data d) - 1 =
          ((A.length + startOf ws j + 1 : Nat) : Int) := by
        simp only [entryLoc]; omega
      have e' : sizeOfInt (((A.length + 1 : Nat) : Int) + entryLoc (1 + startOf ws j) (.data d) - 1)
          = A.length + startOf ws j + 1 := by rw [e, sizeOfInt_natCast (by omega)]
      exact congrArg (fun n : Nat => Except.ok (n : Int)) e'
  have hgen : ∀ i, i < es.length → ∃ x,
      AngularBlock.generateBlock (A ++ ws.flatten ++ rest) nr zero A.length (i + firstIndex zero) = .ok x ∧
        P i x := by
    intro i hi
    have hb := hbound i
    have hb1 := hbound (i + 1)
    have hrd := hr i hi
    have hwi := hw i hi
    have hli := hland i hi
    have hnei := hne i hi
    unfold AngularBlock.generateBlock
    rw [hli, ok_bind]
    cases hd : es[i] with
    | fullyIsotropic =>
      rw [hd] at hrd
      exact ⟨.fullyIsotropic, by
        have e : entryLoc (1 + startOf (blockWords sort 1 es) i) .fullyIsotropic = 0 := rfl
        rw [e, if_pos (by omega)]; rfl, hrd⟩
    | givenElsewhere =>
      rw [hd] at hrd
      exact ⟨.givenElsewhere, by
        have e : entryLoc (1 + startOf (blockWords sort 1 es) i) .givenElsewhere = -1 := rfl
        rw [e, if_neg (by omega)]; rfl, hrd⟩
    | data d =>
      rw [hd] at hrd hwi
      have hne1 : ws[i]'(by omega) ≠ [] := by rw [hwi]; exact hnei d hd
      obtain ⟨r, hr1, hr2⟩ := hrd (tailOf ws rest i)
      refine ⟨.data r, ?_, hr2⟩
      have e : entryLoc (1 + startOf (blockWords sort 1 es) i) (.data d) =
        ((1 + startOf (blockWords sort 1 es) i : Nat) : Int) := rfl
      have hsw : startOf (blockWords sort 1 es) i = startOf ws i := rfl
      rw [e, if_pos (by omega), if_neg (by omega), sizeOfInt_natCast (by omega)]
      simp only []
      have hloc : A.length + 1 + (1 + startOf ws i) - 1 = A.length + startOf ws i + 1 := by omega
      rw [show A.length + 1 + (1 + startOf (blockWords sort 1 es) i) - 1 =
        A.length + startOf ws i + 1 from hloc]
      have hxl : (A ++ ws.flatten ++ rest).length = A.length + ws.flatten.length + rest.length := by
        simp only [List.length_append]
      rw [Base.iterator_ok (by omega) (by omega), ok_bind]
      have hfn := findNext_flagged
        (AngularBlock.next (A ++ ws.flatten ++ rest) nr zero A.length) ws A.length
        (firstIndex zero) i (by omega) hne1 hnext
      have e1 : i + firstIndex zero + 1 = i + 1 + firstIndex zero := by omega
      have e2 : nr - (i + firstIndex zero) = ws.length - (i + 1) := by omega
      rw [e1, e2, hfn, ok_bind]
      have hcut : rangeEnd (A ++ ws.flatten ++ rest)
          (if startOf ws (i + 1) = ws.flatten.length then none
            else some ((A.length + startOf ws (i + 1) + 1 : Nat) : Int)) =
          .ok (if startOf ws (i + 1) = ws.flatten.length then (A ++ ws.flatten ++ rest).length
            else A.length + startOf ws (i + 1)) := by
        by_cases hlast : startOf ws (i + 1) = ws.flatten.length
        · rw [if_pos hlast, if_pos hlast]; rfl
        · rw [if_neg hlast, if_neg hlast]
          unfold rangeEnd
          simp only []
          rw [Int.toNat_natCast, Base.iterator_ok (by omega) (by omega)]
          rfl
      rw [hcut, ok_bind]
      have hsub := sub_flagged A rest ws i (by omega)
      rw [show A.length + startOf ws i + 1 - 1 = A.length + startOf ws i from rfl, hsub, ok_bind, hwi]
      have hr1' : AngularData.ofRange (1 + startOf (blockWords sort 1 es) i)
        (entryWords sort (1 + startOf ws i) (.data d) ++ tailOf ws rest i) = .ok r := hr1
      rw [hr1']; rfl
  obtain ⟨out, hol, hout⟩ := exists_list es.length
    (fun i x => AngularBlock.generateBlock (A ++ ws.flatten ++ rest) nr zero A.length
      (i + firstIndex zero) = .ok x ∧ P i x) hgen
  refine ⟨out, ?_, hol, fun i h => (hout i h).2⟩
  unfold AngularBlock.generateBlocks
  have hz : (if zero = true then 0 else 1) = firstIndex zero := rfl
  simp only [hz]
  have e : nr + 1 - firstIndex zero = es.length := by omega
  have hm : (List.range' (firstIndex zero) (nr + 1 - firstIndex zero)).mapM
      (AngularBlock.generateBlock (A ++ ws.flatten ++ rest) nr zero A.length) = .ok out := by
    rw [e, List.range'_eq_map_range]
    have hc : ∀ (f : Nat → Nat) (g : Nat → Res AngEntry) (l : List Nat),
        (l.map f).mapM g = l.mapM (fun x => g (f x)) := by
      intro f g l
      induction l with
      | nil => rfl
      | cons a l ih => rw [List.map_cons, List.mapM_cons, List.mapM_cons, ih]
    rw [hc]
    refine mapM_range_eq _ out _ hol.symm (fun i h => ?_)
    have := (hout i h).1
    rw [Nat.add_comm] at this
    exact this
  rw [hAl] at hm
  rw [hm]; rfl

theorem block_get (b : AngularBlock) (zero : Bool) (n : Nat) (hz : b.zero = zero)
    (hnr : b.nr + 1 = n + firstIndex zero) (hl : b.entries.length = n) (i : Nat)
    (h : i < b.entries.length) : b.get (i + firstIndex zero) = .ok b.entries[i] := by
  unfold AngularBlock.get
  have hz' : (if b.zero = true then 0 else 1) = firstIndex zero := by rw [hz]; rfl
  rw [hz', if_neg (by omega), Nat.add_sub_cancel, List.getElem?_eq_getElem h]
  rfl

/-! ## Entries built from specifications -/

/-- What is known about a built entry. -/
def EntryOK (sort : StdSort AngDist.energy) (s : EntrySpec) (order : List AngSpec) (e : AngEntry) : Prop :=
  s.Sorted order ∧ (∀ k, (entryWords sort k e).length = s.size) ∧
  (∀ n, entryLoc (n + 1) e = s.land n) ∧
  ∀ n, FitsN (n + 1 + s.size + 1) → Remade sort (n + 1) e ∧
    EntryReads sort (n + 1) (s.Gives n order) e ∧
    ∀ d, e = .data d → AngularData.wordsOf (n + 1) (sort.run d.distributions) ≠ []

theorem isSort_twice {vs a b : List AngSpec} (h1 : IsSort AngSpec.energy vs a)
    (h2 : IsSort AngSpec.energy a b) : IsSort AngSpec.energy vs b := ⟨h2.1.trans h1.1, h2.2⟩

theorem entry_ok (sort : StdSort AngDist.energy) (s : EntrySpec) (e : AngEntry)
    (h : s.build sort = .ok e) (hr : s.InRange) : ∃ order, EntryOK sort s order e := by
  cases s with
  | fullyIsotropic =>
    injection h with h; subst h
    exact ⟨[], trivial, fun _ => rfl, fun _ => rfl, fun n _ => ⟨trivial, rfl, fun d hd => nomatch hd⟩⟩
  | givenElsewhere =>
    injection h with h; subst h
    exact ⟨[], trivial, fun _ => rfl, fun _ => rfl, fun n _ => ⟨trivial, rfl, fun d hd => nomatch hd⟩⟩
  | data vs locb =>
    obtain ⟨ds, hds, h⟩ := bind_eq_ok.mp h
    obtain ⟨x, hx, h⟩ := bind_eq_ok.mp h
    injection h with h; subst h
    obtain ⟨hv, hf⟩ := hr
    obtain ⟨o1, hs1, hm1⟩ := ang_order sort vs ds hds (fun v h => (hv v h).2)
    obtain ⟨hx', _⟩ := ang_mk sort o1 ds locb hm1 (fun v h => (hv v (hs1.1.mem_iff.mp h)).1)
      (by rw [angBefore_perm hs1.1]; exact hf)
    have hxe := Except.ok.inj (hx.symm.trans hx')
    have hxd : x.distributions = sort.run ds := by rw [hxe]
    obtain ⟨o2, hs2, hm2⟩ := ang_order sort o1 (sort.run ds) hm1
      (fun v h => (hv v (hs1.1.mem_iff.mp h)).2)
    have hs := isSort_twice hs1 hs2
    have hin : ∀ v ∈ o2, v.InRange := fun v h => (hv v (hs.1.mem_iff.mp h)).1
    have hb : angBefore o2 o2.length = angBefore vs vs.length := angBefore_perm hs.1
    have hlen : ∀ k, (entryWords sort k (.data x)).length = angBefore vs vs.length := by
      intro k
      have h0 := (ang_mk sort o2 (sort.run ds) 0 hm2 hin (by rw [hb]; omega)).2.1
      have e : entryWords sort k (.data x) = AngularData.wordsOf k (sort.run x.distributions) := rfl
      rw [e, hxd]
      rw [AngularData.wordsOf_length] at h0 ⊢
      rw [h0, hb]
    refine ⟨o2, hs, hlen, fun n => rfl, fun n hn => ?_⟩
    have hn' : FitsN (n + 1 + angBefore o2 o2.length + 1) := by rw [hb]; exact hn
    obtain ⟨h1, h2, h3, h4⟩ := ang_mk sort o2 (sort.run ds) (n + 1) hm2 hin hn'
    refine ⟨⟨_, by rw [hxd]; exact h1, by rw [hxd]⟩, fun rest => ?_, fun d hd => ?_⟩
    · obtain ⟨r, hr1, hr2⟩ := h4 rest
      exact ⟨r, by rw [hxd]; exact hr1, r, rfl, hr2⟩
    · injection hd with hd; subst hd
      intro hc
      have h5 := hlen (n + 1)
      have e : entryWords sort (n + 1) (.data x) =
        AngularData.wordsOf (n + 1) (sort.run x.distributions) := rfl
      rw [e, hc] at h5
      unfold angBefore at h5
      simp at h5
      omega

/-- Everything about the entries of a block. -/
theorem entries_ok (sort : StdSort AngDist.energy) (ss : List EntrySpec) (es : List AngEntry)
    (h : ss.mapM (EntrySpec.build sort) = .ok es) (hr : ∀ s ∈ ss, s.InRange) :
    ∃ orders : Nat → List AngSpec, es.length = ss.length ∧
      ∀ (i : Nat) (h1 : i < ss.length) (h2 : i < es.length), EntryOK sort ss[i] (orders i) es[i] := by
  obtain ⟨hl, hb⟩ := mapM_ok_iff _ ss es h
  obtain ⟨os, hol, ho⟩ := exists_list ss.length
    (fun i o => ∀ (h1 : i < ss.length) (h2 : i < es.length), EntryOK sort ss[i] o es[i])
    (fun i hi => by
      obtain ⟨o, ho⟩ := entry_ok sort ss[i] es[i] (hb i hi (by omega)) (hr _ (List.getElem_mem hi))
      exact ⟨o, fun _ _ => ho⟩)
  refine ⟨fun i => os.getD i [], hl, fun i h1 h2 => ?_⟩
  have hi : i < os.length := by omega
  have := ho i hi h1 h2
  simpa [List.getD, List.getElem?_eq_getElem hi] using this

theorem blockWords_sizes (sort : StdSort AngDist.energy) (ss : List EntrySpec) (es : List AngEntry)
    (k : Nat) (hl : es.length = ss.length)
    (h : ∀ (i : Nat) (h1 : i < ss.length) (h2 : i < es.length) (k : Nat),
      (entryWords sort k es[i]).length = ss[i].size) :
    (blockWords sort k es).map List.length = ss.map EntrySpec.size := by
  refine List.ext_getElem (by simp [hl]) (fun i h1 h2 => ?_)
  simp only [List.getElem_map]
  have h1' : i < es.length := by simpa using h1
  rw [blockWords_getElem sort k es i h1']
  exact h i (by omega) h1' _

theorem block_spec (sort : StdSort AngDist.energy) (zero : Bool) (ss : List EntrySpec)
    (es : List AngEntry) (nr : Nat) (hnr : nr + 1 = ss.length + firstIndex zero)
    (h : ss.mapM (EntrySpec.build sort) = .ok es) (hr : ∀ s ∈ ss, s.InRange)
    (hf : FitsN (ss.length + entryBefore ss ss.length + 2)) :
    ∃ xss orders b, (∀ (i : Nat) (h : i < ss.length), ss[i].Sorted (orders i)) ∧
      AngularBlock.generateXSS sort es = .ok xss ∧
      AngularBlock.generateBlocks xss nr zero ss.length = .ok b ∧ b.xss = xss ∧
      AngBlockGives b zero ss orders ∧
      ∀ gap rest, FitsN (gap.length + ss.length + entryBefore ss ss.length + 2) →
        ∃ r, AngularBlock.ofRange (xss.take ss.length ++ gap ++ xss.drop ss.length ++ rest)
          (ss.length + gap.length) nr zero = .ok r ∧ AngBlockGives r zero ss orders := by
  obtain ⟨orders, hl, hok⟩ := entries_ok sort ss es h hr
  have hsz := blockWords_sizes sort ss es 1 hl (fun i h1 h2 => (hok i h1 h2).2.1)
  have hstart : ∀ i, startOf (blockWords sort 1 es) i = entryBefore ss i := by
    intro i
    unfold startOf entryBefore
    rw [List.length_flatten, List.map_take, hsz, List.map_take]
  have hflat : (blockWords sort 1 es).flatten.length = entryBefore ss ss.length := by
    rw [← hstart, ← hl]
    have := startOf_length (blockWords sort 1 es)
    rw [blockWords_length] at this
    exact this.symm
  have hfit : ∀ (i : Nat) (h1 : i < ss.length), FitsN (entryBefore ss i + 1 + ss[i].size + 1) := by
    intro i h1
    have h2 := startOf_add_le (blockWords sort 1 es) i (by simp; omega)
    rw [hstart, hflat, blockWords_getElem sort 1 es i (by omega),
      (hok i h1 (by omega)).2.1] at h2
    omega
  have hadd : ∀ i, 1 + startOf (blockWords sort 1 es) i = entryBefore ss i + 1 := by
    intro i; rw [hstart]; omega
  have hgx := block_generateXSS sort es (fun i hi => by
    rw [hadd]
    exact ((hok i (by omega) hi).2.2.2 _ (hfit i (by omega))).1)
  have hrd : ∀ gap rest, FitsN (gap.length + ss.length + entryBefore ss ss.length + 2) → ∃ out,
      AngularBlock.generateBlocks (blockLocs sort 1 es ++ gap ++ (blockWords sort 1 es).flatten ++ rest)
        nr zero (es.length + gap.length) =
      .ok ⟨blockLocs sort 1 es ++ gap ++ (blockWords sort 1 es).flatten ++ rest, nr, zero,
        es.length + gap.length, out⟩ ∧
      AngBlockGives ⟨blockLocs sort 1 es ++ gap ++ (blockWords sort 1 es).flatten ++ rest, nr, zero,
        es.length + gap.length, out⟩ zero ss orders := by
    intro gap rest hg
    obtain ⟨out, h1, h2, h3⟩ := block_read sort zero es gap rest nr (by omega)
      (fun i x => ∀ h : i < ss.length, ss[i].Gives (entryBefore ss i) (orders i) x)
      (fun i hi d hd => by
        rw [hadd]
        exact ((hok i (by omega) hi).2.2.2 _ (hfit i (by omega))).2.2 d hd)
      (fun i hi => by
        rw [hadd]
        have := ((hok i (by omega) hi).2.2.2 _ (hfit i (by omega))).2.1
        generalize es[i] = e at this ⊢
        cases e with
        | fullyIsotropic => exact fun _ => this
        | givenElsewhere => exact fun _ => this
        | data d =>
          intro rest
          obtain ⟨r, a, b⟩ := this rest
          exact ⟨r, a, fun _ => b⟩)
      (by omega)
    refine ⟨out, h1, ?_⟩
    have hland : ∀ (i : Nat) (h : i < ss.length),
        AngularBlock.LANDof (blockLocs sort 1 es ++ gap ++ (blockWords sort 1 es).flatten ++ rest) nr zero
          (i + firstIndex zero) = .ok (ss[i].land (entryBefore ss i)) := by
      intro i hi
      have := block_land sort zero es (gap ++ (blockWords sort 1 es).flatten ++ rest) nr (by omega)
        (by omega) i (by omega)
      rw [hadd, (hok i hi (by omega)).2.2.1] at this
      have e : blockLocs sort 1 es ++ gap ++ (blockWords sort 1 es).flatten ++ rest =
        blockLocs sort 1 es ++ (gap ++ (blockWords sort 1 es).flatten ++ rest) := by simp
      rw [e]
      exact this
    refine ⟨hland, fun i hi => ?_, fun i hi => ?_, fun i hi => ?_, fun i hi => ?_⟩
    · unfold AngularBlock.isFullyIsotropic AngularBlock.LAND
      simp only []
      rw [hland i hi, ok_bind]
      cases ss[i] with
      | fullyIsotropic => rfl
      | givenElsewhere => rfl
      | data vs l =>
        have : ¬ ((entryBefore ss i + 1 : Nat) : Int) = 0 := by omega
        simp only [EntrySpec.land, this, decide_false, pure_eq_ok]
    · unfold AngularBlock.isGiven AngularBlock.LAND
      simp only []
      rw [hland i hi, ok_bind]
      cases ss[i] with
      | fullyIsotropic => rfl
      | givenElsewhere => rfl
      | data vs l =>
        have : ((entryBefore ss i + 1 : Nat) : Int) ≥ 0 := by omega
        simp only [EntrySpec.land, this, decide_true, pure_eq_ok]
    · exact ⟨out[i]'(by omega), block_get ⟨_, nr, zero, _, out⟩ zero es.length rfl (by simp only; omega) h2 i
        (by simp only; omega), h3 i (by omega) hi⟩
    · have hz : (if zero = true then 0 else 1) = firstIndex zero := rfl
      have hL : AngularBlock.LANDof (blockLocs sort 1 es ++ gap ++ (blockWords sort 1 es).flatten ++ rest)
          nr zero i = .error .range := by
        unfold AngularBlock.LANDof
        rw [hz, if_pos (by omega)]
      unfold AngularBlock.isFullyIsotropic AngularBlock.isGiven AngularBlock.LAND AngularBlock.get
      simp only [hL, error_bind, hz, true_and]
      rw [if_pos (by omega)]
  obtain ⟨out, hd1, hd2⟩ := hrd [] [] (by simpa using hf)
  simp only [List.append_nil, List.length_nil, Nat.add_zero] at hd1 hd2
  refine ⟨_, orders, _, fun i hi => (hok i hi (by omega)).1, hgx, by rw [← hl]; exact hd1, rfl, hd2, ?_⟩
  intro gap rest hg
  obtain ⟨o, hr1, hr2⟩ := hrd gap rest hg
  have ht : (blockLocs sort 1 es ++ (blockWords sort 1 es).flatten).take ss.length =
      blockLocs sort 1 es := List.take_left' (by simp [hl])
  have hdr : (blockLocs sort 1 es ++ (blockWords sort 1 es).flatten).drop ss.length =
      (blockWords sort 1 es).flatten := List.drop_left' (by simp [hl])
  rw [ht, hdr]
  refine ⟨_, ?_, hr2⟩
  unfold AngularBlock.ofRange
  have hz : (if zero = true then 1 else 0) + firstIndex zero = 1 := by cases zero <;> rfl
  rw [guardThrow_not_lt (by omega), ok_bind, ← hl]
  exact hr1

/-- ANDP and ANDH: a block made from entries holds them at indices 1 to the number of entries,
with the distributions sorted, and so does a reader of its words, whatever gap there is between
the locators and the data and whatever follows. -/
theorem C15_secondary (sort : StdSort AngDist.energy) (ss : List EntrySpec) (es : List AngEntry)
    (h : ss.mapM (EntrySpec.build sort) = .ok es) (hr : ∀ s ∈ ss, s.InRange)
    (hf : FitsN (ss.length + entryBefore ss ss.length + 2)) :
    ∃ orders b, (∀ (i : Nat) (h : i < ss.length), ss[i].Sorted (orders i)) ∧
      AngularBlock.mk' sort es = .ok b ∧ b.nr = ss.length ∧ AngBlockGives b false ss orders ∧
      ∀ gap rest, FitsN (gap.length + ss.length + entryBefore ss ss.length + 2) →
        ∃ r, AngularBlock.ofRange (b.xss.take ss.length ++ gap ++ b.xss.drop ss.length ++ rest)
          (ss.length + gap.length) ss.length false = .ok r ∧ AngBlockGives r false ss orders := by
  obtain ⟨xss, orders, b, h1, h2, h3, h4, h5, h6⟩ :=
    block_spec sort false ss es ss.length rfl h hr hf
  have hl := (mapM_ok_iff _ ss es h).1
  refine ⟨orders, b, h1, ?_, ?_, h5, by rw [h4]; exact h6⟩
  · unfold AngularBlock.mk'
    rw [h2, ok_bind, hl]; exact h3
  · obtain ⟨es', _, hb⟩ := bind_eq_ok.mp h3
    injection hb with hb; rw [← hb]

/-- AND: the same, with elastic scattering at index 0 and the reactions at 1 to NR. -/
theorem C15_elastic (sort : StdSort AngDist.energy) (s0 : EntrySpec) (ss : List EntrySpec)
    (e0 : AngEntry) (es : List AngEntry) (h0 : s0.build sort = .ok e0)
    (h : ss.mapM (EntrySpec.build sort) = .ok es) (hr : ∀ s ∈ s0 :: ss, s.InRange)
    (hf : FitsN (ss.length + 1 + entryBefore (s0 :: ss) (ss.length + 1) + 2)) :
    ∃ orders b, (∀ (i : Nat) (h : i < (s0 :: ss).length), (s0 :: ss)[i].Sorted (orders i)) ∧
      AngularBlock.mkZero sort e0 es = .ok b ∧ b.nr = ss.length ∧
      AngBlockGives b true (s0 :: ss) orders ∧
      ∀ gap rest, FitsN (gap.length + (ss.length + 1) + entryBefore (s0 :: ss) (ss.length + 1) + 2) →
        ∃ r, AngularBlock.ofRange
          (b.xss.take (ss.length + 1) ++ gap ++ b.xss.drop (ss.length + 1) ++ rest)
          (ss.length + 1 + gap.length) ss.length true = .ok r ∧
          AngBlockGives r true (s0 :: ss) orders := by
  have h' : (s0 :: ss).mapM (EntrySpec.build sort) = .ok (e0 :: es) := by
    rw [List.mapM_cons, h0, ok_bind, h]; rfl
  obtain ⟨xss, orders, b, h1, h2, h3, h4, h5, h6⟩ :=
    block_spec sort true (s0 :: ss) (e0 :: es) ss.length rfl h' hr hf
  have hl := (mapM_ok_iff _ ss es h).1
  refine ⟨orders, b, h1, ?_, ?_, h5, by rw [h4]; exact h6⟩
  · unfold AngularBlock.mkZero
    rw [h2, ok_bind, hl]; exact h3
  · obtain ⟨es', _, hb⟩ := bind_eq_ok.mp h3
    injection hb with hb; rw [← hb]

-- elastic with data, then isotropic, given elsewhere and data again
example : ∃ (s0 : EntrySpec) (ss : List EntrySpec) (e0 : AngEntry) (es : List AngEntry),
    s0.build (sortBy _) = .ok e0 ∧ ss.mapM (EntrySpec.build (sortBy _)) = .ok es ∧
    ss.length = 3 ∧ (∀ s ∈ s0 :: ss, s.InRange) ∧
    FitsN (ss.length + 1 + entryBefore (s0 :: ss) (ss.length + 1) + 2) ∧
    (do let b ← AngularBlock.mkZero (sortBy _) e0 es
        return (b.xss.length, ← b.LAND 0, ← b.LAND 1, ← b.LAND 2, ← b.LAND 3)) =
      (.ok (22, 1, 0, -1, 14) : Res _) := by
  let vs : List AngSpec := [.tab (Dbl.ofNat 3) 2 [Dbl.ofNat 0, Dbl.ofNat 1] [Dbl.ofNat 1, Dbl.ofNat 1]
      [Dbl.ofNat 0, Dbl.ofNat 1], .iso (Dbl.ofNat 1)]
  let ws : List AngSpec := [.iso (Dbl.ofNat 2), .iso (Dbl.ofNat 1)]
  have hvs : ∀ v ∈ vs, v.InRange ∧ v.energy ≠ .nan := by
    intro v hv
    simp only [vs, List.mem_cons, List.not_mem_nil, or_false] at hv
    rcases hv with rfl | rfl
    · exact ⟨by simp only [AngSpec.InRange]; decide, by decide⟩
    · exact ⟨trivial, by decide⟩
  have hws : ∀ v ∈ ws, v.InRange ∧ v.energy ≠ .nan := by
    intro v hv
    simp only [ws, List.mem_cons, List.not_mem_nil, or_false] at hv
    rcases hv with rfl | rfl <;> exact ⟨trivial, by decide⟩
  refine ⟨.data vs 100, [.fullyIsotropic, .givenElsewhere, .data ws 1], _, _, by rfl, by rfl, rfl, ?_,
    by decide, by decide +kernel⟩
  intro s hs
  simp only [List.mem_cons, List.not_mem_nil, or_false] at hs
  rcases hs with rfl | rfl | rfl | rfl
  · exact ⟨hvs, by decide⟩
  · trivial
  · trivial
  · exact ⟨hws, by decide⟩

end ACE.Props

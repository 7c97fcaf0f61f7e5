import Verif.Lemmas.MovedPhoto
import Verif.Props.C60Case
import Verif.Props.C71

/-!
# C72: the blocks of a table may be anywhere in the XSS array

The locators of a table say where its blocks are; nothing in the format says that the blocks follow
each other in a particular order, and programs that change a table put new blocks where there is
room. The claim: a continuous energy table is the same table wherever its blocks are, in whatever
order, with whatever words between them.

`CE.Moved d d'` (`Verif.Props.PlaceSpec`) says that every block of `d` is in `d'`, where the locators
of `d'` say, that no locator points into another block, and that JXS(22) is behind all of them; a
block of locators and the data they point to move as one. The theorem is about the tables without
secondary particles (the locators of their blocks are words of the XSS array).

As the code stands the claim is false for delayed neutron data behind the photon production data:
the reader takes JXS(12) for their end (`C72_continuous_false`). It is false for a dosimetry table
the reaction numbers of which are behind the cross sections (`C72_dosimetry_false`). In
photoatomic tables the locators of the electroionisation data are words of the XSS array: `PA.Moved` says
that they are other words in the other table. The claim is false when another block is between the
scattering functions and the form factors (`C72_photoatomic_false`). The theorem about photonuclear tables is about those
without secondary particles; the claim is false when the reaction numbers are before the principal
cross sections (`C72_photonuclear_false`).
-/

namespace ACE.Props
open ACE

/-- The table is the same, except for the arrays JXS and XSS. -/
theorem C72_continuous_partial (d d' : TableData) (zaid : List Char) (hm : CE.MovedInOrder d d') (t : CE)
    (h : CE.ofTable zaid d = .ok t) (h0 : t.ptype = none)
    (h1 : ∀ b, t.yp = some b → b.xss ≠ []) (h2 : ∀ b, t.unr = some b → b.xss ≠ []) :
    ∃ t', CE.ofTable zaid d' = .ok t' ∧ t'.data.nxs = t.data.nxs ∧ ({ t with data := t'.data } : CE) ≼ t' :=
  Moved.continuous hm zaid t h ⟨h0, h1, h2⟩

/-- The same for dosimetry tables. -/
theorem C72_dosimetry_partial (d d' : TableData) (zaid : List Char) (hm : Dosimetry.MovedInOrder d d') (t : Dosimetry)
    (h : Dosimetry.ofTable zaid d = .ok t) :
    ∃ t', Dosimetry.ofTable zaid d' = .ok t' ∧ t'.data.nxs = t.data.nxs ∧
      ({ t with data := t'.data } : Dosimetry) ≼ t' :=
  Moved.dosimetry hm zaid t h

/-- The same for thermal scattering tables, when no block of cross sections is empty. -/
theorem C72_thermal_partial (d d' : TableData) (zaid : List Char) (hm : TS.Moved d d') (t : TS)
    (h : TS.ofTable zaid d = .ok t) (h1 : t.itie.xss ≠ [] ∨ ∃ j, d.JXS 1 = .ok j ∧ j ≤ 0)
    (h2 : ∀ b, t.itce = some b → b.xss ≠ []) (h3 : ∀ b, t.itcei = some b → b.xss ≠ []) :
    ∃ t', TS.ofTable zaid d' = .ok t' ∧ t'.data.nxs = t.data.nxs ∧ ({ t with data := t'.data } : TS) ≼ t' :=
  Moved.thermal hm zaid t h ⟨h1, h2, h3⟩

/-- The same for photoatomic tables. -/
theorem C72_photoatomic_partial (d d' : TableData) (zaid : List Char) (hm : PA.MovedInOrder d d') (t : PA)
    (h : PA.ofTable zaid d = .ok t) :
    ∃ t', PA.ofTable zaid d' = .ok t' ∧ t'.data.nxs = t.data.nxs ∧ ({ t with data := t'.data } : PA) ≼ t' :=
  Moved.photoatomic hm zaid t h

/-- The same for photonuclear tables without secondary particles. -/
theorem C72_photonuclear_partial (d d' : TableData) (zaid : List Char) (hm : PN.MovedInOrder d d') (t : PN)
    (h : PN.ofTable zaid d = .ok t) (h0 : t.ixsu = none) :
    ∃ t', PN.ofTable zaid d' = .ok t' ∧ t'.data.nxs = t.data.nxs ∧ ({ t with data := t'.data } : PN) ≼ t' :=
  Moved.photonuclear hm zaid t h h0

namespace C72
open C60

/-! ### Checking that a table is a table with its blocks at other places -/

def clearB (d : TableData) (index start length : Nat) : Bool :=
  (List.range' 1 32).all (fun j => decide (j ≤ index ∨ j = 21 ∨ j = 22) ||
    match d.JXS j with | .ok v => decide ((start : Int) ≤ v → ((start + length : Nat) : Int) ≤ v) | .error _ => true) &&
  match d.JXS 22 with | .ok last => decide (((start + length : Nat) : Int) ≤ last + 1) | .error _ => true

theorem clear_of {d : TableData} {index start length : Nat} (hl : d.jxs.length = 32) (h : clearB d index start length = true) :
    CE.Clear d index start length := by
  unfold clearB at h
  rw [Bool.and_eq_true, List.all_eq_true] at h
  obtain ⟨h, h'⟩ := h
  refine ⟨fun j h1 h2 h3 v hv hs => ?_, fun last e => ?_⟩
  · have hj : j ∈ List.range' 1 32 := by
      obtain ⟨_, e, _⟩ := bind_eq_ok.mp hv
      unfold TableData.verifyIndex at e
      split at e
      · cases e
      · rw [List.mem_range'_1]; omega
    have := h j hj
    rw [hv, Bool.or_eq_true] at this
    rcases this with this | this
    · have := of_decide_eq_true this
      omega
    · exact of_decide_eq_true this hs
  · rw [e] at h'
    exact of_decide_eq_true h'

def hasB (d : TableData) (start : Nat) (ws : Words) : Bool :=
  decide (start ≠ 0 ∧ start - 1 + ws.length ≤ d.xss.length ∧ (d.xss.drop (start - 1)).take ws.length = ws)

theorem has_of {d : TableData} {start : Nat} {ws : Words} (h : hasB d start ws = true) : d.Has start ws := by
  obtain ⟨h1, h2, h3⟩ := of_decide_eq_true h
  exact ⟨h1, h2, by rw [← h3]; exact List.take_prefix _ _⟩

def placedB (d : TableData) (index : Nat) (ws : Words) : Bool :=
  match d.JXS index with
  | .ok v => decide (v = (v.toNat : Int)) && hasB d v.toNat ws && clearB d index v.toNat ws.length
  | .error _ => false

theorem placed_of {d : TableData} {index : Nat} {ws : Words} (hl : d.jxs.length = 32) (h : placedB d index ws = true) :
    CE.Placed d index ws := by
  unfold placedB at h
  cases e : d.JXS index with
  | error _ => rw [e] at h; cases h
  | ok v =>
      rw [e] at h
      simp only [Bool.and_eq_true] at h
      exact ⟨v.toNat, by rw [e]; exact congrArg _ (of_decide_eq_true h.1.1), has_of h.1.2, clear_of hl h.2⟩

def pairB (d : TableData) (index : Nat) (ws : Words) (first : Nat) : Bool :=
  match d.JXS index with
  | .ok v => decide (v = (v.toNat : Int)) && decide (d.JXS (index + 1) = .ok ((v.toNat + first : Nat) : Int)) &&
      hasB d v.toNat ws && decide (first ≤ ws.length) && clearB d (index + 1) (v.toNat + first) (ws.length - first) &&
      match d.JXS 22 with | .ok last => decide (((v.toNat + ws.length : Nat) : Int) ≤ last + 1) | .error _ => true
  | .error _ => false

theorem pair_of {d : TableData} {index first : Nat} {ws : Words} (hl : d.jxs.length = 32)
    (h : pairB d index ws first = true) : CE.PlacedPair d index ws first := by
  unfold pairB at h
  cases e : d.JXS index with
  | error _ => rw [e] at h; cases h
  | ok v =>
      rw [e] at h
      simp only [Bool.and_eq_true] at h
      obtain ⟨⟨⟨⟨⟨a, b⟩, c⟩, f⟩, g⟩, i⟩ := h
      exact ⟨v.toNat, by rw [e]; exact congrArg _ (of_decide_eq_true a), of_decide_eq_true b, has_of c,
        of_decide_eq_true f, clear_of hl g, fun last hl => by rw [hl] at i; exact of_decide_eq_true i⟩

def locatedWords (d : TableData) (i : Nat) : Res (Words × Nat) := do
  let r ← CE.block d i
  let s ← CE.block d (i + 1)
  CE.located d r s

def movedB (d d' : TableData) : Bool :=
  decide (d'.nxs = d.nxs) && decide (d'.jxs.length = 32) &&
  d'.jxs.all (fun v => decide (0 ≤ v ∧ v ≤ d'.xss.length + 1)) &&
  (match d'.JXS 22 with | .ok v => decide (v ≤ d'.xss.length) | .error _ => false) &&
  decide (d'.xss.length < 2147483648) &&
  [2, 23, 24].all (fun i => match d.JXS i, d'.JXS i with
    | .ok v, .ok v' => decide (v > 0 ↔ v' > 0) | _, _ => false) &&
  CE.singles.all (fun i => match CE.block d i >>= d.words with
    | .ok ws => placedB d' i ws | .error _ => true) &&
  CE.pairs.all (fun i => match locatedWords d i with
    | .ok p => pairB d' i p.1 p.2 | .error _ => true)

theorem moved_of {d d' : TableData} (h : movedB d d' = true) : CE.Moved d d' := by
  unfold movedB at h
  simp only [Bool.and_eq_true, List.all_eq_true] at h
  obtain ⟨⟨⟨⟨⟨⟨⟨a, b⟩, c⟩, e⟩, f⟩, g⟩, i⟩, j⟩ := h
  have b := of_decide_eq_true b
  refine ⟨of_decide_eq_true a, ⟨b, fun v hv => of_decide_eq_true (c v hv)⟩, fun v hv => ?_, of_decide_eq_true f,
    fun k hk => ?_, fun k hk r ws h1 h2 => ?_, fun k hk r s p h1 h2 h3 => ?_⟩
  · rw [hv] at e; exact of_decide_eq_true e
  · have := g k hk
    cases e1 : d.JXS k with
    | error _ => rw [e1] at this; cases this
    | ok v =>
        cases e2 : d'.JXS k with
        | error _ => rw [e1, e2] at this; cases this
        | ok v' => rw [e1, e2] at this; exact ⟨v, v', rfl, rfl, of_decide_eq_true this⟩
  · have := i k hk
    rw [h1, ok_bind, h2] at this
    exact placed_of b this
  · have := j k hk
    unfold locatedWords at this
    rw [h1, ok_bind, h2, ok_bind, h3] at this
    exact pair_of b this

/-! ### Tables -/

/-- The table of C28 without secondary particles: 106 words, in the usual order. -/
def usual : TableData := made (CE.generateData 92 235 0 (exWith (some exPhotons) (some exUnr) (some exDelayed) none).input)

/-- The words up to the word `n` behind the others. -/
def turned (d : TableData) (n : Nat) : TableData :=
  { d with
    xss := d.xss.drop n ++ d.xss.take n
    jxs := (d.jxs.map fun j : Int =>
      if j = 0 then 0 else if j ≤ (n : Int) then j + ((d.xss.length - n : Nat) : Int) else j - (n : Int)).set 21
      ((d.xss.length : Nat) : Int) }

/-- The principal cross sections behind all other blocks. -/
theorem esz_last : CE.Moved usual (turned usual 10) := moved_of (by decide +kernel)

theorem esz_last_in_order : CE.MovedInOrder usual (turned usual 10) :=
  ⟨esz_last, fun r s p start gpd h1 h2 h3 h4 h5 => by
    have e : locatedWords usual 26 = .ok p := by
      unfold locatedWords
      rw [h1, ok_bind, h2, ok_bind, h3]
    have n : (locatedWords usual 26 >>= fun p => pure p.1.length) = .ok 12 := by decide +kernel
    have n' : p.1.length = 12 := by rw [e] at n; exact Except.ok.inj n
    have j : (turned usual 10).JXS 26 = .ok 61 := by decide +kernel
    have j' : (turned usual 10).JXS 12 = .ok 73 := by decide +kernel
    obtain rfl := Except.ok.inj (j.symm.trans h4)
    obtain rfl := Except.ok.inj (j'.symm.trans h5)
    rw [n']
    omega⟩

/-- The hypotheses of the theorem: the table of 106 words has photon production, probability tables and delayed
neutrons. -/
example : (CE.ofTable "92235.80c".toList usual).isOk ∧
    (do
      let t ← CE.ofTable "92235.80c".toList usual
      pure (decide (t.ptype = none ∧ (∀ b ∈ t.yp, b.xss ≠ []) ∧ t.yp ≠ none ∧ (∀ b ∈ t.unr, b.xss ≠ []) ∧ t.unr ≠ none ∧
        t.dned ≠ none))) = .ok true := by decide +kernel

/-- The photon production data, and then the principal blocks and the delayed neutron data. -/
theorem photons_first : CE.Moved usual (turned usual 82) := moved_of (by decide +kernel)

/-- The dosimetry table of C60 with a word before its blocks and one between them. -/
def spaced : TableData :=
  { exDos with xss := Dbl.ofNat 7 :: (exDos.xss.take 2 ++ Dbl.ofNat 8 :: exDos.xss.drop 2)
               jxs := ((exDos.jxs.set 2 2).set 5 5).set 6 7 }

/-- The same table with the reaction numbers behind the cross sections. -/
def behind : TableData :=
  { exDos with xss := exDos.xss.drop 2 ++ exDos.xss.take 2
               jxs := ((exDos.jxs.set 2 ((exDos.xss.length : Int) - 1)).set 5 1).set 6 3 }

def dosimetryB (d d' : TableData) (m l s m' l' : Nat) : Bool :=
  decide (d'.nxs = d.nxs) && decide (l ≤ s) && decide (d.offset 3 = .ok m) && decide (d.offset 6 = .ok l) &&
  decide (d.offset 7 = .ok s) && decide (d'.JXS 3 = .ok (m' : Int)) && decide (d'.JXS 6 = .ok (l' : Int)) &&
  decide (d'.JXS 7 = .ok ((l' + (s - l) : Nat) : Int)) && hasB d' l' (d.xss.drop l) &&
  match sub d.xss m l with | .ok ws => hasB d' m' ws | .error _ => true

theorem dosimetry_of {d d' : TableData} (m l s m' l' : Nat) (h : dosimetryB d d' m l s m' l' = true) :
    Dosimetry.Moved d d' := by
  unfold dosimetryB at h
  simp only [Bool.and_eq_true, decide_eq_true_eq] at h
  obtain ⟨⟨⟨⟨⟨⟨⟨⟨⟨a, b⟩, c⟩, e⟩, f⟩, g⟩, i⟩, j⟩, k⟩, n⟩ := h
  refine ⟨a, fun l1 s1 h1 h2 => ?_, fun m1 l1 ws h1 h2 h3 => ?_, fun l1 s1 h1 h2 => ?_⟩
  · obtain rfl := Except.ok.inj (e.symm.trans h1)
    obtain rfl := Except.ok.inj (f.symm.trans h2)
    exact b
  · obtain rfl := Except.ok.inj (c.symm.trans h1)
    obtain rfl := Except.ok.inj (e.symm.trans h2)
    rw [h3] at n
    exact ⟨m', g, has_of n⟩
  · obtain rfl := Except.ok.inj (e.symm.trans h1)
    obtain rfl := Except.ok.inj (f.symm.trans h2)
    exact ⟨l', i, j, has_of k⟩

example : Dosimetry.MovedInOrder exDos spaced ∧ (Dosimetry.ofTable "26056.10y".toList exDos).isOk :=
  ⟨⟨dosimetry_of 0 2 4 2 5 (by decide +kernel), fun m l ws start cross h1 h2 h3 h4 h5 => by
    have e1 : exDos.offset 3 = .ok 0 := by decide +kernel
    have e2 : exDos.offset 6 = .ok 2 := by decide +kernel
    obtain rfl := Except.ok.inj (e1.symm.trans h1)
    obtain rfl := Except.ok.inj (e2.symm.trans h2)
    have e4 : spaced.JXS 3 = .ok 2 := by decide +kernel
    have e5 : spaced.JXS 6 = .ok 5 := by decide +kernel
    obtain rfl := Except.ok.inj (e4.symm.trans h4)
    obtain rfl := Except.ok.inj (e5.symm.trans h5)
    have n : (sub exDos.xss 0 2 >>= fun ws => pure ws.length) = .ok 2 := by decide +kernel
    rw [h3] at n
    rw [Except.ok.inj n]
    decide⟩, by decide +kernel⟩

def thermalClearB (d : TableData) (index start length : Nat) : Bool :=
  (List.range' 1 32).all (fun j => decide (j ≤ index ∨ (j = index + 1 ∧ index ∈ [1, 4, 7])) ||
    match d.JXS j with | .ok v => decide ((start : Int) ≤ v → ((start + length : Nat) : Int) ≤ v) | .error _ => true)

def thermalPlacedB (d : TableData) (index : Nat) (ws : Words) : Bool :=
  match d.JXS index with
  | .ok v => decide (v = (v.toNat : Int)) && hasB d v.toNat ws && thermalClearB d index v.toNat ws.length
  | .error _ => false

theorem thermal_placed_of {d : TableData} {index : Nat} {ws : Words} (hl : d.jxs.length = 32)
    (h : thermalPlacedB d index ws = true) : TS.Placed d index ws := by
  unfold thermalPlacedB at h
  cases e : d.JXS index with
  | error _ => rw [e] at h; cases h
  | ok v =>
      rw [e] at h
      simp only [Bool.and_eq_true] at h
      refine ⟨v.toNat, by rw [e]; exact congrArg _ (of_decide_eq_true h.1.1), has_of h.1.2, ?_⟩
      have hc := h.2
      unfold thermalClearB at hc
      rw [List.all_eq_true] at hc
      intro j h1 h2 w hw hs
      have hj : j ∈ List.range' 1 32 := by
        obtain ⟨_, e, _⟩ := bind_eq_ok.mp hw
        unfold TableData.verifyIndex at e
        split at e
        · cases e
        · rw [List.mem_range'_1]; omega
      have := hc j hj
      rw [hw, Bool.or_eq_true] at this
      rcases this with this | this
      · rcases of_decide_eq_true this with h3 | h3
        · omega
        · exact absurd h3 h2
      · exact of_decide_eq_true this hs

def thermalB (d d' : TableData) : Bool :=
  decide (d'.nxs = d.nxs) && decide (d'.jxs.length = 32) &&
  d'.jxs.all (fun v => decide (0 ≤ v ∧ v ≤ d'.xss.length + 1)) &&
  decide (d'.xss.length < 2147483648) &&
  (match d.JXS 1, d'.JXS 1 with | .ok v, .ok v' => decide (v > 0 ↔ v' > 0) | _, _ => false) &&
  [1, 3, 4, 6, 7, 9].all (fun i => match TS.block d i >>= d.words with
    | .ok ws => thermalPlacedB d' i ws | .error _ => true) &&
  (match d.count 7 with | .ok n => decide (n < 2) | .error _ => true)

theorem thermal_of {d d' : TableData} (h : thermalB d d' = true) : TS.Moved d d' := by
  unfold thermalB at h
  simp only [Bool.and_eq_true, List.all_eq_true] at h
  obtain ⟨⟨⟨⟨⟨⟨a, b⟩, c⟩, e⟩, f⟩, g⟩, i⟩ := h
  have b := of_decide_eq_true b
  refine ⟨of_decide_eq_true a, ⟨b, fun v hv => of_decide_eq_true (c v hv)⟩, of_decide_eq_true e,
    ?_, fun k hk r ws h1 h2 => ?_, fun n hn => ?_⟩
  · cases e1 : d.JXS 1 with
    | error _ => rw [e1] at f; cases f
    | ok v =>
        cases e2 : d'.JXS 1 with
        | error _ => rw [e1, e2] at f; cases f
        | ok v' => rw [e1, e2] at f; exact ⟨v, v', rfl, rfl, of_decide_eq_true f⟩
  · have := g k hk
    rw [h1, ok_bind, h2] at this
    exact thermal_placed_of b this
  · rw [hn] at i
    exact .inl (of_decide_eq_true i)

/-- The thermal scattering table of C60 with the inelastic blocks behind the elastic ones. -/
def elasticFirst : TableData :=
  { exTS with xss := exTS.xss.drop 13 ++ exTS.xss.take 13
              jxs := exTS.jxs.map fun j : Int => if j = 0 then 0 else if j ≤ 13 then j + 18 else j - 13 }

example : TS.Moved exTS elasticFirst ∧ (do
    let t ← TS.ofTable "lwtr.00t".toList exTS
    pure (decide (t.itie.xss ≠ [] ∧ (∀ b ∈ t.itce, b.xss ≠ []) ∧ t.itce ≠ none ∧ (∀ b ∈ t.itcei, b.xss ≠ []) ∧
      t.itcei ≠ none))) = .ok true :=
  ⟨thermal_of (by decide +kernel), by decide +kernel⟩

/-- The table `elasticFirst` with an empty block of coherent elastic cross sections at the end. -/
def emptyLast : TableData := { elasticFirst with jxs := elasticFirst.jxs.set 3 32, nxs := elasticFirst.nxs.set 5 (-1) }

/-- The same with a word behind the empty block. -/
theorem empty_block : TS.Moved emptyLast (emptyLast.padded [Dbl.ofNat 1]) := thermal_of (by decide +kernel)

theorem numbers_behind : Dosimetry.Moved exDos behind :=
  dosimetry_of 0 2 4 (exDos.xss.length - 1) 1 (by decide +kernel)

def photoClearB (d : TableData) (index start length : Nat) : Bool :=
  (List.range' 1 32).all (fun j => decide (j ≤ index) ||
    match d.JXS j with | .ok v => decide ((start : Int) ≤ v → ((start + length : Nat) : Int) ≤ v) | .error _ => true)

theorem photo_clear_of {d : TableData} {index start length : Nat} (hl : d.jxs.length = 32)
    (h : photoClearB d index start length = true) : PA.Clear d index start length := by
  unfold photoClearB at h
  rw [List.all_eq_true] at h
  intro j h1 v hv hs
  have hj : j ∈ List.range' 1 32 := by
    have := Moved.jxs_at hv
    rw [List.mem_range'_1]; omega
  have := h j hj
  rw [hv, Bool.or_eq_true] at this
  rcases this with this | this
  · have := of_decide_eq_true this
    omega
  · exact of_decide_eq_true this hs

def photoPlacedB (d : TableData) (index : Nat) (ws : Words) : Bool :=
  match d.JXS index with
  | .ok v => decide (v = (v.toNat : Int)) && hasB d v.toNat ws && photoClearB d index v.toNat ws.length
  | .error _ => false

theorem photo_placed_of {d : TableData} {index : Nat} {ws : Words} (hl : d.jxs.length = 32)
    (h : photoPlacedB d index ws = true) : PA.Placed d index ws := by
  unfold photoPlacedB at h
  cases e : d.JXS index with
  | error _ => rw [e] at h; cases h
  | ok v =>
      rw [e] at h
      simp only [Bool.and_eq_true] at h
      exact ⟨v.toNat, by rw [e]; exact congrArg _ (of_decide_eq_true h.1.1), has_of h.1.2, photo_clear_of hl h.2⟩

def photoWholeB (d : TableData) (index : Nat) (ws : Words) : Bool :=
  match d.JXS index with
  | .ok v => decide (v = (v.toNat : Int)) && hasB d v.toNat ws && photoClearB d index v.toNat ws.length &&
      (List.range' 1 32).any (fun j => decide (index < j ∧ d.JXS j = .ok ((v.toNat + ws.length : Nat) : Int)))
  | .error _ => false

theorem photo_whole_of {d : TableData} {index : Nat} {ws : Words} (hl : d.jxs.length = 32)
    (h : photoWholeB d index ws = true) : PA.PlacedWhole d index ws := by
  unfold photoWholeB at h
  cases e : d.JXS index with
  | error _ => rw [e] at h; cases h
  | ok v =>
      rw [e] at h
      simp only [Bool.and_eq_true, List.any_eq_true] at h
      obtain ⟨⟨⟨h1, h2⟩, h3⟩, j, _, h4⟩ := h
      have h4 := of_decide_eq_true h4
      exact ⟨v.toNat, by rw [e]; exact congrArg _ (of_decide_eq_true h1), has_of h2, photo_clear_of hl h3, j, h4.1, h4.2⟩

def photoPairB (d : TableData) (index other : Nat) (ws : Words) (first : Nat) : Bool :=
  match d.JXS index with
  | .ok v => decide (v = (v.toNat : Int)) && decide (d.JXS other = .ok ((v.toNat + first : Nat) : Int)) &&
      hasB d v.toNat ws && decide (first ≤ ws.length) && photoClearB d other (v.toNat + first) (ws.length - first)
  | .error _ => false

theorem photo_pair_of {d : TableData} {index other first : Nat} {ws : Words} (hl : d.jxs.length = 32)
    (h : photoPairB d index other ws first = true) : PA.PlacedPair d index other ws first := by
  unfold photoPairB at h
  cases e : d.JXS index with
  | error _ => rw [e] at h; cases h
  | ok v =>
      rw [e] at h
      simp only [Bool.and_eq_true] at h
      obtain ⟨⟨⟨⟨h1, h2⟩, h3⟩, h4⟩, h5⟩ := h
      exact ⟨v.toNat, by rw [e]; exact congrArg _ (of_decide_eq_true h1), of_decide_eq_true h2, has_of h3,
        of_decide_eq_true h4, photo_clear_of hl h5⟩

def photoBothB (d d' : TableData) (i j : Nat) : Bool :=
  match PA.block d i, PA.block d j with
    | .ok l, .ok l' => (match sub d.xss l.1 l'.2 with
        | .ok ws => photoPairB d' i j ws (l'.1 - l.1) | .error _ => true)
    | _, _ => true

def photoLocatedB (d d' : TableData) (i j : Nat) : Bool :=
  match PA.block d i, PA.block d j with
    | .ok r, .ok s => (match CE.located d r s with
        | .ok p => photoPairB d' i j p.1 p.2 | .error _ => true)
    | _, _ => true

def subshellB (d d' : TableData) (nssh o o' i : Nat) : Bool :=
  match d.xss[o + i - 1]?, PA.wordOffset d (o + nssh + i - 1), PA.subshellEnd d o nssh i with
  | some n, .ok start, .ok stop => (match sub d.xss start stop with
      | .ok ws => (match PA.wordOffset d' (o' + nssh + i - 1), PA.subshellEnd d' o' nssh i with
          | .ok start', .ok stop' => decide (d'.xss[o' + i - 1]? = some n) && hasB d' (start' + 1) ws &&
              decide (start' + ws.length ≤ stop' ∧ stop' ≤ d'.xss.length)
          | _, _ => false)
      | .error _ => true)
  | _, _, _ => true

/-- When there are locators of electroionisation data. -/
def ionisationB (d d' : TableData) : Bool :=
  match d.count 7, d.offset 23 with
  | .ok nssh, .ok o => (match d'.offset 23 with
      | .ok o' => (List.range' 1 nssh).all (subshellB d d' nssh o o')
      | .error _ => false)
  | _, _ => true

def startsB (d d' : TableData) : Bool :=
  match PA.block d 11, PA.block d 16, d'.JXS 11 with
    | .ok l, .ok l', .ok v => (match sub d.xss l.1 l'.1 with
        | .ok ws => decide (v = (v.toNat : Int)) && hasB d' v.toNat ws | .error _ => true)
    | .ok _, .ok _, .error _ => false
    | _, _, _ => true

def photoB (d d' : TableData) : Bool :=
  decide (d'.nxs = d.nxs) && decide (d'.jxs.length = 32) &&
  d'.jxs.all (fun v => decide (0 ≤ v ∧ v ≤ d'.xss.length + 1)) &&
  decide (d'.xss.length < 2147483648) &&
  [1, 4, 5, 16, 19, 20, 26, 27].all (fun i => match PA.block d i >>= d.words with
    | .ok ws => photoPlacedB d' i ws | .error _ => true) &&
  [2, 3].all (fun i => match PA.block d i >>= d.words with
    | .ok ws => photoWholeB d' i ws | .error _ => true) &&
  photoBothB d d' 6 8 && photoLocatedB d d' 9 10 && startsB d d' && photoLocatedB d d' 17 18 &&
  [21, 24].all (fun i => photoBothB d d' i (i + 1)) && ionisationB d d'

theorem photo_both_of {d d' : TableData} {i j : Nat} (hl : d'.jxs.length = 32) (h : photoBothB d d' i j = true)
    {l l' : Nat × Nat} {ws : Words} (h1 : PA.block d i = .ok l) (h2 : PA.block d j = .ok l')
    (h3 : sub d.xss l.1 l'.2 = .ok ws) : PA.PlacedPair d' i j ws (l'.1 - l.1) := by
  unfold photoBothB at h
  simp only [h1, h2, h3] at h
  exact photo_pair_of hl h

theorem photo_located_of {d d' : TableData} {i j : Nat} (hl : d'.jxs.length = 32) (h : photoLocatedB d d' i j = true)
    {r s : Nat × Nat} {p : Words × Nat} (h1 : PA.block d i = .ok r) (h2 : PA.block d j = .ok s)
    (h3 : CE.located d r s = .ok p) : PA.PlacedPair d' i j p.1 p.2 := by
  unfold photoLocatedB at h
  simp only [h1, h2, h3] at h
  exact photo_pair_of hl h

theorem photo_of {d d' : TableData} (h : photoB d d' = true) : PA.Moved d d' := by
  unfold photoB at h
  simp only [Bool.and_eq_true, List.all_eq_true] at h
  obtain ⟨⟨⟨⟨⟨⟨⟨⟨⟨⟨⟨a, b⟩, c⟩, e⟩, f⟩, g⟩, i⟩, k⟩, l⟩, m⟩, n⟩, o⟩ := h
  have b := of_decide_eq_true b
  refine ⟨of_decide_eq_true a, ⟨b, fun v hv => of_decide_eq_true (c v hv)⟩, of_decide_eq_true e,
    fun j hj r ws h1 h2 => ?_, fun j hj r ws h1 h2 => ?_, fun _ _ _ => photo_both_of b i, fun _ _ _ => photo_located_of b k,
    fun l11 l16 ws h1 h2 h3 => ?_, fun _ _ _ => photo_located_of b m, fun j hj _ _ _ => photo_both_of b (n j hj),
    fun nssh offset h1 h2 => ?_⟩
  · have := f j hj
    rw [h1, ok_bind, h2] at this
    exact photo_placed_of b this
  · have := g j hj
    rw [h1, ok_bind, h2] at this
    exact photo_whole_of b this
  · unfold startsB at l
    cases e1 : d'.JXS 11 with
    | error _ => rw [h1, h2, e1] at l; cases l
    | ok v =>
        simp only [h1, h2, h3, e1, Bool.and_eq_true] at l
        exact ⟨v.toNat, congrArg _ (of_decide_eq_true l.1), has_of l.2⟩
  · unfold ionisationB at o
    cases e1 : d'.offset 23 with
    | error _ => simp only [h1, h2, e1] at o; cases o
    | ok o' =>
        simp only [h1, h2, e1, List.all_eq_true] at o
        refine ⟨o', rfl, fun i hi hi' n start stop ws h3 h4 h5 h6 => ?_⟩
        have := o i (by rw [List.mem_range'_1]; omega)
        unfold subshellB at this
        simp only [h3, h4, h5, h6] at this
        cases e2 : PA.wordOffset d' (o' + nssh + i - 1) with
        | error _ => rw [e2] at this; cases this
        | ok start' =>
            cases e3 : PA.subshellEnd d' o' nssh i with
            | error _ => rw [e2, e3] at this; cases this
            | ok stop' =>
                simp only [e2, e3, Bool.and_eq_true] at this
                obtain ⟨⟨k1, k2⟩, k3⟩ := this
                have k3 := of_decide_eq_true k3
                exact ⟨of_decide_eq_true k1, start', stop', rfl, has_of k2, rfl, k3.1, k3.2⟩

/-- The photoatomic table of C32 with all blocks. -/
def exPAe : TableData := made (PA.generateData C32.exAll.input)

/-- The same with the cross sections behind the other blocks, and a word between. The locators of the
electroionisation data are the words 99 to 102. -/
def crossLast : TableData :=
  { exPAe with xss := exPAe.xss.drop 10 |>.set 89 (Dbl.ofNat 94) |>.set 90 (Dbl.ofNat 101) |>.set 91 (Dbl.ofNat 97)
                 |>.set 92 (Dbl.ofNat 107) |> (· ++ Dbl.ofNat 7 :: exPAe.xss.take 10)
               jxs := exPAe.jxs.map fun j : Int => if j = 0 then 0 else if j = 1 then 127 else j - 10 }

theorem cross_last : PA.Moved exPAe crossLast := photo_of (by decide +kernel)

/-- Block 2 ends at block 3, block 3 ends at block 4, block 18 ends at block 19, and block 11 is before block 16. -/
example : PA.MovedInOrder exPAe crossLast ∧ (PA.ofTable "1000.12p".toList exPAe).isOk :=
  ⟨⟨cross_last, fun i hi r ws start h1 h2 h3 => by
    have hlen : ∀ n, (PA.block exPAe i >>= fun r => exPAe.words r >>= fun ws => pure ws.length) = .ok n → ws.length = n := by
      intro n hn
      rw [h1, ok_bind, h2, ok_bind] at hn
      exact Except.ok.inj hn
    have hi : i = 2 ∨ i = 3 := by simpa using hi
    rcases hi with rfl | rfl
    · have hs : start = 1 := Except.ok.inj (h3.symm.trans (by decide +kernel))
      rw [hlen 6 (by decide +kernel), hs]
      exact ⟨3, by decide, by decide +kernel, fun k h1 h2 => absurd h1 (by omega)⟩
    · have hs : start = 7 := Except.ok.inj (h3.symm.trans (by decide +kernel))
      rw [hlen 3 (by decide +kernel), hs]
      exact ⟨4, by decide, by decide +kernel, fun k h1 h2 => absurd h1 (by omega)⟩,
   fun r s p start h1 h2 h3 h4 => by
    have h : (do
        let r ← PA.block exPAe 17
        let s ← PA.block exPAe 18
        let p ← CE.located exPAe r s
        pure p.1.length) = .ok 10 := by decide +kernel
    rw [h1, ok_bind, h2, ok_bind, h3, ok_bind] at h
    have h : p.1.length = 10 := Except.ok.inj h
    have hs : start = 54 := Except.ok.inj (h4.symm.trans (by decide +kernel))
    rw [h, hs]
    exact ⟨19, by decide, by decide +kernel, fun k h1 h2 => absurd h1 (by omega)⟩,
   fun l11 l16 ws start other h1 h2 h3 h4 h5 => by
    have h : (do
        let r ← PA.block exPAe 11
        let s ← PA.block exPAe 16
        let ws ← sub exPAe.xss r.1 s.1
        pure ws.length) = .ok 10 := by decide +kernel
    rw [h1, ok_bind, h2, ok_bind, h3, ok_bind] at h
    have h : ws.length = 10 := Except.ok.inj h
    have hs : start = 40 := Except.ok.inj (h4.symm.trans (by decide +kernel))
    have ho : other = 50 := Except.ok.inj (h5.symm.trans (by decide +kernel))
    omega⟩, by decide +kernel⟩

/-- The photoatomic table of C60 with the heating numbers between the scattering functions and the form factors. -/
def heatingBetween : TableData :=
  { exPA with xss := exPA.xss.take 16 ++ (exPA.xss.drop 23).take 2 ++ (exPA.xss.drop 16).take 7 ++ exPA.xss.drop 25
              jxs := exPA.jxs.map fun j : Int => if 17 ≤ j ∧ j < 24 then j + 2 else if j = 24 then 17 else j }

theorem heating_between : PA.Moved exPA heatingBetween := photo_of (by decide +kernel)

def nuclearB (d d' : TableData) : Bool :=
  decide (d'.nxs = d.nxs) && decide (d'.jxs.length = 32) &&
  d'.jxs.all (fun v => decide (0 ≤ v ∧ v ≤ d'.xss.length + 1)) &&
  decide (d'.xss.length < 2147483648) &&
  (match d.JXS 4, d'.JXS 4 with | .ok v, .ok v' => decide (v ≠ 0 ↔ v' ≠ 0) | _, _ => false) &&
  (match PN.block d 1, PN.block d 6, d'.JXS 1 with
    | .ok b1, .ok b6, .ok v => (match sub d.xss b1.1 b6.1 with
        | .ok ws => decide (v = (v.toNat : Int)) && hasB d' v.toNat ws | .error _ => true)
    | _, _, _ => false) &&
  [6, 7].all (fun i => match PN.block d i >>= d.words with
    | .ok ws => photoPlacedB d' i ws | .error _ => true) &&
  (match PN.block d 8, PN.block d 9 with
    | .ok r, .ok s => (match CE.located d r s with
        | .ok p => photoPairB d' 8 9 p.1 p.2 | .error _ => true)
    | _, _ => true)

theorem nuclear_of {d d' : TableData} (h : nuclearB d d' = true) : PN.Moved d d' := by
  unfold nuclearB at h
  simp only [Bool.and_eq_true, List.all_eq_true] at h
  obtain ⟨⟨⟨⟨⟨⟨⟨a, b⟩, c⟩, e⟩, f⟩, g⟩, i⟩, k⟩ := h
  have b := of_decide_eq_true b
  refine ⟨of_decide_eq_true a, ⟨b, fun v hv => of_decide_eq_true (c v hv)⟩, of_decide_eq_true e,
    ?_, fun b1 b6 ws h1 h2 h3 => ?_, fun j hj r ws h1 h2 => ?_, fun r s p h1 h2 h3 => ?_⟩
  · cases e1 : d.JXS 4 with
    | error _ => rw [e1] at f; cases f
    | ok v =>
        cases e2 : d'.JXS 4 with
        | error _ => rw [e1, e2] at f; cases f
        | ok v' => rw [e1, e2] at f; exact ⟨v, v', rfl, rfl, of_decide_eq_true f⟩
  · rw [h1, h2] at g
    cases e1 : d'.JXS 1 with
    | error _ => rw [e1] at g; cases g
    | ok v =>
        rw [e1] at g
        simp only [h3, Bool.and_eq_true] at g
        exact ⟨v.toNat, congrArg _ (of_decide_eq_true g.1), has_of g.2⟩
  · have := i j hj
    rw [h1, ok_bind, h2] at this
    exact photo_placed_of b this
  · simp only [h1, h2, h3] at k
    exact photo_pair_of b k

/-- The photonuclear table of C60 with the cross sections of the reactions before the other blocks. -/
def sectionsFirst : TableData :=
  { exPNData with xss := exPNData.xss.drop 12 ++ exPNData.xss.take 12
                  jxs := exPNData.jxs.map fun j : Int => if j = 0 then 0 else if j ≤ 12 then j + 10 else j - 12 }

theorem sections_first : PN.Moved exPNData sectionsFirst := nuclear_of (by decide +kernel)

example : PN.MovedInOrder exPNData sectionsFirst ∧ (do
    let t ← PN.ofTable "92235.70u".toList exPNData
    pure (decide (t.ixsu = none))) = .ok true :=
  ⟨⟨sections_first, fun b1 b6 ws start numbers h1 h2 h3 h4 h5 => by
    have h : (do
        let b1 ← PN.block exPNData 1
        let b6 ← PN.block exPNData 6
        let ws ← sub exPNData.xss b1.1 b6.1
        pure ws.length) = .ok 8 := by decide +kernel
    rw [h1, ok_bind, h2, ok_bind, h3, ok_bind] at h
    have h : ws.length = 8 := Except.ok.inj h
    have e4 : sectionsFirst.JXS 1 = .ok 11 := by decide +kernel
    have e5 : sectionsFirst.JXS 6 = .ok 19 := by decide +kernel
    have h4 : start = 11 := Except.ok.inj (h4.symm.trans e4)
    have h5 : numbers = 19 := Except.ok.inj (h5.symm.trans e5)
    omega⟩, by decide +kernel⟩

/-- The same table with the reaction numbers before the other blocks. -/
def numbersFirst : TableData :=
  { exPNData with xss := (exPNData.xss.drop 8).take 2 ++ exPNData.xss.take 8 ++ exPNData.xss.drop 10
                  jxs := exPNData.jxs.map fun j : Int => if j = 0 then 0 else if j < 9 then j + 2 else if j = 9 then 1 else j }

theorem numbers_first : PN.Moved exPNData numbersFirst := nuclear_of (by decide +kernel)

end C72

open C72

/-- The blocks are where the locators say, but the reaction numbers are behind the cross sections: they end before
they start, and the table cannot be made. -/
theorem C72_dosimetry_false : ∃ d d', Dosimetry.Moved d d' ∧ (Dosimetry.ofTable "26056.10y".toList d).isOk ∧
    Dosimetry.ofTable "26056.10y".toList d' = .error .ub :=
  ⟨C60.exDos, behind, numbers_behind, by decide +kernel, by decide +kernel⟩

/-- The blocks are all where the locators say, but the delayed neutron data are behind the photon
production data: they end before they start, and the table cannot be made. -/
theorem C72_continuous_false : ∃ d d', CE.Moved d d' ∧ (CE.ofTable "92235.80c".toList d).isOk ∧
    CE.ofTable "92235.80c".toList d' = .error .ub :=
  ⟨usual, turned usual 82, photons_first, by decide +kernel, by decide +kernel⟩

/-- An empty block of coherent elastic cross sections: what is behind it is taken for their number. -/
theorem C72_thermal_false : ∃ d d', TS.Moved d d' ∧ (TS.ofTable "lwtr.00t".toList d).isOk ∧
    TS.ofTable "lwtr.00t".toList d' = .error .thrown :=
  ⟨_, _, empty_block, by decide +kernel, by decide +kernel⟩

/-- The blocks are all where the locators say, but the heating numbers are between the scattering
functions and the form factors: they are read as scattering functions. -/
theorem C72_photoatomic_false : ∃ d d' t t', PA.Moved d d' ∧ PA.ofTable "1000.12p".toList d = .ok t ∧
    PA.ofTable "1000.12p".toList d' = .ok t' ∧ t'.jinc.data.xss = t.jinc.data.xss ++ t.lhnm.xss ∧ t.lhnm.xss ≠ [] := by
  have h : (do
      let t ← PA.ofTable "1000.12p".toList C60.exPA
      let t' ← PA.ofTable "1000.12p".toList heatingBetween
      pure (decide (t'.jinc.data.xss = t.jinc.data.xss ++ t.lhnm.xss ∧ t.lhnm.xss ≠ []))) = .ok true := by decide +kernel
  obtain ⟨t, h1, h⟩ := bind_eq_ok.mp h
  obtain ⟨t', h2, h⟩ := bind_eq_ok.mp h
  exact ⟨_, _, t, t', heating_between, h1, h2, of_decide_eq_true (Except.ok.inj h)⟩

/-- The blocks are all where the locators say, but the reaction numbers are before the principal cross
sections: these end before they start, and the table cannot be made. -/
theorem C72_photonuclear_false : ∃ d d', PN.Moved d d' ∧ (PN.ofTable "92235.70u".toList d).isOk ∧
    PN.ofTable "92235.70u".toList d' = .error .ub :=
  ⟨_, _, numbers_first, by decide +kernel, by decide +kernel⟩

end ACE.Props

import Verif.Lemmas.Distribution
import Verif.Lemmas.Sort
import Verif.Model.Angular

/-! # Helper lemmas about tables in which some entries have no words -/

namespace ACE

/-- What follows entry `i` in its range: for the last entry with words, what follows the table. -/
def tailOf (ws : List Words) (rest : Words) (i : Nat) : Words :=
  if startOf ws (i + 1) = ws.flatten.length then rest else []

theorem findNext_flagged (rel : Nat → Res Int) (ws : List Words) (L o i : Nat) (hi : i < ws.length)
    (hne : ws[i] ≠ [])
    (hrel : ∀ (j : Nat) (hj : j < ws.length), ∃ v : Nat, rel (j + o) = .ok (v : Int) ∧
      (ws[j] = [] → v ≤ L) ∧ (ws[j] ≠ [] → v = L + startOf ws j + 1)) :
    Dist.findNext rel ((L + startOf ws i + 1 : Nat) : Int)
      (List.range' (i + 1 + o) (ws.length - (i + 1))) =
      .ok (if startOf ws (i + 1) = ws.flatten.length then none
        else some ((L + startOf ws (i + 1) + 1 : Nat) : Int)) := by
  have hpos : 0 < ws[i].length := List.length_pos_iff.mpr hne
  have hsucc := startOf_succ ws i hi
  have key : ∀ (m s : Nat), i + 1 ≤ s → s + m = ws.length → startOf ws s = startOf ws (i + 1) →
      Dist.findNext rel ((L + startOf ws i + 1 : Nat) : Int) (List.range' (s + o) m) =
      .ok (if startOf ws (i + 1) = ws.flatten.length then none
        else some ((L + startOf ws (i + 1) + 1 : Nat) : Int)) := by
    intro m
    induction m with
    | zero =>
      intro s h1 h2 h3
      have : s = ws.length := by omega
      subst this
      rw [← h3, startOf_length, if_pos rfl]
      rfl
    | succ m ih =>
      intro s h1 h2 h3
      have hs : s < ws.length := by omega
      obtain ⟨v, hv, hv1, hv2⟩ := hrel s hs
      rw [List.range'_succ]
      unfold Dist.findNext
      rw [hv, ok_bind]
      by_cases he : ws[s] = []
      · have := hv1 he
        rw [if_neg (by omega)]
        have e : s + o + 1 = (s + 1) + o := by omega
        rw [e]
        refine ih (s + 1) (by omega) (by omega) ?_
        rw [startOf_succ ws s hs, he, h3]; simp
      · have hv' := hv2 he
        have hp : 0 < ws[s].length := List.length_pos_iff.mpr he
        have := startOf_add_le ws s hs
        rw [if_pos (by omega), if_neg (by omega), hv', h3]
        rfl
  exact key _ (i + 1) (by omega) (by omega) rfl

theorem sub_flagged (A rest : Words) (ws : List Words) (i : Nat) (hi : i < ws.length) :
    sub (A ++ ws.flatten ++ rest) (A.length + startOf ws i)
      (if startOf ws (i + 1) = ws.flatten.length then (A ++ ws.flatten ++ rest).length
        else A.length + startOf ws (i + 1)) = .ok (ws[i] ++ tailOf ws rest i) := by
  have hs := flatten_split ws i hi
  have hsucc := startOf_succ ws i hi
  unfold tailOf
  by_cases hlast : startOf ws (i + 1) = ws.flatten.length
  · rw [if_pos hlast, if_pos hlast]
    have hd : (ws.drop (i + 1)).flatten = [] := by
      have := congrArg List.length hs
      simp only [List.length_append] at this
      refine List.eq_nil_of_length_eq_zero ?_
      unfold startOf at hsucc hlast
      omega
    refine sub_of_eq (a := A ++ (ws.take i).flatten) (c := []) ?_ ?_ ?_
    · rw [hs, hd]; simp
    · simp [startOf]
    · rw [List.length_append, List.length_append, hs, hd]
      simp; omega
  · rw [if_neg hlast, if_neg hlast]
    refine sub_of_eq (a := A ++ (ws.take i).flatten) (c := (ws.drop (i + 1)).flatten ++ rest) ?_ ?_ ?_
    · conv => lhs; rw [hs]
      simp
    · simp [startOf]
    · rw [hsucc]; simp [startOf]; omega

namespace AngularData

/-- The locators of the entries, the first one for `k`. -/
def locs (k : Nat) : List AngDist → Words
  | [] => []
  | d :: ds => d.locator k :: locs (k + d.words.length) ds

@[simp] theorem locs_length (k : Nat) (ds : List AngDist) : (locs k ds).length = ds.length := by
  induction ds generalizing k with
  | nil => rfl
  | cons d ds ih => simp [locs, ih]

theorem locs_getElem (k : Nat) (ds : List AngDist) (i : Nat) (h : i < ds.length) :
    (locs k ds)[i]'(by simpa using h) = ds[i].locator (k + startOf (ds.map (·.words)) i) := by
  induction ds generalizing k i with
  | nil => simp at h
  | cons d ds ih =>
    cases i with
    | zero => simp [locs]
    | succ i =>
      simp only [locs, List.getElem_cons_succ, List.map_cons]
      rw [ih]
      · congr 1
        simp [startOf]; omega
      · simpa using h

theorem loop_spec (ne locb : Nat) (ds : List AngDist) (vs ls acc : Words) (N z : Dbl)
    (hn : ne = vs.length + ds.length) (hk : ls.length = vs.length) :
    loop ne locb ds
        (N :: (vs ++ List.replicate ds.length z ++ (ls ++ List.replicate ds.length z ++ acc)))
        (vs.length + 1) =
      N :: (vs ++ ds.map (·.energy) ++
        (ls ++ locs (1 + 2 * ne + acc.length + locb) ds ++
          (acc ++ (ds.map (·.words)).flatten))) := by
  induction ds generalizing vs ls acc with
  | nil => simp [loop, locs]
  | cons d ds ih =>
    have e1 : (N :: (vs ++ List.replicate (d :: ds).length z ++
          (ls ++ List.replicate (d :: ds).length z ++ acc))).set (vs.length + 1) d.energy =
        N :: ((vs ++ [d.energy]) ++ List.replicate ds.length z ++
          (ls ++ List.replicate (d :: ds).length z ++ acc)) := by
      simp [List.replicate_succ]
    have e3 : ∀ x, (N :: ((vs ++ [d.energy]) ++ List.replicate ds.length z ++
          (ls ++ List.replicate (d :: ds).length z ++ acc))).set (vs.length + 1 + ne) x =
        N :: ((vs ++ [d.energy]) ++ List.replicate ds.length z ++
          ((ls ++ [x]) ++ List.replicate ds.length z ++ acc)) := by
      intro x
      have hidx : vs.length + 1 + ne =
          ((vs ++ [d.energy]) ++ List.replicate ds.length z).length + ls.length + 1 := by
        simp at hn ⊢; omega
      rw [hidx, List.set_cons_succ, List.set_append_right _ _ (by omega)]
      simp [List.replicate_succ]
    have e2 : (N :: ((vs ++ [d.energy]) ++ List.replicate ds.length z ++
          (ls ++ List.replicate (d :: ds).length z ++ acc))).length =
        1 + 2 * ne + acc.length := by
      simp at hn ⊢; omega
    unfold loop
    simp only [e1, e3, e2]
    have := ih (vs ++ [d.energy]) (ls ++ [d.locator (1 + 2 * ne + acc.length + locb)])
      (acc ++ d.words) (by simp at hn ⊢; omega) (by simp [hk])
    simp only [List.length_append, List.length_singleton] at this
    have e5 : ∀ x, (N :: ((vs ++ [d.energy]) ++ List.replicate ds.length z ++
          ((ls ++ [x]) ++ List.replicate ds.length z ++ acc))) ++ d.words =
        N :: ((vs ++ [d.energy]) ++ List.replicate ds.length z ++
          ((ls ++ [x]) ++ List.replicate ds.length z ++ (acc ++ d.words))) := by
      intro x; simp
    rw [e5, this]
    have e6 : 1 + 2 * ne + (acc.length + d.words.length) + locb =
        1 + 2 * ne + acc.length + locb + d.words.length := by omega
    rw [e6]
    simp [locs]

/-- The words of angular distribution data for base locator `locb`. -/
def wordsOf (locb : Nat) (ds : List AngDist) : Words :=
  ColumnData.words ds.length [ds.map (·.energy), locs (locb + (1 + 2 * ds.length)) ds] ++
    (ds.map (·.words)).flatten

theorem generateXSS_eq (ds : List AngDist) (locb : Nat) : generateXSS ds locb = wordsOf locb ds := by
  have := loop_spec ds.length locb ds [] [] [] (Dbl.ofNat ds.length) (Dbl.ofNat 0) (by simp) rfl
  unfold generateXSS
  have er : List.replicate (2 * ds.length) (Dbl.ofNat 0) =
      List.replicate ds.length (Dbl.ofNat 0) ++ List.replicate ds.length (Dbl.ofNat 0) := by
    rw [List.replicate_append_replicate]
    have e : 2 * ds.length = ds.length + ds.length := by omega
    rw [e]
  rw [er]
  simp only [List.nil_append, List.append_nil, List.length_nil, Nat.add_zero, Nat.zero_add] at this
  rw [this]
  unfold wordsOf
  have e : 1 + 2 * ds.length + locb = locb + (1 + 2 * ds.length) := by omega
  rw [e]
  simp [ColumnData.words]

theorem head_length (locb : Nat) (ds : List AngDist) :
    (ColumnData.words ds.length [ds.map (·.energy), locs (locb + (1 + 2 * ds.length)) ds]).length =
      1 + 2 * ds.length := by
  simp [ColumnData.words]; omega

theorem wordsOf_length (locb : Nat) (ds : List AngDist) :
    (wordsOf locb ds).length = 1 + 2 * ds.length + (ds.map (·.words)).flatten.length := by
  unfold wordsOf
  rw [List.length_append, head_length]

end AngularData
end ACE

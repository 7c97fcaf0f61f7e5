import Mathlib.Data.Quot
import Mathlib.Data.List.Forall2
import Verif.Lemmas.NaturalContent
import Verif.Props.C35

/-!
# C57: numbers matter to the structure of a table only through the integers they stand for

Every typed table read from data in which the words are replaced by words with the same rounded value, the same
truncated value, the same sign and the same comparisons with integers is the table read from the original data with
the same replacement made in all its blocks. In particular whether a table can be read, the error when it cannot, the
number and the kinds of the blocks and every count never depend on the physical values.
-/

namespace ACE.Props
open ACE

/-- Two numbers the library cannot tell apart where it reads an integer. -/
structure SameInteger (x y : Dbl) : Prop where
  round : x.round? = y.round?
  trunc : x.trunc? = y.trunc?
  neg : x.isNeg = y.isNeg
  ge : ∀ n, x.geNat n = y.geNat n

/-- Replacing words that keep their integers and then reading a table is the same as reading it and then replacing the
words of its blocks, for each of the five classes, including all errors. -/
theorem C57_content (r : Dbl → Dbl) [Keeps r] (k : TableType) (zaid : List Char) (d : TableData) :
    Content.ofTable k zaid (d.mapw r) = Except.map (Content.mapw r) (Content.ofTable k zaid d) := by
  cases k <;>
    simp only [Content.ofTable, CE.ofTable, Dosimetry.ofTable, PA.ofTable, PN.ofTable, TS.ofTable, natural,
      CE.generateBlocks_mapw, Dosimetry.generateBlocks_mapw, PA.generateBlocks_mapw, PN.generateBlocks_mapw,
      TS.generateBlocks_mapw, Content.mapw]

namespace C57

/-- Numbers that stand for the same integers. -/
def same : Setoid Dbl where
  r := SameInteger
  iseqv := ⟨fun _ => ⟨rfl, rfl, rfl, fun _ => rfl⟩,
    fun h => ⟨h.round.symm, h.trunc.symm, h.neg.symm, fun n => (h.ge n).symm⟩,
    fun h g => ⟨h.round.trans g.round, h.trunc.trans g.trunc, h.neg.trans g.neg,
      fun n => (h.ge n).trans (g.ge n)⟩⟩

/-- One number for every class. -/
noncomputable def canon (x : Dbl) : Dbl := (Quotient.mk same x).out

theorem canon_same (x : Dbl) : SameInteger (canon x) x := by
  exact Quotient.exact (s := same) (Quotient.out_eq (Quotient.mk same x))

theorem canon_eq {x y : Dbl} (h : SameInteger x y) : canon x = canon y := by
  unfold canon
  rw [Quotient.sound (s := same) h]

instance : Keeps canon where
  round x := (canon_same x).round
  trunc x := (canon_same x).trunc
  neg x := (canon_same x).neg
  ge x := (canon_same x).ge

theorem map_eq {r : Dbl → Dbl} (hr : ∀ x y, SameInteger x y → r x = r y) {xs ys : Words}
    (h : List.Forall₂ SameInteger xs ys) : xs.map r = ys.map r := by
  induction h with
  | nil => rfl
  | cons h _ ih => rw [List.map_cons, List.map_cons, ih, hr _ _ h]

theorem emap_error_iff {α β : Type} (f : α → β) (x : Res α) (e : Err) :
    Except.map f x = .error e ↔ x = .error e := by
  cases x <;> simp [Except.map]

/-- 2.25 becomes 2.3125. -/
def twin (x : Dbl) : Dbl := if x = .fin false 9 (-2) then .fin false 37 (-4) else x

theorem twin_ge (n : Nat) : (Dbl.fin false 37 (-4)).geNat n = (Dbl.fin false 9 (-2)).geNat n := by
  simp only [Dbl.geNat]
  rw [if_neg (by decide), if_neg (by decide), decide_eq_decide]
  show n * 16 ≤ 37 ↔ n * 4 ≤ 9
  omega

instance : Keeps twin where
  round x := by unfold twin; split <;> simp_all <;> rfl
  trunc x := by unfold twin; split <;> simp_all <;> rfl
  neg x := by unfold twin; split <;> simp_all <;> rfl
  ge x n := by
    unfold twin; split
    · next h => rw [h, twin_ge]
    · rfl

end C57

/-- Whether a table can be constructed, and the error when it cannot, depends on the words only through their integers,
and two tables whose words stand for the same integers have the same structure: they are equal once every word is
replaced by a representative of its class. -/
theorem C57_outcome (k : TableType) (zaid : List Char) (d : TableData) (xs : Words)
    (h : List.Forall₂ SameInteger d.xss xs) :
    (∀ e, Content.ofTable k zaid { d with xss := xs } = .error e ↔ Content.ofTable k zaid d = .error e) ∧
    ∀ c c', Content.ofTable k zaid d = .ok c → Content.ofTable k zaid { d with xss := xs } = .ok c' →
      ∀ r : Dbl → Dbl, Keeps r → (∀ x y, SameInteger x y → r x = r y) → c'.mapw r = c.mapw r := by
  have key : ∀ r : Dbl → Dbl, Keeps r → (∀ x y, SameInteger x y → r x = r y) →
      Except.map (Content.mapw r) (Content.ofTable k zaid { d with xss := xs }) =
        Except.map (Content.mapw r) (Content.ofTable k zaid d) := by
    intro r hk hr
    rw [← C57_content, ← C57_content]
    unfold TableData.mapw
    rw [C57.map_eq hr h]
  constructor
  · intro e
    rw [← C57.emap_error_iff (Content.mapw C57.canon), key _ inferInstance fun x y => C57.canon_eq,
      C57.emap_error_iff]
  · intro c c' h1 h2 r hk hr
    have g := key r hk hr
    rw [h1, h2] at g
    exact Except.ok.inj g

/-- The values an array or column block returns after the replacement: numbers are replaced, integers are the same, and
the same accesses fail. -/
theorem C57_values (r : Dbl → Dbl) [Keeps r] (d : ArrayData) (c : ColumnData) (a i : Nat) :
    (d.mapw r).darray a = Except.map (List.map r) (d.darray a) ∧
    (d.mapw r).dvalue a i = Except.map r (d.dvalue a i) ∧
    (d.mapw r).iarray a = d.iarray a ∧ (d.mapw r).ivalue a i = d.ivalue a i ∧
    (c.mapw r).N = c.N ∧ (c.mapw r).column a = Except.map (List.map r) (c.column a) ∧
    (c.mapw r).value a i = Except.map r (c.value a i) :=
  ⟨ArrayData.darray_mapw d a, ArrayData.dvalue_mapw d a i, ArrayData.iarray_mapw d a, ArrayData.ivalue_mapw d a i,
   ColumnData.N_mapw c, ColumnData.column_mapw c a, ColumnData.value_mapw c a i⟩

instance : Inhabited TableData := ⟨⟨[], [], [], [], []⟩⟩

/-- The data of a dosimetry table with a cross section of 2.25. -/
def exTwinData : TableData :=
  made (Dosimetry.generateData 26 56 (made (MTR.mk' [16]))
    (made (SIGD.mk' [made (TabulatedData.mk' [] [] [num 1, num 20] [.fin false 9 (-2), num 4])])))

/-- The table with 2.3125 instead of 2.25 is the table read with the cross section replaced, and it is another table. -/
example : Content.ofTable .dosimetry "26056.10y".toList (exTwinData.mapw C57.twin) =
    Except.map (Content.mapw C57.twin) (Content.ofTable .dosimetry "26056.10y".toList exTwinData) ∧
    (Content.ofTable .dosimetry "26056.10y".toList exTwinData).toOption.isSome ∧
    exTwinData.mapw C57.twin ≠ exTwinData :=
  ⟨C57_content C57.twin _ _ _, by decide +kernel, by decide +kernel⟩
/-- Both tables can be read. -/
example : ∀ e, Content.ofTable .dosimetry "26056.10y".toList
      { exTwinData with xss := exTwinData.xss.map C57.twin } = .error e ↔
    Content.ofTable .dosimetry "26056.10y".toList exTwinData = .error e :=
  (C57_outcome .dosimetry _ exTwinData _ (by
    refine List.forall₂_map_right_iff.mpr (List.forall₂_same.mpr fun x _ => ?_)
    exact ⟨(Keeps.round x).symm, (Keeps.trunc x).symm, (Keeps.neg x).symm, fun n => (Keeps.ge x n).symm⟩)).1

end ACE.Props

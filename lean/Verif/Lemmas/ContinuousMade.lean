import Verif.Lemmas.ContinuousData
import Verif.Lemmas.ContinuousTable
import Verif.Props.C36

/-! # A continuous energy table made from its blocks -/

namespace ACE.CE
open ACE.Props

section
variable {B : Blocks} {mts : List Nat} {vs : List (Frame × Nat)}

/-- Identification succeeds with a stored nuclide or a ZAID that starts with a number. -/
theorem setSZA_ok (d : TableData) (hd : d.Sized) (zaid : List Char)
    (h : (d.NXS 9 ≠ .ok 0 ∨ d.NXS 10 ≠ .ok 0 ∨ d.NXS 11 ≠ .ok 0) ∨
      ∃ v, Ident.stoi (Ident.target zaid) = .ok v) : ∃ d', d.setSZA zaid = .ok d' := by
  by_cases hz : d.NXS 9 ≠ .ok 0 ∨ d.NXS 10 ≠ .ok 0 ∨ d.NXS 11 ≠ .ok 0
  · exact ⟨d, C36_stored d hd zaid hz⟩
  · obtain ⟨v, hv⟩ := h.resolve_left hz
    have h9 : d.NXS 9 = .ok 0 := by
      by_cases h : d.NXS 9 = .ok 0
      · exact h
      · exact absurd (Or.inl h) hz
    have h10 : d.NXS 10 = .ok 0 := by
      by_cases h : d.NXS 10 = .ok 0
      · exact h
      · exact absurd (Or.inr (Or.inl h)) hz
    have h11 : d.NXS 11 = .ok 0 := by
      by_cases h : d.NXS 11 = .ok 0
      · exact h
      · exact absurd (Or.inr (Or.inr h)) hz
    unfold TableData.setSZA
    simp only [h9, h10, h11, ok_bind, hv, and_self, if_true]
    simp [TableData.setNXS, TableData.verifyIndex, hd.nxs]

theorem dataOf_sized (z a s : Nat) (B : Blocks) (T : TYR) (fis : Nat) :
    (dataOf z a s B T fis).Sized :=
  ⟨by simp [dataOf], by simp [dataOf], by simp [dataOf], by simp [dataOf, Marks.js]⟩

/-- The first eight counts. -/
theorem eight {l l' : List Int} (h : l.take 8 = l'.take 8) (i : Nat) (_ : 2 ≤ i) (hi : i < 8) :
    l[i]? = l'[i]? := by
  have := congrArg (fun l => l[i]?) h
  simpa only [List.getElem?_take_of_lt hi] using this

/-- The table made from sound blocks. -/
theorem mk_eq (zaid : List Char) (z a s : Nat) (hs : Sound B mts vs) (hc : Clear B)
    (hf : FitsN (B.size mts.length + 2))
    (ht : TableType.continuousEnergy.verifyType zaid = .ok ())
    (hid : (s ≠ 0 ∨ z ≠ 0 ∨ a ≠ 0) ∨ ∃ v, Ident.stoi (Ident.target zaid) = .ok v) :
    ∃ fis d, generateData z a s B.input =
        .ok (dataOf z a s B (tyrBlock (allTyr B vs mts.length)) fis) ∧
      (dataOf z a s B (tyrBlock (allTyr B vs mts.length)) fis).setSZA zaid = .ok d ∧
      CE.mk' zaid z a s B.input =
        .ok (tableOf zaid d B (tyrBlock (allTyr B vs mts.length))) := by
  obtain ⟨fis, hg, hfis, _⟩ := generateData_eq z a s hs
  have n9 : (dataOf z a s B (tyrBlock (allTyr B vs mts.length)) fis).NXS 9 = .ok (s : Int) :=
    NXS_get _ 8 _ rfl
  have n10 : (dataOf z a s B (tyrBlock (allTyr B vs mts.length)) fis).NXS 10 = .ok (z : Int) :=
    NXS_get _ 9 _ rfl
  have n11 : (dataOf z a s B (tyrBlock (allTyr B vs mts.length)) fis).NXS 11 = .ok (a : Int) :=
    NXS_get _ 10 _ rfl
  obtain ⟨d, hd⟩ := setSZA_ok _ (dataOf_sized z a s B (tyrBlock (allTyr B vs mts.length)) fis) zaid
    (by
      rcases hid with h | h
      · left
        rw [n9, n10, n11]
        simp
        omega
      · exact Or.inr h)
  obtain ⟨hx, hj, hn⟩ := setSZA_same hd
  obtain ⟨r, hfd⟩ := ready_of z a s hs hc fis hfis hf d hx hj (eight hn)
  refine ⟨fis, d, hg, hd, ?_⟩
  unfold CE.mk' CE.ofTable
  rw [hg, ok_bind, ht, ok_bind, hd, ok_bind]
  exact generateBlocks_eq zaid hs hc r hfd

end
end ACE.CE

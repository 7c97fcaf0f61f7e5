import Verif.Lemmas.Columns

/-! # C06: column data (count followed by columns) round trips -/

namespace ACE.Props
open ACE ColumnData

/-- Specification: `d` gives back the columns `cols`. -/
def GivesColumns (d : ColumnData) (cols : List Words) : Prop :=
  (∀ x ∈ cols, d.N = .ok x.length) ∧
  ∀ (c : Nat) (h : c < cols.length), d.column (c + 1) = .ok cols[c] ∧
    ∀ (i : Nat) (hi : i < cols[c].length), d.value (c + 1) (i + 1) = .ok cols[c][i]

theorem Holds.givesColumns {d : ColumnData} {ne : Nat} {cols : List Words} (h : Holds d ne cols) :
    GivesColumns d cols :=
  ⟨fun x hx => by rw [h.hn x hx, h.N],
   fun c hc => ⟨h.column c hc, fun i hi => h.value c i hc hi⟩⟩

/-- Construction succeeds for at least one column, all of the same length, and
throws for columns of different lengths. -/
theorem C06_accepts (c : Words) (cs : List Words) :
    ((∀ x ∈ cs, x.length = c.length) → ∃ d, ofColumns (c :: cs) = .ok d) ∧
    (¬ (∀ x ∈ cs, x.length = c.length) → ofColumns (c :: cs) = .error .thrown) := by
  constructor
  · intro h
    exact ⟨_, ofColumns_ok (c :: cs) c.length (by simp) (by
      intro x hx
      rcases List.mem_cons.mp hx with rfl | hx
      · rfl
      · exact h x hx)⟩
  · exact ofColumns_error c cs

/-- The words are the count followed by the columns, and the object gives back
the columns. -/
theorem C06_built (cols : List Words) (d : ColumnData) (h : ofColumns cols = .ok d)
    (hf : ∀ x ∈ cols, FitsN x.length) :
    GivesColumns d cols ∧
    ∃ ne, (∀ x ∈ cols, x.length = ne) ∧ d.xss = Dbl.ofNat ne :: cols.flatten := by
  obtain ⟨ne, hh, hx, _⟩ := ofColumns_holds h hf
  exact ⟨Holds.givesColumns hh, ne, hh.hn, hx⟩

/-- A reader over the words, followed by any further words, gives back the columns. -/
theorem C06_read (cols : List Words) (d : ColumnData) (h : ofColumns cols = .ok d)
    (hf : ∀ x ∈ cols, FitsN x.length) (rest : Words) :
    ∃ d', ColumnData.ofRange (d.xss ++ rest) cols.length = .ok d' ∧ GivesColumns d' cols := by
  obtain ⟨ne, hh, hx, _⟩ := ofColumns_holds h hf
  refine ⟨_, by rw [hx]; exact ofRange_ok cols ne _ rest rfl hh.hn hh.hf, ?_⟩
  exact Holds.givesColumns (ne := ne) ⟨hh.hn, hh.hf, rest, rfl⟩

/-- A range that is too short for its own count is refused. -/
theorem C06_short (n nc : Nat) (hn : FitsN n) (ws : Words) (h : ws.length < n * nc)
    (hw : 1 + n * nc < 2 ^ 64) :
    ColumnData.ofRange (Dbl.ofNat n :: ws) nc = .error .thrown := by
  have h' : (Dbl.ofNat n :: ws).length < (1 + n * nc) % 18446744073709551616 := by
    rw [Nat.mod_eq_of_lt hw]; simp; omega
  simp only [ColumnData.ofRange, Dbl.trunc?_ofNat, toSize_natCast hn, ok_bind, verifySize, h']
  simp

/-- Finding: the count used by the check is truncated while the accessors round,
so a fractional count such as 1.5 is accepted and the accessors leave the block. -/
theorem C06_fractional_count :
    ∃ d, ColumnData.ofRange [.fin false 3 (-1), Dbl.ofNat 7] 1 = .ok d ∧
      d.N = .ok 2 ∧ d.column 1 = .error .ub :=
  ⟨⟨[.fin false 3 (-1), Dbl.ofNat 7], 1⟩, by decide, by decide, by decide⟩

-- the thermal cross section block as a concrete case
example : ∃ d, ITIE.mk' [Dbl.ofNat 1, Dbl.ofNat 2] [Dbl.ofNat 3, Dbl.ofNat 4] = .ok d ∧
    ITIE.crossSections d = .ok [Dbl.ofNat 3, Dbl.ofNat 4] := ⟨⟨_, 2⟩, rfl, by decide⟩

/-- The thermal cross section blocks (ITIE, ITCE, ITCEI). -/
theorem C06_ITIE (e x : Words) (hx : x.length = e.length) (hf : FitsN e.length) (rest : Words) :
    ∃ d d', ITIE.mk' e x = .ok d ∧ ITIE.ofRange (d.xss ++ rest) = .ok d' ∧ ∀ b ∈ [d, d'],
      ITIE.NE b = .ok e.length ∧ ITIE.energies b = .ok e ∧ ITIE.crossSections b = .ok x := by
  obtain ⟨d, hd⟩ := (C06_accepts e [x]).1 (by simpa using hx)
  have hf' : ∀ y ∈ [e, x], FitsN y.length := by simpa [hx] using hf
  obtain ⟨d', hd', g'⟩ := C06_read _ _ hd hf' rest
  have g := (C06_built _ _ hd hf').1
  refine ⟨d, d', hd, hd', fun b hb => ?_⟩
  have gb : GivesColumns b [e, x] := by
    rcases List.mem_cons.mp hb with rfl | hb
    · exact g
    · rw [List.mem_singleton.mp hb]; exact g'
  exact ⟨gb.1 e (by simp), (gb.2 0 (by simp)).1, (gb.2 1 (by simp)).1⟩

/-- The hypotheses of the theorems are met by two columns of two numbers. -/
example := C06_accepts [Dbl.ofNat 1, Dbl.ofNat 2] [[Dbl.ofNat 3, Dbl.ofNat 4]]
example := C06_built [[Dbl.ofNat 1, Dbl.ofNat 2], [Dbl.ofNat 3, Dbl.ofNat 4]] _ rfl (by decide)
example := C06_read [[Dbl.ofNat 1, Dbl.ofNat 2], [Dbl.ofNat 3, Dbl.ofNat 4]] _ rfl (by decide) [Dbl.ofNat 9]
example := C06_short 3 2 (by decide) [Dbl.ofNat 3, Dbl.ofNat 4] (by decide) (by decide)
example := C06_ITIE [Dbl.ofNat 1, Dbl.ofNat 2] [Dbl.ofNat 3, Dbl.ofNat 4] rfl (by decide) [Dbl.ofNat 9]

end ACE.Props

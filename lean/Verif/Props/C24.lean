import Verif.Model.Fission
import Verif.Props.C05
import Verif.Lemmas.Lookup

/-!
# C24: the probability table block (UNR) round trips

Tables of equal numbers of bins are given back, with the flags and the incident energies. Tables
with different numbers of bins should be refused, but only the first one is looked at: see
`C24_unequal_false`.
-/

namespace ACE.Props
open ACE

/-- A table: incident energy and six columns. -/
abbrev PTable := Dbl × List Words

/-- What a probability table gives. -/
def IsPTable (v : PTable) (d : ProbabilityTable) : Prop :=
  d.incident = v.1 ∧ [d.probabilities, d.total, d.elastic, d.fission, d.capture, d.heating] =
    v.2.map .ok

/-- Built from its specification. -/
def mkPTable (e : Dbl) (p t el f c h : Words) : Res ProbabilityTable :=
  ProbabilityTable.mk' e p t el f c h

/-- What a block gives. -/
def UnrGives (b : UNR) (int : Nat) (ilf ioa : Int) (iff m : Nat) (vs : List PTable) : Prop :=
  UNR.N b.xss = .ok vs.length ∧ UNR.M b.xss = .ok m ∧ UNR.INT b.xss = .ok int ∧
  UNR.ILF b.xss = .ok ilf ∧ UNR.IOA b.xss = .ok ioa ∧ UNR.IFF b.xss = .ok iff ∧
  UNR.energies b.xss = .ok (vs.map (·.1)) ∧
  (∀ i (h : i < vs.length), ∃ d, b.table (i + 1) = .ok d ∧ IsPTable vs[i] d) ∧
  ∀ i, i < 1 ∨ vs.length < i → b.table i = .error .range

/-- The words of a block. -/
def unrWords (int : Nat) (ilf ioa : Int) (iff m : Nat) (vs : List PTable) : Words :=
  Dbl.ofNat vs.length :: Dbl.ofNat m :: Dbl.ofNat int :: Dbl.ofInt ilf :: Dbl.ofInt ioa ::
    Dbl.ofNat iff :: vs.map (·.1) ++ (vs.map (·.2.flatten)).flatten

theorem ptable_ofRange (v : PTable) (m : Nat) (h6 : v.2.length = 6)
    (hm : ∀ x ∈ v.2, x.length = m) :
    ∃ d, ProbabilityTable.ofRange v.2.flatten v.1 m = .ok d ∧ IsPTable v d := by
  obtain ⟨d, h1, h2, _⟩ := ArrayData.ofRange_holds v.2 m [] hm
  rw [List.append_nil, h6] at h1
  refine ⟨⟨d, v.1⟩, ?_, rfl, ?_⟩
  · unfold ProbabilityTable.ofRange
    rw [h1]; rfl
  · match hv : v.2, h6 with
    | [a1, a2, a3, a4, a5, a6], _ =>
      rw [hv] at h2
      have g0 := h2.darray 0 (by simp)
      have g1 := h2.darray 1 (by simp)
      have g2 := h2.darray 2 (by simp)
      have g3 := h2.darray 3 (by simp)
      have g4 := h2.darray 4 (by simp)
      have g5 := h2.darray 5 (by simp)
      simp only [ProbabilityTable.probabilities, ProbabilityTable.total, ProbabilityTable.elastic,
        ProbabilityTable.fission, ProbabilityTable.capture, ProbabilityTable.heating]
      simp only [Nat.zero_add, Nat.reduceAdd] at g0 g1 g2 g3 g4 g5
      rw [g0, g1, g2, g3, g4, g5]
      rfl

theorem unr_tables (vs : List PTable) (m : Nat) (h6 : ∀ v ∈ vs, v.2.length = 6)
    (hm : ∀ v ∈ vs, ∀ x ∈ v.2, x.length = m) (X pre rest : Words) (index : Nat)
    (hX : X = pre ++ (vs.map (·.2.flatten)).flatten ++ rest)
    (hE : ∀ i (h : i < vs.length), Base.XSS X (6 + index + i) = .ok vs[i].1) :
    ∃ ds, UNR.tables X m vs.length index pre.length = .ok ds ∧ ds.length = vs.length ∧
      ∀ i (h : i < ds.length) (h' : i < vs.length), IsPTable vs[i] ds[i] := by
  induction vs generalizing pre index with
  | nil => exact ⟨[], rfl, rfl, fun i h => by simp at h⟩
  | cons v vs ih =>
    have hl : v.2.flatten.length = 6 * m := by
      rw [length_flatten_const v.2 m (hm v (by simp)), h6 v (by simp)]
    obtain ⟨d, d1, d2⟩ := ptable_ofRange v m (h6 v (by simp)) (hm v (by simp))
    obtain ⟨ds, i1, i2, i3⟩ := ih (fun x hx => h6 x (by simp [hx])) (fun x hx => hm x (by simp [hx]))
      (pre ++ v.2.flatten) (index + 1) (by rw [hX]; simp)
      (fun i h => by
        have := hE (i + 1) (by simp; omega)
        simp only [List.getElem_cons_succ] at this
        rw [← this]; congr 1; omega)
    have s : sub X pre.length (pre.length + 6 * m) = .ok v.2.flatten :=
      sub_of_eq (a := pre) (c := (vs.map (·.2.flatten)).flatten ++ rest) (by rw [hX]; simp) rfl
        (by omega)
    have e := hE 0 (by simp)
    simp only [List.getElem_cons_zero, Nat.add_zero] at e
    rw [List.length_append, hl] at i1
    refine ⟨d :: ds, ?_, by simp [i2], ?_⟩
    · show UNR.tables X m (vs.length + 1) index pre.length = _
      unfold UNR.tables
      simp only [s, e, d1, i1, ok_bind, pure_eq_ok]
    · intro i h h'
      cases i with
      | zero => exact d2
      | succ i => exact i3 i (by simpa using h) (by simpa using h')

/-- The hypotheses on the specification of a block. -/
structure UnrOk (int : Nat) (ilf ioa : Int) (iff m : Nat) (vs : List PTable) : Prop where
  int : FitsN int
  ilf : Fits ilf
  ioa : Fits ioa
  iff : FitsN iff
  bins : FitsN m
  number : FitsN vs.length
  columns : ∀ v ∈ vs, v.2.length = 6
  equal : ∀ v ∈ vs, ∀ x ∈ v.2, x.length = m

theorem unr_read (int : Nat) (ilf ioa : Int) (iff m : Nat) (vs : List PTable)
    (h : UnrOk int ilf ioa iff m vs) (rest : Words) :
    ∃ b, UNR.ofRange (unrWords int ilf ioa iff m vs ++ rest) = .ok b ∧
      b.xss = unrWords int ilf ioa iff m vs ++ rest ∧ UnrGives b int ilf ioa iff m vs := by
  generalize hX : unrWords int ilf ioa iff m vs ++ rest = X
  have hne : X ≠ [] := by rw [← hX]; simp [unrWords]
  have f1 : UNR.flag X 1 = .ok (vs.length : Int) := by
    unfold UNR.flag; rw [if_neg hne]
    exact Base.IXSS_ofNat (a := []) (by rw [← hX]; simp [unrWords]; rfl) rfl h.number
  have f2 : UNR.flag X 2 = .ok (m : Int) := by
    unfold UNR.flag; rw [if_neg hne]
    exact Base.IXSS_ofNat (a := [Dbl.ofNat vs.length]) (by rw [← hX]; simp [unrWords]; rfl) rfl h.bins
  have f3 : UNR.flag X 3 = .ok (int : Int) := by
    unfold UNR.flag; rw [if_neg hne]
    exact Base.IXSS_ofNat (a := [Dbl.ofNat vs.length, Dbl.ofNat m]) (by rw [← hX]; simp [unrWords]; rfl) rfl h.int
  have f4 : UNR.flag X 4 = .ok ilf := by
    unfold UNR.flag; rw [if_neg hne]
    exact Base.IXSS_of_eq (a := [Dbl.ofNat vs.length, Dbl.ofNat m, Dbl.ofNat int]) (by rw [← hX]; simp [unrWords]; rfl) rfl h.ilf
  have f5 : UNR.flag X 5 = .ok ioa := by
    unfold UNR.flag; rw [if_neg hne]
    exact Base.IXSS_of_eq (a := [Dbl.ofNat vs.length, Dbl.ofNat m, Dbl.ofNat int, Dbl.ofInt ilf])
      (by rw [← hX]; simp [unrWords]; rfl) rfl h.ioa
  have f6 : UNR.flag X 6 = .ok (iff : Int) := by
    unfold UNR.flag; rw [if_neg hne]
    exact Base.IXSS_ofNat (a := [Dbl.ofNat vs.length, Dbl.ofNat m, Dbl.ofNat int, Dbl.ofInt ilf,
      Dbl.ofInt ioa]) (by rw [← hX]; simp [unrWords]; rfl) rfl h.iff
  have u : ∀ {n : Nat}, FitsN n → u32OfInt (n : Int) = n := fun h =>
    u32OfInt_natCast (by unfold FitsN at h; omega)
  have hN : UNR.N X = .ok vs.length := by unfold UNR.N; rw [f1, ok_bind, u h.number]; rfl
  have hM : UNR.M X = .ok m := by unfold UNR.M; rw [f2, ok_bind, u h.bins]; rfl
  have hX' : X = [Dbl.ofNat vs.length, Dbl.ofNat m, Dbl.ofNat int, Dbl.ofInt ilf, Dbl.ofInt ioa,
    Dbl.ofNat iff] ++ vs.map (·.1) ++ ((vs.map (·.2.flatten)).flatten ++ rest) := by
    rw [← hX]; simp [unrWords]
  have hE : ∀ i (h : i < vs.length), Base.XSS X (6 + 1 + i) = .ok vs[i].1 := by
    intro i hi
    obtain ⟨p, q, hpq, hp⟩ := getElem_split (vs.map (·.1)) i (by simpa using hi)
    refine Base.XSS_of_eq (a := [Dbl.ofNat vs.length, Dbl.ofNat m, Dbl.ofNat int, Dbl.ofInt ilf,
      Dbl.ofInt ioa, Dbl.ofNat iff] ++ p)
      (c := q ++ ((vs.map (·.2.flatten)).flatten ++ rest)) ?_ (by simp; omega)
    rw [hX', hpq]; simp
  obtain ⟨ds, d1, d2, d3⟩ := unr_tables vs m h.columns h.equal X
    ([Dbl.ofNat vs.length, Dbl.ofNat m, Dbl.ofNat int, Dbl.ofInt ilf, Dbl.ofInt ioa,
      Dbl.ofNat iff] ++ vs.map (·.1)) rest 1 (by rw [hX']; simp) hE
  have hpl : ([Dbl.ofNat vs.length, Dbl.ofNat m, Dbl.ofNat int, Dbl.ofInt ilf, Dbl.ofInt ioa,
      Dbl.ofNat iff] ++ vs.map (·.1)).length = 6 + vs.length := by simp; omega
  rw [hpl] at d1
  refine ⟨⟨X, ds⟩, ?_, rfl, hN, hM, ?_, f4, f5, ?_, ?_, ?_, ?_⟩
  · unfold UNR.ofRange
    simp only [hN, hM, d1, ok_bind, pure_eq_ok]
  · unfold UNR.INT; rw [f3, ok_bind, u h.int]; rfl
  · unfold UNR.IFF; rw [f6, ok_bind, u h.iff]; rfl
  · unfold UNR.energies
    rw [hN, ok_bind]
    exact Base.XSSr_of_eq hX' rfl (by simp)
  · intro i hi
    refine ⟨ds[i], ?_, d3 i (by omega) hi⟩
    unfold UNR.table
    have hc : ¬ (i + 1 < 1 ∨ i + 1 > vs.length) := by omega
    have hg : ds[i]? = some ds[i] := List.getElem?_eq_getElem (by omega)
    simp only [hN, ok_bind, if_neg hc, Nat.add_sub_cancel, hg]
    rfl
  · intro i hi
    unfold UNR.table
    have hc : i < 1 ∨ i > vs.length := by omega
    simp only [hN, ok_bind, if_pos hc]
    rfl

/-- The tables were built from their specifications. -/
def PTablesBuilt (vs : List PTable) (ts : List ProbabilityTable) : Prop :=
  vs.length = ts.length ∧ ∀ i (h : i < vs.length) (h' : i < ts.length),
    ∃ p t el f c hh, vs[i].2 = [p, t, el, f, c, hh] ∧ mkPTable vs[i].1 p t el f c hh = .ok ts[i]

theorem ptables_facts (vs : List PTable) (ts : List ProbabilityTable) (hb : PTablesBuilt vs ts) :
    vs.map (·.1) = ts.map (·.incident) ∧ vs.map (·.2.flatten) = ts.map (·.data.xss) ∧
    (∀ v ∈ vs, v.2.length = 6) ∧
    ∀ i (h : i < vs.length) (h' : i < ts.length), ∀ x ∈ vs[i].2, x.length = ts[i].data.n := by
  have key : ∀ i (h : i < vs.length) (h' : i < ts.length), vs[i].1 = ts[i].incident ∧
      vs[i].2.flatten = ts[i].data.xss ∧ vs[i].2.length = 6 ∧
      ∀ x ∈ vs[i].2, x.length = ts[i].data.n := by
    intro i h h'
    obtain ⟨p, t, el, f, c, hh, e, hm⟩ := hb.2 i h h'
    unfold mkPTable ProbabilityTable.mk' at hm
    obtain ⟨d, hd, hm⟩ := bind_eq_ok.mp hm
    injection hm with hm
    have := ArrayData.ofArrays_holds hd
    rw [e, ← hm]
    exact ⟨rfl, this.2.symm, rfl, this.1.hn⟩
  refine ⟨?_, ?_, ?_, fun i h h' => (key i h h').2.2.2⟩
  · refine List.ext_getElem (by simp [hb.1]) (fun i h h' => ?_)
    simpa using (key i (by simpa using h) (by simpa using h')).1
  · refine List.ext_getElem (by simp [hb.1]) (fun i h h' => ?_)
    simpa using (key i (by simpa using h) (by simpa using h')).2.1
  · intro v hv
    obtain ⟨i, hi, rfl⟩ := List.getElem_of_mem hv
    exact (key i hi (by have := hb.1; omega)).2.2.1

/-- A block built from tables with the same number of bins gives everything back, directly and
from its words followed by any others. -/
theorem C24_equal_partial (int : Nat) (ilf ioa : Int) (iff m : Nat) (vs : List PTable)
    (ts : List ProbabilityTable) (hb : PTablesBuilt vs ts) (hne : ts ≠ [])
    (hm : ∀ t ∈ ts, t.data.n = m) (f1 : FitsN int) (f2 : Fits ilf) (f3 : Fits ioa) (f4 : FitsN iff)
    (f5 : FitsN m) (f6 : FitsN ts.length) :
    ∃ b, UNR.mk' int ilf ioa iff ts = .ok b ∧ UnrGives b int ilf ioa iff m vs ∧
      ∀ rest, ∃ r, UNR.ofRange (b.xss ++ rest) = .ok r ∧ UnrGives r int ilf ioa iff m vs := by
  obtain ⟨g1, g2, g3, g4⟩ := ptables_facts vs ts hb
  have ok : UnrOk int ilf ioa iff m vs := by
    refine ⟨f1, f2, f3, f4, f5, by rw [hb.1]; exact f6, g3, ?_⟩
    intro v hv x hx
    obtain ⟨i, hi, rfl⟩ := List.getElem_of_mem hv
    have hi' : i < ts.length := by have := hb.1; omega
    rw [g4 i hi hi' x hx]
    exact hm _ (List.getElem_mem hi')
  obtain ⟨b, b1, b2, b3⟩ := unr_read int ilf ioa iff m vs ok []
  rw [List.append_nil] at b1 b2
  refine ⟨b, ?_, b3, fun rest => ?_⟩
  · cases ts with
    | nil => exact absurd rfl hne
    | cons t ts =>
      show UNR.ofRange _ = _
      rw [← b1, unrWords, g1, g2, hb.1, hm t (by simp)]
  · rw [b2]
    obtain ⟨r, r1, _, r3⟩ := unr_read int ilf ioa iff m vs ok rest
    exact ⟨r, r1, r3⟩


/-- Tables with different numbers of bins are not refused: the block is built, and its second
table is not the one supplied (it even starts in the middle of the first). -/
theorem C24_unequal_false :
    (do let a ← ProbabilityTable.mk' (Dbl.ofNat 1) [Dbl.ofNat 1] [Dbl.ofNat 1] [Dbl.ofNat 1]
            [Dbl.ofNat 1] [Dbl.ofNat 1] [Dbl.ofNat 1]
        let c ← ProbabilityTable.mk' (Dbl.ofNat 2) [Dbl.ofNat 2, Dbl.ofNat 3]
            [Dbl.ofNat 4, Dbl.ofNat 5] [Dbl.ofNat 6, Dbl.ofNat 7] [Dbl.ofNat 8, Dbl.ofNat 9]
            [Dbl.ofNat 10, Dbl.ofNat 11] [Dbl.ofNat 12, Dbl.ofNat 13]
        let b ← UNR.mk' 2 0 0 0 [a, c]
        let t ← b.table 2
        return ((← c.probabilities), (← c.total), (← t.probabilities), (← t.total))) =
      .ok ([Dbl.ofNat 2, Dbl.ofNat 3], [Dbl.ofNat 4, Dbl.ofNat 5], [Dbl.ofNat 2], [Dbl.ofNat 3]) := by
  decide

/-- In the other order the last table runs past the end of the block: undefined behaviour. -/
theorem C24_unequal_overrun :
    (do let a ← ProbabilityTable.mk' (Dbl.ofNat 1) [Dbl.ofNat 1] [Dbl.ofNat 1] [Dbl.ofNat 1]
            [Dbl.ofNat 1] [Dbl.ofNat 1] [Dbl.ofNat 1]
        let c ← ProbabilityTable.mk' (Dbl.ofNat 2) [Dbl.ofNat 2, Dbl.ofNat 3]
            [Dbl.ofNat 4, Dbl.ofNat 5] [Dbl.ofNat 6, Dbl.ofNat 7] [Dbl.ofNat 8, Dbl.ofNat 9]
            [Dbl.ofNat 10, Dbl.ofNat 11] [Dbl.ofNat 12, Dbl.ofNat 13]
        UNR.mk' 2 0 0 0 [c, a]) = .error .ub := by decide

/-- A block without tables is undefined behaviour (`front()` of an empty vector). -/
theorem C24_empty (int : Nat) (ilf ioa : Int) (iff : Nat) :
    UNR.mk' int ilf ioa iff [] = .error .ub := rfl

-- two tables with two bins each
example : (do
    let a ← mkPTable (Dbl.ofNat 1) [Dbl.ofNat 1, Dbl.ofNat 2] [Dbl.ofNat 3, Dbl.ofNat 4]
      [Dbl.ofNat 5, Dbl.ofNat 6] [Dbl.ofNat 7, Dbl.ofNat 8] [Dbl.ofNat 9, Dbl.ofNat 10]
      [Dbl.ofNat 11, Dbl.ofNat 12]
    let c ← mkPTable (Dbl.ofNat 2) [Dbl.ofNat 2, Dbl.ofNat 3] [Dbl.ofNat 4, Dbl.ofNat 5]
      [Dbl.ofNat 6, Dbl.ofNat 7] [Dbl.ofNat 8, Dbl.ofNat 9] [Dbl.ofNat 10, Dbl.ofNat 11]
      [Dbl.ofNat 12, Dbl.ofNat 13]
    let b ← UNR.mk' 2 (-1) 4 1 [a, c]
    return ((← UNR.energies b.xss), (← UNR.ILF b.xss), (← (← b.table 2).heating),
      (← (← b.table 1).total))) =
    .ok ([Dbl.ofNat 1, Dbl.ofNat 2], -1, [Dbl.ofNat 12, Dbl.ofNat 13], [Dbl.ofNat 3, Dbl.ofNat 4])
    := by decide

/-- The hypotheses of the theorem are met. -/
private abbrev exT (k : Nat) : PTable := (Dbl.ofNat k, [[Dbl.ofNat 1, Dbl.ofNat (k + 1)], [Dbl.ofNat 3, Dbl.ofNat 4],
  [Dbl.ofNat 5, Dbl.ofNat 6], [Dbl.ofNat 7, Dbl.ofNat 8], [Dbl.ofNat 9, Dbl.ofNat 10], [Dbl.ofNat 11, Dbl.ofNat 12]])
private abbrev exP (k : Nat) : ProbabilityTable := ⟨⟨(exT k).2.flatten, 2, 6⟩, Dbl.ofNat k⟩
example := C24_equal_partial 2 (-1) 4 1 2 [exT 1, exT 2] [exP 1, exP 2]
  ⟨rfl, fun i h _ => match i, h with
    | 0, _ => ⟨_, _, _, _, _, _, rfl, rfl⟩
    | 1, _ => ⟨_, _, _, _, _, _, rfl, rfl⟩⟩ (by decide) (by decide) (by decide) (by decide) (by decide) (by decide) (by decide) (by decide)

/-- An absent block (no words, as in a table without probability tables) has no tables, and every flag is zero.
Its incident energies are not an empty array: asking for them is out of range. -/
theorem C24_absent : ∃ b, UNR.ofRange [] = .ok b ∧ UNR.N b.xss = .ok 0 ∧ UNR.M b.xss = .ok 0 ∧ UNR.INT b.xss = .ok 0 ∧
    UNR.ILF b.xss = .ok 0 ∧ UNR.IOA b.xss = .ok 0 ∧ UNR.IFF b.xss = .ok 0 ∧ UNR.energies b.xss = .error .range ∧
    ∀ i, b.table i = .error .range := by
  refine ⟨⟨[], []⟩, by decide, by decide, by decide, by decide, by decide, by decide, by decide, by decide, fun i => ?_⟩
  have h : i < 1 ∨ i > 0 := by omega
  simp [UNR.table, UNR.N, UNR.flag, ok_bind, pure_eq_ok, u32OfInt]

end ACE.Props

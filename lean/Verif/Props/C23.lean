import Verif.Model.Fission
import Verif.Props.C09

/-!
# C23: the delayed neutron precursor block (BDD) round trips

A group is specified by its number, its decay constant and tabulated probabilities. The block has
no place for the group numbers: the groups of a block are numbered by position, so that a number is
given back iff the groups were numbered 1, 2, ... in order.
-/

namespace ACE.Props
open ACE

/-- Group number, decay constant, tabulated probabilities. -/
abbrev GroupSpec := Nat × Dbl × TabSpec

/-- Built from its specification. -/
def mkGroup (v : GroupSpec) : Res Precursor :=
  Precursor.mk' v.1 v.2.1 v.2.2.1 v.2.2.2.1 v.2.2.2.2.1 v.2.2.2.2.2

/-- What a group gives, its number apart. -/
def IsGroup (v : GroupSpec) (d : Precursor) : Prop :=
  d.DEC = .ok v.2.1 ∧
  d.NB = .ok v.2.2.1.length ∧ d.NBT = .ok (v.2.2.1.map Dbl.ofInt) ∧
  d.INT = .ok (v.2.2.2.1.map Dbl.ofInt) ∧
  d.NE = .ok v.2.2.2.2.1.length ∧ d.E = .ok v.2.2.2.2.1 ∧ d.P = .ok v.2.2.2.2.2

/-- What a block gives: every group in order, numbered by position; no others. -/
def BddGives (b : BDD) (vs : List GroupSpec) : Prop :=
  b.NPCR = vs.length ∧
  (∀ i (h : i < vs.length), ∃ d, b.group (i + 1) = .ok d ∧ d.number = i + 1 ∧ IsGroup vs[i] d) ∧
  ∀ i, i < 1 ∨ vs.length < i → b.group i = .error .range

theorem group_words (v : GroupSpec) (d : Precursor) (hd : mkGroup v = .ok d)
    (hl : FitsN (d.xss.length + 1)) :
    d.xss = v.2.1 :: TabulatedData.words v.2.2.1 v.2.2.2.1 v.2.2.2.2.1 v.2.2.2.2.2 ∧
    TabulatedData.Valid v.2.2.1 v.2.2.2.1 v.2.2.2.2.1 v.2.2.2.2.2 ∧
    ∀ number, ∃ d', Precursor.ofRange d.xss number = .ok d' ∧ d'.number = number ∧
      IsGroup v d' := by
  unfold mkGroup Precursor.mk' at hd
  obtain ⟨td, htd, hd⟩ := bind_eq_ok.mp hd
  have hxss : d.xss = v.2.1 :: td.xss := by
    unfold Precursor.ofRange at hd
    obtain ⟨_, _, hd⟩ := bind_eq_ok.mp hd
    obtain ⟨_, _, hd⟩ := bind_eq_ok.mp hd
    injection hd with hd; subst hd; rfl
  have htl := tab_length v.2.2 td htd
  have hfit : FitsN (v.2.2.1.length + v.2.2.2.2.1.length) := by
    rw [hxss] at hl; simp at hl; omega
  have hb := tab_built v.2.2 td htd hfit
  have hV : TabulatedData.Valid v.2.2.1 v.2.2.2.1 v.2.2.2.2.1 v.2.2.2.2.2 := by
    by_cases hc : v.2.2.2.1.length = v.2.2.1.length ∧
        v.2.2.2.2.2.length = v.2.2.2.2.1.length
    · exact ⟨hc.1, hc.2, by omega, by omega⟩
    · rw [TabulatedData.mk'_error hc] at htd; cases htd
  refine ⟨by rw [hxss, hb.1], hV, fun number => ?_⟩
  obtain ⟨t, ht, hi⟩ := hb.2.2 []
  rw [List.append_nil] at ht
  rw [hxss]
  refine ⟨⟨v.2.1 :: td.xss, number, t⟩, ?_, rfl, ?_, hi⟩
  · unfold Precursor.ofRange
    have hs : sub (v.2.1 :: td.xss) 1 (v.2.1 :: td.xss).length = .ok td.xss :=
      sub_of_eq (a := [v.2.1]) (c := []) (by simp) rfl (by simp; omega)
    simp only [hs, ok_bind, ht, pure_eq_ok]
  · exact Base.XSS_of_eq (a := []) rfl rfl

/-- The loop finds the groups one after the other. -/
theorem groups_spec (vs : List GroupSpec) (gs : List Precursor) (hg : vs.mapM mkGroup = .ok gs)
    (hf : ∀ g ∈ gs, FitsN (g.xss.length + 1)) (pre rest : Words) (index : Nat) :
    ∃ ds, BDD.groups (pre ++ (gs.map (·.xss)).flatten ++ rest) gs.length index pre.length = .ok ds ∧
      ds.length = vs.length ∧
      ∀ i (h : i < ds.length) (h' : i < vs.length), ds[i].number = index + i ∧ IsGroup vs[i] ds[i]
      := by
  induction vs generalizing gs pre index with
  | nil =>
    injection hg with hg; subst hg
    exact ⟨[], rfl, rfl, fun i h => by simp at h⟩
  | cons v vs ih =>
    simp only [List.mapM_cons] at hg
    obtain ⟨g, hg1, hg⟩ := bind_eq_ok.mp hg
    obtain ⟨gs', hg2, hg⟩ := bind_eq_ok.mp hg
    injection hg with hg; subst hg
    obtain ⟨w1, hV, w2⟩ := group_words v g hg1 (hf g (by simp))
    obtain ⟨d, d1, d2, d3⟩ := w2 index
    obtain ⟨ds, i1, i2, i3⟩ := ih gs' hg2 (fun x hx => hf x (by simp [hx])) (pre ++ g.xss) (index + 1)
    have hlen : g.xss.length = 3 + 2 * v.2.2.1.length + 2 * v.2.2.2.2.1.length := by
      rw [w1]; simp [TabulatedData.words_length hV]; omega
    generalize hX : pre ++ ((g :: gs').map (·.xss)).flatten ++ rest = X
    have hX2 : X = pre ++ g.xss ++ ((gs'.map (·.xss)).flatten ++ rest) := by rw [← hX]; simp
    have e1 : Base.IXSS X (pre.length + 2) = .ok (v.2.2.1.length : Int) := by
      refine Base.IXSS_ofNat (a := pre ++ [v.2.1])
        (c := v.2.2.1.map Dbl.ofInt ++ (v.2.2.2.1.map Dbl.ofInt ++
          (ColumnData.words v.2.2.2.2.1.length [v.2.2.2.2.1, v.2.2.2.2.2] ++
            ((gs'.map (·.xss)).flatten ++ rest)))) ?_ (by simp) hV.fb
      rw [hX2, w1]
      simp [TabulatedData.words, ColumnData.words]
    have e2 : Base.IXSS X (pre.length + 2 + 2 * v.2.2.1.length + 1) =
        .ok (v.2.2.2.2.1.length : Int) := by
      refine Base.IXSS_ofNat
        (a := pre ++ v.2.1 :: ColumnData.words v.2.2.1.length
          [v.2.2.1.map Dbl.ofInt, v.2.2.2.1.map Dbl.ofInt])
        (c := v.2.2.2.2.1 ++ (v.2.2.2.2.2 ++ ((gs'.map (·.xss)).flatten ++ rest))) ?_ ?_ hV.fx
      · rw [hX2, w1]
        simp [TabulatedData.words, ColumnData.words]
      · have := hV.hi
        simp [ColumnData.words]; omega
    have s : sub X pre.length (pre.length + (2 + 2 * v.2.2.1.length + 2 * v.2.2.2.2.1.length + 1)) =
        .ok g.xss := sub_of_eq hX2 rfl (by omega)
    refine ⟨d :: ds, ?_, by simp [i2], ?_⟩
    · have hnext : BDD.groups X gs'.length (index + 1)
          (pre.length + (2 + 2 * v.2.2.1.length + 2 * v.2.2.2.2.1.length + 1)) = .ok ds := by
        rw [← i1]
        congr 1
        · rw [hX2]; simp
        · simp; omega
      show BDD.groups X (gs'.length + 1) index pre.length = _
      unfold BDD.groups
      simp only [e1, e2, ok_bind, sizeOfInt_natCast hV.fb, sizeOfInt_natCast hV.fx, s, d1, hnext,
        pure_eq_ok]
    · intro i h h'
      cases i with
      | zero => exact ⟨by simpa using d2, by simpa using d3⟩
      | succ i =>
        have := i3 i (by simpa using h) (by simpa using h')
        refine ⟨?_, by simpa using this.2⟩
        have := this.1
        simp only [List.getElem_cons_succ]
        omega

theorem bdd_gives (vs : List GroupSpec) (xs : Words) (ds : List Precursor)
    (hl : ds.length = vs.length)
    (h : ∀ i (h : i < ds.length) (h' : i < vs.length), ds[i].number = 1 + i ∧ IsGroup vs[i] ds[i]) :
    BddGives ⟨xs, vs.length, ds⟩ vs := by
  refine ⟨rfl, fun i hi => ?_, fun i hi => ?_⟩
  · have := h i (by omega) hi
    refine ⟨ds[i], ?_, by omega, this.2⟩
    unfold BDD.group
    have hc : ¬ (i + 1 < 1 ∨ i + 1 > vs.length) := by omega
    have hg : ds[i]? = some ds[i] := List.getElem?_eq_getElem (by omega)
    simp only [if_neg hc, Nat.add_sub_cancel, hg]
    rfl
  · unfold BDD.group
    have hc : i < 1 ∨ i > vs.length := by omega
    simp only [if_pos hc]
    rfl

/-- A block built from groups gives them back, directly and from its words. -/
theorem C23_BDD (vs : List GroupSpec) (gs : List Precursor) (hg : vs.mapM mkGroup = .ok gs)
    (hf : ∀ g ∈ gs, FitsN (g.xss.length + 1)) :
    ∃ b, BDD.mk' gs = .ok b ∧ b.xss = (gs.map (·.xss)).flatten ∧ BddGives b vs ∧
      ∀ rest, ∃ r, BDD.ofRange (b.xss ++ rest) vs.length = .ok r ∧ BddGives r vs := by
  have hl : gs.length = vs.length := (mapM_ok_iff _ _ _ hg).1
  have key : ∀ rest, ∃ r, BDD.ofRange ((gs.map (·.xss)).flatten ++ rest) vs.length = .ok r ∧
      r.xss = (gs.map (·.xss)).flatten ++ rest ∧ BddGives r vs := by
    intro rest
    obtain ⟨ds, h1, h2, h3⟩ := groups_spec vs gs hg hf [] rest 1
    rw [List.nil_append, List.length_nil] at h1
    refine ⟨⟨_, vs.length, ds⟩, ?_, rfl, bdd_gives vs _ ds h2 h3⟩
    unfold BDD.ofRange
    rw [← hl, h1]; rfl
  obtain ⟨b, b1, b2, b3⟩ := key []
  rw [List.append_nil] at b1 b2
  refine ⟨b, ?_, b2, b3, fun rest => ?_⟩
  · unfold BDD.mk'
    rw [hl]; exact b1
  · rw [b2]
    obtain ⟨r, r1, _, r3⟩ := key rest
    exact ⟨r, r1, r3⟩

/-- A group is accepted iff its lists pair up. -/
theorem C23_accepts (n : Nat) (c : Dbl) (b i : List Int) (x y : Words) (fb : FitsN b.length)
    (fx : FitsN x.length) :
    ((i.length = b.length ∧ y.length = x.length) → ∃ d, mkGroup (n, c, b, i, x, y) = .ok d ∧
      d.number = n) ∧
    (¬ (i.length = b.length ∧ y.length = x.length) →
      mkGroup (n, c, b, i, x, y) = .error .thrown) := by
  constructor
  · intro h
    have hV : TabulatedData.Valid b i x y := ⟨h.1, h.2, fb, fx⟩
    refine ⟨⟨c :: (TabulatedData.tab b i x y []).xss, n, TabulatedData.tab b i x y []⟩, ?_, rfl⟩
    unfold mkGroup Precursor.mk' Precursor.ofRange
    simp only [TabulatedData.mk'_ok hV, ok_bind]
    have hs : sub (c :: (TabulatedData.tab b i x y []).xss) 1
        (c :: (TabulatedData.tab b i x y []).xss).length = .ok (TabulatedData.words b i x y ++ []) :=
      sub_of_eq (a := [c]) (c := []) (by simp [TabulatedData.tab]) rfl
        (by simp [TabulatedData.tab]; omega)
    rw [hs, ok_bind, TabulatedData.ofRange_ok hV]
    rfl
  · intro h
    unfold mkGroup Precursor.mk'
    simp only [TabulatedData.mk'_error h, error_bind]

/-- The number of a group is lost when the groups are not numbered by position. -/
theorem C23_number_lost :
    (do let g ← mkGroup (7, Dbl.ofNat 1, [], [], [], [])
        let d ← (← BDD.mk' [g]).group 1
        return (g.number, d.number)) = .ok (7, 1) := by decide

-- two groups, the first with an interpolation region, followed by other words
example : (do
    let gs ← [((1, Dbl.ofNat 5, [2], [2], [Dbl.ofNat 1, Dbl.ofNat 2], [Dbl.ofNat 3, Dbl.ofNat 4]) :
      GroupSpec), (2, Dbl.ofNat 6, [], [], [Dbl.ofNat 1], [Dbl.ofNat 9])].mapM mkGroup
    let b ← BDD.mk' gs
    let r ← BDD.ofRange (b.xss ++ [Dbl.ofNat 8]) 2
    return ((← (← b.group 2).P), (← (← r.group 1).DEC), (← (← r.group 2).P), b.xss.length)) =
    .ok ([Dbl.ofNat 9], Dbl.ofNat 5, [Dbl.ofNat 9], 14) := by decide

/-- The hypotheses are met by two groups of different sizes. -/
example := C23_BDD [(1, Dbl.ofNat 5, [], [], [Dbl.ofNat 1], [Dbl.ofNat 2]),
  (2, Dbl.ofNat 6, [2], [5], [Dbl.ofNat 1, Dbl.ofNat 3], [Dbl.ofNat 2, Dbl.ofNat 4])] _ rfl (by decide)
example := C23_accepts 1 (Dbl.ofNat 5) [2] [5] [Dbl.ofNat 1, Dbl.ofNat 3] [Dbl.ofNat 2, Dbl.ofNat 4] (by decide) (by decide)

end ACE.Props

import Verif.Lemmas.Arrays

/-!
# C05: array blocks give back the arrays they were built from

The generic theorems range over every number of arrays and every array length;
the named blocks then only fix the order of the arrays.
-/

namespace ACE.Props
open ACE ArrayData

/-- Specification: the block `d` gives back the arrays `as`: the number of
arrays and elements is right, and array, value and element access return what
was supplied. -/
def GivesBack (d : ArrayData) (as : List Words) : Prop :=
  d.m = as.length ∧ (∀ x ∈ as, x.length = d.n) ∧
  ∀ (a : Nat) (h : a < as.length),
    d.darray (a + 1) = .ok as[a] ∧
    ∀ (i : Nat) (hi : i < as[a].length), d.dvalue (a + 1) (i + 1) = .ok as[a][i]

theorem Holds.givesBack {d : ArrayData} {as : List Words} (h : Holds d as) : GivesBack d as :=
  ⟨h.hm, h.hn, fun a ha => ⟨h.darray a ha, fun i hi => h.dvalue a i ha hi⟩⟩

/-- Construction succeeds iff all arrays have the same length; otherwise it throws. -/
theorem C05_accepts (as : List Words) :
    (∃ d, ofArrays as = .ok d) ↔ ∃ n, ∀ x ∈ as, x.length = n := by
  constructor
  · rintro ⟨d, h⟩; exact ⟨d.n, (ofArrays_holds h).1.hn⟩
  · rintro ⟨n, h⟩
    by_cases has : as = []
    · subst has; exact ⟨_, ofArrays_ok [] 0 (by simp) (by simp)⟩
    · exact ⟨_, ofArrays_ok as n h (by simp [has])⟩

theorem C05_refuses (as : List Words) (h : ¬ ∃ n, ∀ x ∈ as, x.length = n) :
    ofArrays as = .error .thrown := by
  cases as with
  | nil => exact absurd ⟨0, by simp⟩ h
  | cons a as =>
    apply ofArrays_error
    intro hall
    apply h
    refine ⟨a.length, fun x hx => ?_⟩
    rcases List.mem_cons.mp hx with rfl | hx
    · rfl
    · exact hall x hx

/-- The constructed block gives back its arrays, and its words are the arrays one
after the other. -/
theorem C05_built (as : List Words) (d : ArrayData) (h : ofArrays as = .ok d) :
    GivesBack d as ∧ d.xss = as.flatten :=
  ⟨Holds.givesBack (ofArrays_holds h).1, (ofArrays_holds h).2⟩

/-- A reader over the words of the block, followed by any further words, gives
back the same arrays. -/
theorem C05_read (as : List Words) (d : ArrayData) (h : ofArrays as = .ok d) (rest : Words) :
    ∃ d', ofRange (d.xss ++ rest) d.n as.length = .ok d' ∧ GivesBack d' as := by
  have hh := ofArrays_holds h
  obtain ⟨d', h1, h2, _⟩ := ofRange_holds as d.n rest hh.1.hn
  exact ⟨d', by rw [hh.2]; exact h1, Holds.givesBack h2⟩

/-- Outside of the arrays every access is out of range. -/
theorem C05_refused_access (d : ArrayData) (a i : Nat) :
    (a < 1 ∨ d.m < a → d.darray a = .error .range) ∧
    (a < 1 ∨ d.m < a ∨ i < 1 ∨ d.n < i → d.dvalue a i = .error .range) := by
  constructor
  · intro h
    have h : a < 1 ∨ a > d.m := h
    unfold darray verifyArray
    rw [if_pos h]; rfl
  · intro h
    unfold dvalue ArrayData.verifyIndex verifyArray
    by_cases h1 : a < 1 ∨ a > d.m
    · rw [if_pos h1]; rfl
    · rw [if_neg h1, if_pos (by omega)]; rfl

/-- Arrays of integers come back as integers, at once and one by one. -/
theorem C05_integers (as : List Words) (d : ArrayData) (h : ofArrays as = .ok d)
    (a : Nat) (ha : a < as.length) (is : List Int) (his : as[a] = is.map Dbl.ofInt)
    (hf : ∀ i ∈ is, Fits i) :
    d.iarray (a + 1) = .ok is ∧
    ∀ (k : Nat) (hk : k < is.length), d.ivalue (a + 1) (k + 1) = .ok is[k] := by
  have hh := (ofArrays_holds h).1
  refine ⟨hh.iarray a ha is his hf, fun k hk => ?_⟩
  have hk' : k < as[a].length := by rw [his]; simpa using hk
  exact hh.ivalue a k ha hk' is[k] (by simp [his]) (hf _ (List.getElem_mem hk))

/-! ## The named blocks -/

theorem C05_ESZ (e t a el h : Words) (d : ESZ) (hd : ESZ.mk' e t a el h = .ok d)
    (rest : Words) :
    ∃ d', ESZ.ofRange (d.xss ++ rest) e.length = .ok d' ∧ ∀ x ∈ [d, d'],
      ESZ.energies x = .ok e ∧ ESZ.total x = .ok t ∧ ESZ.disappearance x = .ok a ∧
      ESZ.elastic x = .ok el ∧ ESZ.heating x = .ok h := by
  have b := C05_built _ _ hd
  obtain ⟨d', h1, h2⟩ := C05_read _ _ hd rest
  have hn : e.length = d.n := b.1.2.1 e (by simp)
  refine ⟨d', by rw [hn]; exact h1, fun x hx => ?_⟩
  have g : GivesBack x [e, t, a, el, h] := by
    rcases List.mem_cons.mp hx with rfl | hx
    · exact b.1
    · rw [List.mem_singleton.mp hx]; exact h2
  exact ⟨(g.2.2 0 (by simp)).1, (g.2.2 1 (by simp)).1, (g.2.2 2 (by simp)).1,
    (g.2.2 3 (by simp)).1, (g.2.2 4 (by simp)).1⟩

theorem C05_ESZG (e i c p pp : Words) (d : ESZG) (hd : ESZG.mk' e i c p pp = .ok d)
    (rest : Words) :
    ∃ d', ESZG.ofRange (d.xss ++ rest) e.length = .ok d' ∧ ∀ x ∈ [d, d'],
      ESZG.energies x = .ok e ∧ ESZG.incoherent x = .ok i ∧ ESZG.coherent x = .ok c ∧
      ESZG.photoelectric x = .ok p ∧ ESZG.pairproduction x = .ok pp := by
  have b := C05_built _ _ hd
  obtain ⟨d', h1, h2⟩ := C05_read _ _ hd rest
  have hn : e.length = d.n := b.1.2.1 e (by simp)
  refine ⟨d', by rw [hn]; exact h1, fun x hx => ?_⟩
  have g : GivesBack x [e, i, c, p, pp] := by
    rcases List.mem_cons.mp hx with rfl | hx
    · exact b.1
    · rw [List.mem_singleton.mp hx]; exact h2
  exact ⟨(g.2.2 0 (by simp)).1, (g.2.2 1 (by simp)).1, (g.2.2 2 (by simp)).1,
    (g.2.2 3 (by simp)).1, (g.2.2 4 (by simp)).1⟩

theorem C05_ESZU4 (e t el h : Words) (d : ESZU) (hd : ESZU.mk4 e t el h = .ok d)
    (rest : Words) :
    ∃ d', ESZU.ofRange (d.xss ++ rest) e.length 4 = .ok d' ∧ ∀ x ∈ [d, d'],
      ESZU.energies x = .ok e ∧ ESZU.total x = .ok t ∧ ESZU.elastic x = .ok el ∧
      ESZU.heating x = .ok h := by
  have b := C05_built _ _ hd
  obtain ⟨d', h1, h2⟩ := C05_read _ _ hd rest
  have hn : e.length = d.n := b.1.2.1 e (by simp)
  refine ⟨d', by rw [hn]; exact h1, fun x hx => ?_⟩
  have g : GivesBack x [e, t, el, h] := by
    rcases List.mem_cons.mp hx with rfl | hx
    · exact b.1
    · rw [List.mem_singleton.mp hx]; exact h2
  have hm : x.m = 4 := g.1
  refine ⟨(g.2.2 0 (by simp)).1, (g.2.2 1 (by simp)).1, ?_, ?_⟩
  · unfold ESZU.elastic; rw [hm]; exact (g.2.2 2 (by simp)).1
  · unfold ESZU.heating; rw [hm]; exact (g.2.2 3 (by simp)).1

theorem C05_ESZU3 (e t h : Words) (d : ESZU) (hd : ESZU.mk3 e t h = .ok d)
    (rest : Words) :
    ∃ d', ESZU.ofRange (d.xss ++ rest) e.length 3 = .ok d' ∧ ∀ x ∈ [d, d'],
      ESZU.energies x = .ok e ∧ ESZU.total x = .ok t ∧ ESZU.elastic x = .ok [] ∧
      ESZU.heating x = .ok h := by
  have b := C05_built _ _ hd
  obtain ⟨d', h1, h2⟩ := C05_read _ _ hd rest
  have hn : e.length = d.n := b.1.2.1 e (by simp)
  refine ⟨d', by rw [hn]; exact h1, fun x hx => ?_⟩
  have g : GivesBack x [e, t, h] := by
    rcases List.mem_cons.mp hx with rfl | hx
    · exact b.1
    · rw [List.mem_singleton.mp hx]; exact h2
  have hm : x.m = 3 := g.1
  refine ⟨(g.2.2 0 (by simp)).1, (g.2.2 1 (by simp)).1, ?_, ?_⟩
  · unfold ESZU.elastic; rw [if_pos hm]
    exact Base.XSSr_of_eq (a := []) (b := []) (c := x.xss) (by simp) (by simp) (by simp)
  · unfold ESZU.heating; rw [hm]; exact (g.2.2 2 (by simp)).1

theorem C05_ProbabilityTable (inc : Dbl) (p t el f c h : Words) (d : ProbabilityTable)
    (hd : ProbabilityTable.mk' inc p t el f c h = .ok d) (rest : Words) :
    ∃ d', ProbabilityTable.ofRange (d.data.xss ++ rest) inc p.length = .ok d' ∧
      ∀ x ∈ [d, d'], x.incident = inc ∧ x.probabilities = .ok p ∧ x.total = .ok t ∧
        x.elastic = .ok el ∧ x.fission = .ok f ∧ x.capture = .ok c ∧ x.heating = .ok h := by
  unfold ProbabilityTable.mk' at hd
  obtain ⟨a, ha, hd⟩ := bind_eq_ok.mp hd
  injection hd with hd; subst hd
  have b := C05_built _ _ ha
  obtain ⟨d', h1, h2⟩ := C05_read _ _ ha rest
  have hn : p.length = a.n := b.1.2.1 p (by simp)
  have h1 : ofRange (a.xss ++ rest) a.n 6 = .ok d' := h1
  refine ⟨⟨d', inc⟩, by simp [ProbabilityTable.ofRange, hn, h1], fun x hx => ?_⟩
  have g : x.incident = inc ∧ GivesBack x.data [p, t, el, f, c, h] := by
    rcases List.mem_cons.mp hx with rfl | hx
    · exact ⟨rfl, b.1⟩
    · rw [List.mem_singleton.mp hx]; exact ⟨rfl, h2⟩
  have g' := g.2.2.2
  exact ⟨g.1, (g' 0 (by simp)).1, (g' 1 (by simp)).1, (g' 2 (by simp)).1, (g' 3 (by simp)).1,
    (g' 4 (by simp)).1, (g' 5 (by simp)).1⟩

/-- A table built without fission, when the size of the total cross section is evaluated before
it is moved: the fission cross section is zero everywhere, the other columns are those given. -/
theorem C05_noFission_zero (inc : Dbl) (t p el c h : Words) (d : ProbabilityTable)
    (hd : ProbabilityTable.mkNoFission true inc t p el c h = .ok d) :
    d.incident = inc ∧ d.probabilities = .ok p ∧ d.total = .ok t ∧ d.elastic = .ok el ∧
      d.capture = .ok c ∧ d.heating = .ok h ∧
      ∃ f, d.fission = .ok f ∧ f.length = t.length ∧ ∀ x ∈ f, x = Dbl.ofInt 0 := by
  obtain ⟨d', _, g⟩ := C05_ProbabilityTable _ _ _ _ _ _ _ _ hd []
  obtain ⟨h1, h2, h3, h4, h5, h6, h7⟩ := g d (by simp)
  exact ⟨h1, h2, h3, h4, h6, h7, _, h5, by simp, fun x hx => List.eq_of_mem_replicate hx⟩

/-- Finding: the documentation and the Python keyword arguments of the constructor without fission
give the order incident, probabilities, total, elastic, capture, heating (that of the constructor
with fission); given in this order, the probabilities are returned as the total cross section and
the total cross section as the probabilities. -/
theorem C05_noFission_swapped (inc : Dbl) (p t el c h : Words) (d : ProbabilityTable)
    (hd : ProbabilityTable.mkNoFission true inc p t el c h = .ok d) :
    d.total = .ok p ∧ d.probabilities = .ok t := by
  obtain ⟨_, h1, h2, _⟩ := C05_noFission_zero inc p t el c h d hd
  exact ⟨h2, h1⟩

/-- The two are swapped, not lost: with probabilities 1/4 and 1 and cross sections 3 and 5. -/
example : ∃ d, ProbabilityTable.mkNoFission true (Dbl.ofNat 1) [Dbl.fin false 1 (-2), Dbl.ofNat 1]
    [Dbl.ofNat 3, Dbl.ofNat 5] [Dbl.ofNat 1, Dbl.ofNat 1] [Dbl.ofNat 1, Dbl.ofNat 1]
    [Dbl.ofNat 0, Dbl.ofNat 0] = .ok d ∧ d.total ≠ .ok [Dbl.ofNat 3, Dbl.ofNat 5] :=
  ⟨_, rfl, by decide +kernel⟩

/-- Finding: the fission free constructor takes the cross section before the
probabilities, and when its argument list is evaluated with the move first the
fission column is empty and a non-empty table is refused. -/
theorem C05_noFission_refused (inc : Dbl) (t p el c h : Words) (hp : p ≠ []) :
    ProbabilityTable.mkNoFission false inc t p el c h = .error .thrown := by
  have : ¬ ∃ n, ∀ x ∈ [p, t, el, ([] : Words), c, h], x.length = n := by
    rintro ⟨n, hn⟩
    have h1 := hn [] (by simp)
    have h2 := hn p (by simp)
    have : 0 < p.length := List.length_pos_iff.mpr hp
    simp at h1; omega
  simp [ProbabilityTable.mkNoFission, ProbabilityTable.mk', C05_refuses _ this]

theorem C05_JFLO (e p y f : Words) (d : JFLO) (hd : JFLO.mk' e p y f = .ok d) (rest : Words) :
    ∃ d', JFLO.ofRange (d.xss ++ rest) e.length = .ok d' ∧ ∀ x ∈ [d, d'],
      JFLO.E x = .ok e ∧ JFLO.PHI x = .ok p ∧ JFLO.Y x = .ok y ∧ JFLO.F x = .ok f := by
  have b := C05_built _ _ hd
  obtain ⟨d', h1, h2⟩ := C05_read _ _ hd rest
  have hn : e.length = d.n := b.1.2.1 e (by simp)
  refine ⟨d', by rw [hn]; exact h1, fun x hx => ?_⟩
  have g : GivesBack x [e, p, y, f] := by
    rcases List.mem_cons.mp hx with rfl | hx
    · exact b.1
    · rw [List.mem_singleton.mp hx]; exact h2
  exact ⟨(g.2.2 0 (by simp)).1, (g.2.2 1 (by simp)).1, (g.2.2 2 (by simp)).1,
    (g.2.2 3 (by simp)).1⟩

/-- One array blocks: LQR, GPD and LHNM. -/
theorem C05_single (q : Words) (rest : Words) :
    (∃ d d', LQR.mk' q = .ok d ∧ LQR.ofRange (d.xss ++ rest) q.length = .ok d' ∧
      ∀ x ∈ [d, d'], LQR.qvalues x = .ok q ∧
        ∀ (i : Nat) (hi : i < q.length), LQR.qvalue x (i + 1) = .ok q[i]) ∧
    (∃ d d', GPD.mk' q = .ok d ∧ GPD.ofRange (d.xss ++ rest) q.length = .ok d' ∧
      ∀ x ∈ [d, d'], GPD.totalProduction x = .ok q) ∧
    (∃ d d', LHNM.mk' q = .ok d ∧ LHNM.ofRange (d.xss ++ rest) q.length = .ok d' ∧
      ∀ x ∈ [d, d'], LHNM.heating x = .ok q) := by
  have hd : ofArrays [q] = .ok _ := ofArrays_ok [q] q.length (by simp) (by simp)
  have b := C05_built _ _ hd
  obtain ⟨d', h1, h2⟩ := C05_read _ _ hd rest
  have g : ∀ x ∈ [⟨[q].flatten, q.length, 1⟩, d'], GivesBack x [q] := by
    intro x hx
    rcases List.mem_cons.mp hx with rfl | hx
    · exact b.1
    · rw [List.mem_singleton.mp hx]; exact h2
  refine ⟨⟨_, d', hd, h1, fun x hx => ⟨((g x hx).2.2 0 (by simp)).1, fun i hi => ?_⟩⟩,
    ⟨_, d', hd, h1, fun x hx => ((g x hx).2.2 0 (by simp)).1⟩,
    ⟨_, d', hd, h1, fun x hx => ((g x hx).2.2 0 (by simp)).1⟩⟩
  exact ((g x hx).2.2 0 (by simp)).2 i hi

/-- Two array blocks: EXCIT, BREML, SELAS. -/
theorem C05_pair (u v : Words) (huv : v.length = u.length) (rest : Words) :
    (∃ d d', EXCIT.mk' u v = .ok d ∧ EXCIT.ofRange (d.xss ++ rest) u.length = .ok d' ∧
      ∀ x ∈ [d, d'], EXCIT.energies x = .ok u ∧ EXCIT.loss x = .ok v) ∧
    (∃ d d', BREML.mk' u v = .ok d ∧ BREML.ofRange (d.xss ++ rest) u.length = .ok d' ∧
      ∀ x ∈ [d, d'], BREML.energies x = .ok u ∧ BREML.remaining x = .ok v) ∧
    (∃ d d', SELAS.mk' u v = .ok d ∧ SELAS.ofRange (d.xss ++ rest) u.length = .ok d' ∧
      ∀ x ∈ [d, d'], SELAS.transport x = .ok u ∧ SELAS.total x = .ok v) := by
  have hd : ofArrays [u, v] = .ok _ := ofArrays_ok [u, v] u.length (by simp [huv]) (by simp)
  have b := C05_built _ _ hd
  obtain ⟨d', h1, h2⟩ := C05_read _ _ hd rest
  have g : ∀ x ∈ [⟨[u, v].flatten, u.length, 2⟩, d'], GivesBack x [u, v] := by
    intro x hx
    rcases List.mem_cons.mp hx with rfl | hx
    · exact b.1
    · rw [List.mem_singleton.mp hx]; exact h2
  exact ⟨⟨_, d', hd, h1, fun x hx => ⟨((g x hx).2.2 0 (by simp)).1, ((g x hx).2.2 1 (by simp)).1⟩⟩,
    ⟨_, d', hd, h1, fun x hx => ⟨((g x hx).2.2 0 (by simp)).1, ((g x hx).2.2 1 (by simp)).1⟩⟩,
    ⟨_, d', hd, h1, fun x hx => ⟨((g x hx).2.2 0 (by simp)).1, ((g x hx).2.2 1 (by simp)).1⟩⟩⟩

theorem map_ofNat (l : List Nat) : l.map Dbl.ofNat = (l.map Int.ofNat).map Dbl.ofInt := by
  simp [Dbl.ofNat]

/-- EPS: the numbers of electrons come back as integers; each number is the one of its shell. -/
theorem C05_EPS (ns : List Nat) (e p : Words) (d : EPS) (hd : EPS.mk' ns e p = .ok d)
    (hf : ∀ n ∈ ns, FitsN n) (rest : Words) :
    ∃ d', EPS.ofRange (d.xss ++ rest) ns.length = .ok d' ∧ ∀ x ∈ [d, d'],
      EPS.LNEPS x = .ok (ns.map Dbl.ofNat) ∧ EPS.LBEPS x = .ok e ∧ EPS.LPIPS x = .ok p ∧
      (∀ (k : Nat) (hk : k < ns.length), EPS.numberElectrons x (k + 1) = .ok (ns[k] : Int)) ∧
      (∀ (k : Nat) (hk : k < e.length), EPS.bindingEnergy x (k + 1) = .ok e[k]) ∧
      (∀ (k : Nat) (hk : k < p.length), EPS.interactionProbability x (k + 1) = .ok p[k]) := by
  have hh := ofArrays_holds hd
  obtain ⟨d', h1, h2, _⟩ := ofRange_holds _ d.n rest hh.1.hn
  have hn : ns.length = d.n := by simpa using hh.1.hn (ns.map Dbl.ofNat) (by simp)
  refine ⟨d', by rw [hh.2, hn]; exact h1, fun x hx => ?_⟩
  have g : Holds x [ns.map Dbl.ofNat, e, p] := by
    rcases List.mem_cons.mp hx with rfl | hx
    · exact hh.1
    · rw [List.mem_singleton.mp hx]; exact h2
  refine ⟨g.darray 0 (by simp), g.darray 1 (by simp), g.darray 2 (by simp), fun k hk => ?_,
    fun k hk => g.dvalue 1 k (by simp) (by simpa using hk), fun k hk => g.dvalue 2 k (by simp) (by simpa using hk)⟩
  exact g.ivalue 0 k (by simp) (by simpa using hk) _ (by simp [Dbl.ofNat])
    (FitsN.fits (hf _ (List.getElem_mem hk)))

/-- SUBSH: designators and numbers of transitions come back as integers. -/
theorem C05_SUBSH (ids : List Nat) (e b p : Words) (nt : List Nat) (d : SUBSH)
    (hd : SUBSH.mk' ids e b p nt = .ok d)
    (hf : ∀ n ∈ ids, FitsN n) (hf' : ∀ n ∈ nt, FitsN n) (rest : Words) :
    ∃ d', SUBSH.ofRange (d.xss ++ rest) ids.length = .ok d' ∧ ∀ x ∈ [d, d'],
      SUBSH.ID x = .ok (ids.map Int.ofNat) ∧ SUBSH.EP x = .ok e ∧ SUBSH.BE x = .ok b ∧
      SUBSH.CV x = .ok p ∧ SUBSH.NT x = .ok (nt.map Int.ofNat) ∧
      (∀ (k : Nat) (hk : k < nt.length), SUBSH.numberTransitions x (k + 1) = .ok (nt[k] : Int)) ∧
      (∀ (k : Nat) (hk : k < ids.length), SUBSH.designator x (k + 1) = .ok (ids[k] : Int)) ∧
      (∀ (k : Nat) (hk : k < e.length), SUBSH.population x (k + 1) = .ok e[k]) ∧
      (∀ (k : Nat) (hk : k < b.length), SUBSH.bindingEnergy x (k + 1) = .ok b[k]) ∧
      (∀ (k : Nat) (hk : k < p.length), SUBSH.vacancyProbability x (k + 1) = .ok p[k]) := by
  have hh := ofArrays_holds hd
  obtain ⟨d', h1, h2, _⟩ := ofRange_holds _ d.n rest hh.1.hn
  have hn : ids.length = d.n := by simpa using hh.1.hn (ids.map Dbl.ofNat) (by simp)
  refine ⟨d', by rw [hh.2, hn]; exact h1, fun x hx => ?_⟩
  have g : Holds x [ids.map Dbl.ofNat, e, b, p, nt.map Dbl.ofNat] := by
    rcases List.mem_cons.mp hx with rfl | hx
    · exact hh.1
    · rw [List.mem_singleton.mp hx]; exact h2
  refine ⟨g.iarray 0 (by simp) _ (map_ofNat ids) ?_, g.darray 1 (by simp), g.darray 2 (by simp),
    g.darray 3 (by simp), g.iarray 4 (by simp) _ (map_ofNat nt) ?_, fun k hk => ?_, fun k hk => ?_,
    fun k hk => g.dvalue 1 k (by simp) (by simpa using hk), fun k hk => g.dvalue 2 k (by simp) (by simpa using hk),
    fun k hk => g.dvalue 3 k (by simp) (by simpa using hk)⟩
  · intro i hi
    obtain ⟨n, hn, rfl⟩ := List.mem_map.mp hi
    exact FitsN.fits (hf n hn)
  · intro i hi
    obtain ⟨n, hn, rfl⟩ := List.mem_map.mp hi
    exact FitsN.fits (hf' n hn)
  · exact g.ivalue 4 k (by simp) (by simpa using hk) _ (by simp [Dbl.ofNat])
      (FitsN.fits (hf' _ (List.getElem_mem hk)))
  · exact g.ivalue 0 k (by simp) (by simpa using hk) _ (by simp [Dbl.ofNat])
      (FitsN.fits (hf _ (List.getElem_mem hk)))

/-- SPHEL and ITCA/ITCAI: any number of arrays; the argument order of the two
readers (number of arrays first) is the right one. -/
theorem C05_many (as : List Words) (d : ArrayData) (hd : ofArrays as = .ok d) (rest : Words) :
    SPHEL.mk' as = .ok d ∧ ITCA.mk' as = .ok d ∧
    ∃ d', SPHEL.ofRange (d.xss ++ rest) as.length d.n = .ok d' ∧
      ITCA.ofRange (d.xss ++ rest) as.length d.n = .ok d' ∧
      ∀ x ∈ [d, d'], ITCA.NE x = as.length ∧ (as ≠ [] → ∀ y ∈ as, y.length = ITCA.NC x) ∧
        ∀ (a : Nat) (h : a < as.length),
          SPHEL.photoelectric x (a + 1) = .ok as[a] ∧ ITCA.cosines x (a + 1) = .ok as[a] := by
  have b := C05_built _ _ hd
  obtain ⟨d', h1, h2⟩ := C05_read _ _ hd rest
  refine ⟨hd, hd, d', h1, h1, fun x hx => ?_⟩
  have g : GivesBack x as := by
    rcases List.mem_cons.mp hx with rfl | hx
    · exact b.1
    · rw [List.mem_singleton.mp hx]; exact h2
  exact ⟨g.1, fun _ => g.2.1, fun a h => ⟨(g.2.2 a h).1, (g.2.2 a h).1⟩⟩

theorem TRAN.zip4_spec : ∀ (ps ss : List Nat) (es cs : Words), ss.length = ps.length →
    es.length = ps.length → cs.length = ps.length →
    (TRAN.zip4 ps ss es cs).length = ps.length ∧
    ∀ (k : Nat) (h : k < ps.length) (h1 : k < ss.length) (h2 : k < es.length) (h3 : k < cs.length)
      (h4 : k < (TRAN.zip4 ps ss es cs).length),
      (TRAN.zip4 ps ss es cs)[k] = [Dbl.ofNat ps[k], Dbl.ofNat ss[k], es[k], cs[k]] := by
  intro ps
  induction ps with
  | nil => intro ss es cs _ _ _; simp [TRAN.zip4]
  | cons p ps ih =>
    intro ss es cs h1 h2 h3
    match ss, es, cs, h1, h2, h3 with
    | s :: ss, e :: es, c :: cs, h1, h2, h3 =>
      simp at h1 h2 h3
      obtain ⟨hl, hk⟩ := ih ss es cs h1 h2 h3
      refine ⟨by simp [TRAN.zip4, hl], fun k => ?_⟩
      cases k with
      | zero => simp [TRAN.zip4]
      | succ k => intro a b c d e; simp [TRAN.zip4]; exact hk k _ _ _ _ _

/-- TRAN: transitions are made exactly of arrays of the same length. -/
theorem C05_TRAN_lengths (ps ss : List Nat) (es cs : Words) :
    (∃ d, TRAN.mk' ps ss es cs = .ok d) ↔ ss.length = ps.length ∧ es.length = ps.length ∧ cs.length = ps.length := by
  constructor
  · rintro ⟨d, h⟩
    unfold TRAN.mk' TRAN.generateArrays at h
    by_cases hg : (ss.length == ps.length && es.length == ps.length && cs.length == ps.length) = true
    · simp only [Bool.and_eq_true, beq_iff_eq] at hg
      exact ⟨hg.1.1, hg.1.2, hg.2⟩
    · simp [guardThrow, hg] at h
  · rintro ⟨h1, h2, h3⟩
    obtain ⟨hl, hk⟩ := TRAN.zip4_spec ps ss es cs h1 h2 h3
    have hall : ∀ x ∈ TRAN.zip4 ps ss es cs, x.length = 4 := by
      intro x hx
      obtain ⟨k, hk', rfl⟩ := List.getElem_of_mem hx
      rw [hk k (by omega) (by omega) (by omega) (by omega) hk']; rfl
    have hmk : TRAN.mk' ps ss es cs = ofArrays (TRAN.zip4 ps ss es cs) := by
      simp [TRAN.mk', TRAN.generateArrays, h1, h2, h3]
    obtain ⟨d, hd⟩ := (C05_accepts (TRAN.zip4 ps ss es cs)).mpr ⟨4, hall⟩
    exact ⟨d, by rw [hmk, hd]⟩


/-- TRAN: the transitions of a subshell are given back one by one; the number of
transitions follows from the number of words. -/
theorem C05_TRAN (ps ss : List Nat) (es cs : Words) (h1 : ss.length = ps.length)
    (h2 : es.length = ps.length) (h3 : cs.length = ps.length)
    (hf1 : ∀ n ∈ ps, FitsN n) (hf2 : ∀ n ∈ ss, FitsN n) :
    ∃ d d', TRAN.mk' ps ss es cs = .ok d ∧ TRAN.ofRange d.xss = .ok d' ∧ ∀ x ∈ [d, d'],
      TRAN.NT x = ps.length ∧
      ∀ (k : Nat) (h : k < ps.length),
        TRAN.transition x (k + 1) =
          .ok [Dbl.ofNat ps[k], Dbl.ofNat (ss[k]'(by omega)), es[k]'(by omega), cs[k]'(by omega)] ∧
        TRAN.primaryDesignator x (k + 1) = .ok (ps[k] : Int) ∧
        TRAN.secondaryDesignator x (k + 1) = .ok ((ss[k]'(by omega) : Nat) : Int) ∧
        TRAN.energy x (k + 1) = .ok (es[k]'(by omega)) ∧
        TRAN.probability x (k + 1) = .ok (cs[k]'(by omega)) ∧
        TRAN.isRadiativeTransition x (k + 1) = .ok (decide (ss[k]'(by omega) = 0)) := by
  obtain ⟨hl, hk⟩ := TRAN.zip4_spec ps ss es cs h1 h2 h3
  generalize has : TRAN.zip4 ps ss es cs = as at hl hk
  have hall : ∀ x ∈ as, x.length = 4 := by
    intro x hx
    obtain ⟨k, hk', rfl⟩ := List.getElem_of_mem hx
    rw [hk k (by omega) (by omega) (by omega) (by omega) hk']; rfl
  have hmk : TRAN.mk' ps ss es cs = ofArrays as := by
    simp [TRAN.mk', TRAN.generateArrays, h1, h2, h3, has]
  obtain ⟨d, hd⟩ := (C05_accepts as).mpr ⟨4, hall⟩
  have hh := ofArrays_holds hd
  have hlen : d.xss.length = as.length * 4 := by rw [hh.2, length_flatten_const as 4 hall]
  obtain ⟨d', hd', hh', _⟩ := ofRange_holds as 4 [] hall
  refine ⟨d, d', by rw [hmk, hd], ?_, fun x hx => ?_⟩
  · have h4 : as.length * 4 / 4 = as.length := by omega
    simp only [TRAN.ofRange, hlen, h4]
    rw [hh.2]
    simpa using hd'
  have g : Holds x as := by
    rcases List.mem_cons.mp hx with rfl | hx
    · exact hh.1
    · rw [List.mem_singleton.mp hx]; exact hh'
  refine ⟨by rw [← hl]; exact g.hm, fun k h => ?_⟩
  have hka : k < as.length := by omega
  have e := hk k h (by omega) (by omega) (by omega) hka
  have hl4 : as[k].length = 4 := hall _ (List.getElem_mem hka)
  have hs : TRAN.secondaryDesignator x (k + 1) = .ok ((ss[k]'(by omega) : Nat) : Int) :=
    g.ivalue k 1 hka (by omega) _ (by simp [e, Dbl.ofNat])
      (FitsN.fits (hf2 _ (List.getElem_mem (by omega))))
  refine ⟨by unfold TRAN.transition; rw [g.darray k hka, e], ?_, hs, ?_, ?_, ?_⟩
  · exact g.ivalue k 0 hka (by omega) _ (by simp [e, Dbl.ofNat])
      (FitsN.fits (hf1 _ (List.getElem_mem h)))
  · have := g.dvalue k 2 hka (by omega); simp only [e] at this; simpa [TRAN.energy, TRAN.probability] using this
  · have := g.dvalue k 3 hka (by omega); simp only [e] at this; simpa [TRAN.energy, TRAN.probability] using this
  · unfold TRAN.isRadiativeTransition
    rw [hs]
    by_cases h0 : ss[k]'(by omega) = 0
    · rw [h0]; rfl
    · have h1 : ¬ ((0 : Int) = ((ss[k]'(by omega) : Nat) : Int)) := by omega
      simp [h0, h1]

-- concrete cases that meet the hypotheses
example : ofArrays [[Dbl.ofNat 1, Dbl.ofNat 2], [Dbl.ofNat 3, Dbl.ofNat 4]] =
    .ok ⟨[Dbl.ofNat 1, Dbl.ofNat 2, Dbl.ofNat 3, Dbl.ofNat 4], 2, 2⟩ := by decide
example : ∃ d, ESZ.mk' [Dbl.ofNat 1] [Dbl.ofNat 2] [Dbl.ofNat 3] [Dbl.ofNat 4] [Dbl.ofNat 5] = .ok d ∧
    ESZ.heating d = .ok [Dbl.ofNat 5] := ⟨⟨_, 1, 5⟩, rfl, by decide⟩
example : ∃ d, SUBSH.mk' [1, 2] [Dbl.ofNat 2, Dbl.ofNat 2] [Dbl.ofNat 9, Dbl.ofNat 8]
    [Dbl.ofNat 0, Dbl.ofNat 1] [0, 7] = .ok d ∧ SUBSH.NT d = .ok [0, 7] :=
  ⟨⟨_, 2, 5⟩, rfl, by decide⟩
example : ofArrays [[Dbl.ofNat 1, Dbl.ofNat 2], [Dbl.ofNat 3]] = .error .thrown := by decide

namespace C05
/-- Arrays of two numbers. -/
def p (a b : Nat) : Words := [Dbl.ofNat a, Dbl.ofNat b]
end C05
open C05 (p)

/-- The hypotheses of the theorems above are met by arrays of two numbers (see also the examples before). -/
example := C05_refuses [p 1 2, [Dbl.ofNat 3]] (by
  rintro ⟨n, h⟩
  have h1 := h (p 1 2) (by simp); have h2 := h [Dbl.ofNat 3] (by simp)
  simp [p] at h1 h2; omega)
example := C05_built [p 1 2, p 3 4] _ rfl
example := C05_read [p 1 2, p 3 4] _ rfl [Dbl.ofNat 9]
example := C05_integers [p 1 2, p 3 4] _ rfl 1 (by decide) [3, 4] rfl (by decide)
example := C05_ESZ (p 1 2) (p 3 4) (p 5 6) (p 7 8) (p 9 10) _ rfl [Dbl.ofNat 9]
example := C05_ESZG (p 1 2) (p 3 4) (p 5 6) (p 7 8) (p 9 10) _ rfl [Dbl.ofNat 9]
example := C05_ESZU4 (p 1 2) (p 3 4) (p 5 6) (p 7 8) _ rfl [Dbl.ofNat 9]
example := C05_ESZU3 (p 1 2) (p 3 4) (p 5 6) _ rfl [Dbl.ofNat 9]
example := C05_ProbabilityTable (Dbl.ofNat 20) (p 1 2) (p 3 4) (p 5 6) (p 7 8) (p 9 10) (p 11 12) _ rfl []
example := C05_noFission_zero (Dbl.ofNat 20) (p 1 2) (p 3 4) (p 5 6) (p 7 8) (p 9 10) _ rfl
example := C05_noFission_refused (Dbl.ofNat 20) (p 1 2) (p 3 4) (p 5 6) (p 7 8) (p 9 10) (by decide)
example := C05_JFLO (p 1 2) (p 3 4) (p 5 6) (p 7 8) _ rfl [Dbl.ofNat 9]
example := C05_single (p 1 2) [Dbl.ofNat 9]
example := C05_pair (p 1 2) (p 3 4) rfl [Dbl.ofNat 9]
example := C05_EPS [2, 8] (p 3 4) (p 5 6) _ rfl (by decide) [Dbl.ofNat 9]
example := C05_SUBSH [1, 2] (p 3 4) (p 5 6) (p 7 8) [0, 7] _ rfl (by decide) (by decide) [Dbl.ofNat 9]
example := C05_many [p 1 2, p 3 4, p 5 6] _ rfl [Dbl.ofNat 9]
/-- Three primary and two secondary designators are refused. -/
example : ¬ ∃ d, TRAN.mk' [3, 4, 5] [0, 7] (p 3 4) (p 5 6) = .ok d :=
  fun h => absurd ((C05_TRAN_lengths _ _ _ _).mp h).1 (by decide)
example := C05_TRAN [3, 4] [0, 7] (p 3 4) (p 5 6) rfl rfl rfl (by decide) (by decide)

end ACE.Props

import Verif.Props.C09

/-!
# C10: electron distribution blocks (ELAS, BREME, EION)

`ElectronGives b vs`: the block has one distribution per element of `vs` (incident energy, values
and cumulative probabilities); energy, length, locator (one plus the number of words of the
distributions before) and distribution at each index are those of `vs`; the energies are also
given as an array, and so are the distributions; other indices are refused.
-/

namespace ACE.Props
open ACE

/-- Incident energy, cosines or outgoing energies, and cumulative probabilities. -/
abbrev ElecSpec := Dbl × Words × Words

/-- What one distribution gives. -/
def IsElec (v : ElecSpec) (d : ElectronDist) : Prop :=
  d.energy = v.1 ∧ d.L = v.2.1.length ∧ d.values = .ok v.2.1 ∧ d.cdf = .ok v.2.2

/-- Built from its specification. -/
def mkElec (v : ElecSpec) : Res ElectronDist := ElectronDist.mk' v.1 v.2.1 v.2.2

structure ElectronGives (b : ElectronBlock) (vs : List ElecSpec) : Prop where
  count : b.n = vs.length
  energies : b.E = .ok (vs.map (·.1))
  all : b.data.length = vs.length ∧
    ∀ (i : Nat) (hi : i < vs.length) (h' : i < b.data.length), IsElec vs[i] b.data[i]
  at_index : ∀ (i : Nat) (hi : i < vs.length),
    b.energy (i + 1) = .ok vs[i].1 ∧ b.length (i + 1) = .ok vs[i].2.1.length ∧
    b.LLOC (i + 1) = .ok (1 + ((vs.take i).map (fun v => v.2.1.length + v.2.2.length)).sum) ∧
    ∃ d, b.get (i + 1) = .ok d ∧ IsElec vs[i] d
  refused : ∀ i, i = 0 ∨ vs.length < i →
    b.get i = .error .range ∧ b.LLOC i = .error .range ∧ b.energy i = .error .range ∧
    b.length i = .error .range

/-- The words of the distributions. -/
def elecParts (vs : List ElecSpec) : List Words := vs.map (fun v => v.2.1 ++ v.2.2)

/-- The three information arrays. -/
def elecInfo (vs : List ElecSpec) : List Words :=
  [vs.map (·.1), vs.map (fun v => Dbl.ofNat v.2.1.length),
    locsFrom Dbl.ofNat 0 (elecParts vs)]

theorem elecInfo_len (vs : List ElecSpec) : ∀ x ∈ elecInfo vs, x.length = vs.length := by
  intro x hx
  simp only [elecInfo, List.mem_cons, List.not_mem_nil, or_false] at hx
  rcases hx with rfl | rfl | rfl <;> simp [elecParts]

theorem mkElec_ok (v : ElecSpec) (h : v.2.2.length = v.2.1.length) :
    mkElec v = .ok ⟨v.1, ⟨v.2.1 ++ v.2.2, v.2.1.length, 2⟩⟩ := by
  unfold mkElec ElectronDist.mk'
  rw [ArrayData.ofArrays_ok [v.2.1, v.2.2] v.2.1.length (by simp [h]) (by simp)]
  simp

theorem isElec_words (v : ElecSpec) (h : v.2.2.length = v.2.1.length) :
    IsElec v ⟨v.1, ⟨v.2.1 ++ v.2.2, v.2.1.length, 2⟩⟩ := by
  have hh : ArrayData.Holds ⟨v.2.1 ++ v.2.2, v.2.1.length, 2⟩ [v.2.1, v.2.2] :=
    ⟨rfl, by simp [h], [], by simp⟩
  exact ⟨rfl, rfl, hh.darray 0 (by simp), hh.darray 1 (by simp)⟩

theorem mkElec_valid (v : ElecSpec) (d : ElectronDist) (h : mkElec v = .ok d) :
    v.2.2.length = v.2.1.length := by
  refine Classical.byContradiction (fun hc => ?_)
  unfold mkElec ElectronDist.mk' at h
  rw [ArrayData.ofArrays_error _ _ (by simpa using hc)] at h
  cases h

theorem elec_generateXSS (vs : List ElecSpec) :
    ElectronBlock.generateXSS
        (vs.map (fun v => (⟨v.1, ⟨v.2.1 ++ v.2.2, v.2.1.length, 2⟩⟩ : ElectronDist))) =
      (elecInfo vs).flatten ++ (elecParts vs).flatten := by
  have := locatorLoop_spec Dbl.ofNat vs.length (elecParts vs) [] [] (Dbl.ofNat 0) (by simp [elecParts])
  unfold ElectronBlock.generateXSS elecInfo
  simp only [List.nil_append, List.length_nil, List.append_nil] at this
  simp only [elecParts, List.length_map, List.map_map, Function.comp_def, ElectronDist.L] at this ⊢
  rw [this]
  simp

/-- The block that generateBlocks makes of the words, whatever follows. -/
theorem elec_generateBlocks (vs : List ElecSpec) (rest : Words)
    (hv : ∀ v ∈ vs, v.2.2.length = v.2.1.length)
    (hf : FitsN ((elecParts vs).flatten.length + 1)) :
    ElectronBlock.generateBlocks ((elecInfo vs).flatten ++ (elecParts vs).flatten ++ rest) vs.length =
      .ok ⟨(elecInfo vs).flatten ++ (elecParts vs).flatten ++ rest, vs.length,
        ⟨(elecInfo vs).flatten, vs.length, 3⟩,
        vs.map (fun v => ⟨v.1, ⟨v.2.1 ++ v.2.2, v.2.1.length, 2⟩⟩)⟩ ∧
    ElectronGives ⟨(elecInfo vs).flatten ++ (elecParts vs).flatten ++ rest, vs.length,
        ⟨(elecInfo vs).flatten, vs.length, 3⟩,
        vs.map (fun v => ⟨v.1, ⟨v.2.1 ++ v.2.2, v.2.1.length, 2⟩⟩)⟩ vs := by
  have hil : (elecInfo vs).flatten.length = 3 * vs.length := by
    rw [length_flatten_const _ _ (elecInfo_len vs)]; rfl
  have hh : ArrayData.Holds ⟨(elecInfo vs).flatten, vs.length, 3⟩ (elecInfo vs) :=
    ⟨rfl, elecInfo_len vs, [], by simp⟩
  have hpl : (elecParts vs).length = vs.length := by simp [elecParts]
  have hen : ∀ (i : Nat) (hi : i < vs.length),
      ElectronBlock.energyOf ⟨(elecInfo vs).flatten, vs.length, 3⟩ vs.length (i + 1) =
        .ok vs[i].1 := by
    intro i hi
    unfold ElectronBlock.energyOf LocBlock.verifyDataIndex
    rw [if_neg (by omega), ok_bind]
    have := hh.dvalue 0 i (by simp [elecInfo]) (by simpa [elecInfo] using hi)
    simpa [elecInfo] using this
  have hsm : ∀ (i : Nat) (hi : i < vs.length),
      startOf (elecParts vs) i + (vs[i].2.1.length + vs[i].2.1.length) ≤
        (elecParts vs).flatten.length := by
    intro i hi
    have := startOf_add_le (elecParts vs) i (by omega)
    simp only [elecParts, List.getElem_map, List.length_append] at this
    have := hv vs[i] (List.getElem_mem hi)
    simp only [elecParts]
    omega
  have hle : ∀ (i : Nat) (hi : i < vs.length),
      ElectronBlock.lengthOf ⟨(elecInfo vs).flatten, vs.length, 3⟩ vs.length (i + 1) =
        .ok vs[i].2.1.length := by
    intro i hi
    have := hsm i hi
    unfold ElectronBlock.lengthOf LocBlock.verifyDataIndex
    rw [if_neg (by omega), ok_bind]
    rw [hh.ivalue 1 i (by simp [elecInfo]) (by simpa [elecInfo] using hi)
      (vs[i].2.1.length : Int) (by simp [elecInfo, Dbl.ofNat])
      (FitsN.fits (by omega))]
    rw [ok_bind, u32OfInt_natCast (by omega)]; rfl
  have hlo : ∀ (i : Nat) (hi : i < vs.length),
      ElectronBlock.LLOCof ⟨(elecInfo vs).flatten, vs.length, 3⟩ vs.length (i + 1) =
        .ok (startOf (elecParts vs) i + 1) := by
    intro i hi
    have := hsm i hi
    unfold ElectronBlock.LLOCof LocBlock.verifyDataIndex
    rw [if_neg (by omega), ok_bind]
    rw [hh.ivalue 2 i (by simp [elecInfo]) (by simp [elecInfo, elecParts]; omega)
      (startOf (elecParts vs) i : Int)
      (by simp only [elecInfo, List.getElem_cons_succ, List.getElem_cons_zero,
            locsFrom_getElem, Nat.zero_add]; rfl)
      (FitsN.fits (by omega))]
    rw [ok_bind]
    have e : ((startOf (elecParts vs) i : Nat) : Int) + 1 = ((startOf (elecParts vs) i + 1 : Nat) : Int) := by
      omega
    rw [e, sizeOfInt_natCast (by omega)]; rfl
  constructor
  · unfold ElectronBlock.generateBlocks
    have hs : sub ((elecInfo vs).flatten ++ (elecParts vs).flatten ++ rest) 0 (3 * vs.length) =
        .ok (elecInfo vs).flatten :=
      sub_of_eq (a := []) (c := (elecParts vs).flatten ++ rest) (by simp) rfl (by simp [hil])
    rw [hs, ok_bind, ArrayData.ofRange_ok _ _ _ (by omega), ok_bind]
    have hm : (List.range vs.length).mapM (ElectronBlock.generateBlock
        ((elecInfo vs).flatten ++ (elecParts vs).flatten ++ rest) vs.length
        ⟨(elecInfo vs).flatten, vs.length, 3⟩) = .ok
        (vs.map (fun v => (⟨v.1, ⟨v.2.1 ++ v.2.2, v.2.1.length, 2⟩⟩ : ElectronDist))) := by
      refine mapM_range_eq _ _ _ (by simp) (fun i hi => ?_)
      have hi' : i < vs.length := by simpa using hi
      have hlen := hv vs[i] (List.getElem_mem hi')
      have := hsm i hi'
      unfold ElectronBlock.generateBlock
      simp only [hlo i hi', ok_bind]
      rw [Base.iterator_ok (by omega) (by simp only [List.length_append, hil]; omega)]
      simp only [ok_bind, hle i hi', hen i hi']
      have hsub : sub ((elecInfo vs).flatten ++ (elecParts vs).flatten ++ rest)
          (3 * vs.length + 1 + (startOf (elecParts vs) i + 1) - 1 - 1)
          (3 * vs.length + 1 + (startOf (elecParts vs) i + 1) - 1 - 1 + 2 * vs[i].2.1.length) =
          .ok (vs[i].2.1 ++ vs[i].2.2) := by
        have hs := flatten_split (elecParts vs) i (by omega)
        refine sub_of_eq (a := (elecInfo vs).flatten ++ ((elecParts vs).take i).flatten)
          (c := ((elecParts vs).drop (i + 1)).flatten ++ rest) ?_ ?_ ?_
        · rw [hs]; simp [elecParts]
        · rw [List.length_append, hil]; simp only [startOf]; omega
        · rw [List.length_append, List.length_append, hil]; simp only [startOf]; omega
      rw [hsub, ok_bind]
      unfold ElectronDist.ofRange
      rw [ArrayData.ofRange_ok _ _ _ (by simp; omega)]
      simp
    rw [hm]; rfl
  · refine ⟨rfl, ?_, ⟨by simp, fun i hi h' => ?_⟩, fun i hi => ⟨hen i hi, hle i hi, ?_, ?_⟩,
      fun i hi => ?_⟩
    · have := hh.darray 0 (by simp [elecInfo])
      simpa [elecInfo, ElectronBlock.E] using this
    · simpa using isElec_words vs[i] (hv _ (List.getElem_mem hi))
    · have : 1 + ((vs.take i).map (fun v => v.2.1.length + v.2.2.length)).sum =
          startOf (elecParts vs) i + 1 := by
        simp only [startOf, elecParts, ← List.map_take, List.length_flatten, List.map_map,
          Function.comp_def, List.length_append]
        omega
      rw [this]; exact hlo i hi
    · refine ⟨_, ?_, isElec_words vs[i] (hv _ (List.getElem_mem hi))⟩
      unfold ElectronBlock.get LocBlock.verifyDataIndex
      simp only
      rw [if_neg (by omega), ok_bind]
      simp [hi]
    · unfold ElectronBlock.get ElectronBlock.LLOC ElectronBlock.energy ElectronBlock.length
        ElectronBlock.LLOCof ElectronBlock.energyOf ElectronBlock.lengthOf LocBlock.verifyDataIndex
      simp only
      rw [if_pos (by omega)]
      exact ⟨rfl, rfl, rfl, rfl⟩

/-- A block built from distributions gives them back, also when its words (with anything
following) are read back. -/
theorem C10_electron (vs : List ElecSpec) (bs : List ElectronDist) (hb : vs.mapM mkElec = .ok bs)
    (rest : Words)
    (hf : FitsN ((vs.map (fun v => v.2.1.length + v.2.2.length)).sum + 1)) :
    ∃ b, ElectronBlock.mk' bs = .ok b ∧ ElectronGives b vs ∧
      ∃ r, ElectronBlock.ofRange (b.xss ++ rest) vs.length = .ok r ∧ ElectronGives r vs := by
  obtain ⟨hlen, hmk⟩ := mapM_ok_iff mkElec vs bs hb
  have hv : ∀ v ∈ vs, v.2.2.length = v.2.1.length := by
    intro v hv
    obtain ⟨i, hi, rfl⟩ := List.getElem_of_mem hv
    exact mkElec_valid _ _ (hmk i hi (by omega))
  have hbs : bs = vs.map (fun v => (⟨v.1, ⟨v.2.1 ++ v.2.2, v.2.1.length, 2⟩⟩ : ElectronDist)) := by
    refine List.ext_getElem (by simp [hlen]) (fun i h1 h2 => ?_)
    have hi : i < vs.length := by omega
    have := hmk i hi h1
    rw [mkElec_ok _ (hv _ (List.getElem_mem hi))] at this
    injection this with this
    rw [← this]; simp
  have hf' : FitsN ((elecParts vs).flatten.length + 1) := by
    simpa [elecParts, List.length_flatten, List.map_map, Function.comp_def] using hf
  obtain ⟨h1, h2⟩ := elec_generateBlocks vs [] hv hf'
  obtain ⟨h3, h4⟩ := elec_generateBlocks vs rest hv hf'
  rw [List.append_nil] at h1
  refine ⟨_, ?_, h2, _, ?_, h4⟩
  · unfold ElectronBlock.mk'
    subst hbs
    rw [elec_generateXSS vs, List.length_map, h1]
    simp
  · unfold ElectronBlock.ofRange
    rw [List.append_nil]
    exact h3

example : ([(Dbl.ofNat 1, [Dbl.ofNat 2], [Dbl.ofNat 3]),
      (Dbl.ofNat 4, [Dbl.ofNat 5, Dbl.ofNat 6], [Dbl.ofNat 7, Dbl.ofNat 8])].mapM mkElec >>= fun bs =>
    ElectronBlock.mk' bs >>= fun b => do
      return ((← b.LLOC 2), (← b.length 2), (← (← b.get 2).cdf))) =
    .ok (3, 2, [Dbl.ofNat 7, Dbl.ofNat 8]) := by decide

/-- The base class also declares a whole-array accessor for the lengths: it gives the (rounded)
energies instead. The derived classes do not make it public. -/
theorem C10_lengths_array :
    ([(Dbl.ofNat 9, [Dbl.ofNat 2], [Dbl.ofNat 3])].mapM mkElec >>= fun bs =>
      ElectronBlock.mk' bs >>= fun b => do return ((← b.length 1), (← b.L))) = .ok (1, [9]) := by
  decide

example := C10_electron [(Dbl.ofNat 1, [Dbl.ofNat 2], [Dbl.ofNat 3]),
  (Dbl.ofNat 4, [Dbl.ofNat 5, Dbl.ofNat 6], [Dbl.ofNat 7, Dbl.ofNat 8])] _ rfl [Dbl.ofNat 9] (by decide)

end ACE.Props

import Verif.Lemmas.Located
import Verif.Model.EnergyBlock

/-!
# C20: the frame and multiplicity block (TYR)

A multiplicity is stored with the sign of the frame, so the centre of mass frame with multiplicity
zero is lost (`C20_zero_false`); every other pair is given back.
-/

namespace ACE.Props
open ACE

/-- A frame and multiplicity that one signed word can hold. -/
def TyrOk (v : Frame × Nat) : Prop := FitsN v.2 ∧ (v.1 = .centreOfMass → v.2 ≠ 0)

/-- The block has these frames and multiplicities, in this order and no others. -/
def TyrGives (vs : List (Frame × Nat)) (t : TYR) : Prop :=
  t.ntr = vs.length ∧ ∀ (i : Nat) (h : i < vs.length),
    t.referenceFrame (i + 1) = .ok vs[i].1 ∧ t.multiplicity (i + 1) = .ok vs[i].2

theorem tyr_word (v : Frame × Nat) (h : TyrOk v) :
    TYR.word v.1 v.2 = Dbl.ofInt (if v.1 = .centreOfMass then -(v.2 : Int) else v.2) := by
  obtain ⟨f, n⟩ := v
  cases f with
  | laboratory => rfl
  | centreOfMass =>
    have hn : n ≠ 0 := h.2 rfl
    have h0 : 0 < n := Nat.pos_of_ne_zero hn
    have h1 : decide ((n : Int) < 0) = false := by simp
    simp [TYR.word, Dbl.ofNat, Dbl.ofInt, Dbl.neg, h0, h1]

theorem tyr_block (xs : Words) (vs : List (Frame × Nat)) (rest : Words) (i : Nat)
    (hx : xs = vs.map (fun v => TYR.word v.1 v.2) ++ rest)
    (hi : i < vs.length) (ho : TyrOk vs[i]) : TYR.generateBlock xs i = .ok vs[i] := by
  obtain ⟨p, q, hpq, hp⟩ := getElem_split vs i hi
  have hx' : xs = p.map (fun v => TYR.word v.1 v.2) ++
      TYR.word vs[i].1 vs[i].2 :: (q.map (fun v => TYR.word v.1 v.2) ++ rest) := by
    rw [hx]
    have := congrArg (fun l => l.map (fun v : Frame × Nat => TYR.word v.1 v.2) ++ rest) hpq
    simpa using this
  rw [tyr_word _ ho] at hx'
  have hF : Fits (if vs[i].1 = .centreOfMass then -(vs[i].2 : Int) else vs[i].2) := by
    have := ho.1
    unfold Fits; unfold FitsN at this
    split <;> omega
  have h1 := Base.XSS_of_eq hx' (i := i + 1) (by simp; omega)
  have h2 := Base.IXSS_of_eq hx' (i := i + 1) (by simp; omega) hF
  unfold TYR.generateBlock
  simp only [h1, h2, ok_bind, Dbl.isNeg_ofInt]
  have hne : (if vs[i].1 = .centreOfMass then -(vs[i].2 : Int) else vs[i].2) ≠ -2147483648 := by
    have := ho.1
    unfold FitsN at this
    split <;> omega
  rw [if_neg hne]
  generalize vs[i] = v at ho ⊢
  obtain ⟨f, n⟩ := v
  cases f with
  | laboratory =>
    have : ¬ ((n : Int) < 0) := by omega
    simp [this]
  | centreOfMass =>
    have hn : n ≠ 0 := ho.2 rfl
    have : -(n : Int) < 0 := by omega
    simp
    omega

theorem tyr_blocks (vs : List (Frame × Nat)) (rest : Words) (ho : ∀ v ∈ vs, TyrOk v) :
    TYR.generateBlocks (vs.map (fun v => TYR.word v.1 v.2) ++ rest) vs.length =
      .ok ⟨vs.map (fun v => TYR.word v.1 v.2) ++ rest, vs.length, vs.map (·.1), vs.map (·.2)⟩ := by
  unfold TYR.generateBlocks
  rw [mapM_range_eq _ vs _ rfl (fun i hi => tyr_block _ vs rest i rfl hi (ho _ (List.getElem_mem hi)))]
  rfl

theorem tyr_gives (vs : List (Frame × Nat)) (xs : Words) :
    TyrGives vs ⟨xs, vs.length, vs.map (·.1), vs.map (·.2)⟩ := by
  refine ⟨rfl, fun i h => ?_⟩
  have hi : ¬ (i + 1 < 1 ∨ i + 1 > vs.length) := by omega
  unfold TYR.referenceFrame TYR.multiplicity
  simp only
  rw [if_neg hi, if_neg hi]
  simp [List.getElem?_eq_getElem h]

theorem tyr_words (vs : List (Frame × Nat)) :
    TYR.generateXSS (vs.map (·.1)) (vs.map (·.2)) = .ok (vs.map fun v => TYR.word v.1 v.2) := by
  have : List.zipWith TYR.word (vs.map (·.1)) (vs.map (·.2)) = vs.map fun v => TYR.word v.1 v.2 := by
    induction vs with
    | nil => rfl
    | cons v vs ih => simp [ih]
  unfold TYR.generateXSS
  rw [this]
  simp [guardThrow]

theorem tyr_built (vs : List (Frame × Nat)) (ho : ∀ v ∈ vs, TyrOk v) :
    TYR.mk' (vs.map (·.1)) (vs.map (·.2)) =
      .ok ⟨vs.map (fun v => TYR.word v.1 v.2), vs.length, vs.map (·.1), vs.map (·.2)⟩ := by
  have h := tyr_blocks vs [] ho
  rw [List.append_nil] at h
  unfold TYR.mk'
  rw [tyr_words, ok_bind, List.length_map]
  exact h

/-- **C20** (part: multiplicity zero goes with the laboratory frame). A TYR block made from frames
and multiplicities gives them back, and one word each is written. -/
theorem C20_built_partial (vs : List (Frame × Nat)) (ho : ∀ v ∈ vs, TyrOk v) :
    ∃ t, TYR.mk' (vs.map (·.1)) (vs.map (·.2)) = .ok t ∧ TyrGives vs t ∧ t.xss.length = vs.length :=
  ⟨_, tyr_built vs ho, tyr_gives vs _, by simp⟩

/-- **C20** (same part), also when the words are read back, whatever follows them. -/
theorem C20_read_partial (vs : List (Frame × Nat)) (ho : ∀ v ∈ vs, TyrOk v) (rest : Words) :
    ∃ t t', TYR.mk' (vs.map (·.1)) (vs.map (·.2)) = .ok t ∧
      TYR.ofRange (t.xss ++ rest) vs.length = .ok t' ∧ TyrGives vs t' := by
  refine ⟨_, _, tyr_built vs ho, ?_, tyr_gives vs (vs.map (fun v => TYR.word v.1 v.2) ++ rest)⟩
  unfold TYR.ofRange
  rw [guardThrow_not_lt (by simp), ok_bind]
  exact tyr_blocks vs rest ho

/-- The block made from frames only gives back the frames, with multiplicity one. -/
theorem C20_frames (frames : List Frame) :
    ∃ t, TYR.ofFrames frames = .ok t ∧ TyrGives (frames.map fun f => (f, 1)) t ∧
      t.xss.length = frames.length := by
  have ho : ∀ v ∈ frames.map (fun f => (f, 1)), TyrOk v := by
    intro v hv
    obtain ⟨f, _, rfl⟩ := List.mem_map.mp hv
    exact ⟨show (1 : Nat) < _ by decide, fun _ => show (1 : Nat) ≠ 0 by decide⟩
  have hb := tyr_blocks (frames.map fun f => (f, 1)) [] ho
  have hw : TYR.generateXSSFrames frames =
      (frames.map fun f => (f, 1)).map (fun v => TYR.word v.1 v.2) := by
    unfold TYR.generateXSSFrames
    rw [List.map_map]
    refine List.map_congr_left fun f _ => ?_
    cases f <;> rfl
  refine ⟨_, ?_, tyr_gives (frames.map fun f => (f, 1))
    ((frames.map fun f => (f, 1)).map fun v => TYR.word v.1 v.2), ?_⟩
  · unfold TYR.ofFrames
    rw [hw]
    rw [List.append_nil, List.length_map] at hb
    rw [hb, List.length_map]
  · simp

/-- As many multiplicities as frames, or an exception. -/
theorem C20_mismatch (frames : List Frame) (multiplicities : List Nat)
    (h : frames.length ≠ multiplicities.length) :
    TYR.mk' frames multiplicities = .error .thrown := by
  have : (frames.length == multiplicities.length) = false := by simpa using h
  simp [TYR.mk', TYR.generateXSS, this]

/-- Fewer words than reactions are refused. -/
theorem C20_short (xs : Words) (ntr : Nat) (h : xs.length < ntr) :
    TYR.ofRange xs ntr = .error .thrown := by
  simp [TYR.ofRange, h]

/-- An index outside of 1 … NTR is never answered. -/
theorem C20_index (t : TYR) (i : Nat) (h : i < 1 ∨ t.ntr < i) :
    t.referenceFrame i = .error .range ∧ t.multiplicity i = .error .range := by
  unfold TYR.referenceFrame TYR.multiplicity
  exact ⟨if_pos h, if_pos h⟩

/-- **C20 is false in full**: the centre of mass frame with multiplicity zero (a reaction without
secondary particles) becomes the laboratory frame. -/
theorem C20_zero_false (before after : List (Frame × Nat)) (hb : ∀ v ∈ before, TyrOk v)
    (ha : ∀ v ∈ after, TyrOk v) :
    ∃ t, TYR.mk' ((before ++ (.centreOfMass, 0) :: after).map (·.1))
        ((before ++ (.centreOfMass, 0) :: after).map (·.2)) = .ok t ∧
      t.referenceFrame (before.length + 1) = .ok .laboratory := by
  let vs' := before ++ (.laboratory, 0) :: after
  let w : Words := (before ++ (.centreOfMass, 0) :: after).map fun v => TYR.word v.1 v.2
  have ho : ∀ v ∈ vs', TyrOk v := by
    intro v hv
    rcases List.mem_append.mp hv with h | h
    · exact hb v h
    · rcases List.mem_cons.mp h with h | h
      · subst h; exact ⟨show (0 : Nat) < _ by decide, fun h => by cases h⟩
      · exact ha v h
  have hlen : vs'.length = (before ++ (Frame.centreOfMass, 0) :: after).length := by simp [vs']
  have hbk : TYR.generateBlocks w vs'.length =
      .ok ⟨w, vs'.length, vs'.map (·.1), vs'.map (·.2)⟩ := by
    unfold TYR.generateBlocks
    rw [mapM_range_eq _ vs' _ rfl (fun i hi => ?_)]
    · rfl
    by_cases h : i = before.length
    · subst h
      have hx : w = before.map (fun v => TYR.word v.1 v.2) ++
          Dbl.fin true 0 0 :: after.map (fun v => TYR.word v.1 v.2) := by
        simp [w]; rfl
      have h1 := Base.XSS_of_eq hx (i := before.length + 1) (by simp)
      unfold TYR.generateBlock Base.IXSS
      simp only [h1, ok_bind]
      simp [vs']
      rfl
    · have hg : TYR.generateBlock w i = TYR.generateBlock (vs'.map fun v => TYR.word v.1 v.2) i := by
        have hd : Base.XSS w (i + 1) = Base.XSS (vs'.map fun v => TYR.word v.1 v.2) (i + 1) := by
          unfold Base.XSS deref Base.verifyIndex
          have e1 : w.length = (vs'.map fun v => TYR.word v.1 v.2).length := by simp [w, vs']
          have e2 : w[i + 1 - 1]? = (vs'.map fun v => TYR.word v.1 v.2)[i + 1 - 1]? := by
            simp only [w, vs', Nat.add_sub_cancel, List.map_append, List.map_cons]
            rcases Nat.lt_or_gt_of_ne h with h | h
            · rw [List.getElem?_append_left (by simpa using h),
                List.getElem?_append_left (by simpa using h)]
            · rw [List.getElem?_append_right (by simp; omega),
                List.getElem?_append_right (by simp; omega), List.length_map]
              obtain ⟨k, hk⟩ : ∃ k, i - before.length = k + 1 := ⟨i - before.length - 1, by omega⟩
              rw [hk]; rfl
          rw [e1, e2]
        unfold TYR.generateBlock Base.IXSS
        rw [hd]
      rw [hg]
      exact tyr_block _ vs' [] i (by simp) hi (ho _ (List.getElem_mem hi))
  refine ⟨_, ?_, ((tyr_gives vs' w).2 before.length (by simp [vs'])).1.trans (by simp [vs'])⟩
  unfold TYR.mk'
  rw [tyr_words, ok_bind, List.length_map, ← hlen]
  exact hbk

/-! ### A concrete case -/

example : ∀ v ∈ [(Frame.centreOfMass, 1), (.laboratory, 19), (.laboratory, 0), (.centreOfMass, 101)],
    TyrOk v := by
  unfold TyrOk FitsN; decide
example : (do
    let t ← TYR.mk' [.centreOfMass, .laboratory, .laboratory] [2, 19, 0]
    return (t.xss, ← t.referenceFrame 1, ← t.multiplicity 1, ← t.referenceFrame 2, ← t.multiplicity 2)) =
    (.ok ([Dbl.ofInt (-2), Dbl.ofNat 19, Dbl.ofNat 0], .centreOfMass, 2, .laboratory, 19) :
      Res (Words × Frame × Nat × Frame × Nat)) := by decide
example : (do
    let t ← TYR.mk' [.centreOfMass] [0]
    return (← t.referenceFrame 1)) = (.ok .laboratory : Res Frame) := by decide
example : TYR.mk' [.laboratory] [1, 2] = .error .thrown := C20_mismatch _ _ (by decide)

/-- The hypotheses of the other theorems are met too. -/
example := C20_built_partial [(Frame.centreOfMass, 1), (.laboratory, 19), (.laboratory, 0)] (by unfold TyrOk FitsN; decide)
example := C20_read_partial [(Frame.centreOfMass, 1), (.laboratory, 19), (.laboratory, 0)] (by unfold TyrOk FitsN; decide)
  [Dbl.ofNat 9]
example := C20_short [Dbl.ofNat 9] 2 (by decide)
example := C20_index ⟨[Dbl.ofNat 9], 1, [.laboratory], [9]⟩ 2 (by decide)
example := C20_zero_false [(.centreOfMass, 1)] [(.laboratory, 19)] (by unfold TyrOk FitsN; decide)
  (by unfold TyrOk FitsN; decide)

end ACE.Props

import Verif.Props.C29
import Verif.Props.C09

/-!
# C31: inconsistent sets of blocks are refused by the continuous energy table

`Matching` is what the constructor checks; `FullyMatching` is what the property asks for. The number
of photon production cross sections, the number of photon production energies and the numbers of
reactions of a secondary particle are not checked (`C31_false` and the theorems after it).
-/

namespace ACE.Props
open ACE

/-- All the blocks of a DLW block are there: this holds for everything its constructor makes
(`C31_built_DLW`). -/
structure DlwWhole (b : DLW) : Prop where
  frames : b.frames.length = b.nr
  multiplicities : b.nr ≤ b.tyr.multiplicities.length
  fits : ∀ m ∈ b.tyr.multiplicities, FitsN m

/-- The photon production blocks are all absent or all there, for the same number of reactions. -/
def PhotonsMatch (b : CE.Input) : Prop :=
  (b.gpd = none ∧ b.mtrp = none ∧ b.sigp = none ∧ b.andp = none ∧ b.dlwp = none ∧ b.yp = none) ∨
  ∃ gpd mtrp sigp andp dlwp yp, b.gpd = some gpd ∧ b.mtrp = some mtrp ∧ b.sigp = some sigp ∧
    b.andp = some andp ∧ b.dlwp = some dlwp ∧ b.yp = some yp ∧
    andp.nr = mtrp.n ∧ dlwp.block.n = mtrp.n

/-- The delayed neutron blocks are all absent or all there, with one tabulated multiplicity and the
same number of groups. -/
def DelayedMatch (b : CE.Input) : Prop :=
  (b.dnu = none ∧ b.bdd = none ∧ b.dned = none) ∨
  ∃ dnu bdd dned, b.dnu = some dnu ∧ b.bdd = some bdd ∧ b.dned = some dned ∧
    dnu.hasBoth = false ∧ (∃ t, dnu.multiplicity = .tab t) ∧ dned.block.n = bdd.npcr

/-- The secondary particle blocks are all absent or all there, one of each for every type, and every
reference frame is known. -/
def SecondariesMatch (b : CE.Input) : Prop :=
  (b.ptype = none ∧ b.hpd = none ∧ b.mtrh = none ∧ b.sigh = none ∧ b.andh = none ∧ b.dlwh = none ∧
    b.yh = none) ∨
  ∃ ptype hpd mtrh sigh andh dlwh yh, b.ptype = some ptype ∧ b.hpd = some hpd ∧ b.mtrh = some mtrh ∧
    b.sigh = some sigh ∧ b.andh = some andh ∧ b.dlwh = some dlwh ∧ b.yh = some yh ∧
    hpd.length = ptype.n ∧ mtrh.length = ptype.n ∧ sigh.length = ptype.n ∧ andh.length = ptype.n ∧
    dlwh.length = ptype.n ∧ yh.length = ptype.n ∧ ∀ d ∈ dlwh, none ∉ d.frames

/-- What the constructor checks: `mts` are the reaction numbers of the MTR block. -/
structure Matching (mts : List Nat) (b : CE.Input) : Prop where
  reactions : b.lqr.n = b.mtr.n ∧ b.sig.n = b.mtr.n
  neutrons : b.ang.nr = b.dlw.nr ∧ b.dlw.nr ≤ b.mtr.n
  fission : 18 ∈ mts → b.nu.isSome
  photons : PhotonsMatch b
  delayed : DelayedMatch b
  secondaries : SecondariesMatch b

/-- The property: also the counts of SIGP and GPD and those of each secondary particle match. -/
structure FullyMatching (mts : List Nat) (b : CE.Input) : Prop extends Matching mts b where
  sigp : ∀ m s, b.mtrp = some m → b.sigp = some s → s.n = m.n
  gpd : ∀ g, b.gpd = some g → g.n = b.esz.n
  secondary : ∀ (ms : List MTR) (ss : List SIGH) (i : Nat) (h1 : i < ms.length) (h2 : i < ss.length),
    b.mtrh = some ms → b.sigh = some ss → ss[i].n = ms[i].n

/-- The full statement. -/
def C31Statement : Prop :=
  ∀ (zaid : List Char) (z a s : Nat) (mts : List Nat) (b : CE.Input), MTR.mk' mts = .ok b.mtr →
    (∀ n ∈ mts, n < 4294967296) → DlwWhole b.dlw → (∃ t, CE.mk' zaid z a s b = .ok t) →
    FullyMatching mts b

theorem tyr_block_any (xs : Words) (f : Frame) (n i : Nat) (p q : Words) (hn : FitsN n)
    (hx : xs = p ++ TYR.word f n :: q) (hi : i = p.length) : ∃ v, TYR.generateBlock xs i = .ok v ∧
      v.2 = n := by
  by_cases h0 : f = .centreOfMass ∧ n = 0
  · obtain ⟨rfl, rfl⟩ := h0
    have h1 := Base.XSS_of_eq hx (i := i + 1) (by omega)
    unfold TYR.generateBlock Base.IXSS
    simp only [h1, ok_bind]
    exact ⟨_, rfl, rfl⟩
  · have := tyr_block (p.map (fun _ => TYR.word .laboratory 0) ++ TYR.word f n :: [])
      (p.map (fun _ => (.laboratory, 0)) ++ [(f, n)]) [] i (by simp) (by simp [hi])
      (by subst hi; simp [TyrOk]; exact ⟨hn, fun a b => h0 ⟨a, b⟩⟩)
    have h1 := Base.XSS_of_eq hx (i := i + 1) (by omega)
    have h2 := Base.XSS_of_eq (i := i + 1) (xs := p.map (fun _ => TYR.word .laboratory 0) ++
      TYR.word f n :: []) (a := p.map (fun _ => TYR.word .laboratory 0)) (x := TYR.word f n) (c := [])
      rfl (by simp; omega)
    refine ⟨(f, n), ?_, rfl⟩
    unfold TYR.generateBlock Base.IXSS at this ⊢
    rw [h1]
    rw [h2] at this
    rw [this]
    subst hi
    simp

theorem tyr_make (fs : List Frame) (ms : List Nat) (h : fs.length = ms.length)
    (hf : ∀ m ∈ ms, FitsN m) : ∃ t, TYR.mk' fs ms = .ok t ∧ t.ntr = fs.length := by
  have key : ∀ i, i < fs.length → ∃ v, TYR.generateBlock (List.zipWith TYR.word fs ms) i = .ok v := by
    intro i hi
    have hi2 : i < ms.length := by omega
    obtain ⟨p, q, e, hp⟩ := getElem_split (List.zipWith TYR.word fs ms) i (by simp; omega)
    obtain ⟨v, hv, _⟩ := tyr_block_any _ fs[i] ms[i] i p q (hf _ (List.getElem_mem _))
      (by simpa using e) hp.symm
    exact ⟨v, hv⟩
  obtain ⟨l, hl, hp⟩ := exists_list fs.length _ key
  refine ⟨⟨List.zipWith TYR.word fs ms, fs.length, l.map (·.1), l.map (·.2)⟩, ?_, rfl⟩
  unfold TYR.mk' TYR.generateXSS TYR.generateBlocks
  rw [guardThrow_eq_ok.mpr (by simpa using h)]
  simp only [ok_bind, pure_eq_ok]
  rw [mapM_range_eq _ l _ hl.symm hp]
  rfl

theorem ixss_fits {xs : Words} {i : Nat} {k : Int} (h : Base.IXSS xs i = .ok k) : Fits k := by
  unfold Base.IXSS at h
  obtain ⟨x, hx, h⟩ := bind_eq_ok.mp h
  unfold toInt32 at h
  split at h
  · split at h
    · rename_i hc
      injection h with h
      subst h
      exact hc
    · cases h
  · cases h

theorem tyr_whole {xs : Words} {n : Nat} {t : TYR} (h : TYR.generateBlocks xs n = .ok t) :
    t.frames.length = n ∧ t.multiplicities.length = n ∧ ∀ m ∈ t.multiplicities, FitsN m := by
  unfold TYR.generateBlocks at h
  obtain ⟨l, hl, h⟩ := bind_eq_ok.mp h
  injection h with h
  subst h
  obtain ⟨h1, h2⟩ := mapM_ok_iff _ _ _ hl
  simp only [List.length_range] at h1 h2
  refine ⟨by simp [h1], by simp [h1], ?_⟩
  intro m hm
  obtain ⟨v, hv, rfl⟩ := List.mem_map.mp hm
  obtain ⟨i, hi, rfl⟩ := List.getElem_of_mem hv
  have e := h2 i (by omega) hi
  simp only [List.getElem_range] at e
  unfold TYR.generateBlock at e
  obtain ⟨x, hx, e⟩ := bind_eq_ok.mp e
  obtain ⟨k, hk, e⟩ := bind_eq_ok.mp e
  split at e
  · cases e
  · rename_i hne
    injection e with e
    rw [← e]
    have hf := ixss_fits hk
    unfold FitsN
    unfold Fits at hf
    simp only
    omega

/-- Everything the constructor of a DLW block makes. -/
theorem C31_built_DLW {ds : List EnergyData} {ms : List Mult} {fs : List Frame} {b : DLW}
    (h : DLW.mk' ds ms fs = .ok b) : DlwWhole b := by
  unfold DLW.mk' DLW.generateBlocks at h
  obtain ⟨x, hx, h⟩ := bind_eq_ok.mp h
  obtain ⟨t, ht, h⟩ := bind_eq_ok.mp h
  obtain ⟨l, hl, h⟩ := bind_eq_ok.mp h
  obtain ⟨f, hf, h⟩ := bind_eq_ok.mp h
  injection h with h
  subst h
  unfold TYR.mk' at ht
  obtain ⟨w, hw, ht⟩ := bind_eq_ok.mp ht
  obtain ⟨h1, h2, h3⟩ := tyr_whole ht
  unfold DLW.firstFrames at hf
  split at hf
  · injection hf with hf
    subst hf
    exact ⟨by simp; omega, by simp only; omega, h3⟩
  · cases hf

theorem guardThrow_cases (c : Bool) : (c = true ∧ guardThrow c = .ok ()) ∨
    (c = false ∧ guardThrow c = .error .thrown) := by
  cases c <;> simp

/-- The guards of a chain of checks: it is passed exactly when the condition holds, and otherwise
an exception is thrown. -/
def Decides (r : Res Unit) (p : Prop) : Prop := (p → r = .ok ()) ∧ (¬ p → r = .error .thrown)

theorem decides_guard {c : Bool} {p : Prop} (h : c = true ↔ p) : Decides (guardThrow c) p := by
  constructor
  · intro hp; exact guardThrow_ok (h.mpr hp)
  · intro hp
    cases c with
    | false => rfl
    | true => exact absurd (h.mp rfl) hp

theorem decides_true {p : Prop} (h : p) : Decides (.ok ()) p := ⟨fun _ => rfl, fun n => absurd h n⟩

theorem decides_bind {r : Res Unit} {f : Unit → Res Unit} {p q : Prop} (h1 : Decides r p)
    (h2 : p → Decides (f ()) q) : Decides (r >>= f) (p ∧ q) := by
  by_cases hp : p
  · rw [h1.1 hp, ok_bind]
    exact ⟨fun h => (h2 hp).1 h.2, fun h => (h2 hp).2 (fun hq => h ⟨hp, hq⟩)⟩
  · rw [h1.2 hp]
    exact ⟨fun h => absurd h.1 hp, fun _ => rfl⟩

theorem decides_congr {r : Res Unit} {p q : Prop} (h : Decides r p) (e : p ↔ q) : Decides r q := by
  rw [← e]; exact h

theorem photons_decided (b : CE.Input) : Decides (do
    guardThrow (CE.allOrNone [b.gpd.isSome, b.mtrp.isSome, b.sigp.isSome, b.andp.isSome,
      b.dlwp.isSome, b.yp.isSome])
    match b.andp, b.dlwp with
    | some andp, some dlwp => guardThrow (!((match b.mtrp with | some m => m.n | none => 0) != andp.nr
        || (match b.mtrp with | some m => m.n | none => 0) != dlwp.block.n))
    | _, _ => return ()) (PhotonsMatch b) := by
  unfold PhotonsMatch
  generalize b.gpd = a1, b.mtrp = a2, b.sigp = a3, b.andp = a4, b.dlwp = a5, b.yp = a6
  unfold CE.allOrNone
  cases a1 <;> cases a2 <;> cases a3 <;> cases a4 <;> cases a5 <;> cases a6
  all_goals first
    | (refine ⟨fun h => ?_, fun h => ?_⟩
       · simp at h
       · rfl)
    | (refine ⟨fun h => rfl, fun h => ?_⟩
       simp at h)
    | skip
  simp only [Option.isSome_some, List.any_cons, id_eq, List.all_cons, List.all_nil, Bool.true_or,
    Bool.not_true, Bool.false_or, Bool.and_self, guardThrow_true, ok_bind]
  refine decides_guard ?_
  simp
  omega

theorem delayed_decided (b : CE.Input) : Decides (CE.checkDelayed b) (DelayedMatch b) := by
  unfold DelayedMatch CE.checkDelayed
  generalize b.dnu = a1, b.bdd = a2, b.dned = a3
  unfold CE.allOrNone
  cases a1 with
  | none =>
    cases a2 <;> cases a3
    · exact ⟨fun _ => rfl, fun h => by simp at h⟩
    all_goals exact ⟨fun h => by simp at h, fun _ => rfl⟩
  | some dnu =>
    cases hb : dnu.hasBoth with
    | true =>
      refine ⟨fun h => ?_, fun _ => ?_⟩
      · rcases h with h | ⟨d, _, _, h, _, _, h4, _⟩
        · simp at h
        · injection h with h; subst h; rw [hb] at h4; cases h4
      · simp [hb]
    | false =>
      cases hm : dnu.multiplicity with
      | poly c =>
        refine ⟨fun h => ?_, fun _ => ?_⟩
        · rcases h with h | ⟨d, _, _, h, _, _, _, ⟨t, h5⟩, _⟩
          · simp at h
          · injection h with h; subst h; rw [hm] at h5; cases h5
        · simp [hb, hm, CE.lnuOf]
      | tab t =>
        cases a2 <;> cases a3
        case some.some bdd dned =>
          simp only [hb, hm, CE.lnuOf]
          simp only [Bool.not_false, guardThrow_true, ok_bind, beq_self_eq_true, Option.isSome_some,
            List.any_cons, id_eq, List.all_cons, List.all_nil, Bool.true_or, Bool.not_true,
            Bool.false_or, Bool.and_self]
          refine decides_guard ?_
          simp [hb, hm]
          omega
        all_goals
          refine ⟨fun h => by simp at h, fun _ => ?_⟩
          simp [hb, hm, CE.lnuOf]
          try rfl

theorem frames_known {fs : List (Option Frame)} (h : none ∉ fs) : ∃ l : List Frame, fs = l.map some := by
  induction fs with
  | nil => exact ⟨[], rfl⟩
  | cons f fs ih =>
    cases f with
    | none => simp at h
    | some f =>
      obtain ⟨l, rfl⟩ := ih (fun h' => h (by simp [h']))
      exact ⟨f :: l, rfl⟩

theorem frames_unknown {fs : List (Option Frame)} (h : none ∈ fs) :
    fs.mapM CE.valueOf = .error .thrown := by
  induction fs with
  | nil => simp at h
  | cons f fs ih =>
    rw [List.mapM_cons]
    cases f with
    | none => rfl
    | some f =>
      rw [ih (by simpa using h)]
      rfl

theorem tyrh_known (d : DLWH) (h : none ∉ d.frames) : ∃ t, CE.tyrhOf d = .ok t := by
  obtain ⟨l, hl⟩ := frames_known h
  have e : d.frames.mapM CE.valueOf = .ok l := by
    rw [hl]
    clear hl
    induction l with
    | nil => rfl
    | cons f l ih => rw [List.map_cons, List.mapM_cons, ih]; rfl
  have hb := tyr_blocks (l.map fun f => (f, 1)) [] (CE.frames_ok l)
  unfold CE.tyrhOf TYR.ofFrames
  rw [e, ok_bind]
  have hx : TYR.generateXSSFrames l = (l.map fun f => (f, 1)).map fun v => TYR.word v.1 v.2 := by
    unfold TYR.generateXSSFrames
    rw [List.map_map]
    apply List.map_congr_left
    intro f _
    cases f <;> rfl
  simp only [List.append_nil, List.length_map] at hb
  rw [hx]
  exact ⟨_, hb⟩

theorem tyrh_unknown (d : DLWH) (h : none ∈ d.frames) : CE.tyrhOf d = .error .thrown := by
  unfold CE.tyrhOf
  rw [frames_unknown h]
  rfl

theorem tyrh_cases (ds : List DLWH) :
    ((∀ d ∈ ds, none ∉ d.frames) → ∃ ts, ds.mapM CE.tyrhOf = .ok ts ∧ ts.length = ds.length) ∧
    (¬ (∀ d ∈ ds, none ∉ d.frames) → ds.mapM CE.tyrhOf = .error .thrown) := by
  induction ds with
  | nil => exact ⟨fun _ => ⟨[], rfl, rfl⟩, fun h => absurd (by simp) h⟩
  | cons d ds ih =>
    rw [List.mapM_cons]
    by_cases hd : none ∈ d.frames
    · rw [tyrh_unknown d hd]
      exact ⟨fun h => absurd hd (h d (by simp)), fun _ => rfl⟩
    · obtain ⟨t, ht⟩ := tyrh_known d hd
      rw [ht]
      refine ⟨fun h => ?_, fun h => ?_⟩
      · obtain ⟨ts, h1, h2⟩ := ih.1 (fun e he => h e (by simp [he]))
        rw [h1]
        exact ⟨t :: ts, rfl, by simp [h2]⟩
      · rw [ih.2 (fun h' => h (by simpa [hd] using h'))]
        rfl

/-- The secondary particle part of the checks, from the frames on. -/
theorem secondaries_decided (b : CE.Input) :
    Decides (do CE.checkSecondary b (← CE.generateTYRH b.dlwh)) (SecondariesMatch b) := by
  unfold SecondariesMatch CE.checkSecondary
  generalize b.ptype = a1, b.hpd = a2, b.mtrh = a3, b.sigh = a4, b.andh = a5, b.dlwh = a6, b.yh = a7
  cases a6 with
  | none =>
    unfold CE.generateTYRH
    simp only [ok_bind]
    cases a1 <;> cases a2 <;> cases a3 <;> cases a4 <;> cases a5 <;> cases a7
    · exact ⟨fun _ => rfl, fun h => by simp at h⟩
    all_goals exact ⟨fun h => by simp at h, fun _ => rfl⟩
  | some ds =>
    by_cases hd : ∀ d ∈ ds, none ∉ d.frames
    · obtain ⟨ts, h1, h2⟩ := (tyrh_cases ds).1 hd
      have e : CE.generateTYRH (some ds) = .ok (some ts) := by
        simp only [CE.generateTYRH, h1, ok_bind, pure_eq_ok]
      rw [e]
      simp only [ok_bind]
      cases a1 <;> cases a2 <;> cases a3 <;> cases a4 <;> cases a5 <;> cases a7
      case some.some.some.some.some.some t _ _ _ _ _ =>
        simp only [CE.allOrNone, Option.isSome_some, List.any_cons, id_eq, List.all_cons,
          List.all_nil, Bool.true_or, Bool.not_true, Bool.false_or, Bool.and_self, guardThrow_true,
          ok_bind, CE.sizeOf]
        refine decides_guard ?_
        simp [h2]
        constructor
        · rintro ⟨⟨⟨⟨⟨⟨e1, e2⟩, e3⟩, e4⟩, e5⟩, e6⟩, e7⟩
          exact ⟨e1.symm, e2.symm, e4.symm, e5.symm, e6.symm, e7.symm, hd⟩
        · rintro ⟨e1, e2, e4, e5, e6, e7, _⟩
          exact ⟨⟨⟨⟨⟨⟨e1.symm, e2.symm⟩, e6.symm⟩, e4.symm⟩, e5.symm⟩, e6.symm⟩, e7.symm⟩
      all_goals exact ⟨fun h => by simp at h, fun _ => rfl⟩
    · have e : CE.generateTYRH (some ds) = .error .thrown := by
        simp only [CE.generateTYRH, (tyrh_cases ds).2 hd]
        rfl
      rw [e]
      refine ⟨fun h => ?_, fun _ => rfl⟩
      rcases h with h | ⟨_, _, _, _, _, d', _, _, _, _, _, _, h, _, _, _, _, _, _, _, h'⟩
      · simp at h
      · injection h with h; subst h; exact absurd h' hd

theorem principal_decided {mts : List Nat} {b : CE.Input} {tyr : TYR} (hm : MTR.mk' mts = .ok b.mtr)
    (hf : ∀ n ∈ mts, n < 4294967296) (ht : tyr.ntr = b.dlw.nr + (b.mtr.n - b.dlw.nr)) :
    Decides (CE.checkPrincipal b tyr) (((b.lqr.n = b.mtr.n ∧ b.dlw.nr ≤ b.mtr.n ∧ b.sig.n = b.mtr.n) ∧
      b.ang.nr = b.dlw.nr ∧ (18 ∈ mts → b.nu.isSome) ∧ PhotonsMatch b)) := by
  unfold CE.checkPrincipal
  refine decides_bind (decides_guard ?_) (fun _ => decides_bind (decides_guard ?_) (fun _ => ?_))
  · simp only [Bool.not_eq_true', Bool.or_eq_false_iff, bne_eq_false_iff_eq]
    omega
  · simp
  · rw [(C21_lookup_partial mts 18 b.mtr hm hf).1, ok_bind]
    refine decides_bind (decides_guard ?_) (fun _ => photons_decided b)
    by_cases h : 18 ∈ mts <;> simp [h]

theorem tyr_decided {b : CE.Input} (h : DlwWhole b.dlw) : ∃ tyr, CE.generateTYR b.dlw b.mtr.n = .ok tyr ∧
    tyr.ntr = b.dlw.nr + (b.mtr.n - b.dlw.nr) := by
  unfold CE.generateTYR
  rw [if_neg (by have := h.multiplicities; omega)]
  obtain ⟨t, h1, h2⟩ := tyr_make (b.dlw.frames ++ List.replicate (b.mtr.n - b.dlw.nr) .laboratory)
    (b.dlw.tyr.multiplicities.take b.dlw.nr ++ List.replicate (b.mtr.n - b.dlw.nr) 0)
    (by have := h.multiplicities; have := h.frames; simp; omega)
    (by
      intro m hm
      rcases List.mem_append.mp hm with hm | hm
      · exact h.fits m (List.mem_of_mem_take hm)
      · rw [(List.mem_replicate.mp hm).2]; decide)
  exact ⟨t, h1, by simp [h2, h.frames]⟩

theorem matching_iff {mts : List Nat} {b : CE.Input} : Matching mts b ↔
    ((b.lqr.n = b.mtr.n ∧ b.dlw.nr ≤ b.mtr.n ∧ b.sig.n = b.mtr.n) ∧
      b.ang.nr = b.dlw.nr ∧ (18 ∈ mts → b.nu.isSome) ∧ PhotonsMatch b) ∧ DelayedMatch b ∧
      SecondariesMatch b := by
  constructor
  · rintro ⟨⟨a, b⟩, ⟨c, d⟩, e, f, g, h⟩
    exact ⟨⟨⟨a, d, b⟩, c, e, f⟩, g, h⟩
  · rintro ⟨⟨⟨a, d, b⟩, c, e, f⟩, g, h⟩
    exact ⟨⟨a, b⟩, ⟨c, d⟩, e, f, g, h⟩

/-- Blocks that do not match are refused with an exception, for every header. -/
theorem C31_refused (zaid : List Char) (z a s : Nat) (mts : List Nat) (b : CE.Input)
    (hm : MTR.mk' mts = .ok b.mtr) (hf : ∀ n ∈ mts, n < 4294967296) (hd : DlwWhole b.dlw)
    (h : ¬ Matching mts b) : CE.mk' zaid z a s b = .error .thrown := by
  have key : CE.generateData z a s b = .error .thrown := by
    obtain ⟨tyr, h1, h2⟩ := tyr_decided hd
    have hp := principal_decided hm hf h2
    have hs := secondaries_decided b
    have hdl := delayed_decided b
    unfold CE.generateData
    rw [h1, ok_bind]
    cases hg : CE.generateTYRH b.dlwh with
    | error e =>
      rw [hg] at hs
      by_cases hsm : SecondariesMatch b
      · have := hs.1 hsm; cases this
      · have := hs.2 hsm
        simpa using this
    | ok tyrh =>
      rw [hg, ok_bind] at hs
      simp only [ok_bind]
      rw [matching_iff] at h
      by_cases hp' : ((b.lqr.n = b.mtr.n ∧ b.dlw.nr ≤ b.mtr.n ∧ b.sig.n = b.mtr.n) ∧
          b.ang.nr = b.dlw.nr ∧ (18 ∈ mts → b.nu.isSome) ∧ PhotonsMatch b)
      · rw [hp.1 hp', ok_bind]
        by_cases hd' : DelayedMatch b
        · rw [hdl.1 hd', ok_bind]
          rw [hs.2 (fun h' => h ⟨hp', hd', h'⟩)]
          rfl
        · rw [hdl.2 hd']; rfl
      · rw [hp.2 hp']; rfl
  unfold CE.mk'
  rw [key]
  rfl

/-- A table that is made has matching blocks. Missing: the numbers of `FullyMatching`. -/
theorem C31_matching_partial (zaid : List Char) (z a s : Nat) (mts : List Nat) (b : CE.Input)
    (hm : MTR.mk' mts = .ok b.mtr) (hf : ∀ n ∈ mts, n < 4294967296) (hd : DlwWhole b.dlw)
    (h : ∃ t, CE.mk' zaid z a s b = .ok t) : Matching mts b := by
  by_cases hn : Matching mts b
  · exact hn
  · obtain ⟨t, ht⟩ := h
    rw [C31_refused zaid z a s mts b hm hf hd hn] at ht
    cases ht

/-- Matching blocks are not refused: data is made when the SIG block has its locators and the ESZ
block its energies. -/
theorem C31_accepted (z a s : Nat) (mts : List Nat) (b : CE.Input)
    (hm : MTR.mk' mts = .ok b.mtr) (hf : ∀ n ∈ mts, n < 4294967296) (hd : DlwWhole b.dlw)
    (hl : ∀ i, 1 ≤ i → i ≤ mts.length → ∃ l, b.sig.LLOC i = .ok l)
    (he : ∃ e, b.esz.energies = .ok e)
    (h : Matching mts b) : ∃ d, CE.generateData z a s b = .ok d := by
  obtain ⟨tyr, h1, h2⟩ := tyr_decided hd
  have hp := principal_decided hm hf h2
  have hs := secondaries_decided b
  have hdl := delayed_decided b
  obtain ⟨e, he⟩ := he
  rw [matching_iff] at h
  have hss := hs.1 h.2.2
  obtain ⟨tyrh, ht, hc⟩ := bind_eq_ok.mp hss
  unfold CE.generateData
  rw [h1, ok_bind, ht, ok_bind, hp.1 h.1, ok_bind, hdl.1 h.2.1, ok_bind, hc, ok_bind]
  obtain ⟨c1, c2, _⟩ := C21_lookup_partial mts 18 b.mtr hm hf
  have hfl : ∀ j : Int, ∃ v, CE.fissionLocator b j = .ok v := by
    intro j
    unfold CE.fissionLocator
    rw [c1, ok_bind]
    by_cases h18 : 18 ∈ mts
    · rw [if_pos (by simpa using h18)]
      obtain ⟨i, hi, f1, f2, _⟩ := c2 h18
      have := (List.getElem?_eq_some_iff.mp f2).1
      obtain ⟨l, hl⟩ := hl i f1 (by omega)
      rw [hi, ok_bind, hl]
      exact ⟨_, rfl⟩
    · rw [if_neg (by simpa using h18)]
      exact ⟨_, rfl⟩
  have ha : ∀ ps, ∃ r, CE.assemble b tyr ps = .ok r := by
    intro ps
    unfold CE.assemble
    obtain ⟨v, hv⟩ := hfl ((b.esz.xss ++ CE.optWords (·.xss) b.nu ++ b.mtr.xss ++ b.lqr.xss ++
      tyr.xss).length + b.mtr.n + 1 : Nat)
    simp only [hv, ok_bind, pure_eq_ok]
    exact ⟨_, rfl⟩
  obtain ⟨r, hr⟩ := ha (CE.zipParticles (b.hpd.getD []) (b.mtrh.getD []) (tyrh.getD [])
    (b.sigh.getD []) (b.andh.getD []) (b.dlwh.getD []) (b.yh.getD []))
  simp only [hr, ok_bind, he, pure_eq_ok]
  exact ⟨_, rfl⟩

/-! ## Cases -/

theorem ex_whole : DlwWhole exDlw :=
  ⟨by decide +kernel, by decide +kernel, by decide +kernel⟩

/-- The blocks of a table with everything match. -/
example : Matching [18, 102] exBlocks.input :=
  C31_matching_partial "92235.80c".toList 92 235 0 [18, 102] exBlocks.input (by decide +kernel)
    (by decide) ex_whole ((C28_blocks_partial "92235.80c".toList 92 235 0 exBlocks [18, 102] exTyr
      ex_sound ex_clear (by decide +kernel) (by decide +kernel) (Or.inl (by decide))).imp
      fun _ h => h.1)

/-- A fission reaction without NU. -/
def noNu : CE.Input := { exBlocks.input with nu := none }
/-- A table without GPD but with the other photon production blocks. -/
def noGpd : CE.Input := { exBlocks.input with gpd := none }
/-- Precursors without a delayed multiplicity. -/
def noDnu : CE.Input := { exBlocks.input with dnu := none }
/-- One secondary particle block too few. -/
def fewYh : CE.Input := { exBlocks.input with yh := some [YP.mk' [5]] }

example : CE.mk' "92235.80c".toList 92 235 0 noNu = .error .thrown :=
  C31_refused _ 92 235 0 [18, 102] noNu (by decide +kernel) (by decide) ex_whole
    (fun h => absurd (h.fission (by decide)) (by decide))
example : CE.mk' "92235.80c".toList 92 235 0 noGpd = .error .thrown :=
  C31_refused _ 92 235 0 [18, 102] noGpd (by decide +kernel) (by decide) ex_whole (fun h => by
    rcases h.photons with h | ⟨_, _, _, _, _, _, h, _⟩
    · have := h.2.1; cases this
    · cases h)
example : CE.mk' "92235.80c".toList 92 235 0 noDnu = .error .thrown :=
  C31_refused _ 92 235 0 [18, 102] noDnu (by decide +kernel) (by decide) ex_whole (fun h => by
    rcases h.delayed with h | ⟨_, _, _, h, _⟩
    · have := h.2.1; cases this
    · cases h)
example : CE.mk' "92235.80c".toList 92 235 0 fewYh = .error .thrown := by decide +kernel

/-! ## Counts that are not checked -/

/-- Two photon production cross sections for one reaction number. -/
def moreSigp : PhotonBlocks := { exPhotons with
  sigp := made (SIGP.mk' [.xs (PhotonXS.mk' 1 [num 1, num 2]), .xs (PhotonXS.mk' 1 [num 1, num 2])]) }
/-- Three total photon production values for two energies. -/
def moreGpd : PhotonBlocks := { exPhotons with gpd := made (GPD.mk' [num 1, num 2, num 3]) }
/-- Two cross sections of a secondary particle for one reaction number. -/
def moreSigh : SecondaryBlocks := { exSecondary 1 with
  sigh := made (SIGH.mk' [made (TabMult.mk' 12 5 [] [] [num 1, num 20] [num 1, num 1]),
    made (TabMult.mk' 12 5 [] [] [num 1, num 20] [num 1, num 1])]) }

/-- A SIGP block with two cross sections is accepted for one reaction, and the table has one. -/
theorem C31_sigp : moreSigp.sigp.n = 2 ∧
    (seen (fun t => t.sigp.map (fun b : SIGP => b.n)) (exWith (some moreSigp) none none none)) =
      .ok (some 1) := by decide +kernel
/-- A GPD block with three values is accepted for two energies, and the table has two. -/
theorem C31_gpd : moreGpd.gpd.n = 3 ∧
    (seen (fun t => t.gpd.map (fun b : GPD => b.n)) (exWith (some moreGpd) none none none)) =
      .ok (some 2) := by decide +kernel
/-- A SIGH block with two cross sections is accepted for one reaction, and the table has one. -/
theorem C31_sigh : moreSigh.sigh.n = 2 ∧
    (seen (fun t => t.particles.map (fun q : Particle => q.sigh.n))
      (exWith none none none (some (made (PTYPE.mk' [9]), [moreSigh])))) = .ok [1] := by decide +kernel

theorem C31_false : ¬ C31Statement := by
  intro h
  have e : ∃ t, CE.mk' "92235.80c".toList 92 235 0 (exWith (some moreGpd) none none none).input =
      .ok t := by
    have := C31_gpd.2
    unfold seen tableFrom at this
    obtain ⟨t, ht, _⟩ := bind_eq_ok.mp this
    exact ⟨t, ht⟩
  have := (h "92235.80c".toList 92 235 0 [18, 102] (exWith (some moreGpd) none none none).input
    (by decide +kernel) (by decide) ex_whole e).gpd moreGpd.gpd rfl
  exact absurd this (by decide +kernel)

/-- The hypotheses of the other theorems are met too. -/
example := C31_built_DLW (ds := []) (ms := []) (fs := []) rfl

end ACE.Props

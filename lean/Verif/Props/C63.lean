import Verif.Model.Members
import Verif.Props.C29
import Verif.Props.C32
import Verif.Props.C33
import Verif.Props.C34
import Verif.Props.C35

/-!
# C63: the counts of an accepted table are the sizes of its blocks

Whatever generic table is interpreted as a typed table: when that succeeds, each count the table
reports is the size of the blocks it counts, each member function of an index has a value exactly
for the indices from 1 (from 0 for elastic angular distributions) to that count, and any other index
is refused with `std::out_of_range`.
-/

namespace ACE.Props

/-- A member function of an index that has a value exactly for `first`, …, `last` and refuses all
other indices with `std::out_of_range`. -/
def Indexed {α : Type} (f : Nat → Res α) (first last : Nat) : Prop :=
  (∀ i, first ≤ i → i ≤ last → ∃ x, f i = .ok x) ∧ (∀ i, i < first ∨ last < i → f i = .error .range)

/-- A member function of an index that has a value for `first`, …, `last`, and is undefined for all
other indices. -/
def Unchecked {α : Type} (f : Nat → Res α) (first last : Nat) : Prop :=
  (∀ i, first ≤ i → i ≤ last → ∃ x, f i = .ok x) ∧ (∀ i, i < first ∨ last < i → f i = .error .ub)

namespace C63

theorem Indexed.not_unchecked {α : Type} {f : Nat → Res α} {a b : Nat} (h : Unchecked f a b) :
    ¬ Indexed f a b := fun h' => by
  have := (h.2 (b + 1) (Or.inr (by omega))).symm.trans (h'.2 (b + 1) (Or.inr (by omega)))
  cases this

theorem mapM_length {α : Type} (f : Nat → Res α) (l : List Nat) (vs : List α)
    (h : l.mapM f = .ok vs) : vs.length = l.length := by
  induction l generalizing vs with
  | nil =>
    rw [List.mapM_nil] at h
    have := Except.ok.inj h; subst this; rfl
  | cons a l ih =>
    rw [List.mapM_cons] at h
    obtain ⟨x, _, h⟩ := bind_eq_ok.mp h
    obtain ⟨xs, hx, h⟩ := bind_eq_ok.mp h
    have := Except.ok.inj h; subst this
    simp [ih xs hx]

theorem mapM_get {α : Type} (f : Nat → Res α) (l : List Nat) (vs : List α)
    (h : l.mapM f = .ok vs) (i : Nat) (x : α) (hx : vs[i]? = some x) :
    ∃ a, l[i]? = some a ∧ f a = .ok x := by
  induction l generalizing vs i with
  | nil =>
    rw [List.mapM_nil] at h
    have := Except.ok.inj h; subst this; cases hx
  | cons a l ih =>
    rw [List.mapM_cons] at h
    obtain ⟨y, hy, h⟩ := bind_eq_ok.mp h
    obtain ⟨ys, hys, h⟩ := bind_eq_ok.mp h
    have := Except.ok.inj h; subst this
    cases i with
    | zero => exact ⟨a, rfl, hy.trans (congrArg _ (Option.some.inj hx))⟩
    | succ i => exact ih ys hys i hx

/-- Access of a list of the right length with a check of the index. -/
theorem checked {α : Type} (f : Nat → Res α) (l : List α) (n : Nat) (hl : l.length = n)
    (h1 : ∀ i, i < 1 ∨ n < i → f i = .error .range)
    (h2 : ∀ i x, 1 ≤ i → i ≤ n → l[i - 1]? = some x → f i = .ok x) : Indexed f 1 n := by
  refine ⟨fun i ha hb => ?_, h1⟩
  have : i - 1 < l.length := by omega
  exact ⟨l[i - 1], h2 i _ ha hb (List.getElem?_eq_getElem this)⟩

theorem located {D : Type} {gen : Nat → Words → Res D} {xs : Words} {iter n : Nat} {l : Bool}
    {b : LocBlock D} (h : LocBlock.ofRange gen xs iter n l = .ok b) : Indexed b.get 1 n := by
  unfold LocBlock.ofRange LocBlock.generateBlocks at h
  obtain ⟨_, _, h⟩ := bind_eq_ok.mp h
  obtain ⟨r, hr, h⟩ := bind_eq_ok.mp h
  have := Except.ok.inj h; subst this
  refine checked _ r n ?_ (fun i hi => ?_) (fun i x ha hb hx => ?_)
  · simpa using mapM_length _ _ _ hr
  · simp only [LocBlock.get, LocBlock.verifyDataIndex, if_pos hi, error_bind]
  · simp only [LocBlock.get, LocBlock.verifyDataIndex, if_neg (show ¬ (i < 1 ∨ i > n) by omega), ok_bind, hx]
    rfl

theorem pick {α : Type} (l : List α) (n : Nat) (hl : l.length = n) : Indexed (DLW.pick n l) 1 n := by
  refine checked _ l n hl (fun i hi => ?_) (fun i x ha hb hx => ?_)
  · simp only [DLW.pick, if_pos hi]
  · simp only [DLW.pick, if_neg (show ¬ (i < 1 ∨ i > n) by omega), hx]

theorem dlwh {xs : Words} {iter nr : Nat} {t : Option TYR} {b : DLWH}
    (h : DLWH.ofRange xs iter t nr = .ok b) : Indexed b.distribution 1 nr ∧ Indexed b.referenceFrame 1 nr := by
  unfold DLWH.ofRange at h
  obtain ⟨k, hk, h⟩ := bind_eq_ok.mp h
  obtain ⟨fs, hf, h⟩ := bind_eq_ok.mp h
  have := Except.ok.inj h; subst this
  refine ⟨located hk, ?_⟩
  have e : (fun i => DLWH.referenceFrame ⟨k, t, fs⟩ i) = DLW.pick k.n fs := rfl
  show Indexed (fun i => DLWH.referenceFrame ⟨k, t, fs⟩ i) 1 nr
  rw [e, CE.block_n hk]
  refine pick fs nr ?_
  cases t with
  | none => have := Except.ok.inj hf; subst this; simp
  | some t =>
    simp only [DLWH.generateFrames] at hf
    split at hf
    · have := Except.ok.inj hf; subst this; simp; omega
    · cases hf

theorem dlw {xs : Words} {data nr : Nat} {t : TYR} {b : DLW} (h : DLW.ofRange xs data t nr = .ok b) :
    Indexed b.distribution 1 nr ∧ Indexed b.multiplicity 1 nr ∧ Indexed b.referenceFrame 1 nr := by
  unfold DLW.ofRange DLW.generateBlocks at h
  obtain ⟨_, _, h⟩ := bind_eq_ok.mp h
  obtain ⟨l, hl, h⟩ := bind_eq_ok.mp h
  obtain ⟨fs, hf, h⟩ := bind_eq_ok.mp h
  have := Except.ok.inj h; subst this
  have hn : l.length = nr := by simpa using mapM_length _ _ _ hl
  refine ⟨pick _ nr (by simpa using hn), pick _ nr (by simpa using hn), pick _ nr ?_⟩
  unfold DLW.firstFrames at hf
  split at hf
  · have := Except.ok.inj hf; subst this; simp; omega
  · cases hf

theorem tyr {xs : Words} {n : Nat} {b : TYR} (h : TYR.ofRange xs n = .ok b) :
    Indexed b.referenceFrame 1 n ∧ Indexed b.multiplicity 1 n := by
  unfold TYR.ofRange TYR.generateBlocks at h
  obtain ⟨_, _, h⟩ := bind_eq_ok.mp h
  obtain ⟨l, hl, h⟩ := bind_eq_ok.mp h
  have := Except.ok.inj h; subst this
  have hn : l.length = n := by simpa using mapM_length _ _ _ hl
  constructor
  · refine checked _ (l.map (·.1)) n (by simpa using hn) (fun i hi => if_pos hi) (fun i x ha hb hx => ?_)
    simp only [TYR.referenceFrame, if_neg (show ¬ (i < 1 ∨ i > n) by omega), hx]
  · refine checked _ (l.map (·.2)) n (by simpa using hn) (fun i hi => if_pos hi) (fun i x ha hb hx => ?_)
    simp only [TYR.multiplicity, if_neg (show ¬ (i < 1 ∨ i > n) by omega), hx]

theorem angular {xs : Words} {iter nr : Nat} {z : Bool} {b : AngularBlock}
    (h : AngularBlock.ofRange xs iter nr z = .ok b) : Indexed b.get (if z then 0 else 1) nr := by
  unfold AngularBlock.ofRange AngularBlock.generateBlocks at h
  obtain ⟨_, _, h⟩ := bind_eq_ok.mp h
  obtain ⟨l, hl, h⟩ := bind_eq_ok.mp h
  have := Except.ok.inj h; subst this
  have hn := mapM_length _ _ _ hl
  rw [List.length_range'] at hn
  generalize hz : (if z = true then 0 else 1) = k at hn ⊢
  constructor
  · intro i ha hb
    have hi : i - k < l.length := by omega
    refine ⟨l[i - k], ?_⟩
    simp only [AngularBlock.get, hz, if_neg (show ¬ (i < k ∨ i > nr) by omega), List.getElem?_eq_getElem hi]
    rfl
  · intro i hi
    simp only [AngularBlock.get, hz]
    exact if_pos hi

theorem qvalue {xs : Words} {n : Nat} {b : LQR} (hn : n < 4294967296) (h : LQR.ofRange xs n = .ok b) :
    Indexed (LQR.qvalue b) 1 n := by
  unfold LQR.ofRange ArrayData.ofRange at h
  obtain ⟨_, hv, h⟩ := bind_eq_ok.mp h
  have := Except.ok.inj h; subst this
  have hl : n ≤ xs.length := by
    have := guardThrow_eq_ok.mp hv
    rw [Nat.mul_one, Nat.mod_eq_of_lt hn] at this
    simpa using this
  constructor
  · intro i ha hb
    have : i - 1 < xs.length := by omega
    refine ⟨xs[i - 1], ?_⟩
    simp only [LQR.qvalue, ArrayData.dvalue, ArrayData.verifyIndex, ArrayData.verifyArray,
      if_neg (show ¬ (1 < 1 ∨ 1 > 1) by omega), if_neg (show ¬ (i < 1 ∨ i > n) by omega), ok_bind]
    exact Base.XSS_eq_ok_iff.mpr ⟨by omega, by
      rw [show (1 - 1) * n + i - 1 = i - 1 by omega]; exact List.getElem?_eq_getElem this⟩
  · intro i hi
    simp only [LQR.qvalue, ArrayData.dvalue, ArrayData.verifyIndex, ArrayData.verifyArray,
      if_neg (show ¬ (1 < 1 ∨ 1 > 1) by omega), if_pos hi, ok_bind, error_bind]

theorem array_n {xs : Words} {n m : Nat} {b : ArrayData} (h : ArrayData.ofRange xs n m = .ok b) : b.n = n := by
  unfold ArrayData.ofRange at h
  obtain ⟨_, hv, h⟩ := bind_eq_ok.mp h
  have := Except.ok.inj h; subst this; rfl

theorem groups {xs : Words} : ∀ {todo index left : Nat} {l : List Precursor},
    BDD.groups xs todo index left = .ok l → l.length = todo
  | 0, _, _, l, h => by
    have := Except.ok.inj h; subst this; rfl
  | todo + 1, index, left, l, h => by
    unfold BDD.groups at h
    obtain ⟨_, _, h⟩ := bind_eq_ok.mp h
    obtain ⟨_, _, h⟩ := bind_eq_ok.mp h
    obtain ⟨_, _, h⟩ := bind_eq_ok.mp h
    obtain ⟨_, _, h⟩ := bind_eq_ok.mp h
    obtain ⟨r, hr, h⟩ := bind_eq_ok.mp h
    have := Except.ok.inj h; subst this
    simp [groups hr]

theorem bdd {xs : Words} {n : Nat} {b : BDD} (h : BDD.ofRange xs n = .ok b) : Indexed b.group 1 n := by
  unfold BDD.ofRange at h
  obtain ⟨l, hl, h⟩ := bind_eq_ok.mp h
  have := Except.ok.inj h; subst this
  refine checked _ l n (groups hl) (fun i hi => ?_) (fun i x ha hb hx => ?_)
  · simp only [BDD.group, if_pos hi, error_bind]
  · simp only [BDD.group, if_neg (show ¬ (i < 1 ∨ i > n) by omega), hx]
    rfl

theorem tables {xs : Words} {m : Nat} : ∀ {todo index left : Nat} {l : List ProbabilityTable},
    UNR.tables xs m todo index left = .ok l → l.length = todo
  | 0, _, _, l, h => by
    have := Except.ok.inj h; subst this; rfl
  | todo + 1, index, left, l, h => by
    unfold UNR.tables at h
    obtain ⟨_, _, h⟩ := bind_eq_ok.mp h
    obtain ⟨_, _, h⟩ := bind_eq_ok.mp h
    obtain ⟨_, _, h⟩ := bind_eq_ok.mp h
    obtain ⟨r, hr, h⟩ := bind_eq_ok.mp h
    have := Except.ok.inj h; subst this
    simp [tables hr]

theorem unr {xs : Words} {b : UNR} (h : UNR.ofRange xs = .ok b) :
    ∃ n, UNR.N b.xss = .ok n ∧ Indexed b.table 1 n := by
  unfold UNR.ofRange at h
  obtain ⟨m, hm, h⟩ := bind_eq_ok.mp h
  obtain ⟨n, hn, h⟩ := bind_eq_ok.mp h
  obtain ⟨l, hl, h⟩ := bind_eq_ok.mp h
  have := Except.ok.inj h; subst this
  refine ⟨n, hn, ?_⟩
  refine checked _ l n (tables hl) (fun i hi => ?_) (fun i x ha hb hx => ?_)
  · simp only [UNR.table, hn, ok_bind, if_pos hi, error_bind]
  · simp only [UNR.table, hn, ok_bind, if_neg (show ¬ (i < 1 ∨ i > n) by omega), hx]
    rfl

theorem onlyIf {α : Type} {c : Bool} {r : Res α} {o : Option α} (h : CE.onlyIf c r = .ok o) :
    (c = false ∧ o = none) ∨ (c = true ∧ ∃ x, r = .ok x ∧ o = some x) := by
  cases c with
  | false => exact Or.inl ⟨rfl, (Except.ok.inj h).symm⟩
  | true =>
    obtain ⟨x, hx, h⟩ := bind_eq_ok.mp h
    exact Or.inr ⟨rfl, x, hx, (Except.ok.inj h).symm⟩

theorem count_lt {d : TableData} {i n : Nat} (h : d.count i = .ok n) : n < 4294967296 := by
  unfold TableData.count at h
  obtain ⟨x, _, h⟩ := bind_eq_ok.mp h
  have := Except.ok.inj h; subst this
  unfold u32OfInt
  omega

end C63

/-! ## Continuous energy tables -/

/-- The blocks that are always there. -/
structure PrincipalCounts (t : CE) (nes ntr nr : Nat) : Prop where
  esz : t.esz.n = nes
  mtr : t.mtr.NTR = ntr
  lqr : Indexed (LQR.qvalue t.lqr) 1 ntr
  frames : Indexed t.tyr.referenceFrame 1 ntr
  multiplicities : Indexed t.tyr.multiplicity 1 ntr
  sig : Indexed t.sig.get 1 ntr
  ang : Indexed t.ang.get 0 nr
  dlw : Indexed t.dlw.distribution 1 nr
  dlwFrames : Indexed t.dlw.referenceFrame 1 nr
  dlwMultiplicities : Indexed t.dlw.multiplicity 1 nr

/-- The photon production blocks: all there, or none. -/
def PhotonCounts (t : CE) (nes ntrp : Nat) : Prop :=
  if ntrp = 0 then
    t.gpd = none ∧ t.mtrp = none ∧ t.sigp = none ∧ t.andp = none ∧ t.dlwp = none ∧ t.yp = none
  else ∃ gpd mtrp sigp andp dlwp yp,
    t.gpd = some gpd ∧ t.mtrp = some mtrp ∧ t.sigp = some sigp ∧ t.andp = some andp ∧
    t.dlwp = some dlwp ∧ t.yp = some yp ∧
    gpd.n = nes ∧ mtrp.NTR = ntrp ∧ Indexed sigp.get 1 ntrp ∧ Indexed andp.get 1 ntrp ∧
    Indexed dlwp.distribution 1 ntrp ∧ Indexed dlwp.referenceFrame 1 ntrp

/-- The delayed neutron blocks: both there, or none. -/
def DelayedCounts (t : CE) (npcr : Nat) : Prop :=
  if npcr = 0 then t.bdd = none ∧ t.dned = none
  else ∃ bdd dned, t.bdd = some bdd ∧ t.dned = some dned ∧
    Indexed bdd.group 1 npcr ∧ Indexed dned.distribution 1 npcr

/-- The blocks of a secondary particle with `np` reactions. -/
structure ParticleCounts (t : CE) (i np : Nat) : Prop where
  hpd : ∃ b, t.HPD i = .ok b
  mtrh : ∃ b, t.MTRH i = .ok b ∧ b.NTR = np
  tyrh : ∃ b, t.TYRH i = .ok b ∧ Indexed b.referenceFrame 1 np ∧ Indexed b.multiplicity 1 np
  sigh : ∃ b, t.SIGH i = .ok b ∧ Indexed b.get 1 np
  andh : ∃ b, t.ANDH i = .ok b ∧ Indexed b.get 1 np
  dlwh : ∃ b, t.DLWH i = .ok b ∧ Indexed b.distribution 1 np ∧ Indexed b.referenceFrame 1 np
  yh : ∃ b, t.YH i = .ok b

/-- The secondary particle blocks: all there, for each particle, or none. -/
def SecondaryCounts (t : CE) (ntype : Nat) : Prop :=
  if ntype = 0 then t.ptype = none ∧ t.ntro = none ∧ t.ixs = none
  else ∃ ptype ntro ixs, t.ptype = some ptype ∧ t.ntro = some ntro ∧ t.ixs = some ixs ∧
    ptype.n = ntype ∧ ntro.NTYPE = ntype ∧ ixs.ntype = ntype ∧
    ∀ i, 1 ≤ i → i ≤ ntype → ∃ np, ntro.NP i = .ok np ∧ ParticleCounts t i np

namespace C63

theorem principal {d : TableData} {p : CE.Principal} (h : CE.readPrincipal d = .ok p) :
    ∃ nes ntr nr, d.count 3 = .ok nes ∧ d.count 4 = .ok ntr ∧ d.count 5 = .ok nr ∧
      p.esz.n = nes ∧ p.mtr.NTR = ntr ∧ Indexed (LQR.qvalue p.lqr) 1 ntr ∧
      (Indexed p.tyr.referenceFrame 1 ntr ∧ Indexed p.tyr.multiplicity 1 ntr) ∧
      Indexed p.sig.get 1 ntr ∧ Indexed p.ang.get 0 nr ∧
      (Indexed p.dlw.distribution 1 nr ∧ Indexed p.dlw.multiplicity 1 nr ∧
        Indexed p.dlw.referenceFrame 1 nr) := by
  unfold CE.readPrincipal at h
  obtain ⟨ntr, h4, h⟩ := bind_eq_ok.mp h
  obtain ⟨nr, h5, h⟩ := bind_eq_ok.mp h
  obtain ⟨_, _, h⟩ := bind_eq_ok.mp h
  obtain ⟨_, _, h⟩ := bind_eq_ok.mp h
  obtain ⟨nes, h3, h⟩ := bind_eq_ok.mp h
  obtain ⟨esz, he, h⟩ := bind_eq_ok.mp h
  obtain ⟨_, _, h⟩ := bind_eq_ok.mp h
  obtain ⟨nu, _, h⟩ := bind_eq_ok.mp h
  obtain ⟨_, _, h⟩ := bind_eq_ok.mp h
  obtain ⟨_, _, h⟩ := bind_eq_ok.mp h
  obtain ⟨mtr, hm, h⟩ := bind_eq_ok.mp h
  obtain ⟨_, _, h⟩ := bind_eq_ok.mp h
  obtain ⟨_, _, h⟩ := bind_eq_ok.mp h
  obtain ⟨lqr, hl, h⟩ := bind_eq_ok.mp h
  obtain ⟨_, _, h⟩ := bind_eq_ok.mp h
  obtain ⟨_, _, h⟩ := bind_eq_ok.mp h
  obtain ⟨t, ht, h⟩ := bind_eq_ok.mp h
  obtain ⟨_, _, h⟩ := bind_eq_ok.mp h
  obtain ⟨_, _, h⟩ := bind_eq_ok.mp h
  obtain ⟨_, _, h⟩ := bind_eq_ok.mp h
  obtain ⟨sig, hs, h⟩ := bind_eq_ok.mp h
  obtain ⟨_, _, h⟩ := bind_eq_ok.mp h
  obtain ⟨_, _, h⟩ := bind_eq_ok.mp h
  obtain ⟨_, _, h⟩ := bind_eq_ok.mp h
  obtain ⟨ang, ha, h⟩ := bind_eq_ok.mp h
  obtain ⟨_, _, h⟩ := bind_eq_ok.mp h
  obtain ⟨_, _, h⟩ := bind_eq_ok.mp h
  obtain ⟨_, _, h⟩ := bind_eq_ok.mp h
  obtain ⟨dl, hd, h⟩ := bind_eq_ok.mp h
  have := Except.ok.inj h; subst this
  exact ⟨nes, ntr, nr, h3, h4, h5, array_n he, array_n hm, qvalue (count_lt h4) hl, tyr ht,
    located hs, angular ha, dlw hd⟩

theorem photons {d : TableData} {p : CE.Photons} (h : CE.readPhotons d = .ok p) {nes ntrp : Nat}
    (h3 : d.count 3 = .ok nes) (h6 : d.count 6 = .ok ntrp) :
    p.gpd.n = nes ∧ p.mtrp.NTR = ntrp ∧ Indexed p.sigp.get 1 ntrp ∧ Indexed p.andp.get 1 ntrp ∧
    Indexed p.dlwp.distribution 1 ntrp ∧ Indexed p.dlwp.referenceFrame 1 ntrp := by
  unfold CE.readPhotons at h
  rw [h3, ok_bind, h6, ok_bind] at h
  obtain ⟨_, _, h⟩ := bind_eq_ok.mp h
  obtain ⟨_, _, h⟩ := bind_eq_ok.mp h
  obtain ⟨gpd, hg, h⟩ := bind_eq_ok.mp h
  obtain ⟨_, _, h⟩ := bind_eq_ok.mp h
  obtain ⟨_, _, h⟩ := bind_eq_ok.mp h
  obtain ⟨mtrp, hm, h⟩ := bind_eq_ok.mp h
  obtain ⟨_, _, h⟩ := bind_eq_ok.mp h
  obtain ⟨_, _, h⟩ := bind_eq_ok.mp h
  obtain ⟨_, _, h⟩ := bind_eq_ok.mp h
  obtain ⟨sig, hs, h⟩ := bind_eq_ok.mp h
  obtain ⟨_, _, h⟩ := bind_eq_ok.mp h
  obtain ⟨_, _, h⟩ := bind_eq_ok.mp h
  obtain ⟨_, _, h⟩ := bind_eq_ok.mp h
  obtain ⟨ang, ha, h⟩ := bind_eq_ok.mp h
  obtain ⟨_, _, h⟩ := bind_eq_ok.mp h
  obtain ⟨_, _, h⟩ := bind_eq_ok.mp h
  obtain ⟨_, _, h⟩ := bind_eq_ok.mp h
  obtain ⟨dl, hd, h⟩ := bind_eq_ok.mp h
  obtain ⟨_, _, h⟩ := bind_eq_ok.mp h
  obtain ⟨_, _, h⟩ := bind_eq_ok.mp h
  obtain ⟨_, _, h⟩ := bind_eq_ok.mp h
  have := Except.ok.inj h; subst this
  exact ⟨array_n hg, array_n hm, located hs, angular ha, dlwh hd⟩

theorem delayed {d : TableData} {p : BDD × DLWH} (h : CE.readDelayed d = .ok p) {npcr : Nat}
    (h8 : d.count 8 = .ok npcr) :
    Indexed p.1.group 1 npcr ∧ Indexed p.2.distribution 1 npcr := by
  unfold CE.readDelayed at h
  rw [h8, ok_bind] at h
  obtain ⟨_, _, h⟩ := bind_eq_ok.mp h
  obtain ⟨_, _, h⟩ := bind_eq_ok.mp h
  obtain ⟨b, hb, h⟩ := bind_eq_ok.mp h
  obtain ⟨_, _, h⟩ := bind_eq_ok.mp h
  obtain ⟨_, _, h⟩ := bind_eq_ok.mp h
  obtain ⟨_, _, h⟩ := bind_eq_ok.mp h
  obtain ⟨dl, hd, h⟩ := bind_eq_ok.mp h
  have := Except.ok.inj h; subst this
  exact ⟨bdd hb, (dlwh hd).1⟩

theorem readParticle {d : TableData} {ntro : NTRO} {ixs : IXS} {i : Nat} {p : Particle}
    (h : CE.readParticle d ntro ixs i = .ok p) : ∃ np, ntro.NP i = .ok np ∧
      p.mtrh.NTR = np ∧ (Indexed p.tyrh.referenceFrame 1 np ∧ Indexed p.tyrh.multiplicity 1 np) ∧
      Indexed p.sigh.get 1 np ∧ Indexed p.andh.get 1 np ∧
      (Indexed p.dlwh.distribution 1 np ∧ Indexed p.dlwh.referenceFrame 1 np) := by
  unfold CE.readParticle at h
  obtain ⟨_, _, h⟩ := bind_eq_ok.mp h
  obtain ⟨_, _, h⟩ := bind_eq_ok.mp h
  obtain ⟨_, _, h⟩ := bind_eq_ok.mp h
  obtain ⟨np, hn, h⟩ := bind_eq_ok.mp h
  obtain ⟨_, _, h⟩ := bind_eq_ok.mp h
  obtain ⟨_, _, h⟩ := bind_eq_ok.mp h
  obtain ⟨mtrp, hm, h⟩ := bind_eq_ok.mp h
  obtain ⟨_, _, h⟩ := bind_eq_ok.mp h
  obtain ⟨_, _, h⟩ := bind_eq_ok.mp h
  obtain ⟨t, ht, h⟩ := bind_eq_ok.mp h
  obtain ⟨_, _, h⟩ := bind_eq_ok.mp h
  obtain ⟨_, _, h⟩ := bind_eq_ok.mp h
  obtain ⟨_, _, h⟩ := bind_eq_ok.mp h
  obtain ⟨sig, hs, h⟩ := bind_eq_ok.mp h
  obtain ⟨_, _, h⟩ := bind_eq_ok.mp h
  obtain ⟨_, _, h⟩ := bind_eq_ok.mp h
  obtain ⟨_, _, h⟩ := bind_eq_ok.mp h
  obtain ⟨ang, ha, h⟩ := bind_eq_ok.mp h
  obtain ⟨_, _, h⟩ := bind_eq_ok.mp h
  obtain ⟨_, _, h⟩ := bind_eq_ok.mp h
  obtain ⟨_, _, h⟩ := bind_eq_ok.mp h
  obtain ⟨dl, hd, h⟩ := bind_eq_ok.mp h
  obtain ⟨_, _, h⟩ := bind_eq_ok.mp h
  obtain ⟨_, _, h⟩ := bind_eq_ok.mp h
  obtain ⟨_, _, h⟩ := bind_eq_ok.mp h
  have := Except.ok.inj h; subst this
  exact ⟨np, hn, array_n hm, tyr ht, located hs, angular ha, dlwh hd⟩

theorem secondaries {d : TableData} {s : CE.Secondaries} (h : CE.readSecondaries d = .ok s) {n : Nat}
    (h7 : d.count 7 = .ok n) : s.ptype.n = n ∧ s.ntro.NTYPE = n ∧ s.ixs.ntype = n ∧
      s.particles.length = n ∧ ∀ i p, s.particles[i]? = some p →
        CE.readParticle d s.ntro s.ixs (i + 1) = .ok p := by
  unfold CE.readSecondaries at h
  rw [h7, ok_bind] at h
  obtain ⟨_, _, h⟩ := bind_eq_ok.mp h
  obtain ⟨_, _, h⟩ := bind_eq_ok.mp h
  obtain ⟨pt, hp, h⟩ := bind_eq_ok.mp h
  obtain ⟨_, _, h⟩ := bind_eq_ok.mp h
  obtain ⟨_, _, h⟩ := bind_eq_ok.mp h
  obtain ⟨nt, hn, h⟩ := bind_eq_ok.mp h
  obtain ⟨_, _, h⟩ := bind_eq_ok.mp h
  obtain ⟨_, _, h⟩ := bind_eq_ok.mp h
  obtain ⟨ix, hi, h⟩ := bind_eq_ok.mp h
  obtain ⟨ps, hps, h⟩ := bind_eq_ok.mp h
  have := Except.ok.inj h; subst this
  refine ⟨array_n hp, ?_, ?_, ?_, fun i p hip => ?_⟩
  · unfold NTRO.ofRange at hn
    obtain ⟨_, _, hn⟩ := bind_eq_ok.mp hn
    have := Except.ok.inj hn; subst this; rfl
  · unfold IXS.ofRange at hi
    obtain ⟨_, _, hi⟩ := bind_eq_ok.mp hi
    have := Except.ok.inj hi; subst this; rfl
  · simpa using mapM_length _ _ _ hps
  · obtain ⟨a, ha, hr⟩ := mapM_get _ _ _ hps i p hip
    have : a = i + 1 := by
      rw [List.getElem?_range'] at ha
      · have := Option.some.inj ha; omega
      · have h1 := (List.getElem?_eq_some_iff.mp hip).1
        have h2 := mapM_length _ _ _ hps
        rw [List.length_range'] at h2
        exact h2 ▸ h1
    rw [← this]; exact hr

theorem unchecked {α : Type} (t : CE) (n : Nat) (hn : t.particles.length = n) (f : Particle → α) :
    Unchecked (fun i => do return f (← t.particle i)) 1 n := by
  constructor
  · intro i h1 h2
    have : i - 1 < t.particles.length := by omega
    refine ⟨f t.particles[i - 1], ?_⟩
    simp only [CE.particle, if_neg (show ¬ i = 0 by omega), List.getElem?_eq_getElem this, ok_bind]
    rfl
  · intro i hi
    by_cases h0 : i = 0
    · subst h0; rfl
    · have : t.particles.length ≤ i - 1 := by omega
      simp only [CE.particle, if_neg h0, List.getElem?_eq_none this, error_bind]

end C63

/-- Each count of an accepted continuous energy table is the size of the blocks it counts. -/
theorem C63_continuous_partial (zaid : List Char) (d : TableData) (t : CE) (h : CE.ofTable zaid d = .ok t) :
    ∃ nes ntr nr ntrp ntype npcr, t.NES = .ok nes ∧ t.NTR = .ok ntr ∧ t.NR = .ok nr ∧
      t.NTRP = .ok ntrp ∧ t.NTYPE = .ok ntype ∧ t.NPCR = .ok npcr ∧
      PrincipalCounts t nes ntr nr ∧ PhotonCounts t nes ntrp ∧ DelayedCounts t npcr ∧
      SecondaryCounts t ntype ∧ (∀ b, t.unr = some b → ∃ n, UNR.N b.xss = .ok n ∧ Indexed b.table 1 n) := by
  unfold CE.ofTable at h
  obtain ⟨_, _, h⟩ := bind_eq_ok.mp h
  obtain ⟨e, _, h⟩ := bind_eq_ok.mp h
  unfold CE.generateBlocks at h
  obtain ⟨p, hp, h⟩ := bind_eq_ok.mp h
  obtain ⟨ntrp, h6, h⟩ := bind_eq_ok.mp h
  obtain ⟨ph, hph, h⟩ := bind_eq_ok.mp h
  obtain ⟨j23, _, h⟩ := bind_eq_ok.mp h
  obtain ⟨un, hun, h⟩ := bind_eq_ok.mp h
  obtain ⟨j24, _, h⟩ := bind_eq_ok.mp h
  obtain ⟨dn, hdn, h⟩ := bind_eq_ok.mp h
  obtain ⟨npcr, h8, h⟩ := bind_eq_ok.mp h
  obtain ⟨de, hde, h⟩ := bind_eq_ok.mp h
  obtain ⟨ntype, h7, h⟩ := bind_eq_ok.mp h
  obtain ⟨se, hse, h⟩ := bind_eq_ok.mp h
  obtain ⟨nes, ntr, nr, h3, h4, h5, a1, a2, a3, a4, a5, a6, a7⟩ := C63.principal hp
  have := Except.ok.inj h
  subst this
  refine ⟨nes, ntr, nr, ntrp, ntype, npcr, h3, h4, h5, h6, h7, h8,
    ⟨a1, a2, a3, a4.1, a4.2, a5, a6, a7.1, a7.2.2, a7.2.1⟩, ?_, ?_, ?_, ?_⟩
  · unfold PhotonCounts
    rcases C63.onlyIf hph with ⟨hc, rfl⟩ | ⟨hc, x, hx, rfl⟩
    · have : ntrp = 0 := by simpa using hc
      rw [if_pos this]
      exact ⟨rfl, rfl, rfl, rfl, rfl, rfl⟩
    · have : ntrp ≠ 0 := by have := of_decide_eq_true hc; omega
      rw [if_neg this]
      exact ⟨_, _, _, _, _, _, rfl, rfl, rfl, rfl, rfl, rfl, C63.photons hx h3 h6⟩
  · unfold DelayedCounts
    rcases C63.onlyIf hde with ⟨hc, rfl⟩ | ⟨hc, x, hx, rfl⟩
    · have : npcr = 0 := by simpa using hc
      rw [if_pos this]
      exact ⟨rfl, rfl⟩
    · have : npcr ≠ 0 := by have := of_decide_eq_true hc; omega
      rw [if_neg this]
      exact ⟨_, _, rfl, rfl, C63.delayed hx h8⟩
  · unfold SecondaryCounts
    rcases C63.onlyIf hse with ⟨hc, rfl⟩ | ⟨hc, x, hx, rfl⟩
    · have : ntype = 0 := by simpa using hc
      rw [if_pos this]
      exact ⟨rfl, rfl, rfl⟩
    · have : ntype ≠ 0 := by have := of_decide_eq_true hc; omega
      rw [if_neg this]
      obtain ⟨b1, b2, b3, b4, b5⟩ := C63.secondaries hx h7
      refine ⟨_, _, _, rfl, rfl, rfl, b1, b2, b3, fun i h1 h2 => ?_⟩
      have hi : i - 1 < x.particles.length := by omega
      have hg := List.getElem?_eq_getElem hi
      have hr := b5 (i - 1) _ hg
      rw [show i - 1 + 1 = i by omega] at hr
      obtain ⟨np, c1, c2, c3, c4, c5, c6⟩ := C63.readParticle hr
      refine ⟨np, c1, ?_⟩
      have hp : ∀ (t : CE), t.particles = x.particles → t.particle i = .ok x.particles[i - 1] := by
        intro t ht
        simp only [CE.particle, if_neg (show ¬ i = 0 by omega), ht, hg]
      have acc : ∀ {α : Type} (t : CE) (f : Particle → α), t.particles = x.particles →
          (do return f (← t.particle i) : Res α) = .ok (f x.particles[i - 1]) := by
        intro α t f ht
        rw [hp t ht]; rfl
      exact ⟨⟨_, acc _ (·.hpd) rfl⟩, ⟨_, acc _ (·.mtrh) rfl, c2⟩, ⟨_, acc _ (·.tyrh) rfl, c3⟩,
        ⟨_, acc _ (·.sigh) rfl, c4⟩, ⟨_, acc _ (·.andh) rfl, c5⟩, ⟨_, acc _ (·.dlwh) rfl, c6⟩,
        ⟨_, acc _ (·.yh) rfl⟩⟩
  · intro b hb
    rcases C63.onlyIf hun with ⟨hc, rfl⟩ | ⟨hc, x, hx, rfl⟩
    · cases hb
    · have := Option.some.inj hb; subst this
      obtain ⟨_, _, hx⟩ := bind_eq_ok.mp hx
      obtain ⟨_, _, hx⟩ := bind_eq_ok.mp hx
      exact C63.unr hx

/-- The documentation promises `std::out_of_range` for the seven blocks of a secondary particle; there
is no check, in any accepted table: outside of 1, …, NTYPE the access is undefined. -/
theorem C63_continuous_particles (zaid : List Char) (d : TableData) (t : CE) (n : Nat)
    (h : CE.ofTable zaid d = .ok t) (hn : t.NTYPE = .ok n) :
    Unchecked t.HPD 1 n ∧ Unchecked t.MTRH 1 n ∧ Unchecked t.TYRH 1 n ∧ Unchecked t.SIGH 1 n ∧
    Unchecked t.ANDH 1 n ∧ Unchecked t.DLWH 1 n ∧ Unchecked t.YH 1 n := by
  have hl : t.particles.length = n := by
    unfold CE.ofTable at h
    obtain ⟨_, _, h⟩ := bind_eq_ok.mp h
    obtain ⟨e, _, h⟩ := bind_eq_ok.mp h
    unfold CE.generateBlocks at h
    obtain ⟨p, hp, h⟩ := bind_eq_ok.mp h
    obtain ⟨ntrp, h6, h⟩ := bind_eq_ok.mp h
    obtain ⟨ph, hph, h⟩ := bind_eq_ok.mp h
    obtain ⟨j23, _, h⟩ := bind_eq_ok.mp h
    obtain ⟨un, hun, h⟩ := bind_eq_ok.mp h
    obtain ⟨j24, _, h⟩ := bind_eq_ok.mp h
    obtain ⟨dn, hdn, h⟩ := bind_eq_ok.mp h
    obtain ⟨npcr, h8, h⟩ := bind_eq_ok.mp h
    obtain ⟨de, hde, h⟩ := bind_eq_ok.mp h
    obtain ⟨ntype, h7, h⟩ := bind_eq_ok.mp h
    obtain ⟨se, hse, h⟩ := bind_eq_ok.mp h
    have := Except.ok.inj h
    subst this
    have h7' : ntype = n := Except.ok.inj (h7.symm.trans hn)
    subst h7'
    rcases C63.onlyIf hse with ⟨hc, rfl⟩ | ⟨hc, x, hx, rfl⟩
    · have : ntype = 0 := by simpa using hc
      exact this.symm
    · exact (C63.secondaries hx h7).2.2.2.1
  exact ⟨C63.unchecked t n hl (·.hpd), C63.unchecked t n hl (·.mtrh), C63.unchecked t n hl (·.tyrh),
    C63.unchecked t n hl (·.sigh), C63.unchecked t n hl (·.andh), C63.unchecked t n hl (·.dlwh),
    C63.unchecked t n hl (·.yh)⟩

/-! ## Dosimetry tables -/

/-- Each count of an accepted dosimetry table is the size of the blocks it counts. -/
theorem C63_dosimetry (zaid : List Char) (d : TableData) (t : Dosimetry)
    (h : Dosimetry.ofTable zaid d = .ok t) :
    ∃ ntr, t.NTR = .ok ntr ∧ t.mtr.NTR = ntr ∧ Indexed t.sigd.get 1 ntr := by
  unfold Dosimetry.ofTable Dosimetry.generateBlocks at h
  obtain ⟨_, _, h⟩ := bind_eq_ok.mp h
  obtain ⟨_, _, h⟩ := bind_eq_ok.mp h
  obtain ⟨_, _, h⟩ := bind_eq_ok.mp h
  obtain ⟨_, _, h⟩ := bind_eq_ok.mp h
  obtain ⟨ntr, h4, h⟩ := bind_eq_ok.mp h
  obtain ⟨_, _, h⟩ := bind_eq_ok.mp h
  obtain ⟨m, hm, h⟩ := bind_eq_ok.mp h
  obtain ⟨_, _, h⟩ := bind_eq_ok.mp h
  obtain ⟨s, hs, h⟩ := bind_eq_ok.mp h
  have := Except.ok.inj h; subst this
  exact ⟨ntr, h4, C63.array_n hm, C63.located hs⟩

/-! ## Photonuclear tables -/

/-- The blocks of a secondary particle with `np` reactions. -/
structure PNParticleCounts (t : PN) (i np : Nat) : Prop where
  pxs : ∃ b, t.PXS i = .ok b
  phn : ∃ b, t.PHN i = .ok b
  mtrh : ∃ b, t.MTRH i = .ok b ∧ b.NTR = np
  tyrh : ∃ b, t.TYRH i = .ok b ∧ Indexed b.referenceFrame 1 np ∧ Indexed b.multiplicity 1 np
  sigh : ∃ b, t.SIGH i = .ok b ∧ Indexed b.get 1 np
  andh : ∃ b, t.ANDH i = .ok b ∧ Indexed b.get 1 np
  dlwh : ∃ b, t.DLWH i = .ok b ∧ Indexed b.distribution 1 np ∧ Indexed b.referenceFrame 1 np

/-- The secondary particle blocks: all there, for each particle, or none. -/
def PNSecondaryCounts (t : PN) (ntype : Nat) : Prop :=
  if ntype = 0 then t.ixsu = none
  else ∃ ixsu, t.ixsu = some ixsu ∧ ixsu.ntype = ntype ∧
    ∀ i, 1 ≤ i → i ≤ ntype → ∃ np, ixsu.NP i = .ok np ∧ PNParticleCounts t i np

namespace C63

theorem pnParticle {d : TableData} {ixs : IXSU} {i : Nat} {p : PN.Particle}
    (h : PN.readParticle d ixs i = .ok p) : ∃ np, ixs.NP i = .ok np ∧
      p.mtrh.NTR = np ∧ (Indexed p.tyrh.referenceFrame 1 np ∧ Indexed p.tyrh.multiplicity 1 np) ∧
      Indexed p.sigh.get 1 np ∧ Indexed p.andh.get 1 np ∧
      (Indexed p.dlwh.distribution 1 np ∧ Indexed p.dlwh.referenceFrame 1 np) := by
  unfold PN.readParticle at h
  obtain ⟨_, _, h⟩ := bind_eq_ok.mp h
  obtain ⟨_, _, h⟩ := bind_eq_ok.mp h
  obtain ⟨_, _, h⟩ := bind_eq_ok.mp h
  obtain ⟨_, _, h⟩ := bind_eq_ok.mp h
  obtain ⟨_, _, h⟩ := bind_eq_ok.mp h
  obtain ⟨_, _, h⟩ := bind_eq_ok.mp h
  obtain ⟨np, hn, h⟩ := bind_eq_ok.mp h
  obtain ⟨_, _, h⟩ := bind_eq_ok.mp h
  obtain ⟨_, _, h⟩ := bind_eq_ok.mp h
  obtain ⟨mtrp, hm, h⟩ := bind_eq_ok.mp h
  obtain ⟨_, _, h⟩ := bind_eq_ok.mp h
  obtain ⟨_, _, h⟩ := bind_eq_ok.mp h
  obtain ⟨t, ht, h⟩ := bind_eq_ok.mp h
  obtain ⟨_, _, h⟩ := bind_eq_ok.mp h
  obtain ⟨_, _, h⟩ := bind_eq_ok.mp h
  obtain ⟨_, _, h⟩ := bind_eq_ok.mp h
  obtain ⟨sig, hs, h⟩ := bind_eq_ok.mp h
  obtain ⟨_, _, h⟩ := bind_eq_ok.mp h
  obtain ⟨_, _, h⟩ := bind_eq_ok.mp h
  obtain ⟨_, _, h⟩ := bind_eq_ok.mp h
  obtain ⟨ang, ha, h⟩ := bind_eq_ok.mp h
  obtain ⟨_, _, h⟩ := bind_eq_ok.mp h
  obtain ⟨_, _, h⟩ := bind_eq_ok.mp h
  obtain ⟨_, _, h⟩ := bind_eq_ok.mp h
  obtain ⟨dl, hd, h⟩ := bind_eq_ok.mp h
  have := Except.ok.inj h; subst this
  exact ⟨np, hn, array_n hm, tyr ht, located hs, angular ha, dlwh hd⟩

theorem pnSecondaries {d : TableData} {n : Nat} {s : IXSU × List PN.Particle}
    (h : PN.readSecondaries d n = .ok s) : s.1.ntype = n ∧
      s.2.length = n ∧ ∀ i p, s.2[i]? = some p → PN.readParticle d s.1 (i + 1) = .ok p := by
  unfold PN.readSecondaries at h
  obtain ⟨_, _, h⟩ := bind_eq_ok.mp h
  obtain ⟨_, _, h⟩ := bind_eq_ok.mp h
  obtain ⟨ix, hi, h⟩ := bind_eq_ok.mp h
  obtain ⟨ps, hps, h⟩ := bind_eq_ok.mp h
  have := Except.ok.inj h; subst this
  refine ⟨?_, ?_, fun i p hip => ?_⟩
  · unfold IXSU.ofRange at hi
    obtain ⟨_, _, hi⟩ := bind_eq_ok.mp hi
    have := Except.ok.inj hi; subst this; rfl
  · simpa using mapM_length _ _ _ hps
  · obtain ⟨a, ha, hr⟩ := mapM_get _ _ _ hps i p hip
    have : a = i + 1 := by
      rw [List.getElem?_range'] at ha
      · have := Option.some.inj ha; omega
      · have h1 := (List.getElem?_eq_some_iff.mp hip).1
        have h2 := mapM_length _ _ _ hps
        rw [List.length_range'] at h2
        exact h2 ▸ h1
    rw [← this]; exact hr

theorem pnUnchecked {α : Type} (t : PN) (n : Nat) (hn : t.particles.length = n) (f : PN.Particle → α) :
    Unchecked (fun i => do return f (← t.particle i)) 1 n := by
  constructor
  · intro i h1 h2
    have : i - 1 < t.particles.length := by omega
    refine ⟨f t.particles[i - 1], ?_⟩
    simp only [PN.particle, if_neg (show ¬ i = 0 by omega), List.getElem?_eq_getElem this, ok_bind]
    rfl
  · intro i hi
    by_cases h0 : i = 0
    · subst h0; rfl
    · have : t.particles.length ≤ i - 1 := by omega
      simp only [PN.particle, if_neg h0, List.getElem?_eq_none this, error_bind]

end C63

/-- Each count of an accepted photonuclear table is the size of the blocks it counts; and the seven
blocks of a secondary particle are undefined for any other index. -/
theorem C63_photonuclear_partial (zaid : List Char) (d : TableData) (t : PN) (h : PN.ofTable zaid d = .ok t) :
    ∃ nes ntr ntype, t.NES = .ok nes ∧ t.NTR = .ok ntr ∧ t.NTYPE = .ok ntype ∧
      t.eszu.n = nes ∧ t.mtr.NTR = ntr ∧ Indexed (LQR.qvalue t.lqr) 1 ntr ∧ Indexed t.sig.get 1 ntr ∧
      PNSecondaryCounts t ntype ∧
      (Unchecked t.PXS 1 ntype ∧ Unchecked t.PHN 1 ntype ∧ Unchecked t.MTRH 1 ntype ∧
       Unchecked t.TYRH 1 ntype ∧ Unchecked t.SIGH 1 ntype ∧ Unchecked t.ANDH 1 ntype ∧
       Unchecked t.DLWH 1 ntype) := by
  unfold PN.ofTable at h
  obtain ⟨_, _, h⟩ := bind_eq_ok.mp h
  obtain ⟨e, _, h⟩ := bind_eq_ok.mp h
  unfold PN.generateBlocks at h
  obtain ⟨_, _, h⟩ := bind_eq_ok.mp h
  obtain ⟨_, _, h⟩ := bind_eq_ok.mp h
  obtain ⟨_, _, h⟩ := bind_eq_ok.mp h
  obtain ⟨_, _, h⟩ := bind_eq_ok.mp h
  obtain ⟨nes, h3, h⟩ := bind_eq_ok.mp h
  obtain ⟨eszu, he, h⟩ := bind_eq_ok.mp h
  obtain ⟨ntr, h4, h⟩ := bind_eq_ok.mp h
  obtain ⟨_, _, h⟩ := bind_eq_ok.mp h
  obtain ⟨mtr, hm, h⟩ := bind_eq_ok.mp h
  obtain ⟨_, _, h⟩ := bind_eq_ok.mp h
  obtain ⟨_, _, h⟩ := bind_eq_ok.mp h
  obtain ⟨lqr, hl, h⟩ := bind_eq_ok.mp h
  obtain ⟨_, _, h⟩ := bind_eq_ok.mp h
  obtain ⟨_, _, h⟩ := bind_eq_ok.mp h
  obtain ⟨_, _, h⟩ := bind_eq_ok.mp h
  obtain ⟨sig, hs, h⟩ := bind_eq_ok.mp h
  obtain ⟨ntype, h5, h⟩ := bind_eq_ok.mp h
  obtain ⟨se, hse, h⟩ := bind_eq_ok.mp h
  have hlen : t.particles.length = ntype := by
    have := Except.ok.inj h; subst this
    rcases C63.onlyIf hse with ⟨hc, rfl⟩ | ⟨hc, x, hx, rfl⟩
    · have : ntype = 0 := by simpa using hc
      exact this.symm
    · exact (C63.pnSecondaries hx).2.1
  have hu : Unchecked t.PXS 1 ntype ∧ Unchecked t.PHN 1 ntype ∧ Unchecked t.MTRH 1 ntype ∧
       Unchecked t.TYRH 1 ntype ∧ Unchecked t.SIGH 1 ntype ∧ Unchecked t.ANDH 1 ntype ∧
       Unchecked t.DLWH 1 ntype :=
    ⟨C63.pnUnchecked t _ hlen (·.pxs), C63.pnUnchecked t _ hlen (·.phn),
      C63.pnUnchecked t _ hlen (·.mtrh), C63.pnUnchecked t _ hlen (·.tyrh),
      C63.pnUnchecked t _ hlen (·.sigh), C63.pnUnchecked t _ hlen (·.andh),
      C63.pnUnchecked t _ hlen (·.dlwh)⟩
  have := Except.ok.inj h; subst this
  refine ⟨nes, ntr, ntype, h3, h4, h5, C63.array_n he, C63.array_n hm, C63.qvalue (C63.count_lt h4) hl,
    C63.located hs, ?_, hu⟩
  unfold PNSecondaryCounts
  rcases C63.onlyIf hse with ⟨hc, rfl⟩ | ⟨hc, x, hx, rfl⟩
  · have : ntype = 0 := by simpa using hc
    rw [if_pos this]; rfl
  · have : ntype ≠ 0 := by have := of_decide_eq_true hc; omega
    rw [if_neg this]
    obtain ⟨b3, b4, b5⟩ := C63.pnSecondaries hx
    refine ⟨_, rfl, b3, fun i h1 h2 => ?_⟩
    have hi : i - 1 < x.2.length := by omega
    have hg := List.getElem?_eq_getElem hi
    have hr := b5 (i - 1) _ hg
    rw [show i - 1 + 1 = i by omega] at hr
    obtain ⟨np, c1, c2, c3, c4, c5, c6⟩ := C63.pnParticle hr
    refine ⟨np, c1, ?_⟩
    have hp : ∀ (t : PN), t.particles = x.2 → t.particle i = .ok x.2[i - 1] := by
      intro t ht
      simp only [PN.particle, if_neg (show ¬ i = 0 by omega), ht, hg]
    have acc : ∀ {α : Type} (t : PN) (f : PN.Particle → α), t.particles = x.2 →
        (do return f (← t.particle i) : Res α) = .ok (f x.2[i - 1]) := by
      intro α t f ht
      rw [hp t ht]; rfl
    exact ⟨⟨_, acc _ (·.pxs) rfl⟩, ⟨_, acc _ (·.phn) rfl⟩, ⟨_, acc _ (·.mtrh) rfl, c2⟩,
      ⟨_, acc _ (·.tyrh) rfl, c3⟩, ⟨_, acc _ (·.sigh) rfl, c4⟩, ⟨_, acc _ (·.andh) rfl, c5⟩,
      ⟨_, acc _ (·.dlwh) rfl, c6⟩⟩

/-! ## Photoatomic tables -/

/-- The shell blocks: both there, or none. -/
def ShellCounts (t : PA) (nsh : Nat) : Prop :=
  if nsh = 0 then t.eps = none ∧ t.swd = none
  else ∃ eps swd, t.eps = some eps ∧ t.swd = some swd ∧ eps.n = nsh ∧ Indexed swd.get 1 nsh

/-- The electron and relaxation blocks of a table with electron data (NEPR is not 0). -/
def ElectronCounts (t : PA) (nes nssh ne nxl na nb nbl : Nat) : Prop :=
  ∃ subsh sphel xprob esze excit elas breme breml,
    t.subsh = some subsh ∧ t.sphel = some sphel ∧ t.xprob = some xprob ∧ t.esze = some esze ∧
    t.excit = some excit ∧ t.elas = some elas ∧ t.breme = some breme ∧ t.breml = some breml ∧
    subsh.n = nssh ∧ sphel.n = nes ∧ Indexed xprob.get 1 nssh ∧ esze.n = ne ∧ excit.n = nxl ∧
    Indexed elas.get 1 na ∧ Indexed breme.get 1 nb ∧ breml.n = nbl ∧ Indexed t.EION 1 nssh

namespace C63

theorem electron {xs : Words} {n : Nat} {b : ElectronBlock} (h : ElectronBlock.ofRange xs n = .ok b) :
    Indexed b.get 1 n := by
  unfold ElectronBlock.ofRange ElectronBlock.generateBlocks at h
  obtain ⟨_, _, h⟩ := bind_eq_ok.mp h
  obtain ⟨_, _, h⟩ := bind_eq_ok.mp h
  obtain ⟨r, hr, h⟩ := bind_eq_ok.mp h
  have := Except.ok.inj h; subst this
  refine checked _ r n ?_ (fun i hi => ?_) (fun i x ha hb hx => ?_)
  · simpa using mapM_length _ _ _ hr
  · simp only [ElectronBlock.get, LocBlock.verifyDataIndex, if_pos hi, error_bind]
  · simp only [ElectronBlock.get, LocBlock.verifyDataIndex, if_neg (show ¬ (i < 1 ∨ i > n) by omega),
      ok_bind, hx]
    rfl

theorem eion (t : PA) (nssh : Nat) (h : t.NSSH = .ok nssh) (hl : t.eion.length = nssh) :
    Indexed t.EION 1 nssh := by
  refine checked _ t.eion nssh hl (fun i hi => ?_) (fun i x ha hb hx => ?_)
  · simp only [PA.EION, h, ok_bind, if_pos hi]
  · simp only [PA.EION, h, ok_bind, if_neg (show ¬ (i < 1 ∨ i > nssh) by omega), hx]
    rfl

theorem electrons {d : TableData} {nepr : Nat} {e : PA.Electrons} (h : PA.readElectrons d nepr = .ok e) :
    ∃ nes nssh ne nxl na nb nbl, d.count 3 = .ok nes ∧ d.count 7 = .ok nssh ∧ d.count 8 = .ok ne ∧
      d.count 9 = .ok nxl ∧ d.count 10 = .ok na ∧ d.count 11 = .ok nb ∧ d.count 12 = .ok nbl ∧
      e.subsh.n = nssh ∧ e.sphel.n = nes ∧ Indexed e.xprob.get 1 nssh ∧ e.esze.n = ne ∧
      e.excit.n = nxl ∧ Indexed e.elas.get 1 na ∧ Indexed e.breme.get 1 nb ∧ e.breml.n = nbl ∧
      e.eion.length = nssh := by
  unfold PA.readElectrons at h
  obtain ⟨nssh, h7, h⟩ := bind_eq_ok.mp h
  obtain ⟨ne, h8, h⟩ := bind_eq_ok.mp h
  obtain ⟨_, _, h⟩ := bind_eq_ok.mp h
  obtain ⟨_, _, h⟩ := bind_eq_ok.mp h
  obtain ⟨_, _, h⟩ := bind_eq_ok.mp h
  obtain ⟨subsh, a1, h⟩ := bind_eq_ok.mp h
  obtain ⟨_, _, h⟩ := bind_eq_ok.mp h
  obtain ⟨nes, h3, h⟩ := bind_eq_ok.mp h
  obtain ⟨sphel, a2, h⟩ := bind_eq_ok.mp h
  obtain ⟨_, _, h⟩ := bind_eq_ok.mp h
  obtain ⟨_, _, h⟩ := bind_eq_ok.mp h
  obtain ⟨_, _, h⟩ := bind_eq_ok.mp h
  obtain ⟨xprob, a3, h⟩ := bind_eq_ok.mp h
  obtain ⟨_, _, h⟩ := bind_eq_ok.mp h
  obtain ⟨_, _, h⟩ := bind_eq_ok.mp h
  obtain ⟨esze, a4, h⟩ := bind_eq_ok.mp h
  obtain ⟨_, _, h⟩ := bind_eq_ok.mp h
  obtain ⟨_, _, h⟩ := bind_eq_ok.mp h
  obtain ⟨nxl, h9, h⟩ := bind_eq_ok.mp h
  obtain ⟨excit, a5, h⟩ := bind_eq_ok.mp h
  obtain ⟨_, _, h⟩ := bind_eq_ok.mp h
  obtain ⟨_, _, h⟩ := bind_eq_ok.mp h
  obtain ⟨_, _, h⟩ := bind_eq_ok.mp h
  obtain ⟨na, h10, h⟩ := bind_eq_ok.mp h
  obtain ⟨elas, a6, h⟩ := bind_eq_ok.mp h
  obtain ⟨ei, a7, h⟩ := bind_eq_ok.mp h
  obtain ⟨_, _, h⟩ := bind_eq_ok.mp h
  obtain ⟨_, _, h⟩ := bind_eq_ok.mp h
  obtain ⟨_, _, h⟩ := bind_eq_ok.mp h
  obtain ⟨nb, h11, h⟩ := bind_eq_ok.mp h
  obtain ⟨breme, a8, h⟩ := bind_eq_ok.mp h
  obtain ⟨_, _, h⟩ := bind_eq_ok.mp h
  obtain ⟨_, _, h⟩ := bind_eq_ok.mp h
  obtain ⟨nbl, h12, h⟩ := bind_eq_ok.mp h
  obtain ⟨breml, a9, h⟩ := bind_eq_ok.mp h
  obtain ⟨selas, _, h⟩ := bind_eq_ok.mp h
  have := Except.ok.inj h; subst this
  exact ⟨nes, nssh, ne, nxl, na, nb, nbl, h3, h7, h8, h9, h10, h11, h12, array_n a1, array_n a2,
    located a3, array_n a4, array_n a5, electron a6, electron a8, array_n a9,
    by simpa using mapM_length _ _ _ a7⟩

theorem shells {d : TableData} {nsh : Nat} {s : EPS × SWD} (h : PA.readShells d nsh = .ok s) :
    s.1.n = nsh ∧ Indexed s.2.get 1 nsh := by
  unfold PA.readShells at h
  obtain ⟨_, _, h⟩ := bind_eq_ok.mp h
  obtain ⟨_, _, h⟩ := bind_eq_ok.mp h
  obtain ⟨_, _, h⟩ := bind_eq_ok.mp h
  obtain ⟨e, he, h⟩ := bind_eq_ok.mp h
  obtain ⟨_, _, h⟩ := bind_eq_ok.mp h
  obtain ⟨_, _, h⟩ := bind_eq_ok.mp h
  obtain ⟨_, _, h⟩ := bind_eq_ok.mp h
  obtain ⟨w, hw, h⟩ := bind_eq_ok.mp h
  have := Except.ok.inj h; subst this
  exact ⟨array_n he, located hw⟩

end C63

/-- Each count of an accepted photoatomic table is the size of the blocks it counts. -/
theorem C63_photoatomic_partial (zaid : List Char) (d : TableData) (t : PA) (h : PA.ofTable zaid d = .ok t) :
    ∃ nes nflo nsh nepr, t.NES = .ok nes ∧ t.NFLO = .ok nflo ∧ t.NSH = .ok nsh ∧ t.NEPR = .ok nepr ∧
      t.eszg.n = nes ∧ t.lhnm.n = nes ∧
      (if nflo = 0 then t.jflo = none else ∃ b, t.jflo = some b ∧ b.n = nflo) ∧
      ShellCounts t nsh ∧
      (nepr ≠ 0 → ∃ nssh ne nxl na nb nbl, t.NSSH = .ok nssh ∧ t.NE = .ok ne ∧ t.NXL = .ok nxl ∧
        t.NA = .ok na ∧ t.NB = .ok nb ∧ t.NBL = .ok nbl ∧ ElectronCounts t nes nssh ne nxl na nb nbl) ∧
      (nepr = 0 → t.subsh = none ∧ t.sphel = none ∧ t.xprob = none ∧ t.esze = none ∧ t.excit = none ∧
        t.elas = none ∧ t.breme = none ∧ t.breml = none ∧ t.selas = none ∧
        ∀ nssh, t.NSSH = .ok nssh → ∀ i, 1 ≤ i → i ≤ nssh → t.EION i = .error .ub) := by
  unfold PA.ofTable PA.generateBlocks at h
  obtain ⟨_, _, h⟩ := bind_eq_ok.mp h
  obtain ⟨nes, h3, h⟩ := bind_eq_ok.mp h
  obtain ⟨_, _, h⟩ := bind_eq_ok.mp h
  obtain ⟨_, _, h⟩ := bind_eq_ok.mp h
  obtain ⟨eszg, a1, h⟩ := bind_eq_ok.mp h
  obtain ⟨_, _, h⟩ := bind_eq_ok.mp h
  obtain ⟨_, _, h⟩ := bind_eq_ok.mp h
  obtain ⟨jinc, _, h⟩ := bind_eq_ok.mp h
  obtain ⟨_, _, h⟩ := bind_eq_ok.mp h
  obtain ⟨_, _, h⟩ := bind_eq_ok.mp h
  obtain ⟨jcoh, _, h⟩ := bind_eq_ok.mp h
  obtain ⟨nflo, h4, h⟩ := bind_eq_ok.mp h
  obtain ⟨jflo, a2, h⟩ := bind_eq_ok.mp h
  obtain ⟨_, _, h⟩ := bind_eq_ok.mp h
  obtain ⟨_, _, h⟩ := bind_eq_ok.mp h
  obtain ⟨lhnm, a3, h⟩ := bind_eq_ok.mp h
  obtain ⟨nsh, h5, h⟩ := bind_eq_ok.mp h
  obtain ⟨sh, a4, h⟩ := bind_eq_ok.mp h
  obtain ⟨nepr, h6, h⟩ := bind_eq_ok.mp h
  obtain ⟨el, a5, h⟩ := bind_eq_ok.mp h
  have := Except.ok.inj h; subst this
  refine ⟨nes, nflo, nsh, nepr, h3, h4, h5, h6, C63.array_n a1, C63.array_n a3, ?_, ?_, ?_, ?_⟩
  · rcases C63.onlyIf a2 with ⟨hc, rfl⟩ | ⟨hc, x, hx, rfl⟩
    · have : nflo = 0 := by simpa using hc
      rw [if_pos this]
    · have : nflo ≠ 0 := by have := of_decide_eq_true hc; omega
      rw [if_neg this]
      obtain ⟨_, _, hx⟩ := bind_eq_ok.mp hx
      obtain ⟨_, _, hx⟩ := bind_eq_ok.mp hx
      exact ⟨_, rfl, C63.array_n hx⟩
  · unfold ShellCounts
    rcases C63.onlyIf a4 with ⟨hc, rfl⟩ | ⟨hc, x, hx, rfl⟩
    · have : nsh = 0 := by simpa using hc
      rw [if_pos this]; exact ⟨rfl, rfl⟩
    · have : nsh ≠ 0 := by have := of_decide_eq_true hc; omega
      rw [if_neg this]
      exact ⟨_, _, rfl, rfl, C63.shells hx⟩
  · intro h0
    rcases C63.onlyIf a5 with ⟨hc, rfl⟩ | ⟨hc, x, hx, rfl⟩
    · exact absurd (by simpa using hc) h0
    · obtain ⟨nes', nssh, ne, nxl, na, nb, nbl, g3, g7, g8, g9, g10, g11, g12, k1, k2, k3, k4, k5, k6, k7,
        k8, k9⟩ := C63.electrons hx
      have := Except.ok.inj (g3.symm.trans h3); subst this
      exact ⟨nssh, ne, nxl, na, nb, nbl, g7, g8, g9, g10, g11, g12, _, _, _, _, _, _, _, _, rfl, rfl, rfl,
        rfl, rfl, rfl, rfl, rfl, k1, k2, k3, k4, k5, k6, k7, k8, C63.eion _ _ g7 k9⟩
  · intro h0
    rcases C63.onlyIf a5 with ⟨hc, rfl⟩ | ⟨hc, x, hx, rfl⟩
    · refine ⟨rfl, rfl, rfl, rfl, rfl, rfl, rfl, rfl, rfl, fun nssh hn i h1 h2 => ?_⟩
      simp only [PA.EION, hn, ok_bind, if_neg (show ¬ (i < 1 ∨ i > nssh) by omega)]
      rfl
    · have := of_decide_eq_true hc; omega

/-! ## Thermal scattering tables -/

namespace C63

theorem plainLoop {xs : Words} {nc : Nat} : ∀ {todo cur : Nat} {r : List CosData × Nat},
    ITXE.plainLoop xs nc todo cur = .ok r → r.1.length = todo
  | 0, _, r, h => by
    have := Except.ok.inj h; subst this; rfl
  | todo + 1, cur, r, h => by
    unfold ITXE.plainLoop at h
    obtain ⟨_, _, h⟩ := bind_eq_ok.mp h
    obtain ⟨_, _, h⟩ := bind_eq_ok.mp h
    obtain ⟨q, hq, h⟩ := bind_eq_ok.mp h
    have := Except.ok.inj h; subst this
    simp [plainLoop hq]

theorem plainBlocks {xs : Words} {nc n : Nat} : ∀ {todo cur : Nat} {r : List (List CosData)},
    ITXE.plainBlocks xs nc n todo cur = .ok r → r.length = todo ∧ ∀ l ∈ r, l.length = n
  | 0, _, r, h => by
    have := Except.ok.inj h; subst this; exact ⟨rfl, fun _ hc => absurd hc List.not_mem_nil⟩
  | todo + 1, cur, r, h => by
    unfold ITXE.plainBlocks at h
    obtain ⟨q, hq, h⟩ := bind_eq_ok.mp h
    obtain ⟨rs, hrs, h⟩ := bind_eq_ok.mp h
    have := Except.ok.inj h; subst this
    obtain ⟨i1, i2⟩ := plainBlocks hrs
    exact ⟨by simp [i1], List.forall_mem_cons.mpr ⟨plainLoop hq, i2⟩⟩

theorem probLoop {xs : Words} {nc next : Nat} : ∀ {todo cur : Nat} {r : List CosData × Nat},
    ITXE.probLoop xs nc next todo cur = .ok r → r.1.length = todo
  | 0, _, r, h => by
    have := Except.ok.inj h; subst this; rfl
  | todo + 1, cur, r, h => by
    unfold ITXE.probLoop at h
    obtain ⟨_, _, h⟩ := bind_eq_ok.mp h
    obtain ⟨_, _, h⟩ := bind_eq_ok.mp h
    obtain ⟨q, hq, h⟩ := bind_eq_ok.mp h
    have := Except.ok.inj h; subst this
    simp [probLoop hq]

theorem probBlocks {xs : Words} {nc ne locb : Nat} : ∀ {todo i cur : Nat} {r : List (List CosData)},
    ITXE.probBlocks xs nc ne locb todo i cur = .ok r → r.length = todo ∧
      ∀ k l, r[k]? = some l → ITXE.NIEBof xs none ne (i + k) = .ok l.length
  | 0, _, _, r, h => by
    have := Except.ok.inj h; subst this; exact ⟨rfl, fun _ _ hc => by cases hc⟩
  | todo + 1, i, cur, r, h => by
    unfold ITXE.probBlocks at h
    obtain ⟨_, _, h⟩ := bind_eq_ok.mp h
    obtain ⟨n, hn, h⟩ := bind_eq_ok.mp h
    obtain ⟨_, _, h⟩ := bind_eq_ok.mp h
    obtain ⟨q, hq, h⟩ := bind_eq_ok.mp h
    obtain ⟨rs, hrs, h⟩ := bind_eq_ok.mp h
    have := Except.ok.inj h; subst this
    obtain ⟨i1, i2⟩ := probBlocks hrs
    refine ⟨by simp [i1], fun k l hl => ?_⟩
    cases k with
    | zero =>
      have := Option.some.inj hl; subst this
      rw [probLoop hq]; exact hn
    | succ k =>
      have := i2 k l hl
      rwa [show i + 1 + k = i + (k + 1) by omega] at this

theorem itxe {ifeng nieb nc ne locb : Nat} {xs : Words} {b : ITXE}
    (h : ITXE.ofRange ifeng nieb nc ne locb xs = .ok b) :
    b.IFENG = ifeng ∧ b.NE = ne ∧ b.NC = nc ∧
      (∀ i, 1 ≤ i → i ≤ ne → ∃ n, b.NIEB i = .ok n ∧ (ifeng < 2 → n = nieb) ∧ Indexed (b.get i) 1 n) ∧
      (∀ i j, i < 1 ∨ ne < i → b.get i j = .error .range) := by
  unfold ITXE.ofRange at h
  obtain ⟨_, _, h⟩ := bind_eq_ok.mp h
  obtain ⟨data, hd, h⟩ := bind_eq_ok.mp h
  have := Except.ok.inj h; subst this
  refine ⟨rfl, rfl, rfl, fun i h1 h2 => ?_, fun i j hi => ?_⟩
  · have key : ∃ l, data[i - 1]? = some l ∧
        ITXE.NIEBof xs (if ifeng < 2 then some nieb else none) ne i = .ok l.length ∧
        (ifeng < 2 → l.length = nieb) := by
      unfold ITXE.generateBlocks at hd
      by_cases hf : ifeng < 2
      · rw [if_pos hf, if_neg (show ¬ ne = 0 by omega), if_pos hf] at hd
        have hd : ITXE.plainBlocks xs nc nieb ne 0 = .ok data := hd
        obtain ⟨j1, j2⟩ := plainBlocks hd
        have hi : i - 1 < data.length := by omega
        have := j2 _ (List.getElem_mem hi)
        refine ⟨_, List.getElem?_eq_getElem hi, ?_, fun _ => this⟩
        rw [if_pos hf, this]; rfl
      · rw [if_neg hf] at hd
        obtain ⟨_, _, hd⟩ := bind_eq_ok.mp hd
        obtain ⟨_, _, hd⟩ := bind_eq_ok.mp hd
        obtain ⟨j1, j2⟩ := probBlocks hd
        have hi : i - 1 < data.length := by omega
        refine ⟨_, List.getElem?_eq_getElem hi, ?_, fun hc => absurd hc hf⟩
        have := j2 _ _ (List.getElem?_eq_getElem hi)
        rw [if_neg hf]
        rwa [show 1 + (i - 1) = i by omega] at this
    obtain ⟨l, k1, k2, k3⟩ := key
    refine ⟨l.length, k2, k3, ?_⟩
    refine checked _ l l.length rfl (fun j hj => ?_) (fun j x ha hb hx => ?_)
    · simp only [ITXE.get, ITXE.verifyIndices, ITXE.NIEB, if_neg (show ¬ (i < 1 ∨ i > ne) by omega)]
      rw [show (pure PUnit.unit : Res PUnit) = .ok PUnit.unit from rfl, k2, ok_bind, if_pos hj]
      rfl
    · simp only [ITXE.get, ITXE.verifyIndices, ITXE.NIEB, if_neg (show ¬ (i < 1 ∨ i > ne) by omega)]
      rw [show (pure PUnit.unit : Res PUnit) = .ok PUnit.unit from rfl, k2, ok_bind,
        if_neg (show ¬ (j < 1 ∨ j > l.length) by omega), ok_bind]
      simp only [k1, hx]
      rfl
  · simp only [ITXE.get, ITXE.verifyIndices]
    rw [if_pos hi]; rfl

end C63

/-- The inelastic angular distributions of a table: for each incident energy of the cross section
block, as many as the table says. -/
structure InelasticCounts (t : TS) (ne ifeng nil nieb : Nat) : Prop where
  energies : t.itie.NE = .ok ne
  incident : t.itxe.NE = ne
  mode : t.itxe.IFENG = ifeng
  cosines : t.itxe.NC = if ifeng < 2 then (nil + 1) % 4294967296 else (nil + 4294967295) % 4294967296
  outgoing : ∀ i, 1 ≤ i → i ≤ ne →
    ∃ n, t.itxe.NIEB i = .ok n ∧ (ifeng < 2 → n = nieb) ∧ Indexed (t.itxe.get i) 1 n
  refused : ∀ i j, i < 1 ∨ ne < i → t.itxe.get i j = .error .range

/-- Coherent elastic scattering: cosines for each energy, unless NCL is -1. -/
def CoherentCounts (t : TS) (ncl : Int) : Prop :=
  ∃ itce, t.itce = some itce ∧
    if ncl = -1 then t.itca = none
    else ∃ itca ne, t.itca = some itca ∧ itce.NE = .ok ne ∧ itca.m = ne ∧ itca.n = sizeOfInt (ncl + 1)

/-- Incoherent elastic scattering: cosines for each energy. -/
def IncoherentCounts (t : TS) (ncl : Int) : Prop :=
  ∃ itcei itcai ne, t.itcei = some itcei ∧ t.itcai = some itcai ∧ itcei.NE = .ok ne ∧ itcai.m = ne ∧
    itcai.n = sizeOfInt (ncl + 1)

namespace C63

theorem array_m {xs : Words} {n m : Nat} {b : ArrayData} (h : ArrayData.ofRange xs n m = .ok b) : b.m = m := by
  unfold ArrayData.ofRange at h
  obtain ⟨_, hv, h⟩ := bind_eq_ok.mp h
  have := Except.ok.inj h; subst this; rfl

theorem coherent {d : TableData} {c : ITIE × Option ITCA} (h : TS.readCoherent d = .ok c) :
    ∃ ncl, d.signed 6 = .ok ncl ∧ if ncl = -1 then c.2 = none
      else ∃ itca ne, c.2 = some itca ∧ c.1.NE = .ok ne ∧ itca.m = ne ∧ itca.n = sizeOfInt (ncl + 1) := by
  unfold TS.readCoherent at h
  obtain ⟨_, _, h⟩ := bind_eq_ok.mp h
  obtain ⟨_, _, h⟩ := bind_eq_ok.mp h
  obtain ⟨itce, _, h⟩ := bind_eq_ok.mp h
  obtain ⟨ncl, hn, h⟩ := bind_eq_ok.mp h
  refine ⟨ncl, hn, ?_⟩
  by_cases hc : ncl + 1 ≠ 0
  · rw [if_pos hc] at h
    rw [if_neg (show ¬ ncl = -1 by omega)]
    obtain ⟨_, _, h⟩ := bind_eq_ok.mp h
    obtain ⟨_, _, h⟩ := bind_eq_ok.mp h
    obtain ⟨ne, hne, h⟩ := bind_eq_ok.mp h
    obtain ⟨ca, hca, h⟩ := bind_eq_ok.mp h
    have := Except.ok.inj h; subst this
    exact ⟨ca, ne, rfl, hne, array_m hca, array_n hca⟩
  · rw [if_neg hc] at h
    rw [if_pos (show ncl = -1 by omega)]
    have := Except.ok.inj h; subst this; rfl

theorem incoherent {d : TableData} {i : Nat} {c : ITIE × ITCA} (h : TS.readIncoherent d i = .ok c) :
    ∃ ncl ne, d.signed (if i = 3 then 6 else 8) = .ok ncl ∧ c.1.NE = .ok ne ∧ c.2.m = ne ∧
      c.2.n = sizeOfInt (ncl + 1) := by
  unfold TS.readIncoherent at h
  obtain ⟨_, _, h⟩ := bind_eq_ok.mp h
  obtain ⟨_, _, h⟩ := bind_eq_ok.mp h
  obtain ⟨itcei, _, h⟩ := bind_eq_ok.mp h
  obtain ⟨ncl, hn, h⟩ := bind_eq_ok.mp h
  obtain ⟨_, _, h⟩ := bind_eq_ok.mp h
  obtain ⟨_, _, h⟩ := bind_eq_ok.mp h
  obtain ⟨ne, hne, h⟩ := bind_eq_ok.mp h
  obtain ⟨ca, hca, h⟩ := bind_eq_ok.mp h
  have := Except.ok.inj h; subst this
  exact ⟨ncl, ne, hn, hne, array_m hca, array_n hca⟩

end C63

/-- The counts of an accepted thermal scattering table are the sizes of its blocks. -/
theorem C63_thermal (zaid : List Char) (d : TableData) (t : TS) (h : TS.ofTable zaid d = .ok t) :
    (∀ j, t.data.JXS 1 = .ok j → j > 0 → ∃ ne ifeng nil nieb, t.IFENG = .ok ifeng ∧ t.NIL = .ok nil ∧
      t.NIEB = .ok nieb ∧ InelasticCounts t ne ifeng nil nieb) ∧
    ∃ idpnc, t.IDPNC = .ok idpnc ∧
      (if idpnc > 3 then ∃ ncl, t.NCL = .ok ncl ∧ CoherentCounts t ncl else t.itce = none ∧ t.itca = none) ∧
      (if idpnc = 3 then ∃ ncl, t.NCL = .ok ncl ∧ IncoherentCounts t ncl
        else if idpnc = 5 then ∃ ncl, t.NCLI = .ok ncl ∧ IncoherentCounts t ncl
        else t.itcei = none ∧ t.itcai = none) := by
  unfold TS.ofTable TS.generateBlocks at h
  obtain ⟨_, _, h⟩ := bind_eq_ok.mp h
  obtain ⟨j1, hj, h⟩ := bind_eq_ok.mp h
  obtain ⟨itie, h1, h⟩ := bind_eq_ok.mp h
  obtain ⟨itxe, h2, h⟩ := bind_eq_ok.mp h
  obtain ⟨idpnc, h5, h⟩ := bind_eq_ok.mp h
  obtain ⟨c, hc, h⟩ := bind_eq_ok.mp h
  obtain ⟨i, hi, h⟩ := bind_eq_ok.mp h
  have := Except.ok.inj h; subst this
  refine ⟨fun j hj' hpos => ?_, idpnc, h5, ?_, ?_⟩
  · have := Except.ok.inj (hj.symm.trans hj'); subst this
    rw [decide_eq_true hpos] at h2
    unfold TS.readITXE at h2
    rw [if_pos rfl] at h2
    obtain ⟨_, _, h2⟩ := bind_eq_ok.mp h2
    obtain ⟨ifeng, g7, h2⟩ := bind_eq_ok.mp h2
    obtain ⟨nil, g3, h2⟩ := bind_eq_ok.mp h2
    obtain ⟨nieb, g4, h2⟩ := bind_eq_ok.mp h2
    obtain ⟨ne, gn, h2⟩ := bind_eq_ok.mp h2
    obtain ⟨_, _, h2⟩ := bind_eq_ok.mp h2
    obtain ⟨_, _, h2⟩ := bind_eq_ok.mp h2
    obtain ⟨k1, k2, k3, k4, k5⟩ := C63.itxe h2
    refine ⟨ne, ifeng, nil, nieb, g7, g3, g4, ⟨gn, k2, k1, k3, fun i a b => ?_, k5⟩⟩
    obtain ⟨n, n1, n2, n3⟩ := k4 i a b
    exact ⟨n, n1, fun hf => (n2 hf).trans (if_pos hf), n3⟩
  · rcases C63.onlyIf hc with ⟨hf, rfl⟩ | ⟨hf, x, hx, rfl⟩
    · rw [if_neg (of_decide_eq_false hf)]; exact ⟨rfl, rfl⟩
    · rw [if_pos (of_decide_eq_true hf)]
      obtain ⟨ncl, hn, hb⟩ := C63.coherent hx
      exact ⟨ncl, hn, x.1, rfl, hb⟩
  · rcases C63.onlyIf hi with ⟨hf, rfl⟩ | ⟨hf, x, hx, rfl⟩
    · have := of_decide_eq_false hf
      rw [if_neg (by omega), if_neg (by omega)]; exact ⟨rfl, rfl⟩
    · have hf := of_decide_eq_true hf
      obtain ⟨ncl, ne, hn, hb⟩ := C63.incoherent hx
      by_cases h3 : idpnc = 3
      · rw [if_pos h3] at hn ⊢
        exact ⟨ncl, hn, x.1, x.2, ne, rfl, rfl, hb⟩
      · rw [if_neg h3] at hn ⊢
        rw [if_pos (by omega)]
        exact ⟨ncl, hn, x.1, x.2, ne, rfl, rfl, hb⟩

/-! ## The property as documented, and where it fails -/

/-- The documented behaviour of the indexed blocks of all accepted tables. -/
def C63Statement : Prop :=
  (∀ zaid d t n, CE.ofTable zaid d = .ok t → t.NTYPE = .ok n → Indexed t.HPD 1 n) ∧
  (∀ zaid d t n, PN.ofTable zaid d = .ok t → t.NTYPE = .ok n → Indexed t.PXS 1 n) ∧
  (∀ zaid d t n, PA.ofTable zaid d = .ok t → t.NSSH = .ok n → Indexed t.EION 1 n)

namespace C63

/-- The table of C29 with two secondary particle types. -/
theorem ce_made : ∃ d t, CE.ofTable "92235.80c".toList d = .ok t ∧ t.NTYPE = .ok 2 ∧
    t.particles.length = 2 := by
  obtain ⟨t, h, _⟩ := C29_particles_partial "92235.80c".toList 92 235 0 exBlocks [18, 102] exTyr _ _
    ex_sound ex_clear rfl (by decide +kernel) (by decide +kernel) (Or.inl (by decide))
  have hn : (do let t ← CE.mk' "92235.80c".toList 92 235 0 exBlocks.input; t.NTYPE : Res Nat) = .ok 2 := by
    decide +kernel
  have hl : (do let t ← CE.mk' "92235.80c".toList 92 235 0 exBlocks.input
                return t.particles.length : Res Nat) = .ok 2 := by
    decide +kernel
  rw [h, ok_bind] at hn hl
  obtain ⟨d, _, h⟩ := bind_eq_ok.mp h
  exact ⟨d, t, h, hn, Except.ok.inj hl⟩

/-- The table of C33 with two secondary particle types. -/
theorem pn_made : ∃ d t, PN.ofTable "92235.70u".toList d = .ok t ∧ t.NTYPE = .ok 2 := by
  have hn : (do let t ← PN.mk' "92235.70u".toList 92 235 0 (exPNBlocks [1, 9]).input
                t.NTYPE : Res Nat) = .ok 2 := by
    decide +kernel
  obtain ⟨t, h, hn⟩ := bind_eq_ok.mp hn
  obtain ⟨d, _, h⟩ := bind_eq_ok.mp h
  exact ⟨d, t, h, hn⟩

/-- The table of C32 without electron data, but with NXS(7) set to 1. -/
def oddPA : Res TableData := do
  let d ← PA.generateData C32.exNone.input
  return { d with nxs := d.nxs.set 6 1 }

theorem pa_made : ∃ d t, PA.ofTable "1000.12p".toList d = .ok t ∧ t.NSSH = .ok 1 ∧ t.NEPR = .ok 0 := by
  have hn : (do let t ← PA.ofTable "1000.12p".toList (← oddPA)
                return (← t.NSSH, ← t.NEPR) : Res (Nat × Nat)) = .ok (1, 0) := by
    decide +kernel
  obtain ⟨d, _, hn⟩ := bind_eq_ok.mp hn
  obtain ⟨t, h, hn⟩ := bind_eq_ok.mp hn
  obtain ⟨a, ha, hn⟩ := bind_eq_ok.mp hn
  obtain ⟨b, hb, hn⟩ := bind_eq_ok.mp hn
  have := Except.ok.inj hn
  exact ⟨d, t, h, ha.trans (congrArg _ (Prod.mk.inj this).1), hb.trans (congrArg _ (Prod.mk.inj this).2)⟩

end C63

/-- The statement is false for continuous energy tables. -/
theorem C63_false : ¬ C63Statement := fun h => by
  obtain ⟨d, t, ht, hn, _⟩ := C63.ce_made
  exact C63.Indexed.not_unchecked (C63_continuous_particles _ d t 2 ht hn).1 (h.1 _ d t 2 ht hn)

/-- It is false for photonuclear tables too. -/
theorem C63_photonuclear_false :
    ¬ ∀ zaid d t n, PN.ofTable zaid d = .ok t → t.NTYPE = .ok n → Indexed t.PXS 1 n := fun h => by
  obtain ⟨d, t, ht, hn⟩ := C63.pn_made
  obtain ⟨_, _, n, _, _, h5, _, _, _, _, _, hu, _⟩ := C63_photonuclear_partial _ d t ht
  have := Except.ok.inj (hn.symm.trans h5); subst this
  exact C63.Indexed.not_unchecked hu (h _ d t _ ht hn)

/-- And for photoatomic tables that have subshells according to NXS(7), but no electron data. -/
theorem C63_photoatomic_false :
    ¬ ∀ zaid d t n, PA.ofTable zaid d = .ok t → t.NSSH = .ok n → Indexed t.EION 1 n := fun h => by
  obtain ⟨d, t, ht, hn, he⟩ := C63.pa_made
  obtain ⟨_, _, _, nepr, _, _, _, h6, _, _, _, _, _, hz⟩ := C63_photoatomic_partial _ d t ht
  have h0 : nepr = 0 := Except.ok.inj (h6.symm.trans he)
  have hu := (hz h0).2.2.2.2.2.2.2.2.2 1 hn 1 (Nat.le_refl 1) (Nat.le_refl 1)
  obtain ⟨x, hx⟩ := (h _ d t 1 ht hn).1 1 (Nat.le_refl 1) (Nat.le_refl 1)
  rw [hu] at hx
  cases hx

/-! ## The hypotheses are met -/

/-- Two secondary particles, each with its blocks. -/
example : ∃ d t, CE.ofTable "92235.80c".toList d = .ok t ∧ SecondaryCounts t 2 ∧
    Unchecked t.YH 1 2 := by
  obtain ⟨d, t, ht, hn, _⟩ := C63.ce_made
  obtain ⟨_, _, _, _, n, _, _, _, _, _, h7, _, _, _, _, hs, _⟩ := C63_continuous_partial _ d t ht
  have := Except.ok.inj (hn.symm.trans h7); subst this
  exact ⟨d, t, ht, hs, (C63_continuous_particles _ d t 2 ht hn).2.2.2.2.2.2⟩

/-- A photoatomic table with all blocks: NEPR is 3 and `EION` accepts exactly two indices. -/
example : ∃ t, PA.mk' "1000.12p".toList C32.exAll.input = .ok t ∧ Indexed t.EION 1 2 := by
  obtain ⟨t, h, _, hr⟩ := C32_blocks_partial "1000.12p".toList C32.exAll (C32_built C32.exAll_made)
    C32.exAll_fits (by decide +kernel)
  have hn : (do let t ← PA.mk' "1000.12p".toList C32.exAll.input
                return (← t.NSSH, ← t.NEPR) : Res (Nat × Nat)) = .ok (2, 3) := by
    decide +kernel
  rw [h, ok_bind] at hn
  obtain ⟨a, ha, hn⟩ := bind_eq_ok.mp hn
  obtain ⟨b, hb, hn⟩ := bind_eq_ok.mp hn
  have hab := Except.ok.inj hn
  refine ⟨t, h, ?_⟩
  obtain ⟨d, _, h⟩ := bind_eq_ok.mp h
  obtain ⟨_, _, _, nepr, _, _, _, h6, _, _, _, _, he, _⟩ := C63_photoatomic_partial _ d t h
  have h3 : nepr = 3 := (Except.ok.inj (h6.symm.trans hb)).trans (Prod.mk.inj hab).2
  obtain ⟨nssh, _, _, _, _, _, h7, _, _, _, _, _, _, _, _, _, _, _, _, _, _, _, _, _, _, _, _, _, _, _,
    _, _, _, _, _, hx⟩ := he (by omega)
  have : nssh = 2 := (Except.ok.inj (h7.symm.trans ha)).trans (Prod.mk.inj hab).1
  subst this
  exact hx.2

/-- A dosimetry table with two reactions. -/
example : ∃ t, Dosimetry.mk' "26056.10y".toList 26 56 (made (MTR.mk' [16, 107]))
    (made (SIGD.mk' exSigd)) = .ok t ∧ Indexed t.sigd.get 1 2 := by
  obtain ⟨t, h, _, h1, h2, h3, _⟩ := C35_blocks "26056.10y".toList 26 56 [16, 107] exSigd
    (made (MTR.mk' [16, 107])) (made (SIGD.mk' exSigd)) (by decide +kernel) (by decide +kernel)
    (by decide) (by decide) (by decide) (by decide +kernel)
  refine ⟨t, h, ?_⟩
  obtain ⟨d, _, h⟩ := bind_eq_ok.mp h
  obtain ⟨n, hn, _, hi⟩ := C63_dosimetry _ d t h
  have := Except.ok.inj (h3.symm.trans hn); subst this
  exact hi

/-- A thermal scattering table with mixed elastic scattering. -/
example : ∃ t itxe, TS.mk' "lwtr.10t".toList (tsInput [1001, 8016] exXS itxe exElastic) = .ok t ∧
    IncoherentCounts t 1 := by
  obtain ⟨itxe, t, h1, h2, _, _, h3, _⟩ := C34_discrete_partial "lwtr.10t".toList [1001, 8016] exXS
    exElastic exPlain exDCos true 1 1 2 (by decide +kernel) (by decide) (by decide)
    (by decide +kernel) (by decide +kernel) (by decide) (by decide +kernel) (by decide) exXS_made
    exElastic_sound (by decide) (by decide) (by decide +kernel)
  refine ⟨t, itxe, h2, ?_⟩
  obtain ⟨d, _, h⟩ := bind_eq_ok.mp h2
  obtain ⟨_, n, hn, _, hi⟩ := C63_thermal _ d t h
  have h5 : t.IDPNC = .ok 5 := h3.idpnc
  have hc : t.NCLI = .ok 1 := h3.ncli
  have : n = 5 := Except.ok.inj (hn.symm.trans h5)
  subst this
  rw [if_neg (by decide), if_pos rfl] at hi
  obtain ⟨ncl, hl, hi⟩ := hi
  have := Except.ok.inj (hl.symm.trans hc); subst this
  exact hi

end ACE.Props

import Verif.Props.DistSpec
import Verif.Props.C20

/-!
# C16: the energy distribution block (DLW)

A reaction is given by its distribution (`DistSpec`), multiplicity and reference frame. `DlwGives rs d`
says that the block gives back, for each reaction, all three; the distribution is judged at the
locator that the block itself reports.
-/

namespace ACE.Props
open ACE

/-- An integer or tabulated multiplicity as the user gives it. -/
inductive MSpec where
  | int (n : Nat)
  | tab (b i : List Int) (energies values : Words)

/-- The call of the constructor. -/
def MSpec.build : MSpec → Res Mult
  | int n => .ok (.int n)
  | tab b i x y => do return .tab (← TabulatedData.mk' b i x y)

/-- The multiplicity is given back. -/
def MSpec.Gives : MSpec → Mult → Prop
  | int n, .int k => k = n
  | tab b i x y, .tab d => GivesTable d b i x y
  | _, _ => False

/-- A reaction as the user gives it. -/
structure Reaction where
  dist : DistSpec
  mult : MSpec
  frame : Frame

/-- The distribution is in range, an integer multiplicity is below the threshold of tabulated ones
and zero only in the laboratory frame, the sizes fit. -/
structure Reaction.Ok (sort : StdSort EquiEnergy.incident) (r : Reaction) : Prop where
  dist : r.dist.Ok
  fits : r.dist.Fits sort
  mult : match r.mult with
    | .int n => n < 100 ∧ (r.frame = .centreOfMass → n ≠ 0)
    | .tab b _ x _ => FitsN b.length ∧ FitsN x.length

/-- What the block gives for each reaction. -/
structure DlwGives (sort : StdSort EquiEnergy.incident) (rs : List Reaction) (d : DLW) : Prop where
  count : d.nr = rs.length
  distribution : ∀ (k : Nat) (h : k < rs.length), ∃ (locator : Nat) (e : EnergyData),
    d.LDLW (k + 1) = .ok (locator : Int) ∧ 1 ≤ locator ∧ d.distribution (k + 1) = .ok e ∧
    rs[k].dist.Gives sort locator e
  multiplicity : ∀ (k : Nat) (h : k < rs.length), ∃ m, d.multiplicity (k + 1) = .ok m ∧
    rs[k].mult.Gives m
  frame : ∀ (k : Nat) (h : k < rs.length), d.referenceFrame (k + 1) = .ok rs[k].frame
  refused : ∀ k, k = 0 ∨ rs.length < k → d.LDLW k = .error .range ∧ d.distribution k = .error .range ∧
    d.multiplicity k = .error .range ∧ d.referenceFrame k = .error .range

/-- The number of words of locators and data. -/
def dlwLength (es : List EnergyData) (ms : List Mult) : Nat :=
  es.length + ((es.zip ms).map fun e => (DLW.multWords e.2).length + distLen e.1).sum

/-- Two TYR blocks agree on the first reactions. -/
def TyrAgree (nr : Nat) (t t' : TYR) : Prop :=
  ∀ k, k < nr → t.referenceFrame (k + 1) = t'.referenceFrame (k + 1) ∧
    t.multiplicity (k + 1) = t'.multiplicity (k + 1)

/-! ## Proofs -/

open DLW in
theorem dlw_facts (sort : StdSort EquiEnergy.incident) (rs : List Reaction) (es : List EnergyData)
    (ms : List Mult) (he : rs.mapM (fun r => r.dist.build sort) = .ok es)
    (hm : rs.mapM (fun r => r.mult.build) = .ok ms) (hok : ∀ r ∈ rs, r.Ok sort)
    (hf : FitsN (dlwLength es ms + 101)) :
    ∃ d, DLW.mk' es ms (rs.map (·.frame)) = .ok d ∧ d.xss.length = dlwLength es ms ∧
      DlwGives sort rs d ∧
      (∀ (t : TYR) (rest : Words) (data : Nat), d.nr ≤ data → TyrAgree d.nr t d.tyr →
        ∃ r, DLW.ofRange (d.xss ++ rest) data t d.nr = .ok r ∧ DlwGives sort rs r) := by
  obtain ⟨le, he⟩ := mapM_ok_iff _ _ _ he
  obtain ⟨lm, hm⟩ := mapM_ok_iff _ _ _ hm
  have hz : (es.zip ms).length = rs.length := by simp [le, lm]
  have hplace : ∀ e ∈ es.zip ms, ∀ loc, FitsN (loc + distLen e.1 + 1) →
      ∃ w, e.1.placed loc = .ok w ∧ w.length = distLen e.1 := by
    intro e hmem loc hloc
    obtain ⟨k, hk, hke⟩ := List.getElem_of_mem hmem
    have hk' : k < rs.length := by omega
    have := he k hk' (by omega)
    have hr := hok _ (List.getElem_mem hk')
    have h1 : e.1 = es[k]'(by omega) := by rw [← hke]; simp
    rw [h1] at hloc ⊢
    obtain ⟨w, w1, w2, _⟩ := dist_placed sort _ _ this hr.dist hr.fits loc hloc
    exact ⟨w, w1, w2⟩
  unfold dlwLength at hf
  obtain ⟨p, hP, hPl, hPd⟩ := placed_exists distLen (es.zip ms) 0 hplace (by omega)
  have hpl : p.length = rs.length := by rw [hP.length, hz]
  rw [← hPl] at hf
  have hpg : ∀ (k : Nat) (h : k < p.length), p[k].1 = ms[k]'(by omega) ∧
      (es[k]'(by omega)).placed (startOf (p.map part) k + (multWords p[k].1).length + 1) = .ok p[k].2 := by
    intro k h
    have := hP.get k (by omega) h
    simp only [List.getElem_zip, Nat.zero_add] at this
    exact ⟨this.1, by rw [this.1]; exact this.2⟩
  have hmg : ∀ (k : Nat) (h : k < p.length),
      (match (rs[k]'(by omega)).mult with
        | .int n => p[k].1 = .int n
        | .tab b i x y => ∃ d, TabulatedData.mk' b i x y = .ok d ∧ p[k].1 = .tab d) := by
    intro k h
    have h2 := hm k (by omega) (by omega)
    rw [← (hpg k h).1] at h2
    generalize (rs[k]'(by omega)).mult = q at h2 ⊢
    cases q with
    | int n => injection h2 with h2; exact h2.symm
    | tab b i x y =>
      obtain ⟨d, h3, h4⟩ := bind_eq_ok.mp h2
      injection h4 with h4
      exact ⟨d, h3, h4.symm⟩
  have hsmall : ∀ a ∈ p, Small a.1 := by
    intro a ha
    obtain ⟨k, hk, hka⟩ := List.getElem_of_mem ha
    have h1 := hmg k hk
    have h2 := (hok _ (List.getElem_mem (show k < rs.length by omega))).mult
    rw [hka] at h1
    generalize (rs[k]'(by omega)).mult = q at h1 h2
    cases q with
    | int n => rw [h1]; exact h2.1
    | tab b i x y => obtain ⟨d, _, h1⟩ := h1; rw [h1]; trivial
  -- the TYR block
  let vs : List (Frame × Nat) := (rs.map (·.frame)).zip (tyrs 0 p)
  have hvl : vs.length = rs.length := by simp [vs, hpl]
  have hv1 : vs.map (·.1) = rs.map (·.frame) := List.map_fst_zip (by simp [hpl])
  have hv2 : vs.map (·.2) = tyrs 0 p := List.map_snd_zip (by simp [hpl])
  have hvo : ∀ v ∈ vs, TyrOk v := by
    intro v hv
    obtain ⟨k, hk, hkv⟩ := List.getElem_of_mem hv
    have hkp : k < p.length := by omega
    have e1 : v = ((rs[k]'(by omega)).frame, tyrOf (startOf (p.map part) k) p[k].1) := by
      rw [← hkv]
      simp only [vs, List.getElem_zip, List.getElem_map]
      rw [tyrs_getElem 0 p k _ hkp, Nat.zero_add]
    have h1 := hmg k hkp
    have h2 := (hok _ (List.getElem_mem (show k < rs.length by omega))).mult
    have hb := part_start_le p k hkp
    generalize (rs[k]'(by omega)).mult = q at h1 h2
    rw [e1]
    cases q with
    | int n =>
      rw [h1]
      refine ⟨show n < _ from ?_, fun hc => h2.2 hc⟩
      have := h2.1
      omega
    | tab b i x y =>
      obtain ⟨d, _, h1⟩ := h1
      rw [h1, tyrOf_tab _ _ (by omega)]
      exact ⟨show _ < _ by simp only; omega, fun _ => by simp⟩
  have htyr := tyr_built vs hvo
  rw [hv1, hv2] at htyr
  -- reading with any TYR block that agrees
  have key : ∀ (t : TYR) (rest : Words),
      (∀ (k : Nat) (h : k < vs.length),
        t.referenceFrame (k + 1) = .ok vs[k].1 ∧ t.multiplicity (k + 1) = .ok vs[k].2) →
      ∃ r, generateBlocks (locs 0 p ++ (p.map part).flatten ++ rest) p.length t = .ok r ∧
        DlwGives sort rs r ∧ r.xss = locs 0 p ++ (p.map part).flatten ++ rest ∧ r.nr = p.length ∧
        r.tyr = t := by
    intro t rest ht
    have htm : TyrMatches p t := by
      intro k hk
      rw [(ht k (by omega)).2]
      simp only [vs, List.getElem_zip]
      rw [tyrs_getElem 0 p k _ hk, Nat.zero_add]
    have hfr : ∀ (k : Nat) (h : k < rs.length), t.frames[k]? = some rs[k].frame := by
      intro k hk
      have h1 := (ht k (by omega)).1
      unfold TYR.referenceFrame at h1
      split at h1
      · cases h1
      · simp only [Nat.add_sub_cancel] at h1
        split at h1
        · next x hx =>
            injection h1 with h1
            rw [hx, h1]
            simp [vs]
        · cases h1
    have hfl : p.length ≤ t.frames.length := by
      by_cases h0 : p.length = 0
      · omega
      · have := hfr (p.length - 1) (by omega)
        have := (List.getElem?_eq_some_iff.mp this).1
        omega
    have hread : ∀ (k : Nat), k < p.length → ∃ e, ∀ (h : k < p.length),
        EnergyData.read (startOf (p.map part) k + (multWords p[k].1).length + 1)
          (if k + 1 = p.length then p[k].2 ++ rest else p[k].2) = .ok e ∧
        (rs[k]'(by omega)).dist.Gives sort
          (startOf (p.map part) k + (multWords p[k].1).length + 1) e := by
      intro k h
      have hr := hok _ (List.getElem_mem (show k < rs.length by omega))
      have hb := part_start_le p k h
      have hdl : distLen (es[k]'(by omega)) = p[k].2.length := by
        have := hPd k (by omega) h
        simp only [List.getElem_zip] at this
        exact this.symm
      obtain ⟨w, w1, w2, w3, w4⟩ := dist_placed sort _ _ (he k (by omega) (by omega)) hr.dist hr.fits
        (startOf (p.map part) k + (multWords p[k].1).length + 1) (by omega)
      rw [(hpg k h).2] at w1
      injection w1 with w1
      obtain ⟨e, e1, e2⟩ := w4 (if k + 1 = p.length then rest else [])
      refine ⟨e, fun _ => ⟨?_, e2⟩⟩
      rw [← w1] at e1
      rw [← e1]
      split <;> simp
    obtain ⟨es', l1, h1⟩ := exists_list (n := p.length)
      (fun k e => ∀ (h : k < p.length),
        EnergyData.read (startOf (p.map part) k + (multWords p[k].1).length + 1)
          (if k + 1 = p.length then p[k].2 ++ rest else p[k].2) = .ok e ∧
        (rs[k]'(by omega)).dist.Gives sort
          (startOf (p.map part) k + (multWords p[k].1).length + 1) e) hread
    have hmult : ∀ (k : Nat), k < p.length → ∃ m, ∀ (h : k < p.length),
        (match p[k].1 with
        | .int n => m = .int n
        | .tab d => ∃ d', TabulatedData.ofRange d.xss = .ok d' ∧ m = .tab d') ∧
        (rs[k]'(by omega)).mult.Gives m := by
      intro k h
      have h2 := hmg k h
      have h3 := (hok _ (List.getElem_mem (show k < rs.length by omega))).mult
      generalize hq : (rs[k]'(by omega)).mult = q at h2 h3
      cases q with
      | int n =>
        refine ⟨.int n, fun _ => ⟨?_, by rw [hq]; rfl⟩⟩
        rw [h2]
      | tab b i x y =>
        obtain ⟨d, h4, h5⟩ := h2
        obtain ⟨d', h6, h7⟩ := C07_read b i x y h3.1 h3.2 d h4 []
        rw [List.append_nil] at h6
        refine ⟨.tab d', fun _ => ⟨?_, by rw [hq]; exact h7⟩⟩
        rw [h5]
        exact ⟨d', h6, rfl⟩
    obtain ⟨ms', l2, h2⟩ := exists_list (n := p.length)
      (fun k m => ∀ (h : k < p.length),
        (match p[k].1 with
        | .int n => m = .int n
        | .tab d => ∃ d', TabulatedData.ofRange d.xss = .ok d' ∧ m = .tab d') ∧
        (rs[k]'(by omega)).mult.Gives m) hmult
    refine ⟨_, generateBlocks_ok p rest t htm hfl hsmall (by omega) es' ms' l1 l2
      (fun i h => (h1 i (by omega) h).1) (fun i h => (h2 i (by omega) h).1), ?_, rfl, rfl, rfl⟩
    have hpick : ∀ {α : Type} (l : List α) (k : Nat) (h : k < l.length), l.length = p.length →
        DLW.pick p.length l (k + 1) = .ok l[k] := by
      intro α l k h hl
      unfold DLW.pick
      rw [if_neg (by omega)]
      simp [List.getElem?_eq_getElem h]
    constructor
    · exact hpl
    · intro k h
      have hk : k < p.length := by omega
      have hb := part_start_le p k hk
      refine ⟨startOf (p.map part) k + (multWords p[k].1).length + 1, es'[k]'(by omega), ?_, by omega,
        hpick es' k (by omega) l1, (h1 k (by omega) hk).2⟩
      unfold DLW.LDLW
      simp only
      rw [List.append_assoc]
      exact LDLWof_ok p _ k hk (by omega)
    · intro k h
      exact ⟨ms'[k]'(by omega), hpick ms' k (by omega) l2, (h2 k (by omega) (by omega)).2⟩
    · intro k h
      have hfk := hfr k h
      have hl : (t.frames.take p.length).length = p.length := by simp; omega
      have := hpick (t.frames.take p.length) k (by omega) hl
      unfold DLW.referenceFrame
      simp only
      rw [this, List.getElem_take]
      rw [List.getElem?_eq_getElem (by omega)] at hfk
      injection hfk with hfk
      rw [hfk]
    · intro k h
      have hk : k < 1 ∨ k > p.length := by omega
      refine ⟨?_, ?_, ?_, ?_⟩
      · unfold DLW.LDLW LDLWof; exact if_pos hk
      · unfold DLW.distribution DLW.pick; exact if_pos hk
      · unfold DLW.multiplicity DLW.pick; exact if_pos hk
      · unfold DLW.referenceFrame DLW.pick; exact if_pos hk
  have ht0 := (tyr_gives vs (vs.map fun v => TYR.word v.1 v.2)).2
  rw [hv1, hv2] at ht0
  obtain ⟨d, d1, d2, d3, d4, d5⟩ := key _ [] ht0
  rw [List.append_nil] at d1 d3
  refine ⟨d, ?_, ?_, d2, ?_⟩
  · unfold DLW.mk'
    rw [generateXSS_spec es ms p (by omega) hP, ok_bind, htyr, ok_bind, le, ← hpl]
    exact d1
  · rw [d3]
    unfold dlwLength
    rw [← hPl]; simp; omega
  · intro t rest data hdata ht
    obtain ⟨r, r1, r2, _⟩ := key t rest (fun k h => by
      have hk := ht k (by omega)
      rw [hk.1, hk.2, d5]
      exact ht0 k h)
    refine ⟨r, ?_, r2⟩
    unfold DLW.ofRange
    rw [guardThrow_not_lt hdata, ok_bind, d3, d4]
    exact r1

/-- **C16** (part: law 67, laws 61 and 67 among several and multiplicity zero in the centre of mass
frame are missing). A DLW block built from reactions gives back distribution, multiplicity and frame of
each. -/
theorem C16_built_partial (sort : StdSort EquiEnergy.incident) (rs : List Reaction)
    (es : List EnergyData) (ms : List Mult) (he : rs.mapM (fun r => r.dist.build sort) = .ok es)
    (hm : rs.mapM (fun r => r.mult.build) = .ok ms) (hok : ∀ r ∈ rs, r.Ok sort)
    (hf : FitsN (dlwLength es ms + 101)) :
    ∃ d, DLW.mk' es ms (rs.map (·.frame)) = .ok d ∧ d.xss.length = dlwLength es ms ∧
      DlwGives sort rs d := by
  obtain ⟨d, h1, h2, h3, _⟩ := dlw_facts sort rs es ms he hm hok hf
  exact ⟨d, h1, h2, h3⟩

/-- **C16** (same part). Its words, whatever follows, read with any TYR block that agrees with the
derived one on these reactions, give back the same. -/
theorem C16_read_partial (sort : StdSort EquiEnergy.incident) (rs : List Reaction)
    (es : List EnergyData) (ms : List Mult) (he : rs.mapM (fun r => r.dist.build sort) = .ok es)
    (hm : rs.mapM (fun r => r.mult.build) = .ok ms) (hok : ∀ r ∈ rs, r.Ok sort)
    (hf : FitsN (dlwLength es ms + 101)) (d : DLW) (hd : DLW.mk' es ms (rs.map (·.frame)) = .ok d)
    (t : TYR) (ht : TyrAgree d.nr t d.tyr) (rest : Words) (data : Nat) (hdata : d.nr ≤ data) :
    ∃ d', DLW.ofRange (d.xss ++ rest) data t d.nr = .ok d' ∧ DlwGives sort rs d' := by
  obtain ⟨d1, h1, _, _, h3⟩ := dlw_facts sort rs es ms he hm hok hf
  rw [hd] at h1; injection h1 with h1; subst h1
  exact h3 t rest data hdata ht

/-- Different numbers of distributions, multiplicities and frames are refused. -/
theorem C16_mismatch (es : List EnergyData) (ms : List Mult) (fs : List Frame)
    (h : es.length ≠ ms.length) : DLW.mk' es ms fs = .error .thrown := by
  have : (es.length == ms.length) = false := by simpa using h
  simp [DLW.mk', DLW.generateXSS, this]

/-- A block never reports an integer multiplicity above 100: larger integers are taken for the
position of a table. -/
theorem C16_threshold (xs : Words) (nr : Nat) (t : TYR) (d : DLW)
    (h : DLW.generateBlocks xs nr t = .ok d) (n : Nat) (hn : Mult.int n ∈ d.multiplicities) : n ≤ 100 := by
  unfold DLW.generateBlocks at h
  obtain ⟨l, hl, h⟩ := bind_eq_ok.mp h
  obtain ⟨fs, _, h⟩ := bind_eq_ok.mp h
  injection h with h; subst h
  obtain ⟨⟨e, m⟩, hmem, hme⟩ := List.mem_map.mp hn
  simp only at hme; subst hme
  obtain ⟨hlen, hget⟩ := mapM_ok_iff _ _ _ hl
  obtain ⟨k, hk, hke⟩ := List.getElem_of_mem hmem
  have := hget k (by omega) hk
  rw [hke] at this
  unfold DLW.generateBlock at this
  simp only [bind_eq_ok] at this
  obtain ⟨_, _, _, _, _, _, _, _, _, _, _, _, m, hm, this⟩ := this
  injection this with this
  injection this with _ this; subst this
  unfold DLW.multOf at hm
  obtain ⟨q, _, hm⟩ := bind_eq_ok.mp hm
  split at hm
  · obtain ⟨_, _, hm⟩ := bind_eq_ok.mp hm
    obtain ⟨_, _, hm⟩ := bind_eq_ok.mp hm
    obtain ⟨_, _, hm⟩ := bind_eq_ok.mp hm
    injection hm with hm; cases hm
  · injection hm with hm; injection hm with hm; omega

/-! ## What is not given back -/

theorem readLaw_tail (locator : Nat) (xs : Words) (law : Int) (out : EnergyData)
    (h : (do
      let idat ← toSize (← deref xs 2).round?
      let nr ← toSize (← deref xs 3).round?
      let ne ← toSize (← deref xs (3 + 2 * nr + 1)).round?
      let emin ← deref xs (3 + 2 * nr + 1 + 1)
      let emax ← deref xs (3 + 2 * nr + 1 + ne)
      let start ← if idat < locator then .error .ub else .ok (idat - locator)
      return .law (← LawData.read law idat (← sub xs start xs.length) emin emax) : Res EnergyData) =
      .ok out) :
    ∃ idat ys emin emax e, LawData.read law idat ys emin emax = .ok e ∧ .ok (.law e) = (.ok out : Res _) := by
  simp only [bind_eq_ok] at h
  obtain ⟨_, _, idat, _, _, _, nr, _, _, _, ne, _, emin, _, emax, _, h⟩ := h
  split at h
  · simp only [error_bind] at h; cases h
  · simp only [ok_bind, bind_eq_ok] at h
    obtain ⟨ys, _, e, he, h⟩ := h
    exact ⟨idat, ys, emin, emax, e, he, h⟩

/-- A law 67 is never given back: it is written under number 61. -/
theorem C16_law67 (d d' : Law67) (locator : Nat) (ws rest : Words)
    (h : (EnergyData.law (.angleEnergy d)).placed locator = .ok ws) :
    EnergyData.read locator (ws ++ rest) ≠ .ok (.law (.angleEnergy d')) := by
  intro hr
  unfold EnergyData.placed at h
  simp only [bind_eq_ok] at h
  obtain ⟨a, _, b, _, w, _, h⟩ := h
  injection h with h; subst h
  unfold EnergyData.read at hr
  simp only [bind_eq_ok] at hr
  obtain ⟨x, hx, l, hl, hr⟩ := hr
  have : x = Dbl.ofNat 0 := by injection hx with hx; exact hx.symm
  subst this
  have e0 : toU32 (Dbl.ofNat 0).round? = .ok 0 := by rw [Dbl.round?_ofNat]; rfl
  have : l = 0 := by rw [e0] at hl; injection hl with hl; exact hl.symm
  subst this
  rw [if_pos rfl] at hr
  unfold EnergyData.readLaw at hr
  obtain ⟨x, hx, hr⟩ := bind_eq_ok.mp hr
  have : x = Dbl.ofInt 61 := by
    simp only [List.cons_append, deref, List.getElem?_cons_succ, List.getElem?_cons_zero] at hx
    exact (Except.ok.inj hx).symm
  subst this
  have e1 : toShort (Dbl.ofInt 61).round? = .ok 61 := by rw [Dbl.round?_ofInt]; rfl
  rw [e1, ok_bind] at hr
  have hr := readLaw_tail _ _ _ _ hr
  obtain ⟨idat, ys, a, b, e, he, hr⟩ := hr
  injection hr with hr; injection hr with hr; subst hr
  simp only [LawData.read, reduceIte, Int.reduceEq, bind_eq_ok] at he
  obtain ⟨y, _, he⟩ := he
  injection he with he; cases he

/-- One law with its probability table comes back as a plain law, without the table. -/
theorem C16_one_of_several (p : TabulatedData) (l : LawData) (locb : Nat) (m m' : MultiData)
    (h : MultiData.mk' [p] [l] locb = .ok m) (rest : Words) :
    EnergyData.read locb (m.xss ++ rest) ≠ .ok (.multi m') := by
  intro hr
  unfold MultiData.mk' at h
  obtain ⟨xs, hx, h⟩ := bind_eq_ok.mp h
  have hd : m.xss = xs := by
    unfold MultiData.generateBlocks at h
    obtain ⟨_, _, h⟩ := bind_eq_ok.mp h
    injection h with h; rw [← h]
  unfold MultiData.generateXSS at hx
  obtain ⟨_, _, hx⟩ := bind_eq_ok.mp hx
  simp only [List.zip_cons_cons, List.zip_nil_left] at hx
  unfold MultiData.loop at hx
  obtain ⟨ws, _, hx⟩ := bind_eq_ok.mp hx
  unfold MultiData.loop at hx
  injection hx with hx
  have h0 : deref (m.xss ++ rest) 0 = .ok (Dbl.ofNat 0) := by
    rw [hd, ← hx]; rfl
  unfold EnergyData.read at hr
  have e : toU32 (Dbl.ofNat 0).round? = .ok 0 := rfl
  rw [h0, ok_bind, e, ok_bind, if_pos rfl] at hr
  unfold EnergyData.readLaw at hr
  obtain ⟨_, _, hr⟩ := bind_eq_ok.mp hr
  obtain ⟨_, _, hr⟩ := bind_eq_ok.mp hr
  obtain ⟨_, _, _, _, _, _, hr⟩ := readLaw_tail _ _ _ _ hr
  injection hr with hr; cases hr

/-- A multiplicity of exactly 100 after the first reaction: the end of the reaction before it is then
taken in front of the data. -/
theorem C16_hundred (xs : Words) (nr : Nat) (t : TYR) (i : Nat) (hi : i + 1 < nr) (hn : FitsN nr)
    (ht : t.multiplicity (i + 2) = .ok 100) (locator : Nat)
    (hL : Base.IXSS xs (i + 1) = .ok (locator : Int)) (d : DLW) : DLW.generateBlocks xs nr t ≠ .ok d := by
  intro h
  unfold DLW.generateBlocks at h
  obtain ⟨l, hl, h⟩ := bind_eq_ok.mp h
  obtain ⟨hlen, hget⟩ := mapM_ok_iff _ _ _ hl
  rw [List.length_range] at hlen
  have := hget i (by simp; omega) (by omega)
  rw [List.getElem_range] at this
  unfold DLW.generateBlock at this
  simp only [bind_eq_ok] at this
  obtain ⟨loc, hloc, _, hg, left, hleft, right, hright, ys, hys, _⟩ := this
  unfold DLW.rightOf at hright
  rw [if_neg (by omega), show i + 1 + 1 = i + 2 from rfl, ht, ok_bind, if_neg (by omega)] at hright
  have h1 : right = nr - 1 := by
    unfold Base.iterator Base.verifyIndex at hright
    split at hright
    · cases hright
    · injection hright with hright; omega
  have h2 : nr ≤ left := by
    unfold Base.iterator Base.verifyIndex at hleft
    split at hleft
    · cases hleft
    · next hc =>
      injection hleft with hleft
      unfold DLW.LDLWof at hloc
      rw [if_neg (by omega), hL] at hloc
      injection hloc with hloc; subst hloc
      have hf : FitsN locator := by
        unfold Base.IXSS at hL
        obtain ⟨x, _, hL⟩ := bind_eq_ok.mp hL
        unfold toInt32 at hL
        split at hL
        · split at hL
          · next hh =>
            injection hL with hL; subst hL
            unfold FitsN; omega
          · cases hL
        · cases hL
      have h0 : locator ≠ 0 := by
        have := guardThrow_eq_ok.mp hg
        intro hz; subst hz
        simp at this
      unfold FitsN at hf hn
      have : sizeOfInt ((nr : Int) + 1 + (locator : Int) - 1) = nr + locator := by
        unfold sizeOfInt; omega
      omega
  have := (sub_eq_ok hys).1
  omega

/-! ## A case -/

/-- A level law with multiplicity 2, several laws with a tabulated multiplicity, a photon. -/
def dlwExample : List Reaction :=
  [⟨.one (.level (Dbl.ofNat 1) (Dbl.ofNat 20) (Dbl.ofNat 3) (Dbl.ofNat 4)), .int 2, .centreOfMass⟩,
   ⟨.several multiExample 100, .tab [] [] [Dbl.ofNat 1, Dbl.ofNat 20] [Dbl.ofNat 2, Dbl.ofNat 3],
     .laboratory⟩,
   ⟨.one (.photon (Dbl.ofNat 1) (Dbl.ofNat 20) 0 (Dbl.ofNat 4)), .int 0, .laboratory⟩]

theorem multiExample_ok : multiExample.Ok := by
  refine ⟨fun a ha => ?_, by decide⟩
  simp only [multiExample, List.mem_cons, List.not_mem_nil, or_false] at ha
  rcases ha with rfl | rfl
  · exact ⟨⟨rfl, rfl, by decide, by decide⟩, by decide, trivial, by decide⟩
  · exact ⟨⟨rfl, rfl, by decide, by decide⟩, by decide, trivial, by decide⟩
theorem multiExample_fits : ∃ ps ds, multiExample.Fits (sortBy _) 100 ps ds := by
  refine ⟨_, _, rfl, rfl, fun k h1 h2 => ?_, by decide +kernel⟩
  have hk : k = 0 ∨ k = 1 := by have : k < 2 := h1; omega
  rcases hk with rfl | rfl
  · exact (by decide +kernel : FitsN (0 + 2 + 1))
  · exact (by decide +kernel : FitsN (0 + 7 + 1))

example : ∀ r ∈ dlwExample, r.Ok (sortBy _) := by
  intro r hr
  simp only [dlwExample, List.mem_cons, List.not_mem_nil, or_false] at hr
  rcases hr with rfl | rfl | rfl
  · refine ⟨⟨trivial, trivial, by decide⟩, fun d hd => ?_, by decide, by decide⟩
    injection hd with hd; subst hd; exact (by decide : FitsN (0 + 2 + 1))
  · exact ⟨⟨multiExample_ok, by decide⟩, multiExample_fits, by decide, by decide⟩
  · refine ⟨⟨show (0 : Nat) < _ by decide, trivial, by decide⟩, fun d hd => ?_, by decide, by decide⟩
    injection hd with hd; subst hd; exact (by decide : FitsN (0 + 2 + 1))
example : (do
    let es ← dlwExample.mapM (fun r => r.dist.build (sortBy _))
    let ms ← dlwExample.mapM (fun r => r.mult.build)
    let d ← DLW.mk' es ms (dlwExample.map (·.frame))
    return ([dlwLength es ms, d.xss.length], [← d.LDLW 1, ← d.LDLW 2, ← d.LDLW 3], d.tyr.xss)) =
    (.ok ([58, 58], [1, 18, 45], [Dbl.ofInt (-2), Dbl.ofNat 112, Dbl.ofNat 0]) :
      Res (List Nat × List Int × Words)) := by decide +kernel

/-- The hypotheses of `C16_mismatch` and `C16_hundred`: two reactions, the second one with multiplicity 100. -/
example := C16_mismatch [.undefined] [] [] (by decide)
example := C16_hundred [Dbl.ofNat 1, Dbl.ofNat 12, Dbl.ofNat 0] 2 ⟨[Dbl.ofNat 1, Dbl.ofNat 100], 2,
  [.laboratory, .laboratory], [1, 100]⟩ 0 (by decide) (by decide) (by decide) 1 (by decide)

end ACE.Props

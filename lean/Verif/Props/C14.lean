import Verif.Lemmas.Angular
import Verif.Props.C12

/-!
# C14: angular distribution data

A distribution is specified by what it was built from (`AngSpec`). `AngularGives d locb vs` says
that the data `d` hold the distributions `vs` in that order for base locator `locb`.
-/

namespace ACE.Props
open ACE

/-- What an angular distribution is built from. -/
inductive AngSpec where
  | iso (e : Dbl)
  | equi (e : Dbl) (cosines : Words)
  | tab (e : Dbl) (int : Int) (cosines pdf cdf : Words)

namespace AngSpec
/-- The incident energy. -/
def energy : AngSpec → Dbl
  | iso e => e
  | equi e _ => e
  | tab e _ _ _ _ => e
/-- The kind of distribution. -/
def type : AngSpec → AngType
  | iso _ => .isotropic
  | equi _ _ => .equiprobable
  | tab _ _ _ _ _ => .tabulated
/-- The number of words it takes in the data. -/
def size : AngSpec → Nat
  | iso _ => 0
  | equi _ cs => cs.length
  | tab _ _ cs _ _ => 2 + 3 * cs.length
/-- Sign of its locator: isotropic ones have none. -/
def sign : AngSpec → Int
  | iso _ => 0
  | equi _ _ => 1
  | tab _ _ _ _ _ => -1
/-- The constructors. -/
def build : AngSpec → Res AngDist
  | iso e => .ok (.iso e)
  | equi e cs => do return .equi (← EquiAngular.mk' e cs)
  | tab e int cs p c => do return .tab (← TabDist.mkAngular e int cs p c)
/-- What the distribution must return. -/
def Gives : AngSpec → AngDist → Prop
  | iso e, d => d = .iso e
  | equi e cs, d => ∃ x, d = .equi x ∧ x.energy = e ∧ x.cosines = .ok (cs.take 33)
  | tab e int cs p c, d => ∃ x, d = .tab x ∧ x.value = e ∧ GivesDistribution x.dist int cs p c []
/-- Integers are in the range of `int`. -/
def InRange : AngSpec → Prop
  | tab _ int _ _ _ => Fits int
  | _ => True
end AngSpec

/-- Words before distribution `k`. -/
def angBefore (vs : List AngSpec) (k : Nat) : Nat :=
  1 + 2 * vs.length + ((vs.take k).map AngSpec.size).sum

structure AngularGives (d : AngularData) (locb : Nat) (vs : List AngSpec) : Prop where
  count : d.NE = .ok vs.length
  energies : d.incidentEnergies = .ok (vs.map AngSpec.energy)
  energy : ∀ (k : Nat) (hk : k < vs.length), d.incidentEnergy (k + 1) = .ok vs[k].energy
  locator : ∀ (k : Nat) (hk : k < vs.length),
    d.LOCC (k + 1) = .ok (vs[k].sign * (locb + angBefore vs k : Nat))
  relative : ∀ (k : Nat) (hk : k < vs.length), d.relativeDistributionLocator (k + 1) =
    .ok (if vs[k].sign = 0 then 0 else angBefore vs k + 1)
  type : ∀ (k : Nat) (hk : k < vs.length), d.distributionType (k + 1) = .ok vs[k].type
  distribution : ∀ (k : Nat) (hk : k < vs.length),
    ∃ x, d.distribution (k + 1) = .ok x ∧ vs[k].Gives x
  refused : ∀ k, k = 0 ∨ vs.length < k → d.incidentEnergy k = .error .range ∧
    d.LOCC k = .error .range ∧ d.relativeDistributionLocator k = .error .range ∧
    d.distributionType k = .error .range ∧ d.distribution k = .error .range

/-! ## Reading the words -/

/-- The distribution with words `t` after its own. -/
def angExt (t : Words) : AngDist → AngDist
  | .iso e => .iso e
  | .equi d => .equi ⟨d.energy, d.xss ++ t⟩
  | .tab d => .tab ⟨d.value, ⟨d.xss ++ t⟩⟩

theorem angExt_nil (d : AngDist) : angExt [] d = d := by
  cases d <;> simp [angExt, TabDist.xss]

/-- The reading constructors accept the words, whatever follows. -/
def AngReadable : AngDist → Prop
  | .iso _ => True
  | .equi d => 33 ≤ d.xss.length
  | .tab d => d.xss ≠ [] ∧ ∀ t, TabDist.ofRange d.value (d.xss ++ t) = .ok ⟨d.value, ⟨d.xss ++ t⟩⟩

/-- Sign of the locator of a distribution. -/
def angSign : AngDist → Int
  | .iso _ => 0
  | .equi _ => 1
  | .tab _ => -1

theorem locator_eq (n : Nat) (d : AngDist) : d.locator n = Dbl.ofInt (angSign d * n) := by
  cases d with
  | iso e => simp [AngDist.locator, angSign, Dbl.ofNat]
  | equi d => simp [AngDist.locator, angSign, Dbl.ofNat]
  | tab d =>
    have e : angSign (.tab d) * (n : Int) = -(n : Int) := by simp [angSign]
    rw [e]; rfl

/-- The fields of the data. -/
abbrev angVals (locb : Nat) (ds : List AngDist) : ColumnData :=
  ⟨ColumnData.words ds.length [ds.map (·.energy),
    AngularData.locs (locb + (1 + 2 * ds.length)) ds], 2⟩

/-- Words before distribution `k`, from the words. -/
def angStart (ds : List AngDist) (k : Nat) : Nat := 1 + 2 * ds.length + startOf (ds.map (·.words)) k

theorem angVals_holds (locb : Nat) (ds : List AngDist) (hf : FitsN ds.length) :
    ColumnData.Holds (angVals locb ds) ds.length
      [ds.map (·.energy), AngularData.locs (locb + (1 + 2 * ds.length)) ds] :=
  ⟨by simp, hf, [], by simp⟩

theorem ang_verify (locb : Nat) (ds : List AngDist) (hf : FitsN ds.length) (k : Nat) :
    AngularData.verifyIndexOf (angVals locb ds) k =
      if k < 1 ∨ k > ds.length then .error .range else .ok () := by
  unfold AngularData.verifyIndexOf
  rw [(angVals_holds locb ds hf).N]; rfl

theorem ang_verify_ok (locb : Nat) (ds : List AngDist) (hf : FitsN ds.length) (k : Nat)
    (hk : k < ds.length) : AngularData.verifyIndexOf (angVals locb ds) (k + 1) = .ok () := by
  rw [ang_verify locb ds hf, if_neg (by omega)]

theorem ang_energy (locb : Nat) (ds : List AngDist) (hf : FitsN ds.length) (k : Nat)
    (hk : k < ds.length) :
    AngularData.incidentEnergyOf (angVals locb ds) (k + 1) = .ok ds[k].energy := by
  unfold AngularData.incidentEnergyOf
  rw [ang_verify_ok locb ds hf k hk, ok_bind]
  have := (angVals_holds locb ds hf).value 0 k (by simp) (by simpa using hk)
  simpa using this

theorem ang_locc (locb : Nat) (ds : List AngDist) (k : Nat)
    (hk : k < ds.length) (hf : FitsN (locb + angStart ds ds.length + 1)) :
    AngularData.LOCCof (angVals locb ds) (k + 1) =
      .ok (angSign ds[k] * ((locb + angStart ds k : Nat) : Int)) := by
  have hle := startOf_le (ds.map (·.words)) k
  have hl : startOf (ds.map (·.words)) ds.length = (ds.map (·.words)).flatten.length := by
    have := startOf_length (ds.map (·.words)); simpa using this
  unfold angStart at hf ⊢
  rw [hl] at hf
  have hn : FitsN ds.length := by omega
  unfold AngularData.LOCCof
  rw [ang_verify_ok locb ds hn k hk, ok_bind]
  have := (angVals_holds locb ds hn).value 1 k (by simp) (by simpa using hk)
  simp only [List.getElem_cons_succ, List.getElem_cons_zero] at this
  rw [this, ok_bind, AngularData.locs_getElem _ _ _ hk, locator_eq, Dbl.trunc?_ofInt, Nat.add_assoc]
  refine toInt32_some ?_
  unfold Fits
  generalize hm : locb + (1 + 2 * ds.length + startOf (List.map (fun x => x.words) ds) k) = m
  have : m < 2147483648 := by omega
  cases ds[k] <;> simp [angSign] <;> omega

theorem ang_type (locb : Nat) (ds : List AngDist) (k : Nat)
    (hk : k < ds.length) (hf : FitsN (locb + angStart ds ds.length + 1)) :
    AngularData.typeOf (angVals locb ds) (k + 1) =
      .ok (match ds[k] with | .iso _ => .isotropic | .equi _ => .equiprobable | .tab _ => .tabulated) := by
  unfold AngularData.typeOf
  rw [ang_locc locb ds k hk hf, ok_bind]
  have hp : 0 < locb + angStart ds k := by unfold angStart; omega
  generalize locb + angStart ds k = m at hp ⊢
  cases ds[k] with
  | iso e => rw [if_pos (by simp [angSign])]; rfl
  | equi d => rw [if_neg (by simp [angSign]; omega), if_neg (by simp [angSign])]; rfl
  | tab d => rw [if_neg (by simp [angSign]; omega), if_pos (by simp [angSign]; omega)]; rfl

theorem ang_rel (locb : Nat) (ds : List AngDist) (k : Nat)
    (hk : k < ds.length) (hf : FitsN (locb + angStart ds ds.length + 1)) :
    AngularData.relativeOf (angVals locb ds) locb (k + 1) =
      .ok (if angSign ds[k] = 0 then 0 else angStart ds k + 1) := by
  unfold AngularData.relativeOf
  rw [ang_locc locb ds k hk hf, ok_bind]
  have hle := startOf_le (ds.map (·.words)) k
  have hl : startOf (ds.map (·.words)) ds.length = (ds.map (·.words)).flatten.length := by
    have := startOf_length (ds.map (·.words)); simpa using this
  have hp : 0 < angStart ds k := by unfold angStart; omega
  have hm : locb + angStart ds k + 1 < 2147483648 := by unfold angStart at hf ⊢; omega
  generalize angStart ds k = m at hp hm ⊢
  cases ds[k] with
  | iso e => rw [if_pos (by simp [angSign])]; rfl
  | equi d =>
    have e1 : (if angSign (.equi d) = 0 then 0 else m + 1) = m + 1 := if_neg (by simp [angSign])
    have es : angSign (.equi d) * ((locb + m : Nat) : Int) = ((locb + m : Nat) : Int) := by
      simp [angSign]
    rw [e1, es]
    have hb : (locb + m : Nat) < 2147483648 := by omega
    have h0 : 0 < locb + m := by omega
    rw [if_neg (by omega), if_neg (by omega)]
    have e : (((((locb + m : Nat) : Int)).natAbs : Int) - locb + 1) = ((m + 1 : Nat) : Int) := by
      rw [Int.natAbs_natCast]; omega
    rw [e, sizeOfInt_natCast (show m + 1 < 2147483648 by omega)]
    rfl
  | tab d =>
    have e1 : (if angSign (.tab d) = 0 then 0 else m + 1) = m + 1 := if_neg (by simp [angSign])
    have es : angSign (.tab d) * ((locb + m : Nat) : Int) = -((locb + m : Nat) : Int) := by
      simp [angSign]
    rw [e1, es]
    have hb : (locb + m : Nat) < 2147483648 := by omega
    have h0 : 0 < locb + m := by omega
    rw [if_neg (by omega), if_neg (by omega)]
    have e : (((-((locb + m : Nat) : Int)).natAbs : Int) - locb + 1) = ((m + 1 : Nat) : Int) := by
      rw [Int.natAbs_neg, Int.natAbs_natCast]; omega
    rw [e, sizeOfInt_natCast (show m + 1 < 2147483648 by omega)]
    rfl

theorem words_nil_iff (d : AngDist) (h : AngReadable d) : d.words = [] ↔ angSign d = 0 := by
  cases d with
  | iso e => simp [AngDist.words, angSign]
  | equi d =>
    simp only [AngDist.words, angSign, AngReadable] at h ⊢
    constructor
    · intro hc; rw [hc] at h; simp at h
    · intro hc; simp at hc
  | tab d => simp [AngDist.words, angSign, h.1]

/-- Words of angular distribution data are read back. -/
theorem ang_read (locb : Nat) (ds : List AngDist) (rest : Words)
    (hr : ∀ d ∈ ds, AngReadable d) (hf : FitsN (locb + angStart ds ds.length + 1)) :
    ∃ ds' : List AngDist, ds'.length = ds.length ∧
      (∀ (k : Nat) (h1 : k < ds.length) (h2 : k < ds'.length),
        ds'[k] = angExt (tailOf (ds.map (·.words)) rest k) ds[k]) ∧
      AngularData.generateBlocks (AngularData.wordsOf locb ds ++ rest) locb =
        .ok ⟨AngularData.wordsOf locb ds ++ rest, locb, angVals locb ds, ds'⟩ ∧
      AngularData.ofRange locb (AngularData.wordsOf locb ds ++ rest) =
        .ok ⟨AngularData.wordsOf locb ds ++ rest, locb, angVals locb ds, ds'⟩ := by
  have hl : startOf (ds.map (·.words)) ds.length = (ds.map (·.words)).flatten.length := by
    have := startOf_length (ds.map (·.words)); simpa using this
  have hn : FitsN ds.length := by unfold angStart at hf; omega
  have hH := angVals_holds locb ds hn
  have hhead := AngularData.head_length locb ds
  obtain ⟨ds', hl', hd'⟩ := exists_list ds.length
    (fun k d => ∀ h : k < ds.length, d = angExt (tailOf (ds.map (·.words)) rest k) ds[k])
    (fun k hk => ⟨angExt (tailOf (ds.map (·.words)) rest k) ds[k], fun _ => rfl⟩)
  have hx : AngularData.wordsOf locb ds ++ rest =
      (angVals locb ds).xss ++ (ds.map (·.words)).flatten ++ rest := rfl
  have hgb : AngularData.generateBlocks (AngularData.wordsOf locb ds ++ rest) locb =
        .ok ⟨AngularData.wordsOf locb ds ++ rest, locb, angVals locb ds, ds'⟩ := by
    unfold AngularData.generateBlocks
    have i1 : Base.IXSS (AngularData.wordsOf locb ds ++ rest) 1 = .ok (ds.length : Int) :=
      Base.IXSS_ofNat (a := []) (by rw [hx]; rfl) (by simp) hn
    have hxl := AngularData.wordsOf_length locb ds
    rw [i1, ok_bind]
    simp only [sizeOfInt_natCast hn]
    rw [Base.iterator_ok (by omega) (by rw [List.length_append]; omega), ok_bind]
    have s1 : sub (AngularData.wordsOf locb ds ++ rest) 0 (2 * ds.length + 2 - 1) =
        .ok (angVals locb ds).xss :=
      sub_of_eq (a := []) (c := (ds.map (·.words)).flatten ++ rest) (by rw [hx]; simp) rfl
        (by simp only [hhead, List.length_nil]; omega)
    rw [s1, ok_bind]
    have r1 := ColumnData.ofRange_ok [ds.map (·.energy),
      AngularData.locs (locb + (1 + 2 * ds.length)) ds] ds.length 2 [] rfl (by simp) hn
    rw [List.append_nil] at r1
    rw [r1, ok_bind]
    have hN : ColumnData.N ⟨ColumnData.words ds.length [ds.map (·.energy),
      AngularData.locs (locb + (1 + 2 * ds.length)) ds], 2⟩ = .ok ds.length := hH.N
    rw [hN, ok_bind]
    have hm : (List.range ds.length).mapM
        (AngularData.generateBlock (AngularData.wordsOf locb ds ++ rest) (angVals locb ds) locb
          ds.length) = .ok ds' := by
      refine mapM_range_eq _ ds' _ hl'.symm (fun k hk => ?_)
      have hk' : k < ds.length := by omega
      rw [hd' k hk hk']
      have hle := startOf_le (ds.map (·.words)) k
      have hle1 := startOf_le (ds.map (·.words)) (k + 1)
      unfold AngularData.generateBlock
      simp only []
      rw [ang_type locb ds k hk' hf, ok_bind, ang_energy locb ds hn k hk', ok_bind]
      by_cases hiso : angSign ds[k] = 0
      · cases hdk : ds[k] with
        | iso e => rfl
        | equi d => rw [hdk] at hiso; simp [angSign] at hiso
        | tab d => rw [hdk] at hiso; simp [angSign] at hiso
      · have hrk := hr _ (List.getElem_mem hk')
        have hwne : ds[k].words ≠ [] := fun hc => hiso ((words_nil_iff _ hrk).mp hc)
        have hrel := ang_rel locb ds k hk' hf
        rw [if_neg hiso] at hrel
        have hfn := findNext_flagged (AngularData.relIntOf (angVals locb ds) locb)
          (ds.map (·.words)) (1 + 2 * ds.length) 1 k (by simpa using hk') (by simpa using hwne)
          (fun j hj => by
            have hj' : j < ds.length := by simpa using hj
            refine ⟨if angSign ds[j] = 0 then 0 else angStart ds j + 1, ?_, ?_, ?_⟩
            · unfold AngularData.relIntOf
              rw [ang_rel locb ds j hj' hf, ok_bind]; rfl
            · intro hc
              rw [List.getElem_map] at hc
              rw [if_pos ((words_nil_iff _ (hr _ (List.getElem_mem hj'))).mp hc)]
              omega
            · intro hc
              rw [List.getElem_map] at hc
              rw [if_neg (fun h => hc ((words_nil_iff _ (hr _ (List.getElem_mem hj'))).mpr h))]
              rfl)
        have hsub := sub_flagged (angVals locb ds).xss rest (ds.map (·.words)) k (by simpa using hk')
        rw [← hx, List.getElem_map, hhead] at hsub
        have e0 : ds.length - (k + 1) = (ds.map (·.words)).length - (k + 1) := by simp
        have hloc : ((angStart ds k + 1 : Nat) : Int) =
            ((1 + 2 * ds.length + startOf (ds.map (·.words)) k + 1 : Nat) : Int) := rfl
        have hit : Base.iterator (AngularData.wordsOf locb ds ++ rest) (angStart ds k + 1) =
            .ok (angStart ds k) :=
          Base.iterator_ok (by omega) (by rw [List.length_append, hxl]; unfold angStart; omega)
        have hcut : rangeEnd (AngularData.wordsOf locb ds ++ rest)
            (if startOf (ds.map (·.words)) (k + 1) = (ds.map (·.words)).flatten.length then none
              else some ((1 + 2 * ds.length + startOf (ds.map (·.words)) (k + 1) + 1 : Nat) : Int)) =
            .ok (if startOf (ds.map (·.words)) (k + 1) = (ds.map (·.words)).flatten.length
              then (AngularData.wordsOf locb ds ++ rest).length
              else 1 + 2 * ds.length + startOf (ds.map (·.words)) (k + 1)) := by
          by_cases hlast : startOf (ds.map (·.words)) (k + 1) = (ds.map (·.words)).flatten.length
          · rw [if_pos hlast, if_pos hlast]; rfl
          · rw [if_neg hlast, if_neg hlast]
            unfold rangeEnd
            simp only []
            rw [Int.toNat_natCast, Base.iterator_ok (by omega)
              (by rw [List.length_append, hxl]; omega)]
            rfl
        rw [hrel]
        cases hdk : ds[k] with
        | iso e => rw [hdk] at hiso; simp [angSign] at hiso
        | equi d =>
          simp only []
          rw [if_neg (by simp), ok_bind, hit, ok_bind, e0, hloc, hfn, ok_bind, hcut, ok_bind]
          have hu : angStart ds k = 1 + 2 * ds.length + startOf (ds.map (·.words)) k := rfl
          rw [if_neg (by simp), hu, hsub, ok_bind, hdk]
          rw [hdk] at hrk
          have : ¬ (d.xss ++ tailOf (ds.map (·.words)) rest k).length < 33 := by
            rw [List.length_append]
            unfold AngReadable at hrk; omega
          have e' : (AngDist.equi d).words = d.xss := rfl
          unfold EquiAngular.mk'
          rw [e']
          simp only [this, decide_false, Bool.not_false, guardThrow_true, ok_bind, pure_eq_ok]
          rfl
        | tab d =>
          simp only []
          rw [if_neg (by simp), ok_bind, hit, ok_bind, e0, hloc, hfn, ok_bind, hcut, ok_bind]
          have hu : angStart ds k = 1 + 2 * ds.length + startOf (ds.map (·.words)) k := rfl
          rw [if_pos trivial, hu, hsub, ok_bind, hdk]
          rw [hdk] at hrk
          have e : (AngDist.tab d).energy = d.value := rfl
          have e' : (AngDist.tab d).words = d.xss := rfl
          rw [e, e', hrk.2]
          rfl
    rw [hm]; rfl
  refine ⟨ds', hl', fun k h1 h2 => hd' k h2 h1, hgb, ?_⟩
  unfold AngularData.ofRange
  rw [hgb, ok_bind]
  simp only []
  rw [hH.N, ok_bind, guardThrow_not_lt (by rw [List.length_append, AngularData.wordsOf_length]; omega)]
  rfl

/-- Built distributions are readable. -/
theorem build_readable {v : AngSpec} {d : AngDist} (h : v.build = .ok d) (hr : v.InRange)
    (hf : FitsN v.size) :
    AngReadable d ∧ d.energy = v.energy ∧ d.words.length = v.size ∧ angSign d = v.sign ∧
      ∀ t, v.Gives (angExt t d) := by
  cases v with
  | iso e =>
    injection h with h; subst h
    exact ⟨trivial, rfl, rfl, rfl, fun t => rfl⟩
  | equi e cs =>
    obtain ⟨x, hx, h⟩ := bind_eq_ok.mp h
    injection h with h; subst h
    obtain ⟨u, hu, hx⟩ := bind_eq_ok.mp hx
    injection hx with hx; subst hx
    rw [guardThrow_eq_ok] at hu
    have h33 : 33 ≤ cs.length := by simpa using hu
    refine ⟨h33, rfl, rfl, rfl, fun t => ⟨_, rfl, rfl, ?_⟩⟩
    have hsplit : cs ++ t = [] ++ cs.take 33 ++ (cs.drop 33 ++ t) := by
      rw [List.nil_append, ← List.append_assoc, List.take_append_drop]
    exact Base.XSSr_of_eq hsplit (by simp) (by rw [List.length_take]; omega)
  | tab e int cs p c =>
    obtain ⟨x, hx, h⟩ := bind_eq_ok.mp h
    injection h with h; subst h
    have hcs : FitsN cs.length := by
      have e : (AngSpec.tab e int cs p c).size = 2 + 3 * cs.length := rfl
      rw [e] at hf; omega
    have hrd : ∀ t, ∃ d', TabDist.ofRange e (x.xss ++ t) = .ok d' ∧ d'.value = e ∧
        GivesDistribution d'.dist int cs p c [] := fun t =>
      (C08_angular e int cs p c x hr hcs hx t).2
    have hv := (C08_angular e int cs p c x hr hcs hx []).1.1
    have hlen : x.xss.length = 2 + 3 * cs.length := by
      obtain ⟨t, ht, hx⟩ := bind_eq_ok.mp hx
      injection hx with hx; subst hx
      by_cases hall : ∀ y ∈ [p, c], y.length = cs.length
      · have hall' : ∀ y ∈ [cs, p, c], y.length = cs.length := by
          intro y hy
          rcases List.mem_cons.mp hy with rfl | hy
          · rfl
          · exact hall y hy
        rw [TabProb.mk'_ok int cs p c [] cs.length hall'] at ht
        injection ht with ht; subst ht
        exact TabProb.words_length int cs.length [cs, p, c] hall'
      · rw [TabProb.mk'_error int cs p c [] hall] at ht; cases ht
    have hext : ∀ t, TabDist.ofRange x.value (x.xss ++ t) = .ok ⟨x.value, ⟨x.xss ++ t⟩⟩ ∧
        GivesDistribution ⟨x.xss ++ t⟩ int cs p c [] := by
      intro t
      obtain ⟨d', h1, h2, h3⟩ := hrd t
      have := tabDist_ofRange_eq h1
      subst this
      rw [hv]
      exact ⟨h1, h3⟩
    refine ⟨⟨?_, fun t => (hext t).1⟩, hv, hlen, rfl, fun t => ⟨_, rfl, hv, (hext t).2⟩⟩
    intro hc; rw [hc] at hlen; simp at hlen; omega

/-- A permutation of built distributions is built from a permutation of the specifications. -/
theorem perm_build {order ds : List AngDist} (hp : order.Perm ds) :
    ∀ {vs : List AngSpec}, vs.mapM AngSpec.build = .ok ds →
      ∃ ovs : List AngSpec, ovs.Perm vs ∧ ovs.mapM AngSpec.build = .ok order := by
  induction hp with
  | nil => intro vs h; exact ⟨vs, .refl _, h⟩
  | cons x _ ih =>
    intro vs h
    cases vs with
    | nil => injection h with h; cases h
    | cons v vs =>
      rw [List.mapM_cons] at h
      obtain ⟨b, hb, h⟩ := bind_eq_ok.mp h
      obtain ⟨cs, hcs, h⟩ := bind_eq_ok.mp h
      injection h with h
      injection h with h1 h2
      subst h1 h2
      obtain ⟨o, ho, hm⟩ := ih hcs
      exact ⟨v :: o, ho.cons v, by rw [List.mapM_cons, hb, ok_bind, hm]; rfl⟩
  | swap x y l =>
    intro vs h
    cases vs with
    | nil => injection h with h; cases h
    | cons v vs =>
      rw [List.mapM_cons] at h
      obtain ⟨b, hb, h⟩ := bind_eq_ok.mp h
      obtain ⟨cs, hcs, h⟩ := bind_eq_ok.mp h
      injection h with h
      injection h with h1 h2
      subst h1
      cases vs with
      | nil => injection hcs with h; subst h; cases h2
      | cons w vs =>
        rw [List.mapM_cons] at hcs
        obtain ⟨b', hb', hcs⟩ := bind_eq_ok.mp hcs
        obtain ⟨cs', hcs', hcs⟩ := bind_eq_ok.mp hcs
        injection hcs with h
        subst h
        injection h2 with h2 h3
        subst h2 h3
        exact ⟨w :: v :: vs, .swap v w vs, by
          rw [List.mapM_cons, hb', ok_bind, List.mapM_cons, hb, ok_bind, hcs']; rfl⟩
  | trans _ _ ih1 ih2 =>
    intro vs h
    obtain ⟨o, ho, hm⟩ := ih2 h
    obtain ⟨o', ho', hm'⟩ := ih1 hm
    exact ⟨o', ho'.trans ho, hm'⟩

theorem build_energies {vs : List AngSpec} {ds : List AngDist} (h : vs.mapM AngSpec.build = .ok ds) :
    vs.map AngSpec.energy = ds.map AngDist.energy := by
  obtain ⟨hl, hb⟩ := mapM_ok_iff _ vs ds h
  refine List.ext_getElem (by simp [hl]) (fun k h1 h2 => ?_)
  rw [List.getElem_map, List.getElem_map]
  have h1' : k < vs.length := by simpa using h1
  have h2' : k < ds.length := by simpa using h2
  have := hb k h1' h2'
  generalize vs[k] = v at this ⊢
  generalize ds[k] = d at this ⊢
  cases v with
  | iso e => injection this with h; subst h; rfl
  | equi e cs =>
    obtain ⟨x, hx, h⟩ := bind_eq_ok.mp this
    injection h with h; subst h
    obtain ⟨u, hu, hx⟩ := bind_eq_ok.mp hx
    injection hx with hx; subst hx
    rfl
  | tab e int cs p c =>
    obtain ⟨x, hx, h⟩ := bind_eq_ok.mp this
    injection h with h; subst h
    obtain ⟨t, ht, hx⟩ := bind_eq_ok.mp hx
    injection hx with hx; subst hx
    rfl

theorem le_sum_of_mem {l : List Nat} {n : Nat} (h : n ∈ l) : n ≤ l.sum := by
  induction l with
  | nil => simp at h
  | cons a l ih =>
    rw [List.sum_cons]
    rcases List.mem_cons.mp h with rfl | h
    · omega
    · have := ih h; omega

/-- Facts about a list of built distributions. -/
theorem build_list {vs : List AngSpec} {ds : List AngDist} (h : vs.mapM AngSpec.build = .ok ds)
    (hr : ∀ v ∈ vs, v.InRange) (hf : FitsN (vs.map AngSpec.size).sum) :
    (∀ d ∈ ds, AngReadable d) ∧ (∀ k, angStart ds k = angBefore vs k) ∧
    ∀ (k : Nat) (h1 : k < vs.length) (h2 : k < ds.length), angSign ds[k] = vs[k].sign ∧
      ds[k].energy = vs[k].energy ∧ ∀ t, vs[k].Gives (angExt t ds[k]) := by
  obtain ⟨hl, hb⟩ := mapM_ok_iff _ vs ds h
  have hsz : ∀ v ∈ vs, FitsN v.size := by
    intro v hv
    have : v.size ≤ (vs.map AngSpec.size).sum := le_sum_of_mem (List.mem_map_of_mem hv)
    omega
  have hall : ∀ (k : Nat) (h1 : k < vs.length) (h2 : k < ds.length), _ :=
    fun k h1 h2 => build_readable (hb k h1 h2) (hr _ (List.getElem_mem h1)) (hsz _ (List.getElem_mem h1))
  refine ⟨fun d hd => ?_, fun k => ?_, fun k h1 h2 => ?_⟩
  · obtain ⟨k, hk, rfl⟩ := List.getElem_of_mem hd
    exact (hall k (by omega) hk).1
  · unfold angStart angBefore startOf
    rw [hl, List.length_flatten, List.map_take, List.map_take]
    have e : (ds.map (·.words)).map List.length = vs.map AngSpec.size := by
      refine List.ext_getElem (by simp [hl]) (fun j h1 h2 => ?_)
      simp only [List.getElem_map]
      exact (hall j (by simpa using h2) (by simpa using h1)).2.2.1
    rw [e]
  · obtain ⟨_, h4, _, h5, h6⟩ := hall k h1 h2
    exact ⟨h5, h4, h6⟩

theorem ang_gives (locb : Nat) (vs : List AngSpec) (ds ds' : List AngDist) (xss rest : Words)
    (h : vs.mapM AngSpec.build = .ok ds) (hr : ∀ v ∈ vs, v.InRange)
    (hf : FitsN (locb + angBefore vs vs.length + 1)) (hl' : ds'.length = ds.length)
    (hd' : ∀ (k : Nat) (h1 : k < ds.length) (h2 : k < ds'.length),
      ds'[k] = angExt (tailOf (ds.map (·.words)) rest k) ds[k]) :
    AngularGives ⟨xss, locb, angVals locb ds, ds'⟩ locb vs := by
  obtain ⟨hl, _⟩ := mapM_ok_iff _ vs ds h
  have hsum : FitsN (vs.map AngSpec.size).sum := by
    unfold angBefore at hf
    rw [List.take_length] at hf; omega
  obtain ⟨_, h2, h3⟩ := build_list h hr hsum
  have hf' : FitsN (locb + angStart ds ds.length + 1) := by rw [h2, hl]; exact hf
  have hn : FitsN ds.length := by unfold angBefore at hf; omega
  have hH := angVals_holds locb ds hn
  refine ⟨?_, ?_, ?_, ?_, ?_, ?_, ?_, ?_⟩
  · have := hH.N; rw [hl] at this; exact this
  · have := hH.column 0 (by simp)
    rw [build_energies h]
    exact this
  · intro k hk
    rw [← (h3 k hk (by omega)).2.1]
    exact ang_energy locb ds hn k (by omega)
  · intro k hk
    rw [← (h3 k hk (by omega)).1, ← h2]
    exact ang_locc locb ds k (by omega) hf'
  · intro k hk
    rw [← (h3 k hk (by omega)).1, ← h2]
    exact ang_rel locb ds k (by omega) hf'
  · intro k hk
    have ht := ang_type locb ds k (by omega) hf'
    have hs := (h3 k hk (by omega)).1
    have e : (match ds[k]'(by omega) with
        | .iso _ => AngType.isotropic | .equi _ => .equiprobable | .tab _ => .tabulated) =
        vs[k].type := by
      generalize ds[k]'(by omega) = d at hs ⊢
      generalize vs[k] = v at hs ⊢
      cases v <;> cases d <;> simp [angSign, AngSpec.sign] at hs <;> rfl
    rw [e] at ht
    exact ht
  · intro k hk
    refine ⟨ds'[k]'(by omega), ?_, ?_⟩
    · unfold AngularData.distribution
      rw [ang_verify_ok locb ds hn k (by omega), ok_bind]
      simp [List.getElem?_eq_getElem (show k < ds'.length by omega)]
    · rw [hd' k (by omega) (by omega)]
      exact (h3 k hk (by omega)).2.2 _
  · intro k hk
    have hv := ang_verify locb ds hn k
    rw [if_pos (by omega)] at hv
    unfold AngularData.incidentEnergy AngularData.LOCC AngularData.relativeDistributionLocator
      AngularData.distributionType AngularData.distribution AngularData.incidentEnergyOf
      AngularData.relativeOf AngularData.typeOf AngularData.LOCCof
    simp only [hv, error_bind, and_self]

theorem sum_perm {vs ws : List AngSpec} (h : vs.Perm ws) :
    (vs.map AngSpec.size).sum = (ws.map AngSpec.size).sum := (h.map _).sum_nat

/-- The order in which a sorting function puts the distributions. -/
theorem ang_order (sort : StdSort AngDist.energy) (vs : List AngSpec) (ds : List AngDist)
    (hb : vs.mapM AngSpec.build = .ok ds) (hnan : ∀ v ∈ vs, v.energy ≠ .nan) :
    ∃ ovs, IsSort AngSpec.energy vs ovs ∧ ovs.mapM AngSpec.build = .ok (sort.run ds) := by
  have hnan' : ∀ x ∈ ds, x.energy ≠ .nan := by
    intro x hx
    have : x.energy ∈ ds.map AngDist.energy := List.mem_map_of_mem hx
    rw [← build_energies hb] at this
    obtain ⟨v, hv, he⟩ := List.mem_map.mp this
    rw [← he]; exact hnan v hv
  obtain ⟨hperm, hsorted⟩ := sort.spec ds hnan'
  obtain ⟨ovs, hop, hom⟩ := perm_build hperm hb
  refine ⟨ovs, ⟨hop, ?_⟩, hom⟩
  have e := build_energies hom
  have hs : ((sort.run ds).map AngDist.energy).Pairwise (fun a b => b.lt a = false) :=
    List.pairwise_map.mpr hsorted
  rw [← e] at hs
  exact List.pairwise_map.mp hs

theorem angBefore_perm {vs ovs : List AngSpec} (h : ovs.Perm vs) :
    angBefore ovs ovs.length = angBefore vs vs.length := by
  unfold angBefore
  rw [List.take_length, List.take_length, sum_perm h, h.length_eq]

/-- The full result for distributions in the order `ovs`. -/
theorem ang_mk (sort : StdSort AngDist.energy) (ovs : List AngSpec) (ds : List AngDist) (locb : Nat)
    (hom : ovs.mapM AngSpec.build = .ok (sort.run ds)) (hr : ∀ v ∈ ovs, v.InRange)
    (hf : FitsN (locb + angBefore ovs ovs.length + 1)) :
    AngularData.mk' sort ds locb = .ok ⟨AngularData.wordsOf locb (sort.run ds), locb,
        angVals locb (sort.run ds), sort.run ds⟩ ∧
      (AngularData.wordsOf locb (sort.run ds)).length = angBefore ovs ovs.length ∧
      AngularGives ⟨AngularData.wordsOf locb (sort.run ds), locb,
        angVals locb (sort.run ds), sort.run ds⟩ locb ovs ∧
      ∀ rest, ∃ r, AngularData.ofRange locb (AngularData.wordsOf locb (sort.run ds) ++ rest) =
        .ok r ∧ AngularGives r locb ovs := by
  have hsum : FitsN (ovs.map AngSpec.size).sum := by
    unfold angBefore at hf
    rw [List.take_length] at hf; omega
  obtain ⟨h1, h2, h3⟩ := build_list hom hr hsum
  have hl := (mapM_ok_iff _ ovs _ hom).1
  have hf2 : FitsN (locb + angStart (sort.run ds) (sort.run ds).length + 1) := by
    rw [h2, hl]; exact hf
  refine ⟨?_, ?_, ?_, ?_⟩
  · obtain ⟨ds', g1, g2, g3, _⟩ := ang_read locb (sort.run ds) [] h1 hf2
    have e : ds' = sort.run ds := by
      refine List.ext_getElem g1 (fun k a b => ?_)
      rw [g2 k b a]
      have : tailOf ((sort.run ds).map (·.words)) [] k = [] := by unfold tailOf; split <;> rfl
      rw [this, angExt_nil]
    rw [e, List.append_nil] at g3
    unfold AngularData.mk'
    rw [AngularData.generateXSS_eq, g3]
  · rw [AngularData.wordsOf_length, ← hl, ← h2]
    unfold angStart
    have := startOf_length ((sort.run ds).map (·.words))
    rw [List.length_map] at this
    rw [this]
  · refine ang_gives locb ovs (sort.run ds) (sort.run ds) _ [] hom hr hf rfl (fun k a b => ?_)
    have : tailOf ((sort.run ds).map (·.words)) [] k = [] := by unfold tailOf; split <;> rfl
    rw [this, angExt_nil]
  · intro rest
    obtain ⟨ds', g1, g2, _, g4⟩ := ang_read locb (sort.run ds) rest h1 hf2
    exact ⟨_, g4, ang_gives locb ovs (sort.run ds) ds' _ rest hom hr hf g1 g2⟩

/-- Angular distribution data made from distributions in any order hold them by increasing
incident energy, for any base locator, directly and when their words are read back with anything
behind them; the sorting function may be any. -/
theorem C14_roundtrip (sort : StdSort AngDist.energy) (vs : List AngSpec) (ds : List AngDist)
    (locb : Nat) (hb : vs.mapM AngSpec.build = .ok ds) (hr : ∀ v ∈ vs, v.InRange)
    (hnan : ∀ v ∈ vs, v.energy ≠ .nan) (hf : FitsN (locb + angBefore vs vs.length + 1)) :
    ∃ d sorted, AngularData.mk' sort ds locb = .ok d ∧ IsSort AngSpec.energy vs sorted ∧
      AngularGives d locb sorted ∧
      ∀ rest, ∃ r, AngularData.ofRange locb (d.xss ++ rest) = .ok r ∧
        AngularGives r locb sorted := by
  obtain ⟨ovs, hs, hom⟩ := ang_order sort vs ds hb hnan
  obtain ⟨h4, _, h5, h6⟩ := ang_mk sort ovs ds locb hom (fun v hv => hr v (hs.1.mem_iff.mp hv))
    (by rw [angBefore_perm hs.1]; exact hf)
  exact ⟨_, ovs, h4, hs, h5, h6⟩

/-- Fewer than 33 cosines are refused. -/
theorem C14_refused (e : Dbl) (cs : Words) :
    ((∃ d, (AngSpec.equi e cs).build = .ok d) ↔ 33 ≤ cs.length) ∧
    (cs.length < 33 → EquiAngular.mk' e cs = .error .thrown) := by
  constructor
  · constructor
    · rintro ⟨d, hd⟩
      obtain ⟨x, hx, _⟩ := bind_eq_ok.mp hd
      obtain ⟨u, hu, _⟩ := bind_eq_ok.mp hx
      rw [guardThrow_eq_ok] at hu
      simpa using hu
    · intro h
      have : ¬ cs.length < 33 := by omega
      exact ⟨.equi ⟨e, cs⟩, by simp [AngSpec.build, EquiAngular.mk', this]⟩
  · intro h
    simp [EquiAngular.mk', h]

-- three kinds, given in the wrong order
example : ∃ (vs : List AngSpec) (ds : List AngDist), vs.mapM AngSpec.build = .ok ds ∧
    vs.length = 3 ∧ (∀ v ∈ vs, v.InRange) ∧ (∀ v ∈ vs, v.energy ≠ .nan) ∧
    FitsN (7 + angBefore vs vs.length + 1) ∧
    ∃ d, AngularData.mk' (sortBy _) ds 7 = .ok d ∧ d.xss.length = 48 ∧
      d.incidentEnergies = .ok [Dbl.ofNat 1, Dbl.ofNat 2, Dbl.ofNat 3] ∧
      d.LOCC 2 = .ok 14 ∧ d.LOCC 3 = .ok (-47) ∧ d.LOCC 1 = .ok 0 := by
  let vs : List AngSpec := [.tab (Dbl.ofNat 3) 2 [Dbl.ofNat 0, Dbl.ofNat 1] [Dbl.ofNat 1, Dbl.ofNat 1]
      [Dbl.ofNat 0, Dbl.ofNat 1], .iso (Dbl.ofNat 1), .equi (Dbl.ofNat 2) (List.replicate 33 (Dbl.ofNat 5))]
  refine ⟨vs, _, rfl, rfl, ?_, ?_, by decide, _, by rfl, by decide, by decide, by decide, by decide,
    by decide⟩
  · intro v hv
    simp only [vs, List.mem_cons, List.not_mem_nil, or_false] at hv
    rcases hv with rfl | rfl | rfl <;> simp only [AngSpec.InRange] <;> decide
  · intro v hv
    simp only [vs, List.mem_cons, List.not_mem_nil, or_false] at hv
    rcases hv with rfl | rfl | rfl <;> decide

/-- `C14_roundtrip` with those three distributions. -/
example := C14_roundtrip (sortBy _) [.tab (Dbl.ofNat 3) 2 [Dbl.ofNat 0, Dbl.ofNat 1] [Dbl.ofNat 1, Dbl.ofNat 1]
    [Dbl.ofNat 0, Dbl.ofNat 1], .iso (Dbl.ofNat 1)] _ 7 rfl
  (by intro v hv
      simp only [List.mem_cons, List.not_mem_nil, or_false] at hv
      rcases hv with rfl | rfl <;> simp only [AngSpec.InRange] <;> decide)
  (by intro v hv
      simp only [List.mem_cons, List.not_mem_nil, or_false] at hv
      rcases hv with rfl | rfl <;> exact (nomatch ·)) (by decide)

end ACE.Props

import Verif.Model.Thermal
import Verif.Lemmas.Arrays
import Verif.Lemmas.Lookup

/-!
# C27: thermal inelastic angular distributions (ITXE) round trip in both modes

In the discrete mode (IFENG 0 or 1) an entry is an outgoing energy and its cosines, and every
incident energy has the same number of outgoing energies. With probabilities (IFENG 2) an entry
also has a pdf and a cdf value and the number of outgoing energies is free. All entries of a block
need the same number of cosines, which is not checked (`C27_unequal_cosines`).
-/

namespace ACE.Props
open ACE

/-- Outgoing energy and cosines. -/
abbrev PlainSpec := Dbl × Words
/-- Outgoing energy, pdf, cdf and cosines. -/
abbrev CosProbSpec := Dbl × Dbl × Dbl × Words

/-- The data of an entry are the values given. -/
def IsPlain (v : PlainSpec) : CosData → Prop
  | .plain d => d.energy = .ok v.1 ∧ d.NC = v.2.length ∧ d.cosines = .ok v.2
  | .prob _ => False
/-- The data of an entry are the values given. -/
def IsCosProb (v : CosProbSpec) : CosData → Prop
  | .plain _ => False
  | .prob d => d.energy = .ok v.1 ∧ d.pdf = .ok v.2.1 ∧ d.cdf = .ok v.2.2.1 ∧
      d.NC = v.2.2.2.length ∧ d.cosines = .ok v.2.2.2

/-- What a block gives: mode, numbers of energies and of cosines, dimensioning parameter and all
the entries; every other index is refused. -/
def ItxeGives {V : Type} (b : ITXE) (ifeng nc nil : Nat) (vss : List (List V))
    (P : V → CosData → Prop) : Prop :=
  b.IFENG = ifeng ∧ b.NC = nc ∧ b.NIL = nil ∧ b.NE = vss.length ∧
  (∀ i (h : i < vss.length), b.NIEB (i + 1) = .ok vss[i].length ∧
    (∀ j (g : j < vss[i].length), ∃ d, b.get (i + 1) (j + 1) = .ok d ∧ P vss[i][j] d) ∧
    ∀ j, j < 1 ∨ vss[i].length < j → b.get (i + 1) j = .error .range) ∧
  ∀ i j, i < 1 ∨ vss.length < i → b.get i j = .error .range

theorem itxe_gives {V : Type} (b : ITXE) (ifeng nc nil : Nat) (vss : List (List V))
    (P : V → CosData → Prop) (h1 : b.IFENG = ifeng) (h2 : b.NC = nc) (h3 : b.NIL = nil)
    (h4 : b.ne = vss.length) (h5 : ∀ i (h : i < vss.length), b.NIEB (i + 1) = .ok vss[i].length)
    (h6 : b.data.length = vss.length)
    (h7 : ∀ i (h : i < vss.length) (h' : i < b.data.length), b.data[i].length = vss[i].length ∧
      ∀ j (g : j < vss[i].length) (g' : j < b.data[i].length), P vss[i][j] b.data[i][j]) :
    ItxeGives b ifeng nc nil vss P := by
  refine ⟨h1, h2, h3, h4, fun i h => ⟨h5 i h, fun j g => ?_, fun j g => ?_⟩, fun i j h => ?_⟩
  · have hd := h7 i h (by omega)
    refine ⟨b.data[i][j], ?_, hd.2 j g (by omega)⟩
    unfold ITXE.get ITXE.verifyIndices
    have c1 : ¬ (i + 1 < 1 ∨ i + 1 > b.ne) := by omega
    have c2 : ¬ (j + 1 < 1 ∨ j + 1 > vss[i].length) := by omega
    have e1 : b.data[i]? = some b.data[i] := List.getElem?_eq_getElem (by omega)
    have e2 : b.data[i][j]? = some b.data[i][j] := List.getElem?_eq_getElem (by omega)
    simp only [if_neg c1, h5 i h, ok_bind, if_neg c2, Nat.add_sub_cancel, e1, e2, pure_eq_ok]
  · unfold ITXE.get ITXE.verifyIndices
    have c1 : ¬ (i + 1 < 1 ∨ i + 1 > b.ne) := by omega
    have c2 : j < 1 ∨ j > vss[i].length := by omega
    simp only [if_neg c1, h5 i h, pure_eq_ok, ok_bind, if_pos c2, error_bind]
  · unfold ITXE.get ITXE.verifyIndices
    have c1 : i < 1 ∨ i > b.ne := by omega
    simp only [if_pos c1, error_bind]

/-! ## Discrete cosines -/

/-- The words of an entry. -/
def plainWords (v : PlainSpec) : Words := v.1 :: v.2

theorem plain_mk (v : PlainSpec) : DCos.mk' v.1 v.2 = .ok ⟨plainWords v, v.2.length⟩ := by
  unfold DCos.mk' DCos.ofRange
  rw [guardThrow_not_lt (by simp; omega)]; rfl

theorem mapM_ok {α β : Type} (f : α → Res β) (g : α → β) (h : ∀ a, f a = .ok (g a)) (l : List α) :
    l.mapM f = .ok (l.map g) := by
  induction l with
  | nil => rfl
  | cons a l ih => simp [List.mapM_cons, h, ih]

theorem plain_is (v : PlainSpec) (nc : Nat) (hn : v.2.length = nc) :
    IsPlain v (.plain ⟨plainWords v, nc⟩) := by
  subst hn
  refine ⟨Base.XSS_of_eq (a := []) rfl rfl, rfl, ?_⟩
  exact Base.XSSr_of_eq (a := [v.1]) (c := []) (by simp [plainWords]) rfl rfl

theorem plain_loop (vs : List PlainSpec) (nc : Nat) (hn : ∀ v ∈ vs, v.2.length = nc)
    (pre rest X : Words) (hX : X = pre ++ (vs.map plainWords).flatten ++ rest) :
    ITXE.plainLoop X nc vs.length pre.length =
      .ok (vs.map (fun v => .plain ⟨plainWords v, nc⟩),
        (pre ++ (vs.map plainWords).flatten).length) := by
  induction vs generalizing pre with
  | nil => simp [ITXE.plainLoop]
  | cons v vs ih =>
    have hv := hn v (by simp)
    have i1 := ih (fun x hx => hn x (by simp [hx])) (pre ++ plainWords v) (by rw [hX]; simp)
    have s : sub X pre.length (pre.length + nc + 1) = .ok (plainWords v) :=
      sub_of_eq (a := pre) (c := (vs.map plainWords).flatten ++ rest) (by rw [hX]; simp) rfl
        (by simp [plainWords, hv]; omega)
    have hl : (pre ++ plainWords v).length = pre.length + nc + 1 := by
      simp [plainWords, hv]; omega
    rw [hl] at i1
    have hd : DCos.ofRange nc (plainWords v) = .ok ⟨plainWords v, nc⟩ := by
      unfold DCos.ofRange
      rw [guardThrow_not_lt (by simp [plainWords, hv]; omega)]; rfl
    show ITXE.plainLoop X nc (vs.length + 1) pre.length = _
    unfold ITXE.plainLoop
    simp only [s, hd, i1, ok_bind, pure_eq_ok]
    simp

theorem plain_blocks (vss : List (List PlainSpec)) (nc nieb : Nat)
    (hb : ∀ vs ∈ vss, vs.length = nieb) (hn : ∀ vs ∈ vss, ∀ v ∈ vs, v.2.length = nc)
    (pre rest X : Words)
    (hX : X = pre ++ (vss.map (fun vs => (vs.map plainWords).flatten)).flatten ++ rest) :
    ITXE.plainBlocks X nc nieb vss.length pre.length =
      .ok (vss.map (·.map (fun v => .plain ⟨plainWords v, nc⟩))) := by
  induction vss generalizing pre with
  | nil => simp [ITXE.plainBlocks]
  | cons vs vss ih =>
    have l := plain_loop vs nc (hn vs (by simp)) pre
      ((vss.map (fun vs => (vs.map plainWords).flatten)).flatten ++ rest) X (by rw [hX]; simp)
    rw [hb vs (by simp)] at l
    have i1 := ih (fun x hx => hb x (by simp [hx])) (fun x hx => hn x (by simp [hx]))
      (pre ++ (vs.map plainWords).flatten) (by rw [hX]; simp)
    show ITXE.plainBlocks X nc nieb (vss.length + 1) pre.length = _
    unfold ITXE.plainBlocks
    simp only [l, i1, ok_bind, pure_eq_ok]
    simp

/-- All words of a block. -/
def plainAll (vss : List (List PlainSpec)) : Words :=
  (vss.map (fun vs => (vs.map plainWords).flatten)).flatten

theorem plainAll_length (vss : List (List PlainSpec)) (nc nieb : Nat)
    (hb : ∀ vs ∈ vss, vs.length = nieb) (hn : ∀ vs ∈ vss, ∀ v ∈ vs, v.2.length = nc) :
    (plainAll vss).length = vss.length * nieb * (1 + nc) := by
  unfold plainAll
  rw [length_flatten_const _ (nieb * (1 + nc))]
  · simp [Nat.mul_assoc]
  · intro x hx
    obtain ⟨vs, hv, rfl⟩ := List.mem_map.mp hx
    rw [length_flatten_const _ (1 + nc)]
    · simp [hb vs hv]
    · intro y hy
      obtain ⟨v, hv', rfl⟩ := List.mem_map.mp hy
      simp [plainWords, hn vs hv v hv']; omega

theorem plain_result (vss : List (List PlainSpec)) (skewed : Bool) (nc nieb locb : Nat)
    (hb : ∀ vs ∈ vss, vs.length = nieb) (hn : ∀ vs ∈ vss, ∀ v ∈ vs, v.2.length = nc)
    (hc : FitsN nc) (h1 : 1 ≤ nc) (X : Words) :
    ItxeGives ⟨X, if skewed then 1 else 0, nc, some nieb, vss.length, locb,
        vss.map (·.map (fun v => .plain ⟨plainWords v, nc⟩))⟩
      (if skewed then 1 else 0) nc (nc - 1) vss IsPlain := by
  refine itxe_gives _ _ _ _ _ _ rfl rfl ?_ rfl ?_ (by simp) ?_
  · have : (if skewed = true then 1 else 0) < 2 := by cases skewed <;> simp
    unfold ITXE.NIL
    simp only [if_pos this]
    have e : ((nc : Int) - 1) = ((nc - 1 : Nat) : Int) := by omega
    rw [e, sizeOfInt_natCast (by unfold FitsN at *; omega)]
  · intro i h
    simp [ITXE.NIEB, ITXE.NIEBof, hb vss[i] (List.getElem_mem h)]
  · intro i h h'
    simp only [List.getElem_map, List.length_map, true_and]
    intro j g g'
    exact plain_is _ _ (hn vss[i] (List.getElem_mem h) _ (List.getElem_mem g))

/-- Discrete cosines: a block built from entries with `nc` cosines each and the same number of
outgoing energies for each incident energy gives everything back, directly and from its words
(followed by any others) read with the same numbers, whatever the locators are. -/
theorem C27_discrete_partial (vss : List (List PlainSpec)) (css : List (List DCos)) (skewed : Bool)
    (locb nc nieb : Nat)
    (hm : vss.mapM (fun vs => vs.mapM fun v => DCos.mk' v.1 v.2) = .ok css)
    (hne : vss ≠ []) (h0 : 1 ≤ nieb) (hb : ∀ vs ∈ vss, vs.length = nieb)
    (hn : ∀ vs ∈ vss, ∀ v ∈ vs, v.2.length = nc) (hc : FitsN nc) (h1 : 1 ≤ nc) :
    ∃ b, ITXE.mkPlain css skewed locb = .ok b ∧ b.xss = plainAll vss ∧
      ItxeGives b (if skewed then 1 else 0) nc (nc - 1) vss IsPlain ∧
      ∀ locb' rest, ∃ r, ITXE.ofRange (if skewed then 1 else 0) nieb nc vss.length locb'
          (b.xss ++ rest) = .ok r ∧
        ItxeGives r (if skewed then 1 else 0) nc (nc - 1) vss IsPlain := by
  have hcss : css = vss.map (·.map fun v => ⟨plainWords v, v.2.length⟩) := by
    rw [mapM_ok _ (fun vs => vs.map fun v => ⟨plainWords v, v.2.length⟩)
      (fun vs => mapM_ok _ _ plain_mk vs)] at hm
    injection hm with hm; exact hm.symm
  have hi : (if skewed = true then 1 else 0) < 2 := by cases skewed <;> simp
  have key : ∀ locb' rest, ITXE.generateBlocks (plainAll vss ++ rest) (if skewed then 1 else 0) nc
      (some nieb) vss.length locb' =
        .ok (vss.map (·.map (fun v => .plain ⟨plainWords v, nc⟩))) := by
    intro locb' rest
    have := plain_blocks vss nc nieb hb hn [] rest (plainAll vss ++ rest) rfl
    unfold ITXE.generateBlocks
    rw [if_pos hi, if_neg (by simpa using hne)]
    simpa [ITXE.NIEBof] using this
  refine ⟨⟨plainAll vss, if skewed then 1 else 0, nc, some nieb, vss.length, locb, _⟩, ?_, rfl,
    plain_result vss skewed nc nieb locb hb hn hc h1 _, fun locb' rest => ?_⟩
  · have hx : ITXE.plainXSS css = .ok (plainAll vss) := by
      cases vss with
      | nil => exact absurd rfl hne
      | cons vs vss =>
        subst hcss
        simp only [List.map_cons]
        unfold ITXE.plainXSS
        simp only
        rw [if_pos]
        · simp [plainAll, Function.comp_def]
        · simp only [List.all_cons, List.length_map, beq_self_eq_true, Bool.true_and,
            List.all_eq_true, List.mem_map, beq_iff_eq]
          rintro x ⟨y, hy, rfl⟩
          simp [hb y (by simp [hy]), hb vs (by simp)]
    have k := key locb []
    rw [List.append_nil] at k
    rcases vss with _ | ⟨_ | ⟨v, vs⟩, vss⟩
    · exact absurd rfl hne
    · have := hb [] (by simp)
      simp at this
      omega
    · have hl := hb (v :: vs) (by simp)
      have hv := hn (v :: vs) (by simp) v (by simp)
      subst hcss
      simp only [List.map_cons, hv] at hx ⊢
      unfold ITXE.mkPlain
      simp only [hx, ok_bind, hv, pure_eq_ok, List.length_cons, List.length_map]
      simp only [List.length_cons] at hl k
      rw [hl, k]
      simp [hv]
  · refine ⟨_, ?_, plain_result vss skewed nc nieb locb' hb hn hc h1 (plainAll vss ++ rest)⟩
    unfold ITXE.ofRange ITXE.verifySize
    simp only [if_pos hi]
    rw [guardThrow_not_lt_mod (by simp [plainAll_length vss nc nieb hb hn])]
    simp only [ok_bind, key, pure_eq_ok]

/-- Different numbers of outgoing energies are refused in the discrete mode. -/
theorem C27_discrete_refuses (c : DCos) (cs : List DCos) (css : List (List DCos)) (skewed : Bool)
    (locb : Nat) (h : ∃ x ∈ css, x.length ≠ cs.length + 1) :
    ITXE.mkPlain ((c :: cs) :: css) skewed locb = .error .thrown := by
  unfold ITXE.mkPlain ITXE.plainXSS
  simp only
  rw [if_neg]
  · rfl
  · obtain ⟨x, hx, hl⟩ := h
    intro hall
    simp only [List.all_eq_true, beq_iff_eq] at hall
    exact hl (by simpa using hall x (by simp [hx]))

/-! ## Cosines with probabilities -/

/-- The words of an entry. -/
def probWords (v : CosProbSpec) : Words := v.1 :: v.2.1 :: v.2.2.1 :: v.2.2.2

theorem prob_mk (v : CosProbSpec) : PCos.mk' v.1 v.2.1 v.2.2.1 v.2.2.2 =
    .ok ⟨probWords v, v.2.2.2.length⟩ := by
  unfold PCos.mk' PCos.ofRange
  rw [guardThrow_not_lt (by simp; omega)]; rfl

theorem prob_is (v : CosProbSpec) (nc : Nat) (t : Words) (hn : v.2.2.2.length = nc) :
    IsCosProb v (.prob ⟨probWords v ++ t, nc⟩) := by
  subst hn
  refine ⟨Base.XSS_of_eq (a := []) rfl rfl, Base.XSS_of_eq (a := [v.1]) rfl rfl,
    Base.XSS_of_eq (a := [v.1, v.2.1]) rfl rfl, rfl, ?_⟩
  exact Base.XSSr_of_eq (a := [v.1, v.2.1, v.2.2.1]) (c := t) (by simp [probWords]) rfl rfl

/-- All words of an incident energy. -/
def probAll (vs : List CosProbSpec) : Words := (vs.map probWords).flatten

theorem prob_loop (vs : List CosProbSpec) (nc : Nat) (hn : ∀ v ∈ vs, v.2.2.2.length = nc)
    (pre tail rest X : Words) (hX : X = pre ++ probAll vs ++ tail ++ rest) :
    ∃ ds cur, ITXE.probLoop X nc (pre ++ probAll vs ++ tail).length vs.length pre.length =
        .ok (ds, cur) ∧ ds.length = vs.length ∧
      (tail = [] → cur = (pre ++ probAll vs).length) ∧
      ∀ i (h : i < vs.length) (h' : i < ds.length), IsCosProb vs[i] ds[i] := by
  induction vs generalizing pre with
  | nil => exact ⟨[], pre.length, rfl, rfl, fun _ => by simp [probAll], fun i h => by simp at h⟩
  | cons v vs ih =>
    have hv := hn v (by simp)
    by_cases hl : vs = []
    · subst hl
      have s : sub X pre.length (pre ++ probAll [v] ++ tail).length = .ok (probWords v ++ tail) :=
        sub_of_eq (a := pre) (c := rest) (by rw [hX]; simp [probAll]) rfl
          (by simp [probAll])
      have hd : PCos.ofRange nc (probWords v ++ tail) = .ok ⟨probWords v ++ tail, nc⟩ := by
        unfold PCos.ofRange
        rw [guardThrow_not_lt (by simp [probWords, hv]; omega)]; rfl
      refine ⟨[.prob ⟨probWords v ++ tail, nc⟩], (pre ++ probAll [v] ++ tail).length, ?_, rfl, ?_, ?_⟩
      · show ITXE.probLoop X nc _ (0 + 1) pre.length = _
        unfold ITXE.probLoop
        simp only [if_true, s, hd, ok_bind]
        rfl
      · rintro rfl; simp
      · intro i h h'
        have : i = 0 := by simp at h; omega
        subst this
        exact prob_is v nc tail hv
    · have hlen : vs.length ≠ 0 := by simpa using hl
      obtain ⟨ds, cur, i1, i2, i3, i4⟩ := ih (fun x hx => hn x (by simp [hx])) (pre ++ probWords v)
        (by rw [hX]; simp [probAll])
      have e1 : pre ++ probWords v ++ probAll vs = pre ++ probAll (v :: vs) := by simp [probAll]
      have e2 : (pre ++ probWords v).length = pre.length + nc + 3 := by
        simp [probWords, hv]; omega
      rw [e1, e2] at i1
      rw [e1] at i3
      have s : sub X pre.length (pre.length + nc + 3) = .ok (probWords v) :=
        sub_of_eq (a := pre) (c := probAll vs ++ tail ++ rest) (by rw [hX]; simp [probAll]) rfl
          (by simp [probWords, hv]; omega)
      have hd : PCos.ofRange nc (probWords v) = .ok ⟨probWords v, nc⟩ := by
        unfold PCos.ofRange
        rw [guardThrow_not_lt (by simp [probWords, hv]; omega)]; rfl
      refine ⟨.prob ⟨probWords v, nc⟩ :: ds, cur, ?_, by simp [i2], i3, ?_⟩
      · show ITXE.probLoop X nc _ (vs.length + 1) pre.length = _
        unfold ITXE.probLoop
        simp only [if_neg hlen, s, hd, i1, ok_bind, pure_eq_ok]
      · intro i h h'
        cases i with
        | zero =>
          have := prob_is v nc [] hv
          simpa using this
        | succ i => exact i4 i (by simpa using h) (by simpa using h')

/-- All the data words of a block. -/
def probBody (vss : List (List CosProbSpec)) : Words := (vss.map probAll).flatten

/-- The locators: the position of the first word of the data of each incident energy, minus one,
with respect to a base location. -/
def probLocs (locb : Nat) (start : Nat) : List (List CosProbSpec) → Words
  | [] => []
  | vs :: vss => Dbl.ofNat (start + locb - 1) ::
      probLocs locb (start + (probAll vs).length) vss

/-- The words of a block. -/
def itxeWords (locb : Nat) (vss : List (List CosProbSpec)) : Words :=
  probLocs locb (2 * vss.length) vss ++ vss.map (fun vs => Dbl.ofNat vs.length) ++ probBody vss

theorem probLocs_length (locb start : Nat) (vss : List (List CosProbSpec)) :
    (probLocs locb start vss).length = vss.length := by
  induction vss generalizing start with
  | nil => rfl
  | cons vs vss ih => simp [probLocs, ih]

theorem probLocs_get (locb start : Nat) (vss : List (List CosProbSpec)) (i : Nat)
    (h : i < (probLocs locb start vss).length) :
    (probLocs locb start vss)[i] =
      Dbl.ofNat (start + (probBody (vss.take i)).length + locb - 1) := by
  induction vss generalizing start i with
  | nil => simp [probLocs] at h
  | cons vs vss ih =>
    cases i with
    | zero => simp [probLocs, probBody]
    | succ i =>
      simp only [probLocs, List.getElem_cons_succ]
      rw [ih]
      simp [probBody, Nat.add_assoc]

theorem probLoopXSS_spec (size locb : Nat) (vss : List (List CosProbSpec)) (locs nums body : Words) :
    ITXE.probLoopXSS size locb (vss.map (·.map fun v => ⟨probWords v, v.2.2.2.length⟩)) locs nums
      body =
    (locs ++ probLocs locb (2 * size + body.length) vss) ++
      (nums ++ vss.map (fun vs => Dbl.ofNat vs.length)) ++ (body ++ probBody vss) := by
  induction vss generalizing locs nums body with
  | nil => simp [ITXE.probLoopXSS, probLocs, probBody]
  | cons vs vss ih =>
    simp only [List.map_cons, ITXE.probLoopXSS, ih]
    have e : 2 * size + body.length + 1 + locb - 1 - 1 = 2 * size + body.length + locb - 1 := by
      omega
    rw [e]
    simp [probLocs, probBody, probAll, Function.comp_def, Nat.add_assoc]

theorem prob_blocks (vss all : List (List CosProbSpec)) (done : List (List CosProbSpec)) (nc locb : Nat)
    (hall : all = done ++ vss) (hn : ∀ vs ∈ all, ∀ v ∈ vs, v.2.2.2.length = nc)
    (hdr rest X : Words) (hX : X = hdr ++ probBody all ++ rest)
    (hloc : ∀ i (h : i < all.length), ITXE.relLocator X locb (i + 1) =
      .ok ((hdr ++ probBody (all.take i)).length + 1))
    (hlast : ∃ l, ITXE.relLocator X locb (all.length + 1) = .ok l)
    (hcnt : ∀ i (h : i < all.length), ITXE.NIEBof X none all.length (i + 1) = .ok all[i].length) :
    ∃ dss, ITXE.probBlocks X nc all.length locb vss.length (done.length + 1)
        (hdr ++ probBody done).length = .ok dss ∧ dss.length = vss.length ∧
      ∀ i (h : i < vss.length) (h' : i < dss.length), dss[i].length = vss[i].length ∧
        ∀ j (g : j < vss[i].length) (g' : j < dss[i].length), IsCosProb vss[i][j] dss[i][j] := by
  induction vss generalizing done with
  | nil => exact ⟨[], rfl, rfl, fun i h => by simp at h⟩
  | cons vs vss ih =>
    have hlen : done.length < all.length := by rw [hall]; simp
    have hget : all[done.length] = vs := by simp [hall]
    have hc := hcnt done.length hlen
    rw [hget] at hc
    have htake : all.take (done.length + 1) = done ++ [vs] := by
      rw [hall]
      simp [List.take_append, List.take_of_length_le]
    have hbody : probBody all = probBody done ++ probAll vs ++ probBody vss := by
      rw [hall]; simp [probBody]
    obtain ⟨dss, i1, i2, i3⟩ := ih (done ++ [vs]) (by rw [hall]; simp)
    have hdl : (done ++ [vs]).length = done.length + 1 := by simp
    rw [hdl] at i1
    by_cases hl : vss = []
    · subst hl
      obtain ⟨l, hl⟩ := hlast
      have e : done.length + 1 = all.length := by rw [hall]; simp
      obtain ⟨ds, cur, l1, l2, _, l4⟩ := prob_loop vs nc (hn vs (by rw [hall]; simp))
        (hdr ++ probBody done) rest [] X (by rw [hX, hbody]; simp [probBody])
      have hend : (hdr ++ probBody done ++ probAll vs ++ rest).length = X.length := by
        rw [hX, hbody]; simp [probBody]
      rw [hend] at l1
      refine ⟨[ds], ?_, rfl, ?_⟩
      · show ITXE.probBlocks X nc all.length locb (0 + 1) (done.length + 1) _ = _
        unfold ITXE.probBlocks
        have hnx : ITXE.nextOf X all.length (done.length + 1) l = .ok X.length := by
          unfold ITXE.nextOf; rw [if_pos e]
        rw [e] at hc hnx ⊢
        simp only [hl, hc, hnx, l1, ok_bind]
        rfl
      · intro i h h'
        have : i = 0 := by simp at h; omega
        subst this
        exact ⟨l2, fun j g g' => l4 j g g'⟩
    · have hlt : done.length + 1 < all.length := by
        rw [hall]
        have : 0 < vss.length := List.length_pos_iff.mpr hl
        simp; omega
      have hr := hloc (done.length + 1) hlt
      rw [htake] at hr
      obtain ⟨ds, cur, l1, l2, l3, l4⟩ := prob_loop vs nc (hn vs (by rw [hall]; simp))
        (hdr ++ probBody done) [] (probBody vss ++ rest) X (by rw [hX, hbody]; simp)
      have l3 := l3 rfl
      have hb2 : probBody (done ++ [vs]) = probBody done ++ probAll vs := by simp [probBody]
      rw [List.append_nil, List.append_assoc, ← hb2] at l1 
      rw [List.append_assoc, ← hb2] at l3
      subst l3
      have hit : Base.iterator X ((hdr ++ probBody (done ++ [vs])).length + 1) =
          .ok (hdr ++ probBody (done ++ [vs])).length := by
        refine Base.iterator_ok (by omega) ?_
        rw [hX, hbody, hb2]; simp
      have hnx : ITXE.nextOf X all.length (done.length + 1)
          ((hdr ++ probBody (done ++ [vs])).length + 1) =
          .ok (hdr ++ probBody (done ++ [vs])).length := by
        unfold ITXE.nextOf
        rw [if_neg (by omega), hit]
      refine ⟨ds :: dss, ?_, by simp [i2], ?_⟩
      · show ITXE.probBlocks X nc all.length locb (vss.length + 1) (done.length + 1) _ = _
        unfold ITXE.probBlocks
        simp only [hr, hc, hnx, l1, i1, ok_bind, pure_eq_ok]
      · intro i h h'
        cases i with
        | zero => exact ⟨l2, fun j g g' => l4 j g g'⟩
        | succ i => exact i3 i (by simpa using h) (by simpa using h')

theorem prob_read (vss : List (List CosProbSpec)) (nc locb : Nat) (hne : vss ≠ []) (h1 : 1 ≤ locb)
    (hn : ∀ vs ∈ vss, ∀ v ∈ vs, v.2.2.2.length = nc)
    (hf : FitsN ((itxeWords locb vss).length + locb)) (hcnt : ∀ vs ∈ vss, FitsN (vs.length + 1))
    (hc : FitsN (nc + 1)) (rest : Words) :
    ∃ dss, ITXE.generateBlocks (itxeWords locb vss ++ rest) 2 nc none vss.length locb = .ok dss ∧
      ItxeGives ⟨itxeWords locb vss ++ rest, 2, nc, none, vss.length, locb, dss⟩ 2 nc (nc + 1) vss
        IsCosProb := by
  have hlocs := probLocs_length locb (2 * vss.length) vss
  have hpos : 0 < vss.length := List.length_pos_iff.mpr hne
  have hwl : (itxeWords locb vss).length = 2 * vss.length + (probBody vss).length := by
    simp [itxeWords, hlocs]; omega
  generalize hX : itxeWords locb vss ++ rest = X
  have hIl : ∀ i (h : i < vss.length), Base.IXSS X (i + 1) =
      .ok ((2 * vss.length + (probBody (vss.take i)).length + locb - 1 : Nat) : Int) := by
    intro i h
    obtain ⟨p, q, hpq, hp⟩ := getElem_split (probLocs locb (2 * vss.length) vss) i (by omega)
    rw [probLocs_get] at hpq
    have hle : (probBody (vss.take i)).length ≤ (probBody vss).length := by
      have : probBody vss = probBody (vss.take i) ++ probBody (vss.drop i) := by
        unfold probBody
        rw [← List.flatten_append, ← List.map_append, List.take_append_drop]
      rw [this]; simp
    refine Base.IXSS_ofNat (a := p)
      (c := q ++ (vss.map (fun vs => Dbl.ofNat vs.length) ++ (probBody vss ++ rest))) ?_ (by omega)
      (by unfold FitsN at *; omega)
    rw [← hX]
    unfold itxeWords
    rw [hpq]; simp
  have hIc : ∀ i (h : i < vss.length), Base.IXSS X (vss.length + (i + 1)) =
      .ok (vss[i].length : Int) := by
    intro i h
    obtain ⟨p, q, hpq, hp⟩ := getElem_split (vss.map (fun vs => Dbl.ofNat vs.length)) i (by simpa using h)
    refine Base.IXSS_ofNat (a := probLocs locb (2 * vss.length) vss ++ p)
      (c := q ++ (probBody vss ++ rest)) ?_ (by simp; omega)
      (by have := hcnt vss[i] (List.getElem_mem h); unfold FitsN at *; omega)
    rw [← hX]
    unfold itxeWords
    rw [hpq]; simp
  have hrel : ∀ i (h : i < vss.length), ITXE.relLocator X locb (i + 1) =
      .ok (2 * vss.length + (probBody (vss.take i)).length + 1) := by
    intro i h
    have hle : (probBody (vss.take i)).length ≤ (probBody vss).length := by
      have : probBody vss = probBody (vss.take i) ++ probBody (vss.drop i) := by
        unfold probBody
        rw [← List.flatten_append, ← List.map_append, List.take_append_drop]
      rw [this]; simp
    unfold ITXE.relLocator
    rw [hIl i h, ok_bind]
    have e : ((2 * vss.length + (probBody (vss.take i)).length + locb - 1 : Nat) : Int) + 1 =
        ((2 * vss.length + (probBody (vss.take i)).length + locb : Nat) : Int) := by omega
    rw [e, toInt32_some (FitsN.fits (by unfold FitsN at *; omega)), ok_bind]
    have e2 : ((2 * vss.length + (probBody (vss.take i)).length + locb : Nat) : Int) -
        ((locb : Int) - 1) = ((2 * vss.length + (probBody (vss.take i)).length + 1 : Nat) : Int) := by
      omega
    rw [e2, sizeOfInt_natCast (by unfold FitsN at *; omega)]
    rfl
  have hC : ∀ i (h : i < vss.length), ITXE.NIEBof X none vss.length (i + 1) =
      .ok vss[i].length := by
    intro i h
    unfold ITXE.NIEBof
    have c : ¬ (i + 1 < 1 ∨ i + 1 > vss.length) := by omega
    have := hcnt vss[i] (List.getElem_mem h)
    simp only [if_neg c, pure_eq_ok, ok_bind, hIc i h,
      sizeOfInt_natCast (n := vss[i].length) (by unfold FitsN at *; omega)]
  obtain ⟨dss, d1, d2, d3⟩ := prob_blocks vss vss [] nc locb (by simp) hn
    (probLocs locb (2 * vss.length) vss ++ vss.map (fun vs => Dbl.ofNat vs.length)) rest X
    (by rw [← hX]; simp [itxeWords])
    (fun i h => by rw [hrel i h]; simp [hlocs]; omega)
    (by
      unfold ITXE.relLocator
      have := hIc 0 hpos
      rw [Nat.zero_add] at this
      have hc0 := hcnt vss[0] (List.getElem_mem hpos)
      have e : (vss[0].length : Int) + (1 : Int) = ((vss[0].length + 1 : Nat) : Int) := by omega
      rw [this, ok_bind, e, toInt32_some (FitsN.fits hc0), ok_bind]
      exact ⟨_, rfl⟩)
    hC
  have h0 := hrel 0 hpos
  simp only [List.take_zero, Nat.zero_add] at h0
  have hb0 : (probBody ([] : List (List CosProbSpec))).length = 0 := rfl
  rw [hb0] at h0
  have hhdr : (probLocs locb (2 * vss.length) vss ++
      vss.map (fun vs => Dbl.ofNat vs.length)).length = 2 * vss.length := by
    simp [hlocs]; omega
  rw [List.length_append, hhdr, hb0] at d1
  refine ⟨dss, ?_, ?_⟩
  · unfold ITXE.generateBlocks
    rw [if_neg (by omega), h0, ok_bind, Base.iterator_ok (by omega) (by rw [← hX]; simp; omega), ok_bind]
    exact d1
  · refine itxe_gives _ _ _ _ _ _ rfl rfl ?_ rfl hC (by simpa using d2) d3
    unfold ITXE.NIL
    simp only
    have e : ((nc : Int) + 1) = ((nc + 1 : Nat) : Int) := by omega
    rw [if_neg (by omega), e, sizeOfInt_natCast hc]

/-- Cosines with probabilities: a block built for a base location gives everything back, directly
and from its words (followed by any others) read at the same base location; its words are
`itxeWords`, in which locator `i` is the base location plus the position of the data of incident
energy `i`, minus one. -/
theorem C27_probability_partial (vss : List (List CosProbSpec)) (css : List (List PCos)) (locb nc : Nat)
    (hm : vss.mapM (fun vs => vs.mapM fun v => PCos.mk' v.1 v.2.1 v.2.2.1 v.2.2.2) = .ok css)
    (vs0 : List CosProbSpec) (v0 : CosProbSpec) (hhead : vss.head? = some (v0 :: vs0)) (h1 : 1 ≤ locb)
    (hn : ∀ vs ∈ vss, ∀ v ∈ vs, v.2.2.2.length = nc)
    (hf : FitsN ((itxeWords locb vss).length + locb)) (hcnt : ∀ vs ∈ vss, FitsN (vs.length + 1))
    (hc : FitsN (nc + 1)) :
    ∃ b, ITXE.mkProb css locb = .ok b ∧ b.xss = itxeWords locb vss ∧
      ItxeGives b 2 nc (nc + 1) vss IsCosProb ∧
      ∀ nieb rest, ∃ r, ITXE.ofRange 2 nieb nc vss.length locb (b.xss ++ rest) = .ok r ∧
        ItxeGives r 2 nc (nc + 1) vss IsCosProb := by
  have hne : vss ≠ [] := by rintro rfl; simp at hhead
  have hcss : css = vss.map (·.map fun v => ⟨probWords v, v.2.2.2.length⟩) := by
    rw [mapM_ok _ (fun vs => vs.map fun v => ⟨probWords v, v.2.2.2.length⟩)
      (fun vs => mapM_ok _ _ prob_mk vs)] at hm
    injection hm with hm; exact hm.symm
  have hx : ITXE.probXSS css locb = itxeWords locb vss := by
    unfold ITXE.probXSS
    rw [hcss, probLoopXSS_spec]
    simp [itxeWords]
  obtain ⟨dss, d1, d2⟩ := prob_read vss nc locb hne h1 hn hf hcnt hc []
  rw [List.append_nil] at d1 d2
  refine ⟨_, ?_, rfl, d2, fun nieb rest => ?_⟩
  · rcases vss with _ | ⟨_ | ⟨v, vs⟩, vss⟩
    · exact absurd rfl hne
    · simp at hhead
    · have hv := hn (v :: vs) (by simp) v (by simp)
      subst hcss
      simp only [List.map_cons, hv] at hx ⊢
      unfold ITXE.mkProb
      simp only [hx, pure_eq_ok, List.length_cons, List.length_map]
      simp only [List.length_cons] at d1
      rw [d1]
      rfl
  · obtain ⟨ess, e1, e2⟩ := prob_read vss nc locb hne h1 hn hf hcnt hc rest
    refine ⟨_, ?_, e2⟩
    unfold ITXE.ofRange ITXE.verifySize
    simp only [show ¬ (2 < 2) by omega, if_false, ok_bind, e1, pure_eq_ok]

/-- The k-th locator of a block is the base location plus the position of its data, minus one. -/
theorem C27_locators (locb : Nat) (vss : List (List CosProbSpec)) (i : Nat) (h : i < vss.length) :
    (itxeWords locb vss)[i]? =
      some (Dbl.ofNat (2 * vss.length + (probBody (vss.take i)).length + locb - 1)) := by
  have hl := probLocs_length locb (2 * vss.length) vss
  unfold itxeWords
  rw [List.append_assoc, List.getElem?_append_left (by omega),
    List.getElem?_eq_getElem (by omega), probLocs_get]

/-! ## Where the property fails -/

/-- Entries with different numbers of cosines are accepted, and given back wrongly: the first entry
of the second incident energy (energy 3, cosines 4, 5) comes back with energy 5. -/
theorem C27_unequal_cosines :
    (do let a ← DCos.mk' (Dbl.ofNat 1) [Dbl.ofNat 2]
        let c ← DCos.mk' (Dbl.ofNat 3) [Dbl.ofNat 4, Dbl.ofNat 5]
        let b ← ITXE.mkPlain [[a, c], [c, a]] false 1
        match ← b.get 2 1 with
        | .plain d => return ((← c.energy), (← d.energy))
        | .prob _ => .error .thrown) = .ok (Dbl.ofNat 3, Dbl.ofNat 5) := by decide

/-- A block without any entry is undefined behaviour. -/
theorem C27_empty (locb : Nat) (skewed : Bool) :
    ITXE.mkPlain [] skewed locb = .error .ub ∧ ITXE.mkProb [] locb = .error .ub ∧
    ITXE.mkPlain [[]] skewed locb = .error .ub ∧ ITXE.mkProb [[]] locb = .error .ub :=
  ⟨rfl, rfl, rfl, rfl⟩

-- concrete cases: two incident energies, base location 10
example : (do
    let a ← PCos.mk' (Dbl.ofNat 1) (Dbl.ofNat 2) (Dbl.ofNat 3) [Dbl.ofNat 4]
    let c ← PCos.mk' (Dbl.ofNat 5) (Dbl.ofNat 6) (Dbl.ofNat 7) [Dbl.ofNat 8]
    let b ← ITXE.mkProb [[a, c], [], [c]] 10
    let r ← ITXE.ofRange 2 0 1 3 10 (b.xss ++ [Dbl.ofNat 99])
    match ← r.get 1 2, ← r.get 3 1 with
    | .prob d, .prob e => return ((← d.energy), (← e.cosines), (← b.NIEB 2), b.xss[1]?)
    | _, _ => .error .thrown) =
    .ok (Dbl.ofNat 5, [Dbl.ofNat 8], 0, some (Dbl.ofNat 23)) := by decide
example : (do
    let a ← DCos.mk' (Dbl.ofNat 1) [Dbl.ofNat 2]
    let c ← DCos.mk' (Dbl.ofNat 3) [Dbl.ofNat 4]
    let b ← ITXE.mkPlain [[a, c], [c, a]] true 10
    match ← b.get 2 1 with
    | .plain d => return ((← d.energy), (← d.cosines), b.IFENG)
    | .prob _ => .error .thrown) = .ok (Dbl.ofNat 3, [Dbl.ofNat 4], 1) := by decide

/-- The hypotheses of the other theorems are met too. -/
example := C27_discrete_partial [[(Dbl.ofNat 1, [Dbl.ofNat 2, Dbl.ofNat 3])], [(Dbl.ofNat 4, [Dbl.ofNat 5, Dbl.ofNat 6])]]
  [[⟨[Dbl.ofNat 1, Dbl.ofNat 2, Dbl.ofNat 3], 2⟩], [⟨[Dbl.ofNat 4, Dbl.ofNat 5, Dbl.ofNat 6], 2⟩]] true 7 2 1
  (by decide) (by decide) (by decide) (by decide) (by decide) (by decide) (by decide)
example := C27_discrete_refuses ⟨[Dbl.ofNat 1, Dbl.ofNat 2], 1⟩ [] [[]] true 7 (by decide)
example := C27_probability_partial [[(Dbl.ofNat 1, Dbl.ofNat 2, Dbl.ofNat 3, [Dbl.ofNat 4])], []]
  [[⟨[Dbl.ofNat 1, Dbl.ofNat 2, Dbl.ofNat 3, Dbl.ofNat 4], 1⟩], []] 7 1 (by decide) [] _ rfl
  (by decide) (by decide) (by decide) (by decide) (by decide)
example := C27_locators 7 [[(Dbl.ofNat 1, Dbl.ofNat 2, Dbl.ofNat 3, [Dbl.ofNat 4])], []] 1 (by decide)

end ACE.Props

import Verif.Lemmas.Lookup
import Verif.Props.C21

/-!
# C22: particle type and YP/YH lookups

The same statement as C21 for the particle type block, the YP/YH block (whose first word is
its own count) and the photonuclear locator block.
-/

namespace ACE.Props
open ACE

/-- Particle types of a block that is exactly its entries. -/
theorem C22_PTYPE_partial (types : List Nat) (ip : Nat) (d : PTYPE) (hd : PTYPE.mk' types = .ok d)
    (hf : ∀ n ∈ types, FitsN n) :
    PTYPE.NTYPE d = types.length ∧
    (∀ (i : Nat) (h : i < types.length), PTYPE.IP d (i + 1) = .ok types[i]) ∧
    PTYPE.hasIP d ip = .ok (decide (ip ∈ types)) ∧
    (ip ∈ types → ∃ i, PTYPE.index d ip = .ok i ∧ FirstAt types ip i) ∧
    (ip ∉ types → PTYPE.index d ip = .error .thrown) := by
  have h := C21_lookup_partial types ip d hd (fun n hn => by have := hf n hn; omega)
  have hv := C21_values types [] hf
  have hd' : MTR.mk' types = .ok d := hd
  rw [(C21_objects types []).1] at hd'
  injection hd' with hd'
  subst hd'
  simp only [List.append_nil] at hv
  exact ⟨rfl, hv.2.2, h⟩

/-- Whatever follows the entries, a particle type that is present is found. -/
theorem C22_PTYPE_present (types : List Nat) (rest : Words) (ip : Nat) (h : ip ∈ types)
    (hf : ∀ n ∈ types, n < 4294967296) :
    ∃ d i, PTYPE.ofRange (types.map Dbl.ofNat ++ rest) types.length = .ok d ∧
      PTYPE.hasIP d ip = .ok true ∧ PTYPE.index d ip = .ok i ∧ FirstAt types ip i :=
  C21_present types rest ip h hf

/-- Finding: in a longer range every absent particle type is reported as present. -/
theorem C22_PTYPE_longer_range (types : List Nat) (rest : Words) (hr : rest ≠ []) (ip : Nat)
    (h : ip ∉ types) (hf : ∀ n ∈ types, n < 4294967296) :
    ∃ d, PTYPE.ofRange (types.map Dbl.ofNat ++ rest) types.length = .ok d ∧
      PTYPE.hasIP d ip = .ok true ∧ PTYPE.index d ip = .ok (types.length + 1) :=
  C21_longer_range types rest hr ip h hf

/-! ## YP and YH -/

/-- The words of a YP block for the given reactions followed by further words. -/
def ypWords (mts : List Nat) (rest : Words) : Words :=
  Dbl.ofNat mts.length :: mts.map Dbl.ofNat ++ rest

theorem YP.nyp (mts : List Nat) (rest : Words) (hl : FitsN mts.length) :
    YP.NYP ⟨ypWords mts rest⟩ = .ok mts.length := by
  have : Base.IXSS (ypWords mts rest) 1 = .ok (mts.length : Int) :=
    Base.IXSS_ofNat (a := []) (c := mts.map Dbl.ofNat ++ rest) (by simp [ypWords]) (by simp) hl
  unfold YP.NYP
  simp [show (ypWords mts rest).isEmpty = false from rfl, this,
    u32OfInt_natCast (show mts.length < 4294967296 by omega)]

/-- The count and the entries are given back whatever follows them; the reader accepts. -/
theorem C22_YP_values (mts : List Nat) (rest : Words) (hl : FitsN mts.length)
    (hf : ∀ n ∈ mts, FitsN n) :
    YP.mk' mts = ⟨ypWords mts []⟩ ∧
    ∃ d, YP.ofRange (ypWords mts rest) = .ok d ∧ YP.NYP d = .ok mts.length ∧
      YP.MTs d = .ok (mts.map Dbl.ofNat) ∧
      (∀ (i : Nat) (h : i < mts.length), YP.MT d (i + 1) = .ok mts[i]) ∧
      (∀ i, i = 0 ∨ mts.length < i → YP.MT d i = .error .range) := by
  have hn := YP.nyp mts rest hl
  refine ⟨by simp [YP.mk', ypWords], ⟨ypWords mts rest⟩, ?_, hn, ?_, ?_, ?_⟩
  · unfold YP.ofRange
    rw [hn]
    have : ¬ (ypWords mts rest).length < mts.length + 1 := by simp [ypWords]
    simp [not_lt_mod (k := 4294967296) this]
  · unfold YP.MTs
    rw [hn, ok_bind]
    exact Base.XSSr_of_eq (a := [Dbl.ofNat mts.length]) (b := mts.map Dbl.ofNat) (c := rest)
      (by simp [ypWords]) (by simp) (by simp)
  · intro i h
    have hb := hf _ (List.getElem_mem h)
    obtain ⟨p, q, hpq, hp⟩ := getElem_split mts i h
    have : Base.IXSS (ypWords mts rest) (i + 1 + 1) = .ok (mts[i] : Int) := by
      refine Base.IXSS_ofNat (a := Dbl.ofNat mts.length :: p.map Dbl.ofNat)
        (c := q.map Dbl.ofNat ++ rest) ?_ (by simp [hp]) hb
      have e : mts.map Dbl.ofNat = p.map Dbl.ofNat ++ Dbl.ofNat mts[i] :: q.map Dbl.ofNat := by
        generalize mts[i] = x at hpq ⊢
        rw [hpq]; simp
      rw [ypWords, e]; simp
    unfold YP.MT
    rw [hn]
    simp only [ok_bind]
    rw [if_neg (by omega)]
    simp only [this, ok_bind, pure_eq_ok]
    rw [u32OfInt_natCast (by omega)]
  · intro i h
    unfold YP.MT
    rw [hn]
    simp only [ok_bind]
    rw [if_pos (by omega)]

theorem YP.find_words (mts more : List Nat) (mt : Nat) (hf : ∀ n ∈ mts ++ more, n < 4294967296) :
    YP.find ⟨ypWords mts (more.map Dbl.ofNat)⟩ mt = .ok ((mts ++ more).findIdx (· == mt)) := by
  have : sub (ypWords mts (more.map Dbl.ofNat)) 1 (ypWords mts (more.map Dbl.ofNat)).length =
      .ok ((mts ++ more).map Dbl.ofNat) :=
    sub_of_eq (a := [Dbl.ofNat mts.length]) (c := []) (by simp [ypWords]) (by simp)
      (by simp [ypWords]; try omega)
  unfold YP.find
  rw [this]
  exact findRounded_ofNat mt _ hf

/-- Lookups in a YP block that is exactly its count and entries. -/
theorem C22_YP_partial (mts : List Nat) (mt : Nat) (hf : ∀ n ∈ mts, n < 4294967296) :
    YP.hasMT (YP.mk' mts) mt = .ok (decide (mt ∈ mts)) ∧
    (mt ∈ mts → ∃ i, YP.index (YP.mk' mts) mt = .ok i ∧ FirstAt mts mt i) ∧
    (mt ∉ mts → YP.index (YP.mk' mts) mt = .error .thrown) := by
  have hfind := YP.find_words mts [] mt (by simpa using hf)
  have e : YP.mk' mts = ⟨ypWords mts []⟩ := by simp [YP.mk', ypWords]
  rw [e]
  simp only [List.map_nil, List.append_nil] at hfind
  have hlen : (ypWords mts []).length = mts.length + 1 := by simp [ypWords]
  refine ⟨?_, fun h => ⟨_, ?_, firstAt_findIdx h⟩, fun h => ?_⟩
  · unfold YP.hasMT
    rw [hfind]
    by_cases h : mt ∈ mts
    · have := findIdx_lt h
      simp [h, hlen]
    · simp [h, findIdx_absent h, hlen]
  · have := findIdx_lt h
    unfold YP.index
    rw [hfind]
    simp only [ok_bind]
    rw [if_pos (by simp only [hlen]; omega)]; rfl
  · unfold YP.index
    rw [hfind]
    simp [findIdx_absent h, hlen]

/-- Finding: the words that follow the entries are searched as well, so a reaction that is
not among the entries is reported as present when it occurs in them. -/
theorem C22_YP_searches_beyond (mts more : List Nat) (mt : Nat) (h : mt ∉ mts) (h' : mt ∈ more)
    (hf : ∀ n ∈ mts ++ more, n < 4294967296) (hl : FitsN mts.length) (hf' : ∀ n ∈ mts, FitsN n) :
    ∃ d i, YP.ofRange (ypWords mts (more.map Dbl.ofNat)) = .ok d ∧ YP.hasMT d mt = .ok true ∧
      YP.index d mt = .ok i ∧ mts.length < i := by
  obtain ⟨_, d, hd, hn, -⟩ := C22_YP_values mts (more.map Dbl.ofNat) hl hf'
  have hd' : YP.ofRange (ypWords mts (more.map Dbl.ofNat)) = .ok ⟨ypWords mts (more.map Dbl.ofNat)⟩ := by
    unfold YP.ofRange
    rw [YP.nyp mts _ hl]
    have : ¬ (ypWords mts (more.map Dbl.ofNat)).length < mts.length + 1 := by simp [ypWords]
    simp [not_lt_mod (k := 4294967296) this]
  have hm : mt ∈ mts ++ more := by simp [h']
  have hlt := findIdx_lt hm
  have hfind := YP.find_words mts more mt hf
  have hlen : (ypWords mts (more.map Dbl.ofNat)).length = (mts ++ more).length + 1 := by
    simp [ypWords]
  refine ⟨_, (mts ++ more).findIdx (· == mt) + 1, hd', ?_, ?_, ?_⟩
  · unfold YP.hasMT
    rw [hfind]
    have : ¬ (mts ++ more).findIdx (· == mt) = mts.length + more.length := by
      rw [List.length_append] at hlt; omega
    simpa [hlen] using this
  · unfold YP.index
    rw [hfind]
    simp only [ok_bind]
    rw [if_pos (by simp only [hlen]; omega)]; rfl
  · have : ¬ (mts ++ more).findIdx (· == mt) < mts.length := by
      intro hc
      obtain ⟨_, hit, _⟩ := firstAt_findIdx hm
      rw [Nat.add_sub_cancel, List.getElem?_append_left hc] at hit
      exact h (List.mem_of_getElem? hit)
    omega

/-- Finding: a search in a block without any words is undefined. -/
theorem C22_YP_empty (mt : Nat) : YP.ofRange [] = .ok ⟨[]⟩ ∧ YP.hasMT ⟨[]⟩ mt = .error .ub := by
  exact ⟨by decide, by simp [YP.hasMT, YP.find, sub]⟩

/-! ## Photonuclear locator block -/

/-- The words of the block are one row `type, number, locators` per particle. -/
theorem IXSU.rows_eq : ∀ (ts ns : List Nat) (ls : List (List Nat)), ts.length = ls.length →
    ns.length = ls.length →
    IXSU.rows ts ns ls = ((ts.zip (ns.zip ls)).map
      (fun r => (r.1 :: r.2.1 :: r.2.2).map Dbl.ofNat)).flatten := by
  intro ts
  induction ts with
  | nil => intro ns ls h1 h2; simp [IXSU.rows]
  | cons t ts ih =>
    intro ns ls h1 h2
    cases ls with
    | nil => simp at h1
    | cons l ls =>
      cases ns with
      | nil => simp at h2
      | cons n ns =>
        simp at h1 h2
        simp [IXSU.rows, ih ns ls h1 h2]

/-- Every word of every row is found at its place, whatever follows the block. -/
theorem IXSU.lloc (ts ns : List Nat) (ls : List (List Nat)) (rest : Words)
    (h1 : ts.length = ls.length) (h2 : ns.length = ls.length) (h3 : ∀ l ∈ ls, l.length = 10)
    (p j : Nat) (hp : p < ls.length) (hj : j < 12)
    (v : Nat) (hv : (ts[p]'(by omega) :: ns[p]'(by omega) :: ls[p])[j]? = some v) (hf : FitsN v) :
    IXSU.LLOC ⟨IXSU.rows ts ns ls ++ rest, ls.length⟩ (p + 1) (j + 1) = .ok v := by
  have e := IXSU.rows_eq ts ns ls h1 h2
  let as := (ts.zip (ns.zip ls)).map (fun r => (r.1 :: r.2.1 :: r.2.2).map Dbl.ofNat)
  have has : as.length = ls.length := by simp [as]; omega
  have hall : ∀ x ∈ as, x.length = 12 := by
    intro x hx
    obtain ⟨r, hr, rfl⟩ := List.mem_map.mp hx
    have hm : r.2 ∈ ns.zip ls := (List.of_mem_zip hr).2
    have := h3 _ (List.of_mem_zip hm).2
    simp [this]
  have hpa : p < as.length := by omega
  have hrow : as[p] = (ts[p]'(by omega) :: ns[p]'(by omega) :: ls[p]).map Dbl.ofNat := by
    simp [as]
  have hl12 := hall _ (List.getElem_mem hpa)
  obtain ⟨hjl, hje⟩ := List.getElem?_eq_some_iff.mp hv
  have hsplit := flatten_split as p hpa
  obtain ⟨a, b, hab, ha⟩ := getElem_split as[p] j (by omega)
  have hval : as[p][j]'(by omega) = Dbl.ofNat v := by
    simp only [hrow, List.getElem_map, hje]
  rw [hval] at hab
  have hlt := length_flatten_take as 12 p (by omega) hall
  have : Base.IXSS (IXSU.rows ts ns ls ++ rest) (p * 12 + (j + 1)) = .ok (v : Int) := by
    refine Base.IXSS_ofNat (a := (as.take p).flatten ++ a)
      (c := b ++ (as.drop (p + 1)).flatten ++ rest) ?_ ?_ hf
    · rw [e]
      show as.flatten ++ rest = _
      rw [hsplit, hab]; simp
    · simp [ha, hlt]; omega
  unfold IXSU.LLOC
  simp only [position_succ, this, ok_bind, pure_eq_ok]
  rw [sizeOfInt_natCast hf]

/-- The loop of the search over the particle types. -/
theorem IXSU.search_spec (d : IXSU) (ts : List Nat) (type : Nat)
    (hip : ∀ (p : Nat) (h : p < ts.length), d.IP (p + 1) = .ok ts[p]) :
    ∀ (count start : Nat), start + count = ts.length →
      d.search type (start + 1) count =
        .ok (if (ts.drop start).findIdx (· == type) < count
             then some (start + (ts.drop start).findIdx (· == type) + 1) else none) := by
  intro count
  induction count with
  | zero => intro start _; simp [IXSU.search]
  | succ c ih =>
    intro start hs
    have hlt : start < ts.length := by omega
    have hd : ts.drop start = ts[start] :: ts.drop (start + 1) := List.drop_eq_getElem_cons hlt
    simp only [IXSU.search, hip start hlt, ok_bind, ih (start + 1) (by omega), hd,
      List.findIdx_cons]
    by_cases hk : ts[start] = type
    · simp [hk]
    · have : (ts[start] == type) = false := by simpa using hk
      simp only [hk, if_false, this, cond_false]
      by_cases hc : (ts.drop (start + 1)).findIdx (· == type) < c
      · rw [if_pos hc, if_pos (by omega)]
        congr 2; omega
      · rw [if_neg hc, if_neg (by omega)]

/-- Exact for every particle type and whatever words follow the block. -/
theorem C22_IXSU (ts ns : List Nat) (ls : List (List Nat)) (rest : Words) (ip : Nat)
    (h1 : ts.length = ls.length) (h2 : ns.length = ls.length) (h3 : ∀ l ∈ ls, l.length = 10)
    (hf : ∀ n ∈ ts, FitsN n) :
    ∃ b d, IXSU.mk' ts ns ls = .ok b ∧ IXSU.ofRange (b.xss ++ rest) ls.length = .ok d ∧
      ∀ x ∈ [b, d], IXSU.hasIP x ip = .ok (decide (ip ∈ ts)) ∧
        (ip ∈ ts → ∃ i, IXSU.index x ip = .ok i ∧ FirstAt ts ip i) ∧
        (ip ∉ ts → IXSU.index x ip = .error .thrown) := by
  have hb : IXSU.mk' ts ns ls = .ok ⟨IXSU.rows ts ns ls, ls.length⟩ := by
    simp [IXSU.mk', h1, h2]
  have hlen : (IXSU.rows ts ns ls).length = ls.length * 12 := by
    rw [IXSU.rows_eq ts ns ls h1 h2, length_flatten_const _ 12]
    · simp; omega
    · intro x hx
      obtain ⟨r, hr, rfl⟩ := List.mem_map.mp hx
      have hm : r.2 ∈ ns.zip ls := (List.of_mem_zip hr).2
      have := h3 _ (List.of_mem_zip hm).2
      simp [this]
  have hd : IXSU.ofRange (IXSU.rows ts ns ls ++ rest) ls.length =
      .ok ⟨IXSU.rows ts ns ls ++ rest, ls.length⟩ := by
    unfold IXSU.ofRange
    rw [guardThrow_not_lt (by rw [List.length_append, hlen]; omega)]; rfl
  refine ⟨_, _, hb, hd, fun x hx => ?_⟩
  obtain ⟨r, rfl⟩ : ∃ r, x = ⟨IXSU.rows ts ns ls ++ r, ls.length⟩ := by
    rcases List.mem_cons.mp hx with rfl | hx
    · exact ⟨[], by simp⟩
    · exact ⟨rest, List.mem_singleton.mp hx⟩
  have hip : ∀ (p : Nat) (h : p < ts.length),
      IXSU.IP ⟨IXSU.rows ts ns ls ++ r, ls.length⟩ (p + 1) = .ok ts[p] := by
    intro p h
    have hfp := hf _ (List.getElem_mem h)
    have := IXSU.lloc ts ns ls r h1 h2 h3 p 0 (by omega) (by omega) ts[p] (by simp) hfp
    unfold IXSU.IP
    simp only [Nat.zero_add] at this
    rw [this]
    simp only [ok_bind, pure_eq_ok]
    rw [u32OfInt_natCast (by omega)]
  have hs := IXSU.search_spec _ ts ip hip ts.length 0 (by omega)
  simp only [Nat.zero_add, List.drop_zero, h1] at hs
  refine ⟨?_, fun h => ⟨_, ?_, firstAt_findIdx h⟩, fun h => ?_⟩
  · unfold IXSU.hasIP
    simp only [hs, ok_bind]
    by_cases h : ip ∈ ts
    · have := findIdx_lt h
      rw [if_pos (by omega)]; simp [h]
    · rw [if_neg (by rw [findIdx_absent h]; omega)]; simp [h]
  · have := findIdx_lt h
    unfold IXSU.index
    simp only [hs, ok_bind]
    rw [if_pos (by omega)]; rfl
  · unfold IXSU.index
    simp only [hs, ok_bind]
    rw [if_neg (by rw [findIdx_absent h]; omega)]

example : ∃ d, PTYPE.mk' [1, 2, 31] = .ok d ∧ PTYPE.index d 31 = .ok 3 ∧
    PTYPE.hasIP d 9 = .ok false := ⟨⟨_, 3, 1⟩, rfl, by decide⟩
example : YP.index (YP.mk' [16, 18]) 18 = .ok 2 ∧ YP.hasMT (YP.mk' [16, 18]) 2 = .ok false := by
  decide
example : ∃ d, YP.ofRange (ypWords [16] ([4, 102].map Dbl.ofNat)) = .ok d ∧
    YP.hasMT d 102 = .ok true := ⟨⟨_⟩, rfl, by decide⟩
example : ∃ d, IXSU.mk' [1, 31] [2, 3] [[1,2,3,4,5,6,7,8,9,10], [1,2,3,4,5,6,7,8,9,11]] = .ok d ∧
    IXSU.index d 31 = .ok 2 ∧ IXSU.DLWH d 2 = .ok 11 := ⟨⟨_, 2⟩, rfl, by decide⟩

/-- The hypotheses of the theorems are met by two particle types or reactions. -/
example := C22_PTYPE_partial [9, 31] 31 _ rfl (by decide)
example := C22_PTYPE_present [9, 31] [Dbl.ofNat 7] 31 (by decide) (by decide)
example := C22_PTYPE_longer_range [9, 31] [Dbl.ofNat 7] (by decide) 1 (by decide) (by decide)
example := C22_YP_values [18, 102] [Dbl.ofNat 7] (by decide) (by decide)
example := C22_YP_partial [18, 102] 102 (by decide)
example := C22_YP_searches_beyond [18, 102] [16] 16 (by decide) (by decide) (by decide) (by decide) (by decide)
example := C22_IXSU [9, 31] [1, 2] [List.replicate 10 1, List.replicate 10 2] [Dbl.ofNat 7] 31 rfl rfl (by decide) (by decide)

end ACE.Props

import Verif.Props.C22

/-!
# C26: secondary particle locator blocks

Each locator given is returned by its own accessor, for the block built from values and for
a reader over its words followed by any others.
-/

namespace ACE.Props
open ACE

theorem C26_IXS (ls : List (List Nat)) (rest : Words) (h : ∀ l ∈ ls, l.length = 10)
    (hf : ∀ l ∈ ls, ∀ n ∈ l, FitsN n) :
    ∃ d, IXS.ofRange ((IXS.mk' ls).xss ++ rest) ls.length = .ok d ∧ ∀ x ∈ [IXS.mk' ls, d],
      x.ntype = ls.length ∧
      ∀ (p a b c e f g i j k l : Nat), ls[p]? = some [a, b, c, e, f, g, i, j, k, l] →
        x.HPD (p + 1) = .ok a ∧ x.MTRH (p + 1) = .ok b ∧ x.TYRH (p + 1) = .ok c ∧
        x.LSIGH (p + 1) = .ok e ∧ x.SIGH (p + 1) = .ok f ∧ x.LANDH (p + 1) = .ok g ∧
        x.ANDH (p + 1) = .ok i ∧ x.LDLWH (p + 1) = .ok j ∧ x.DLWH (p + 1) = .ok k ∧
        x.YP (p + 1) = .ok l := by
  let as := ls.map (fun a => a.map Dbl.ofNat)
  have hall : ∀ x ∈ as, x.length = 10 := by
    intro x hx
    obtain ⟨l, hl, rfl⟩ := List.mem_map.mp hx
    simp [h l hl]
  have hlen : as.flatten.length = ls.length * 10 := by
    rw [length_flatten_const as 10 hall]; simp [as]
  refine ⟨⟨as.flatten ++ rest, ls.length⟩, ?_, fun x hx => ?_⟩
  · unfold IXS.ofRange
    rw [guardThrow_not_lt_mod (by
      show 10 * ls.length ≤ (as.flatten ++ rest).length
      rw [List.length_append, hlen]; omega)]
    rfl
  obtain ⟨r, rfl⟩ : ∃ r, x = ⟨as.flatten ++ r, ls.length⟩ := by
    rcases List.mem_cons.mp hx with rfl | hx
    · exact ⟨[], by simp [IXS.mk', as]⟩
    · exact ⟨rest, List.mem_singleton.mp hx⟩
  have key : ∀ (p q v : Nat) (l : List Nat), ls[p]? = some l → l[q]? = some v →
      IXS.LLOC ⟨as.flatten ++ r, ls.length⟩ (p + 1) (q + 1) = .ok v := by
    intro p q v l hl hv
    obtain ⟨hp, hpe⟩ := List.getElem?_eq_some_iff.mp hl
    obtain ⟨hq, hqe⟩ := List.getElem?_eq_some_iff.mp hv
    have hfv : FitsN v := by
      apply hf l (by rw [← hpe]; exact List.getElem_mem hp)
      rw [← hqe]; exact List.getElem_mem hq
    have hpa : p < as.length := by simpa [as] using hp
    have hrow : as[p] = l.map Dbl.ofNat := by simp [as, hpe]
    obtain ⟨a, b, hab, ha⟩ := getElem_split as[p] q (by simp [hrow, hq])
    have hval : as[p][q]'(by simp [hrow, hq]) = Dbl.ofNat v := by simp [hrow, hqe]
    rw [hval] at hab
    have hlt := length_flatten_take as 10 p (by omega) hall
    have : Base.IXSS (as.flatten ++ r) (p * 10 + (q + 1)) = .ok (v : Int) := by
      refine Base.IXSS_ofNat (a := (as.take p).flatten ++ a)
        (c := b ++ (as.drop (p + 1)).flatten ++ r) ?_ ?_ hfv
      · rw [flatten_split as p hpa, hab]; simp
      · simp [ha, hlt]; omega
    unfold IXS.LLOC
    simp only [position_succ, this, ok_bind, pure_eq_ok]
    rw [sizeOfInt_natCast hfv]
  refine ⟨rfl, fun p a b c e f g i j k l hl => ?_⟩
  exact ⟨key p 0 _ _ hl rfl, key p 1 _ _ hl rfl, key p 2 _ _ hl rfl, key p 3 _ _ hl rfl,
    key p 4 _ _ hl rfl, key p 5 _ _ hl rfl, key p 6 _ _ hl rfl, key p 7 _ _ hl rfl,
    key p 8 _ _ hl rfl, key p 9 _ _ hl rfl⟩

theorem C26_IXSU (ts ns : List Nat) (ls : List (List Nat)) (rest : Words)
    (h1 : ts.length = ls.length) (h2 : ns.length = ls.length) (h3 : ∀ l ∈ ls, l.length = 10)
    (hf1 : ∀ n ∈ ts, FitsN n) (hf2 : ∀ n ∈ ns, FitsN n) (hf : ∀ l ∈ ls, ∀ n ∈ l, FitsN n) :
    ∃ u d, IXSU.mk' ts ns ls = .ok u ∧ IXSU.ofRange (u.xss ++ rest) ls.length = .ok d ∧
      ∀ x ∈ [u, d], x.ntype = ls.length ∧
      ∀ (p t n a b c e f g i j k l : Nat), ts[p]? = some t → ns[p]? = some n →
        ls[p]? = some [a, b, c, e, f, g, i, j, k, l] →
        x.IP (p + 1) = .ok t ∧ x.NP (p + 1) = .ok n ∧
        x.PXS (p + 1) = .ok a ∧ x.PHN (p + 1) = .ok b ∧ x.MTRH (p + 1) = .ok c ∧
        x.TYRH (p + 1) = .ok e ∧ x.LSIGH (p + 1) = .ok f ∧ x.SIGH (p + 1) = .ok g ∧
        x.LANDH (p + 1) = .ok i ∧ x.ANDH (p + 1) = .ok j ∧ x.LDLWH (p + 1) = .ok k ∧
        x.DLWH (p + 1) = .ok l := by
  have hb : IXSU.mk' ts ns ls = .ok ⟨IXSU.rows ts ns ls, ls.length⟩ := by
    simp [IXSU.mk', h1, h2]
  have hlen : (IXSU.rows ts ns ls).length = ls.length * 12 := by
    rw [IXSU.rows_eq ts ns ls h1 h2, length_flatten_const _ 12]
    · simp; omega
    · intro x hx
      obtain ⟨r, hr, rfl⟩ := List.mem_map.mp hx
      have hm : r.2 ∈ ns.zip ls := (List.of_mem_zip hr).2
      have := h3 _ (List.of_mem_zip hm).2
      simp [this]
  have hd : IXSU.ofRange (IXSU.rows ts ns ls ++ rest) ls.length =
      .ok ⟨IXSU.rows ts ns ls ++ rest, ls.length⟩ := by
    unfold IXSU.ofRange
    rw [guardThrow_not_lt (by rw [List.length_append, hlen]; omega)]; rfl
  refine ⟨_, _, hb, hd, fun x hx => ?_⟩
  obtain ⟨r, rfl⟩ : ∃ r, x = ⟨IXSU.rows ts ns ls ++ r, ls.length⟩ := by
    rcases List.mem_cons.mp hx with rfl | hx
    · exact ⟨[], by simp⟩
    · exact ⟨rest, List.mem_singleton.mp hx⟩
  refine ⟨rfl, fun p t n a b c e f g i j k l ht hn hl => ?_⟩
  obtain ⟨hp, hpe⟩ := List.getElem?_eq_some_iff.mp hl
  obtain ⟨htp, hte⟩ := List.getElem?_eq_some_iff.mp ht
  obtain ⟨hnp, hne⟩ := List.getElem?_eq_some_iff.mp hn
  have hft : FitsN t := hf1 t (by rw [← hte]; exact List.getElem_mem htp)
  have hfn : FitsN n := hf2 n (by rw [← hne]; exact List.getElem_mem hnp)
  have hfl := hf _ (List.mem_of_getElem? hl)
  have key := fun (q v : Nat) (hq : q < 12)
      (hv : [t, n, a, b, c, e, f, g, i, j, k, l][q]? = some v) (hfv : FitsN v) =>
    IXSU.lloc ts ns ls r h1 h2 h3 p q hp hq v (by rw [hte, hne, hpe]; exact hv) hfv
  refine ⟨?_, ?_, key 2 _ (by omega) rfl (hfl _ (by simp)), key 3 _ (by omega) rfl (hfl _ (by simp)),
    key 4 _ (by omega) rfl (hfl _ (by simp)), key 5 _ (by omega) rfl (hfl _ (by simp)),
    key 6 _ (by omega) rfl (hfl _ (by simp)), key 7 _ (by omega) rfl (hfl _ (by simp)),
    key 8 _ (by omega) rfl (hfl _ (by simp)), key 9 _ (by omega) rfl (hfl _ (by simp)),
    key 10 _ (by omega) rfl (hfl _ (by simp)), key 11 _ (by omega) rfl (hfl _ (by simp))⟩
  · unfold IXSU.IP
    have := key 0 _ (by omega) rfl hft
    simp only [Nat.zero_add] at this
    rw [this]; simp only [ok_bind, pure_eq_ok]; rw [u32OfInt_natCast (by omega)]
  · unfold IXSU.NP
    have := key 1 _ (by omega) rfl hfn
    rw [this]; simp only [ok_bind, pure_eq_ok]; rw [u32OfInt_natCast (by omega)]

/-- The photonuclear variant refuses lists of different lengths. -/
theorem C26_IXSU_refused (ts ns : List Nat) (ls : List (List Nat))
    (h : ¬ (ts.length = ls.length ∧ ns.length = ls.length)) :
    IXSU.mk' ts ns ls = .error .thrown := by
  have : (!(ts.length != ls.length || ns.length != ls.length)) = false := by
    simp; omega
  simp only [IXSU.mk', this]; rfl

example : ∃ d, IXS.ofRange (IXS.mk' [[1,2,3,4,5,6,7,8,9,10]]).xss 1 = .ok d ∧
    d.YP 1 = .ok 10 ∧ d.HPD 1 = .ok 1 := ⟨⟨_, 1⟩, rfl, by decide⟩
example : IXSU.mk' [1] [] [[1,2,3,4,5,6,7,8,9,10]] = .error .thrown := by decide

/-- The hypotheses of the theorems are met by two particle types. -/
example := C26_IXS [List.range 10, List.replicate 10 2] [Dbl.ofNat 7] (by decide) (by decide)
example := C26_IXSU [9, 31] [1, 2] [List.range 10, List.replicate 10 2] [Dbl.ofNat 7] rfl rfl (by decide) (by decide)
  (by decide) (by decide)
example := C26_IXSU_refused [9, 31] [1] [List.range 10, List.replicate 10 2] (by decide)

end ACE.Props

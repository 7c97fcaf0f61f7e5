import Verif.Model.ThermalTable
import Verif.Props.C27
import Verif.Props.C30
import Verif.Lemmas.Columns

/-! # The data and blocks of a thermal scattering table -/

namespace ACE

theorem TableData.fetch_get {α : Type} (l : List α) (i : Nat) (v : α) (h : l[i]? = some v) :
    TableData.fetch l (i + 1) = .ok v := by
  have hl : i < l.length := (List.getElem?_eq_some_iff.mp h).1
  unfold TableData.fetch TableData.verifyIndex
  rw [if_neg (by omega), ok_bind]
  simp [h]

end ACE

namespace ACE.TS
open ACE.Props

/-! ## Searching the JXS array -/

theorem find_zero {l : List Int} {s : Nat} (hs : 1 ≤ s) :
    (0 :: l).find? (fun value => decide (s ≤ sizeOfInt value)) =
      l.find? (fun value => decide (s ≤ sizeOfInt value)) := by
  rw [List.find?_cons_of_neg]
  have : sizeOfInt 0 = 0 := rfl
  simp [this]; omega

theorem find_zeros {k s : Nat} (hs : 1 ≤ s) :
    (List.replicate k (0 : Int)).find? (fun value => decide (s ≤ sizeOfInt value)) = none := by
  rw [List.find?_eq_none]
  intro x hx
  rw [(List.mem_replicate.mp hx).2]
  have : sizeOfInt 0 = 0 := rfl
  simp [this]; omega

theorem find_hit {l : List Int} {s v : Nat} (h : s ≤ v) (hf : FitsN v) :
    (((v : Nat) : Int) :: l).find? (fun value => decide (s ≤ sizeOfInt value)) = some (v : Int) := by
  rw [List.find?_cons_of_pos]
  rw [sizeOfInt_natCast hf]; simpa using h

/-- The block of the words `b` after `a`. -/
theorem block_some {d : TableData} {i v : Nat} {a b c : Words} (hj : d.JXS i = .ok ((a.length + 1 : Nat) : Int))
    (hx : d.xss = a ++ b ++ c) (hf : FitsN (d.xss.length + 1))
    (hv : (d.jxs.drop (scanFrom i)).find? (fun value => decide (a.length + 1 ≤ sizeOfInt value)) =
      some (v : Int)) (hvv : v = (a ++ b).length + 1) :
    ∃ r, block d i = .ok r ∧ d.words r = .ok b := by
  refine bind_eq_ok.mp (?_ : (do d.words (← block d i)) = .ok b)
  have hl : d.xss.length = a.length + b.length + c.length := by rw [hx]; simp; omega
  unfold FitsN at hf
  unfold block TableData.locator
  rw [hj]
  simp only [ok_bind, pure_eq_ok]
  rw [sizeOfInt_natCast (by unfold FitsN; omega), if_neg (by omega), hv]
  simp only
  rw [sizeOfInt_natCast (by unfold FitsN; simp at hvv; omega)]
  unfold TableData.range TableData.words
  rw [if_neg (by omega), if_neg (by omega), if_neg (by simp at hvv; omega), ok_bind]
  exact sub_of_eq hx (by simp) (by simp at hvv ⊢; omega)

theorem block_none {d : TableData} {i : Nat} {a b : Words} (hj : d.JXS i = .ok ((a.length + 1 : Nat) : Int))
    (hx : d.xss = a ++ b) (hf : FitsN (d.xss.length + 1))
    (hv : (d.jxs.drop (scanFrom i)).find? (fun value => decide (a.length + 1 ≤ sizeOfInt value)) =
      none) : ∃ r, block d i = .ok r ∧ d.words r = .ok b := by
  refine bind_eq_ok.mp (?_ : (do d.words (← block d i)) = .ok b)
  have hl : d.xss.length = a.length + b.length := by rw [hx]; simp
  unfold FitsN at hf
  unfold block TableData.locator
  rw [hj]
  simp only [ok_bind, pure_eq_ok]
  rw [sizeOfInt_natCast (by unfold FitsN; omega), if_neg (by omega), hv]
  simp only
  unfold TableData.range TableData.words
  rw [if_neg (by omega), if_pos rfl, ok_bind]
  exact sub_of_eq (c := []) (by simpa using hx) (by simp) (by simp; omega)

theorem count_get {d : TableData} {i v : Nat} (h : d.nxs[i]? = some (v : Int)) (hf : FitsN v) :
    d.count (i + 1) = .ok v := by
  unfold TableData.count
  rw [NXS_get d i _ h]
  simp only [ok_bind, pure_eq_ok]
  congr 1
  unfold FitsN at hf
  unfold u32OfInt
  omega

theorem signed_get {d : TableData} {i : Nat} {v : Int} (h : d.nxs[i]? = some v) (h1 : -1 ≤ v)
    (h2 : v < 2147483648) : d.signed (i + 1) = .ok v := by
  unfold TableData.signed
  rw [NXS_get d i _ h]
  simp only [ok_bind, pure_eq_ok]
  congr 1
  unfold u32OfInt
  split <;> omega

/-! ## The blocks -/

/-- A cross section block made of `ne` energies and values. -/
def MadeXS (b : ITIE) (ne : Nat) : Prop :=
  ∃ e x, ITIE.mk' e x = .ok b ∧ e.length = ne ∧ FitsN ne

/-- A block with the cosines of `ne` energies. -/
def MadeCosines (b : ITCA) (ne : Nat) : Prop :=
  ∃ cs, ITCA.mk' cs = .ok b ∧ cs.length = ne ∧ FitsN (b.n + 1)

theorem xs_facts {b : ITIE} {ne : Nat} (h : MadeXS b ne) :
    ITIE.ofRange b.xss = .ok b ∧ b.NE = .ok ne ∧ b.xss.length = 2 * ne + 1 := by
  obtain ⟨e, x, hm, hl, hf⟩ := h
  have hlen : ∀ y ∈ [e, x], y.length = e.length := by
    by_cases hall : ∀ y ∈ [x], y.length = e.length
    · intro y hy
      rcases List.mem_cons.mp hy with rfl | hy
      · rfl
      · exact hall y hy
    · have := ColumnData.ofColumns_error e [x] hall
      unfold ITIE.mk' at hm
      rw [this] at hm; cases hm
  unfold ITIE.mk' at hm
  rw [ColumnData.ofColumns_ok [e, x] e.length (by simp) hlen] at hm
  injection hm with hm
  subst hm
  have h1 := ColumnData.ofRange_ok [e, x] e.length 2 [] rfl hlen (by rw [hl]; exact hf)
  rw [List.append_nil] at h1
  refine ⟨h1, ?_, ?_⟩
  · unfold ITIE.NE ColumnData.N
    have hne : (ColumnData.words e.length [e, x]).isEmpty = false := rfl
    simp only [hne, Bool.false_eq_true, if_false]
    have := Base.IXSS_ofNat (xs := ColumnData.words e.length [e, x]) (i := 1) (a := [])
      (c := [e, x].flatten) (n := e.length) rfl rfl (by rw [hl]; exact hf)
    rw [this, ok_bind, sizeOfInt_natCast (by rw [hl]; exact hf), hl]
    rfl
  · have := hlen x (by simp)
    simp [ColumnData.words, this]; omega

theorem cosines_facts {b : ITCA} {ne : Nat} (h : MadeCosines b ne) :
    ITCA.ofRange b.xss ne b.n = .ok b ∧ b.xss.length = ne * b.n := by
  obtain ⟨cs, hm, hl, hf⟩ := h
  have h1 := built_array hm
  obtain ⟨hd, hx⟩ := ArrayData.ofArrays_holds hm
  have hlen : b.xss.length = cs.length * b.n := by rw [hx]; exact length_flatten_const _ _ hd.hn
  rw [hl] at h1 hlen
  exact ⟨h1, hlen⟩

/-! ## Reading -/

theorem readITIE_eq {d : TableData} {b : ITIE} {ne : Nat} (h : MadeXS b ne)
    (hb : ∃ r, block d 1 = .ok r ∧ d.words r = .ok b.xss) : readITIE d true = .ok b := by
  obtain ⟨r, h1, h2⟩ := hb
  unfold readITIE
  simp only [if_true, h1, h2, ok_bind]
  exact (xs_facts h).1

theorem readITXE_eq {d : TableData} {itie : ITIE} {itxe r : ITXE} {ne nieb loc : Nat}
    (h : MadeXS itie ne) (hb : ∃ r, block d 3 = .ok r ∧ d.words r = .ok itxe.xss)
    (h3 : d.nxs[2]? = some (if itxe.IFENG < 2 then (itxe.nc : Int) - 1 else itxe.nc + 1))
    (h4 : d.nxs[3]? = some (nieb : Int)) (h7 : d.nxs[6]? = some (itxe.IFENG : Int))
    (hl : d.JXS 3 = .ok (loc : Int)) (hfl : FitsN loc) (hfn : FitsN nieb) (hfc : FitsN (itxe.nc + 1))
    (hfi : FitsN itxe.IFENG) (h0 : ¬ itxe.IFENG < 2 → nieb = 0)
    (hr : ITXE.ofRange itxe.IFENG nieb itxe.nc ne loc itxe.xss = .ok r) :
    readITXE d true itie = .ok r := by
  obtain ⟨q, h1, h2⟩ := hb
  unfold readITXE
  have c7 : d.count 7 = .ok itxe.IFENG := count_get h7 hfi
  have c4 : d.count 4 = .ok nieb := count_get h4 hfn
  have c3 : d.count 3 = .ok (u32OfInt (if itxe.IFENG < 2 then (itxe.nc : Int) - 1 else itxe.nc + 1)) := by
    unfold TableData.count
    rw [NXS_get d 2 _ h3]
    rfl
  have cl : d.locator 3 = .ok loc := by
    unfold TableData.locator
    rw [hl, ok_bind, sizeOfInt_natCast hfl]
    rfl
  simp only [if_true, h1, ok_bind, c7, c4, c3, (xs_facts h).2.1, cl, h2]
  unfold FitsN at hfc
  rw [← hr]
  by_cases hi : itxe.IFENG < 2
  · simp only [hi, if_true]
    have e : (u32OfInt ((itxe.nc : Int) - 1) + 1) % 4294967296 = itxe.nc := by
      unfold u32OfInt
      omega
    rw [e]
  · simp only [hi, if_false]
    have e : (u32OfInt ((itxe.nc : Int) + 1) + 4294967295) % 4294967296 = itxe.nc := by
      unfold u32OfInt
      omega
    rw [h0 hi, e]

theorem readCoherent_none {d : TableData} {itce : ITIE} {ne : Nat} (h : MadeXS itce ne)
    (hb : ∃ r, block d 4 = .ok r ∧ d.words r = .ok itce.xss) (h6 : d.nxs[5]? = some (-1)) :
    readCoherent d = .ok (itce, none) := by
  obtain ⟨r, h1, h2⟩ := hb
  unfold readCoherent
  have c6 : d.signed 6 = .ok (-1) := signed_get h6 (by omega) (by omega)
  simp only [h1, h2, ok_bind, (xs_facts h).1, c6]
  rfl

theorem readCoherent_some {d : TableData} {itce : ITIE} {itca : ITCA} {ne : Nat} (h : MadeXS itce ne)
    (hc : MadeCosines itca ne) (hn : 1 ≤ itca.n)
    (hb : ∃ r, block d 4 = .ok r ∧ d.words r = .ok itce.xss)
    (hb6 : ∃ r, block d 6 = .ok r ∧ d.words r = .ok itca.xss)
    (h6 : d.nxs[5]? = some (ITCA.NCL itca)) :
    readCoherent d = .ok (itce, some itca) := by
  obtain ⟨r, h1, h2⟩ := hb
  obtain ⟨q, g1, g2⟩ := hb6
  have hf : FitsN (itca.n + 1) := by obtain ⟨_, _, _, hf⟩ := hc; exact hf
  unfold FitsN at hf
  unfold readCoherent
  have c6 : d.signed 6 = .ok (ITCA.NCL itca) :=
    signed_get h6 (by unfold ITCA.NCL; omega) (by unfold ITCA.NCL; omega)
  simp only [h1, h2, ok_bind, (xs_facts h).1, c6]
  rw [if_pos (by unfold ITCA.NCL; omega)]
  simp only [g1, g2, ok_bind, (xs_facts h).2.1]
  have e : ITCA.NCL itca + 1 = ((itca.n : Nat) : Int) := by unfold ITCA.NCL; omega
  rw [e, sizeOfInt_natCast (by unfold FitsN; omega), (cosines_facts hc).1]
  rfl

theorem readIncoherent_eq {d : TableData} {itcei : ITIE} {itcai : ITCA} {ne idpnc : Nat}
    (h : MadeXS itcei ne) (hc : MadeCosines itcai ne)
    (hb : ∃ r, block d (if idpnc = 3 then 4 else 7) = .ok r ∧ d.words r = .ok itcei.xss)
    (hb6 : ∃ r, block d (if idpnc = 3 then 6 else 9) = .ok r ∧ d.words r = .ok itcai.xss)
    (h6 : d.nxs[if idpnc = 3 then 5 else 7]? = some (ITCA.NCL itcai)) :
    readIncoherent d idpnc = .ok (itcei, itcai) := by
  obtain ⟨r, h1, h2⟩ := hb
  obtain ⟨q, g1, g2⟩ := hb6
  have hf : FitsN (itcai.n + 1) := by obtain ⟨_, _, _, hf⟩ := hc; exact hf
  unfold FitsN at hf
  unfold readIncoherent
  have c6 : d.signed (if idpnc = 3 then 6 else 8) = .ok (ITCA.NCL itcai) := by
    have := signed_get h6 (by unfold ITCA.NCL; omega) (by unfold ITCA.NCL; omega)
    rw [← this]
    split <;> rfl
  simp only [h1, h2, ok_bind, (xs_facts h).1, c6]
  simp only [g1, g2, ok_bind, (xs_facts h).2.1]
  have e : ITCA.NCL itcai + 1 = ((itcai.n : Nat) : Int) := by unfold ITCA.NCL; omega
  rw [e, sizeOfInt_natCast (by unfold FitsN; omega), (cosines_facts hc).1]
  rfl

end ACE.TS

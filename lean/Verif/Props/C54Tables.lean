import Verif.Props.C54
import Verif.Props.C32
import Verif.Props.C33
import Verif.Props.C34
import Verif.Props.C35

/-!
# C54 for dosimetry, thermal scattering, photoatomic and photonuclear tables
-/

namespace ACE.Props
open ACE

namespace C54

theorem jxs_of {d : TableData} {i : Nat} {v : Int} (h : d.JXS (i + 1) = .ok v) :
    d.jxs[i]? = some v := by
  unfold TableData.JXS TableData.fetch at h
  obtain ⟨_, _, h⟩ := bind_eq_ok.mp h
  simp only [Nat.add_sub_cancel] at h
  cases e : d.jxs[i]? with
  | none => rw [e] at h; cases h
  | some w => rw [e] at h; injection h with h; rw [h]

end C54

/-- Locators `i` to 32 are not used. -/
def unusedFrom (i : Nat) : List (Nat × Option Words) := (List.range' i (33 - i)).map fun k => (k, none)

namespace C54

theorem unused_zero {d : TableData} {n k : Nat} : ∀ {i : Nat},
    InOrder d n ((List.range' i k).map fun k => (k, none)) → ∀ j, i ≤ j → j < i + k → d.JXS j = .ok 0 := by
  induction k with
  | zero => intro i _ j h1 h2; omega
  | succ k ih =>
    intro i h j h1 h2
    rw [List.range'_succ, List.map_cons] at h
    simp only [InOrder] at h
    by_cases hj : j = i
    · subst hj; exact h.1
    · exact ih h.2 j (by omega) (by omega)

theorem zero_unused {d : TableData} {n k : Nat} : ∀ {i : Nat},
    (∀ j, i ≤ j → j < i + k → d.JXS j = .ok 0) → InOrder d n ((List.range' i k).map fun k => (k, none)) := by
  induction k with
  | zero => intro i _; exact trivial
  | succ k ih =>
    intro i h
    rw [List.range'_succ, List.map_cons]
    simp only [InOrder]
    exact ⟨h i (by omega) (by omega), ih fun j h1 h2 => h j (by omega) (by omega)⟩

/-- The locators of parts that are there. -/
theorem jxs_tail {d : TableData} (hd : d.jxs.length = 32) (a : List Int) (h32 : a.length ≤ 32)
    (h : ∀ i (hi : i < a.length), d.JXS (i + 1) = .ok a[i])
    (h0 : ∀ j, a.length + 1 ≤ j → j < 33 → d.JXS j = .ok 0) :
    d.jxs = a ++ List.replicate (32 - a.length) 0 := by
  apply List.ext_getElem?
  intro i
  by_cases hi : i < a.length
  · rw [List.getElem?_append_left hi, jxs_of (h i hi), List.getElem?_eq_getElem hi]
  · rw [List.getElem?_append_right (by omega)]
    by_cases h2 : i < 32
    · rw [jxs_of (h0 (i + 1) (by omega) (by omega)), List.getElem?_replicate, if_pos (by omega)]
    · rw [List.getElem?_eq_none (by omega), List.getElem?_eq_none (by simp; omega)]

end C54

/-! ## Dosimetry tables -/

/-- A dosimetry table in the standard layout. -/
structure StandardDosimetry (mtr : MTR) (sigd : SIGD) (d : TableData) : Prop where
  sized : d.Sized
  xss : d.xss = partsWords [(3, some mtr.xss), (6, some (sigd.xss.take mtr.n)), (7, some (sigd.xss.drop mtr.n))]
  blocks : InOrder d 0 [(3, some mtr.xss), (6, some (sigd.xss.take mtr.n)), (7, some (sigd.xss.drop mtr.n))]
  ntr : d.NXS 4 = .ok (mtr.n : Int)

/-- A dosimetry table in the standard layout is read as its blocks. -/
theorem C54_dosimetry (zaid : List Char) (d : TableData) (mtr : MTR) (sigd : SIGD)
    (hm : MTR.ofRange mtr.xss mtr.n = .ok mtr) (hs : SIGD.ofRange sigd.xss mtr.n mtr.n = .ok sigd)
    (hl : mtr.n ≤ sigd.xss.length) (hf : FitsN mtr.n) (hd : StandardDosimetry mtr sigd d)
    (ht : TableType.dosimetry.verifyType zaid = .ok ()) :
    Dosimetry.ofTable zaid d = .ok ⟨zaid, d, mtr, sigd⟩ := by
  have hx : d.xss = mtr.xss ++ sigd.xss := by
    rw [hd.xss]; simp [partsWords]
  have hlen : d.xss.length = mtr.xss.length + sigd.xss.length := by rw [hx]; simp
  have hc : d.count 4 = .ok mtr.n := by
    unfold TableData.count
    rw [hd.ntr]
    simp only [ok_bind, pure_eq_ok]
    congr 1
    unfold u32OfInt FitsN at *
    omega
  obtain ⟨j3, j6, j7, -⟩ := hd.blocks
  simp only [List.length_take, Nat.min_eq_left hl, Nat.zero_add] at j3 j6 j7
  have o : ∀ i v, d.JXS i = .ok ((v + 1 : Nat) : Int) → v ≤ d.xss.length → d.offset i = .ok v := by
    intro i v h hv
    unfold TableData.offset
    rw [h, ok_bind, if_neg (by omega), pure_eq_ok]
    congr 1
  have o3 : d.offset 3 = .ok 0 := o 3 0 j3 (by omega)
  have o6 : d.offset 6 = .ok mtr.xss.length := o 6 _ j6 (by omega)
  have o7 : d.offset 7 = .ok (mtr.xss.length + mtr.n) := o 7 _ j7 (by omega)
  have e1 : sub d.xss 0 mtr.xss.length = .ok mtr.xss :=
    sub_of_eq (a := []) (b := mtr.xss) (c := sigd.xss) (by rw [hx]; simp) rfl (by simp)
  have e2 : sub d.xss mtr.xss.length d.xss.length = .ok sigd.xss :=
    sub_of_eq (a := mtr.xss) (b := sigd.xss) (c := []) (by rw [hx]; simp) rfl (by rw [hlen])
  unfold Dosimetry.ofTable
  rw [ht, ok_bind]
  unfold Dosimetry.generateBlocks CE.located
  rw [o3, ok_bind, o6, ok_bind, o7, ok_bind, hc, ok_bind, e1, ok_bind, hm, ok_bind, e2]
  simp only [ok_bind, pure_eq_ok]
  rw [Nat.add_sub_cancel_left, hs]
  rfl

/-- The dosimetry tables the library writes are in the standard layout. -/
theorem C54_dosimetry_written (z a : Nat) (mts : List Nat) (ds : List TabulatedData)
    (mtr : MTR) (sigd : SIGD) (hm : MTR.mk' mts = .ok mtr) (hs : SIGD.mk' ds = .ok sigd)
    (hn : mts.length = ds.length) :
    ∃ d, Dosimetry.generateData z a mtr sigd = .ok d ∧ StandardDosimetry mtr sigd d := by
  obtain ⟨m1, m2, m3⟩ := mtr_words hm
  obtain ⟨s1, s2, s3⟩ := sigd_length hs
  have hnn : mtr.n = sigd.n := by omega
  unfold Dosimetry.generateData
  rw [guardThrow_eq_ok.mpr (by simp [hnn]), ok_bind, pure_eq_ok]
  generalize hd : (⟨List.replicate 16 0, List.replicate 16 (Dbl.ofNat 0), _, _, _⟩ : TableData) = d
  refine ⟨d, rfl, ?_, ?_, ?_, ?_⟩
  · rw [← hd]; exact ⟨rfl, rfl, rfl, rfl⟩
  · rw [← hd]; simp [partsWords]
  · simp only [InOrder, List.length_take, Nat.min_eq_left (hnn ▸ s2), Nat.zero_add, and_true]
    refine ⟨JXS_get d 2 1 (by rw [← hd]; rfl), JXS_get d 5 _ (by rw [← hd]; rfl),
      JXS_get d 6 _ (by rw [← hd]; rfl)⟩
  · exact NXS_get d 3 _ (by rw [← hd]; rfl)

/-- Two reactions in a table of another code (other arrays, counts and unused locators). -/
example : ∃ d d', Dosimetry.generateData 26 56 (made (MTR.mk' [16, 107])) (made (SIGD.mk' exSigd)) = .ok d ∧
    d' = { d with iz := List.replicate 16 7, nxs := [9, 8, 7, 2] ++ List.replicate 12 6,
                  jxs := [4, 5] ++ (d.jxs.drop 2).take 5 ++ List.replicate 25 3 } ∧
    Dosimetry.ofTable "26056.10y".toList d' =
      .ok ⟨"26056.10y".toList, d', made (MTR.mk' [16, 107]), made (SIGD.mk' exSigd)⟩ := by
  obtain ⟨d, h, hs⟩ := C54_dosimetry_written 26 56 [16, 107] exSigd
    (made (MTR.mk' [16, 107])) (made (SIGD.mk' exSigd)) (by decide +kernel) (by decide +kernel) (by decide)
  have hj := hs.sized.jxs
  obtain ⟨j3, j6, j7, -⟩ := hs.blocks
  have two : ([9, 8, 7, 2] ++ List.replicate 12 6 : List Int)[3]? =
      some ((made (MTR.mk' [16, 107])).n : Int) := by decide +kernel
  refine ⟨d, _, h, rfl, C54_dosimetry _ _ _ _ (by decide +kernel) (by decide +kernel) (by decide +kernel)
    (by decide +kernel) ⟨⟨rfl, hs.sized.aw, rfl, by simp [hj]⟩, hs.xss, ?_, NXS_get _ 3 _ two⟩
    (by decide +kernel)⟩
  have key : ∀ (i : Nat) (v : Int), 2 ≤ i → i < 7 → d.JXS (i + 1) = .ok v →
      ([4, 5] ++ (d.jxs.drop 2).take 5 ++ List.replicate 25 3)[i]? = some v := by
    intro i v h1 h2 h
    have := C54.jxs_of h
    rw [List.append_assoc, List.getElem?_append_right (by simpa using h1),
      List.getElem?_append_left (by simp; omega), List.getElem?_take_of_lt (by simp; omega), List.getElem?_drop]
    simpa [show 2 + (i - 2) = i from by omega] using this
  exact ⟨JXS_get _ 2 _ (key 2 _ (by omega) (by omega) j3), JXS_get _ 5 _ (key 5 _ (by omega) (by omega) j6),
    JXS_get _ 6 _ (key 6 _ (by omega) (by omega) j7), trivial⟩

/-! ## Thermal scattering tables -/

/-- The parts of a block of cross sections: the number of energies and the energies, the cross sections. -/
def xsParts (i : Nat) (b : ITIE) : List (Nat × Option Words) :=
  [(i, some (b.xss.take (1 + (b.xss.length - 1) / 2))), (i + 1, some (b.xss.drop (1 + (b.xss.length - 1) / 2)))]

/-- The parts of the elastic blocks. -/
def Elastic.parts : Elastic → List (Nat × Option Words)
  | .none => [(4, Option.none), (5, Option.none), (6, Option.none), (7, Option.none), (8, Option.none), (9, Option.none)]
  | .incoherent a b => xsParts 4 a ++ [(6, some b.xss), (7, Option.none), (8, Option.none), (9, Option.none)]
  | .coherent a b => xsParts 4 a ++ [(6, b.map (·.xss)), (7, Option.none), (8, Option.none), (9, Option.none)]
  | .mixed a b c f => xsParts 4 a ++ [(6, b.map (·.xss))] ++ xsParts 7 c ++ [(9, some f.xss)]

/-- The parts of a thermal scattering table. -/
def thermalParts (itie : ITIE) (itxe : ITXE) (E : Elastic) : List (Nat × Option Words) :=
  xsParts 1 itie ++ [(3, some itxe.xss)] ++ E.parts

/-- A thermal scattering table in the standard layout: `nieb` is the number of outgoing energies. -/
structure StandardThermal (itie : ITIE) (itxe : ITXE) (nieb : Nat) (E : Elastic) (d : TableData) : Prop where
  sized : d.Sized
  xss : d.xss = partsWords (thermalParts itie itxe E)
  blocks : InOrder d 0 (thermalParts itie itxe E ++ unusedFrom 10)
  nil : d.NXS 3 = .ok (if itxe.IFENG < 2 then (itxe.nc : Int) - 1 else itxe.nc + 1)
  nieb : d.NXS 4 = .ok (nieb : Int)
  idpnc : d.NXS 5 = .ok (E.mode : Int)
  ncl : d.NXS 6 = .ok E.ncl
  ifeng : d.NXS 7 = .ok (itxe.IFENG : Int)
  ncli : d.NXS 8 = .ok E.ncli

namespace C54

theorem half {b : ITIE} {ne : Nat} (h : TS.MadeXS b ne) : (b.xss.length - 1) / 2 = ne ∧ 1 + ne ≤ b.xss.length := by
  have := (TS.xs_facts h).2.2
  omega

theorem thermal_words (itie : ITIE) (itxe : ITXE) (E : Elastic) :
    partsWords (thermalParts itie itxe E) = C34.words E (itie.xss ++ itxe.xss) := by
  have e : ∀ (w : Words) n r, w.take n ++ (w.drop n ++ r) = w ++ r := by
    intro w n r; rw [← List.append_assoc, List.take_append_drop]
  cases E with
  | none => simp [partsWords, thermalParts, Elastic.parts, xsParts, C34.words, e]
  | incoherent a b => simp [partsWords, thermalParts, Elastic.parts, xsParts, C34.words, e]
  | coherent a b => cases b <;> simp [partsWords, thermalParts, Elastic.parts, xsParts, C34.words, e]
  | mixed a b c f => cases b <;> simp [partsWords, thermalParts, Elastic.parts, xsParts, C34.words, e]

/-- The locators of a thermal table. -/
def thermalJxs (itie : ITIE) (itxe : ITXE) (E : Elastic) (ne ne1 ne2 : Nat) : List Int :=
  [1, ((1 + ne + 1 : Nat) : Int), ((itie.xss.length + 1 : Nat) : Int)] ++
    C34.locs E (itie.xss ++ itxe.xss) ne1 ne2

theorem xs_order {d : TableData} {n i : Nat} {b : ITIE} {ne : Nat} (h : TS.MadeXS b ne)
    (r : List (Nat × Option Words)) : InOrder d n (xsParts i b ++ r) ↔
      d.JXS i = .ok ((n + 1 : Nat) : Int) ∧ d.JXS (i + 1) = .ok ((n + 1 + ne + 1 : Nat) : Int) ∧
        InOrder d (n + b.xss.length) r := by
  obtain ⟨h1, h2⟩ := half h
  simp only [xsParts, List.cons_append, List.nil_append, InOrder, h1, List.length_take, List.length_drop,
    Nat.min_eq_left h2]
  have e1 : n + (1 + ne) + 1 = n + 1 + ne + 1 := by omega
  have e2 : n + (1 + ne) + (b.xss.length - (1 + ne)) = n + b.xss.length := by omega
  rw [e1, e2]

theorem list6 {d : TableData} {n : Nat} (hd : d.Sized) {a0 a1 a2 : Int} {a : List Int} (ha : a.length = 6)
    (h1 : d.JXS 1 = .ok a0) (h2 : d.JXS 2 = .ok a1) (h3 : d.JXS 3 = .ok a2)
    (h : ∀ i (hi : i < 6), d.JXS (i + 4) = .ok (a[i]'(by omega))) (h0 : InOrder d n (unusedFrom 10)) :
    d.jxs = [a0, a1, a2] ++ a ++ List.replicate 23 0 := by
  have := jxs_tail hd.jxs ([a0, a1, a2] ++ a) (by simp [ha]) ?_ ?_
  · simpa [ha] using this
  · intro i hi
    have hi' : i < 9 := by simpa [ha] using hi
    match i, hi' with
    | 0, _ => exact h1
    | 1, _ => exact h2
    | 2, _ => exact h3
    | k + 3, hk =>
      have := h k (by omega)
      simpa using this
  · intro j h1 h2
    have : j ≥ 10 := by simp [ha] at h1; omega
    exact unused_zero h0 j (by omega) (by omega)

theorem thermal_order {d : TableData} {itie : ITIE} {itxe : ITXE} {E : Elastic} {ne : Nat} (hd : d.Sized)
    (hi : TS.MadeXS itie ne) (hE : E.Sound) (h : InOrder d 0 (thermalParts itie itxe E ++ unusedFrom 10)) :
    ∃ ne1 ne2, d.jxs = [1, ((1 + ne + 1 : Nat) : Int), ((itie.xss.length + 1 : Nat) : Int)] ++
      C34.locs E (itie.xss ++ itxe.xss) ne1 ne2 ++ List.replicate 23 0 := by
  unfold thermalParts at h
  rw [List.append_assoc, List.append_assoc, xs_order hi] at h
  obtain ⟨j1, j2, h⟩ := h
  simp only [Nat.zero_add, List.cons_append, List.nil_append, InOrder] at j1 j2 h
  obtain ⟨j3, h⟩ := h
  have hl : itie.xss.length + itxe.xss.length = (itie.xss ++ itxe.xss).length := by simp
  rw [hl] at h
  generalize itie.xss ++ itxe.xss = x2 at h
  have key : ∀ (a : List Int) (n : Nat) (ha : a.length = 6),
      (∀ i (hi : i < 6), d.JXS (i + 4) = .ok (a[i]'(by omega))) → InOrder d n (unusedFrom 10) →
      d.jxs = [1, ((1 + ne + 1 : Nat) : Int), ((itie.xss.length + 1 : Nat) : Int)] ++ a ++
        List.replicate 23 0 := fun a n ha hj h0 => list6 hd ha j1 j2 j3 hj h0
  have six : ∀ (a0 a1 a2 a3 a4 a5 : Int), d.JXS 4 = .ok a0 → d.JXS 5 = .ok a1 → d.JXS 6 = .ok a2 →
      d.JXS 7 = .ok a3 → d.JXS 8 = .ok a4 → d.JXS 9 = .ok a5 →
      ∀ i (hi : i < 6), d.JXS (i + 4) = .ok (([a0, a1, a2, a3, a4, a5] : List Int)[i]'hi) := by
    intro a0 a1 a2 a3 a4 a5 h0 h1 h2 h3 h4 h5 i hi
    match i, hi with
    | 0, _ => exact h0
    | 1, _ => exact h1
    | 2, _ => exact h2
    | 3, _ => exact h3
    | 4, _ => exact h4
    | 5, _ => exact h5
  cases E with
  | none =>
    obtain ⟨h4, h5, h6, h7, h8, h9, h0⟩ := h
    exact ⟨0, 0, key _ _ rfl (six _ _ _ _ _ _ h4 h5 h6 h7 h8 h9) h0⟩
  | incoherent a b =>
    obtain ⟨m, ha, hb⟩ := hE
    simp only [Elastic.parts, List.append_assoc] at h
    rw [xs_order ha] at h
    obtain ⟨h4, h5, h6, h7, h8, h9, h0⟩ := h
    refine ⟨0, m, key _ _ rfl (six _ _ _ _ _ _ h4 h5 ?_ h7 h8 h9) h0⟩
    rw [h6]; simp [C34.after]
  | coherent a b =>
    obtain ⟨m, ha, hb⟩ := hE
    simp only [Elastic.parts, List.append_assoc] at h
    rw [xs_order ha] at h
    cases b with
    | none =>
      obtain ⟨h4, h5, h6, h7, h8, h9, h0⟩ := h
      exact ⟨m, 0, key _ _ rfl (six _ _ _ _ _ _ h4 h5 h6 h7 h8 h9) h0⟩
    | some x =>
      obtain ⟨h4, h5, h6, h7, h8, h9, h0⟩ := h
      refine ⟨m, 0, key _ _ rfl (six _ _ _ _ _ _ h4 h5 ?_ h7 h8 h9) h0⟩
      rw [h6]; simp [C34.after]
  | mixed a b c f =>
    obtain ⟨⟨m, ha, hb⟩, k, hc, hf⟩ := hE
    simp only [Elastic.parts, List.append_assoc] at h
    rw [xs_order ha] at h
    cases b with
    | none =>
      obtain ⟨h4, h5, h6, h⟩ := h
      have h := (xs_order hc _).mp h
      obtain ⟨h7, h8, h9, h0⟩ := h
      refine ⟨m, k, key _ _ rfl (six _ _ _ _ _ _ h4 h5 h6 ?_ ?_ ?_) h0⟩
      · rw [h7]; simp [C34.after]
      · rw [h8]; simp
      · rw [h9]; simp [C34.after, Nat.add_assoc]
    | some x =>
      obtain ⟨h4, h5, h6, h⟩ := h
      have h := (xs_order hc _).mp h
      obtain ⟨h7, h8, h9, h0⟩ := h
      refine ⟨m, k, key _ _ rfl (six _ _ _ _ _ _ h4 h5 ?_ ?_ ?_ ?_) h0⟩
      · rw [h6]; simp [C34.after]
      · rw [h7]; simp [C34.after, Nat.add_assoc]
      · rw [h8]; simp [Nat.add_assoc]
      · rw [h9]; simp [C34.after, Nat.add_assoc]

/-- Thermal blocks depend on XSS, JXS and NXS(3) to NXS(8) only. -/
theorem thermal_congr {d e : TableData} (hx : d.xss = e.xss) (hj : d.jxs = e.jxs)
    (hn : ∀ i, 3 ≤ i → i ≤ 8 → d.NXS i = e.NXS i) (zaid : List Char) :
    TS.generateBlocks zaid d = (TS.generateBlocks zaid e).map fun t => { t with data := d } := by
  have eJ : ∀ i, d.JXS i = e.JXS i := by intro i; unfold TableData.JXS; rw [hj]
  have eL : ∀ i, d.locator i = e.locator i := by intro i; unfold TableData.locator; rw [eJ]
  have eR : ∀ a b, d.range a b = e.range a b := by intro a b; unfold TableData.range; rw [hx]
  have eW : ∀ r, d.words r = e.words r := by intro r; unfold TableData.words; rw [hx]
  have eC : ∀ i, 3 ≤ i → i ≤ 8 → d.count i = e.count i := by
    intro i h1 h2; unfold TableData.count; rw [hn i h1 h2]
  have eS : ∀ i, 3 ≤ i → i ≤ 8 → d.signed i = e.signed i := by
    intro i h1 h2; unfold TableData.signed; rw [hn i h1 h2]
  have eB : ∀ i, TS.block d i = TS.block e i := by intro i; unfold TS.block; simp only [eL, hj, eR]
  have e1 : ∀ p, TS.readITIE d p = TS.readITIE e p := by intro p; unfold TS.readITIE; simp only [eB, eW]
  have e2 : ∀ p i, TS.readITXE d p i = TS.readITXE e p i := by
    intro p i
    unfold TS.readITXE
    simp only [eB, eW, eL, eC 7 (by omega) (by omega), eC 3 (by omega) (by omega), eC 4 (by omega) (by omega)]
  have e3 : TS.readCoherent d = TS.readCoherent e := by
    unfold TS.readCoherent
    simp only [eB, eW, eS 6 (by omega) (by omega)]
  have e4 : ∀ k, TS.readIncoherent d k = TS.readIncoherent e k := by
    intro k
    unfold TS.readIncoherent
    have : d.signed (if k = 3 then 6 else 8) = e.signed (if k = 3 then 6 else 8) := by
      by_cases hk : k = 3 <;> simp only [hk, if_true, if_false] <;> exact eS _ (by omega) (by omega)
    simp only [eB, eW, this]
  unfold TS.generateBlocks
  simp only [eJ, e1, e2, e3, e4, eC 5 (by omega) (by omega)]
  cases e.JXS 1 with
  | error x => rfl
  | ok j =>
    simp only [ok_bind]
    cases TS.readITIE e (decide (j > 0)) with
    | error x => rfl
    | ok a =>
      simp only [ok_bind]
      cases TS.readITXE e (decide (j > 0)) a with
      | error x => rfl
      | ok b =>
        simp only [ok_bind]
        cases e.count 5 with
        | error x => rfl
        | ok c =>
          simp only [ok_bind]
          cases CE.onlyIf (decide (c > 3)) (TS.readCoherent e) with
          | error x => rfl
          | ok f =>
            simp only [ok_bind]
            cases CE.onlyIf (decide (c = 3 ∨ c = 5)) (TS.readIncoherent e c) with
            | error x => rfl
            | ok g => rfl

end C54

/-- A thermal scattering table in the standard layout is read as its blocks. The inelastic block is what is
read from its words at its place. -/
theorem C54_thermal (zaid : List Char) (d : TableData) (itie : ITIE) (itxe : ITXE) (E : Elastic)
    (ne nieb : Nat) (hi : TS.MadeXS itie ne) (hE : E.Sound) (hb : ¬ itxe.IFENG < 2 → nieb = 0)
    (hfb : FitsN nieb) (hfc : FitsN (itxe.nc + 1)) (hfi : FitsN itxe.IFENG)
    (hr : ITXE.ofRange itxe.IFENG nieb itxe.nc ne (itie.xss.length + 1) itxe.xss = .ok itxe)
    (hf : FitsN (d.xss.length + 1)) (hd : StandardThermal itie itxe nieb E d)
    (ht : TableType.thermal.verifyType zaid = .ok ()) :
    TS.ofTable zaid d = .ok ⟨zaid, d, itie, itxe, E.itce, E.itca, E.itcei, E.itcai⟩ := by
  obtain ⟨ne1, ne2, hj⟩ := C54.thermal_order hd.sized hi hE hd.blocks
  have hx := hd.xss
  rw [C54.thermal_words] at hx
  have hl : d.xss.length = itie.xss.length + itxe.xss.length + E.size := by
    rw [hx, C34.words_size]; simp
  obtain ⟨h, _⟩ := C34.generateBlocks_eq zaid [] itie itxe itxe E ne nieb ne1 ne2 hi hE hb hfb hfc hfi hr
    (by rw [← hl]; exact hf) _ rfl
  unfold TS.ofTable
  rw [ht, ok_bind]
  rw [C54.thermal_congr (d := d)
    (e := C34.dataOf [] itie itxe ne nieb E (C34.words E (itie.xss ++ itxe.xss))
      (C34.locs E (itie.xss ++ itxe.xss) ne1 ne2)) hx hj ?_ zaid, h]
  · rfl
  · intro i h1 h2
    match i, h1, h2 with
    | 3, _, _ => rw [hd.nil]; exact (NXS_get _ 2 _ rfl).symm
    | 4, _, _ => rw [hd.nieb]; exact (NXS_get _ 3 _ rfl).symm
    | 5, _, _ => rw [hd.idpnc]; exact (NXS_get _ 4 _ rfl).symm
    | 6, _, _ => rw [hd.ncl]; exact (NXS_get _ 5 _ rfl).symm
    | 7, _, _ => rw [hd.ifeng]; exact (NXS_get _ 6 _ rfl).symm
    | 8, _, _ => rw [hd.ncli]; exact (NXS_get _ 7 _ rfl).symm

/-- The thermal scattering tables the library writes are in the standard layout. -/
theorem C54_thermal_written (za : List Nat) (itie : ITIE) (itxe : ITXE) (E : Elastic) (ne nieb : Nat)
    (hza : za.length ≤ 16) (hi : TS.MadeXS itie ne) (hE : E.Sound) (hn : itxe.NE = ne)
    (hb : TS.niebOf itxe = .ok nieb) :
    ∃ d, TS.generateData (tsInput za itie itxe E) = .ok d ∧ StandardThermal itie itxe nieb E d := by
  obtain ⟨ne1, ne2, h1, h2, hg⟩ := C34.generateData_eq za itie itxe E ne nieb hza hi hE hn hb
  refine ⟨_, hg, ?_⟩
  generalize hd : C34.dataOf za itie itxe ne nieb E _ _ = d
  have hx : d.xss = C34.words E (itie.xss ++ itxe.xss) := by rw [← hd]; rfl
  have hj : d.jxs = [1, ((1 + ne + 1 : Nat) : Int), ((itie.xss.length + 1 : Nat) : Int)] ++
    C34.locs E (itie.xss ++ itxe.xss) ne1 ne2 ++ List.replicate 23 0 := by rw [← hd]; rfl
  have g : ∀ i v, ([1, ((1 + ne + 1 : Nat) : Int), ((itie.xss.length + 1 : Nat) : Int)] ++
    C34.locs E (itie.xss ++ itxe.xss) ne1 ne2 ++ List.replicate 23 0)[i]? = some v → d.JXS (i + 1) = .ok v := by
    intro i v h
    exact JXS_get d i v (by rw [hj]; exact h)
  exact {
    sized := by
      rw [← hd]
      refine ⟨?_, rfl, rfl, ?_⟩
      · simp [C34.dataOf]; omega
      · simp [C34.dataOf, C34.locs_length]
    xss := by rw [hx, C54.thermal_words]
    blocks := by
      rw [C54.inOrder_append]
      refine ⟨?_, C54.zero_unused ?_⟩
      · unfold thermalParts
        rw [List.append_assoc, C54.xs_order hi]
        refine ⟨g 0 _ rfl, ?_, ?_⟩
        · have := g 1 _ rfl
          simpa using this
        simp only [Nat.zero_add, List.cons_append, List.nil_append, InOrder]
        refine ⟨g 2 _ rfl, ?_⟩
        have hl : itie.xss.length + itxe.xss.length = (itie.xss ++ itxe.xss).length := by simp
        rw [hl]
        generalize itie.xss ++ itxe.xss = x2 at g
        cases E with
        | none => exact ⟨g 3 _ rfl, g 4 _ rfl, g 5 _ rfl, g 6 _ rfl, g 7 _ rfl, g 8 _ rfl, trivial⟩
        | incoherent a b =>
          simp only [Elastic.parts]
          rw [C54.xs_order (h2 a rfl)]
          refine ⟨g 3 _ rfl, g 4 _ rfl, ?_, g 6 _ rfl, g 7 _ rfl, g 8 _ rfl, trivial⟩
          rw [g 5 _ rfl]; simp [C34.after]
        | coherent a b =>
          simp only [Elastic.parts]
          rw [C54.xs_order (h1 a rfl)]
          cases b with
          | none => exact ⟨g 3 _ rfl, g 4 _ rfl, g 5 _ rfl, g 6 _ rfl, g 7 _ rfl, g 8 _ rfl, trivial⟩
          | some x =>
            refine ⟨g 3 _ rfl, g 4 _ rfl, ?_, g 6 _ rfl, g 7 _ rfl, g 8 _ rfl, trivial⟩
            rw [g 5 _ rfl]; simp [C34.after]
        | mixed a b c f =>
          simp only [Elastic.parts, List.append_assoc]
          rw [C54.xs_order (h1 a rfl)]
          cases b with
          | none =>
            refine ⟨g 3 _ rfl, g 4 _ rfl, g 5 _ rfl, ?_⟩
            refine (C54.xs_order (h2 c rfl) _).mpr ⟨?_, ?_, ?_, trivial⟩
            · rw [g 6 _ rfl]; simp [C34.after]
            · rw [g 7 _ rfl]; simp
            · rw [g 8 _ rfl]; simp [C34.after, Nat.add_assoc]
          | some x =>
            refine ⟨g 3 _ rfl, g 4 _ rfl, ?_, ?_⟩
            · rw [g 5 _ rfl]; simp [C34.after]
            refine (C54.xs_order (h2 c rfl) _).mpr ⟨?_, ?_, ?_, trivial⟩
            · rw [g 6 _ rfl]; simp [C34.after, Nat.add_assoc]
            · rw [g 7 _ rfl]; simp [Nat.add_assoc]
            · rw [g 8 _ rfl]; simp [C34.after, Nat.add_assoc]
      · intro j h1 h2
        have := g (j - 1) 0 (by
          rw [List.getElem?_append_right (by simp [C34.locs_length]; omega), List.getElem?_replicate,
            if_pos (by simp [C34.locs_length]; omega)])
        rwa [show j - 1 + 1 = j from by omega] at this
    nil := NXS_get d 2 _ (by rw [← hd]; rfl)
    nieb := NXS_get d 3 _ (by rw [← hd]; rfl)
    idpnc := NXS_get d 4 _ (by rw [← hd]; rfl)
    ncl := NXS_get d 5 _ (by rw [← hd]; rfl)
    ifeng := NXS_get d 6 _ (by rw [← hd]; rfl)
    ncli := NXS_get d 7 _ (by rw [← hd]; rfl) }

/-- Both kinds of elastic scattering, with the targets of another code. -/
example : ∃ d, TS.generateData (tsInput [1001] exXS (made (ITXE.mkPlain exDCos true 6)) exElastic) = .ok d ∧
    TS.ofTable "lwtr.10t".toList { d with iz := List.replicate 16 7 } = .ok ⟨"lwtr.10t".toList,
      { d with iz := List.replicate 16 7 }, exXS, made (ITXE.mkPlain exDCos true 6), some exXS, some exCosines,
      some exXS, some exCosines⟩ := by
  obtain ⟨d, h, hs⟩ := C54_thermal_written [1001] exXS (made (ITXE.mkPlain exDCos true 6)) exElastic 2 2 (by decide)
    exXS_made exElastic_sound (by decide +kernel) (by decide +kernel)
  have hl : d.xss.length = 31 := by
    rw [hs.xss]; decide +kernel
  refine ⟨d, h, C54_thermal _ { d with iz := List.replicate 16 7 } exXS (made (ITXE.mkPlain exDCos true 6)) exElastic
    2 2 exXS_made exElastic_sound ?_ (by decide) (by decide +kernel) (by decide +kernel) (by decide +kernel) ?_
    ⟨⟨rfl, hs.sized.aw, hs.sized.nxs, hs.sized.jxs⟩, hs.xss, hs.blocks, hs.nil, hs.nieb, hs.idpnc, hs.ncl, hs.ifeng,
      hs.ncli⟩ (by decide +kernel)⟩
  · intro hn
    exact absurd (by decide +kernel) hn
  · show FitsN (d.xss.length + 1)
    rw [hl]; decide

/-! ## Photoatomic tables -/

/-- The words of the blocks for electroionisation after `k` other words: the numbers of energies, the
locators of the energies, the locators of the distributions, the blocks. -/
def eionWords (k : Nat) (bs : List ElectronBlock) : Words :=
  bs.map (fun b => Dbl.ofNat b.n) ++
    (startsOf (k + 3 * bs.length) (bs.map (·.xss))).map Dbl.ofNat ++
    List.zipWith (fun (s : Nat) (b : ElectronBlock) => Dbl.ofNat (s + 3 * b.n))
      (startsOf (k + 3 * bs.length) (bs.map (·.xss))) bs ++
    (bs.map (·.xss)).flatten

/-- The parts before the electron data; `flo` is the fluorescence part. -/
def PABlocks.photonParts (B : PABlocks) (flo : Option Words) : List (Nat × Option Words) :=
  [(1, some B.eszg.xss), (2, some B.jinc.data.xss), (3, some B.jcoh.data.xss), (4, flo), (5, some B.lhnm.xss),
   (6, B.shells.map fun s => s.1.xss.take s.1.n), (7, B.shells.map fun s => (s.1.xss.drop s.1.n).take s.1.n),
   (8, B.shells.map fun s => s.1.xss.drop (2 * s.1.n)),
   (9, B.shells.map fun s => s.2.xss.take s.2.n), (10, B.shells.map fun s => s.2.xss.drop s.2.n)]

/-- The parts of the electron data before the electroionisation data. -/
def headElectrons (e : Option PA.Electrons) : List (Nat × Option Words) :=
  [(11, e.map fun e => e.subsh.xss.take e.subsh.n),
   (12, e.map fun e => (e.subsh.xss.drop e.subsh.n).take e.subsh.n),
   (13, e.map fun e => (e.subsh.xss.drop (2 * e.subsh.n)).take e.subsh.n),
   (14, e.map fun e => (e.subsh.xss.drop (3 * e.subsh.n)).take e.subsh.n),
   (15, e.map fun e => e.subsh.xss.drop (4 * e.subsh.n)), (16, e.map (·.sphel.xss)),
   (17, e.map fun e => e.xprob.xss.take e.subsh.n), (18, e.map fun e => e.xprob.xss.drop e.subsh.n),
   (19, e.map (·.esze.xss)), (20, e.map (·.excit.xss)), (21, e.map fun e => e.elas.xss.take (3 * e.elas.n)),
   (22, e.map fun e => e.elas.xss.drop (3 * e.elas.n))]

/-- The other parts of the electron data, after `k` words. -/
def tailElectrons (k : Nat) (e : Option PA.Electrons) : List (Nat × Option Words) :=
  [(23, e.map fun e => eionWords k e.eion), (24, e.map fun e => e.breme.xss.take (3 * e.breme.n)),
   (25, e.map fun e => e.breme.xss.drop (3 * e.breme.n)), (26, e.map (·.breml.xss)),
   (27, e.bind fun e => e.selas.map (·.xss))]

/-- The parts of a photoatomic table. -/
def PABlocks.parts (B : PABlocks) (flo : Option Words) : List (Nat × Option Words) :=
  B.photonParts flo ++ headElectrons B.electrons ++
    tailElectrons (partsWords (B.photonParts flo ++ headElectrons B.electrons)).length B.electrons

/-- A photoatomic table in the standard layout. Without fluorescence data, JXS(4) is zero or the position
where they would be. -/
structure StandardPhotoatomic (B : PABlocks) (d : TableData) : Prop where
  sized : d.Sized
  layout : ∃ flo, (flo = B.jflo.map (·.xss) ∨ (B.jflo = none ∧ flo = some [])) ∧
    d.xss = partsWords (B.parts flo) ∧ InOrder d 0 (B.parts flo ++ unusedFrom 28)
  nes : d.NXS 3 = .ok (B.eszg.n : Int)
  nflo : d.NXS 4 = .ok ((match B.jflo with | some b => b.n | none => 0 : Nat) : Int)
  nsh : d.NXS 5 = .ok ((match B.shells with | some b => b.2.n | none => 0 : Nat) : Int)
  nepr : d.NXS 6 = .ok (match B.electrons with | some e => if e.selas.isSome then 3 else 1 | none => 0)
  nssh : d.NXS 7 = .ok ((match B.electrons with | some e => e.subsh.n | none => 0 : Nat) : Int)
  ne : d.NXS 8 = .ok ((match B.electrons with | some e => e.esze.n | none => 0 : Nat) : Int)
  nxl : d.NXS 9 = .ok ((match B.electrons with | some e => e.excit.n | none => 0 : Nat) : Int)
  na : d.NXS 10 = .ok ((match B.electrons with | some e => e.elas.n | none => 0 : Nat) : Int)
  nb : d.NXS 11 = .ok ((match B.electrons with | some e => e.breme.n | none => 0 : Nat) : Int)
  nbl : d.NXS 12 = .ok ((match B.electrons with | some e => e.breml.n | none => 0 : Nat) : Int)

namespace C54

/-- The locators of parts. -/
def locsOf : Nat → List (Nat × Option Words) → List Int
  | _, [] => []
  | n, (_, none) :: ps => 0 :: locsOf n ps
  | n, (_, some w) :: ps => ((n + 1 : Nat) : Int) :: locsOf (n + w.length) ps

theorem locsOf_append (n : Nat) (ps qs : List (Nat × Option Words)) :
    locsOf n (ps ++ qs) = locsOf n ps ++ locsOf (n + (partsWords ps).length) qs := by
  induction ps generalizing n with
  | nil => simp [locsOf, partsWords]
  | cons p ps ih =>
    obtain ⟨i, o⟩ := p
    cases o with
    | none => simp only [List.cons_append, locsOf, ih, partsWords, List.map_cons,
        List.flatten_cons, Option.getD_none, List.nil_append]
    | some w => simp only [List.cons_append, locsOf, ih, partsWords, List.map_cons,
        List.flatten_cons, Option.getD_some, List.length_append, Nat.add_assoc]

theorem jxs_iff (d : TableData) (i : Nat) (v : Int) : d.JXS (i + 1) = .ok v ↔ d.jxs[i]? = some v :=
  ⟨jxs_of, JXS_get d i v⟩

theorem order_drop (d : TableData) (ps : List (Nat × Option Words)) : ∀ (n i k : Nat),
    ps.map (·.1) = List.range' (i + 1) k → i + k = d.jxs.length →
    (InOrder d n ps ↔ d.jxs.drop i = locsOf n ps) := by
  induction ps with
  | nil =>
    intro n i k h hk
    have : k = 0 := by
      cases k with
      | zero => rfl
      | succ k => simp [List.range'_succ] at h
    subst this
    simp only [InOrder, locsOf, true_iff]
    exact List.drop_of_length_le (by omega)
  | cons p ps ih =>
    intro n i k h hk
    cases k with
    | zero => simp at h
    | succ k =>
      rw [List.map_cons, List.range'_succ, List.cons.injEq] at h
      obtain ⟨h1, h2⟩ := h
      have hlt : i < d.jxs.length := by omega
      have hd : d.jxs.drop i = d.jxs[i] :: d.jxs.drop (i + 1) := List.drop_eq_getElem_cons hlt
      obtain ⟨j, o⟩ := p
      simp only at h1
      subst h1
      have e : ∀ v : Int, (d.JXS (i + 1) = .ok v ↔ d.jxs[i] = v) := by
        intro v
        rw [jxs_iff, List.getElem?_eq_getElem hlt, Option.some.injEq]
      cases o with
      | none =>
        simp only [InOrder, locsOf]
        rw [hd, List.cons.injEq, e, ih n (i + 1) k h2 (by omega)]
      | some w =>
        simp only [InOrder, locsOf]
        rw [hd, List.cons.injEq, e, ih _ (i + 1) k h2 (by omega)]

/-- Parts with all locators. -/
theorem order_locs {d : TableData} (hd : d.Sized) (ps : List (Nat × Option Words))
    (h : ps.map (·.1) = List.range' 1 32) : InOrder d 0 ps ↔ d.jxs = locsOf 0 ps := by
  have := order_drop d ps 0 0 32 h (by rw [hd.jxs])
  rwa [List.drop_zero] at this

theorem locs_unused (n i k : Nat) :
    locsOf n ((List.range' i k).map fun k => (k, none)) = List.replicate k 0 := by
  induction k generalizing i with
  | zero => rfl
  | succ k ih => rw [List.range'_succ, List.map_cons, locsOf, ih, List.replicate_succ]

theorem eion_words (k : Nat) (bs : List ElectronBlock) :
    eionWords k bs = PA.eionHead k bs ++ (bs.map (·.xss)).flatten := by
  unfold eionWords PA.eionHead
  generalize k + 3 * bs.length = m
  have e1 : ∀ (ws : List Words) m, (startsOf m ws).map Dbl.ofNat = locsFrom (fun p => Dbl.ofNat (p + 1)) m ws := by
    intro ws
    induction ws with
    | nil => intro m; rfl
    | cons w ws ih => intro m; simp [startsOf, locsFrom, ih]
  have e2 : ∀ (bs : List ElectronBlock) m, List.zipWith (fun (s : Nat) (b : ElectronBlock) => Dbl.ofNat (s + 3 * b.n))
      (startsOf m (bs.map (·.xss))) bs = PA.eionSecond m bs := by
    intro bs
    induction bs with
    | nil => intro m; rfl
    | cons b bs ih =>
      intro m
      simp only [List.map_cons, startsOf, List.zipWith_cons_cons, PA.eionSecond, ih]
      rw [show m + 1 + 3 * b.n = m + 3 * b.n + 1 from by omega]
  rw [e1, e2]

theorem split2 (w : Words) (n : Nat) (r : Words) : w.take n ++ (w.drop n ++ r) = w ++ r := by
  rw [← List.append_assoc, List.take_append_drop]

theorem split3 (w : Words) (n : Nat) (r : Words) :
    w.take n ++ ((w.drop n).take n ++ (w.drop (2 * n) ++ r)) = w ++ r := by
  rw [show 2 * n = n + n from by omega, ← List.drop_drop, split2, split2]

theorem split5 (w : Words) (n : Nat) (r : Words) :
    w.take n ++ ((w.drop n).take n ++ ((w.drop (2 * n)).take n ++ ((w.drop (3 * n)).take n ++
      (w.drop (4 * n) ++ r)))) = w ++ r := by
  rw [show 4 * n = 3 * n + n from by omega, ← List.drop_drop, split2,
    show 3 * n = 2 * n + n from by omega, ← List.drop_drop, split2, split3]

theorem photon_words (B : PABlocks) {flo : Option Words} (hf : flo.getD [] = PA.jfloWords B.jflo) :
    partsWords (B.photonParts flo) = (C32.shellPart B).1 := by
  unfold C32.shellPart PA.addShells C32.front
  cases hs : B.shells with
  | none => simp [partsWords, PABlocks.photonParts, hs, hf]
  | some s => simp [partsWords, PABlocks.photonParts, hs, hf, split3]

theorem head_words (e : PA.Electrons) : partsWords (headElectrons (some e)) =
    e.subsh.xss ++ e.sphel.xss ++ e.xprob.xss ++ e.esze.xss ++ e.excit.xss ++ e.elas.xss := by
  simp [partsWords, headElectrons, split2, split5]

theorem pa_words {B : PABlocks} (h : B.Sound) {flo : Option Words} (hf : flo.getD [] = PA.jfloWords B.jflo) :
    partsWords (B.parts flo) = (C32.electronPart B).1 := by
  unfold PABlocks.parts
  rw [words_append, words_append, photon_words B hf]
  unfold C32.electronPart
  cases he : B.electrons with
  | none => simp [partsWords, headElectrons, tailElectrons, PA.addElectrons]
  | some e =>
    have ee := PA.addEION_eq e.eion ((C32.shellPart B).1 ++ e.subsh.xss ++ e.sphel.xss ++ e.xprob.xss ++ e.esze.xss ++
      e.excit.xss ++ e.elas.xss)
    rw [(h.electrons e he).1.eion_count] at ee
    have hA : (PA.addElectrons (C32.shellPart B).1 (some e)).1 = PA.addEION e.subsh.n e.eion ((C32.shellPart B).1 ++
        e.subsh.xss ++ e.sphel.xss ++ e.xprob.xss ++ e.esze.xss ++ e.excit.xss ++ e.elas.xss) ++ e.breme.xss ++
        e.breml.xss ++ (e.selas.map (·.xss)).getD [] := by
      cases hs : e.selas <;> simp only [PA.addElectrons, hs, Option.map_some, Option.map_none, Option.getD_some,
        Option.getD_none, List.append_nil]
    rw [head_words, hA]
    simp only [← List.append_assoc]
    generalize (C32.shellPart B).1 ++ e.subsh.xss ++ e.sphel.xss ++ e.xprob.xss ++ e.esze.xss ++
      e.excit.xss ++ e.elas.xss = x21 at ee
    rw [ee]
    cases hs : e.selas <;> simp only [hs, partsWords, tailElectrons, Option.map_some, Option.bind_some,
      Option.map_none, List.map_cons, List.map_nil, Option.getD_some, Option.getD_none, List.flatten_cons, List.flatten_nil,
      eion_words, List.append_assoc, List.append_nil, split2]

theorem photon_locs {B : PABlocks} (h : B.Sound) (flo : Option Words)
    (h1 : flo.getD [] = PA.jfloWords B.jflo) : locsOf 0 (B.photonParts flo) =
      [((0 + 1 : Nat) : Int), PA.after B.eszg.xss, PA.after (B.eszg.xss ++ B.jinc.data.xss),
      (if flo.isSome then PA.after (B.eszg.xss ++ B.jinc.data.xss ++ B.jcoh.data.xss) else 0),
      PA.after (B.eszg.xss ++ B.jinc.data.xss ++ B.jcoh.data.xss ++ PA.jfloWords B.jflo)] ++
      (C32.shellPart B).2 := by
  rw [← h1]
  have hfr : C32.front B = B.eszg.xss ++ B.jinc.data.xss ++ B.jcoh.data.xss ++ flo.getD [] ++ B.lhnm.xss := by
    rw [h1]; rfl
  unfold C32.shellPart PA.addShells C32.nshOf
  rw [hfr]
  cases hs : B.shells with
  | none =>
    cases flo <;> simp [PABlocks.photonParts, locsOf, hs, PA.after] <;> omega
  | some s =>
    obtain ⟨g1, g0, g2, g3, g4, g5⟩ := h.shells s hs
    have l1 : min s.1.n s.1.xss.length = s.1.n := by omega
    have l2 : min s.2.n s.2.xss.length = s.2.n := by omega
    have l3 : min s.1.n (s.1.xss.length - s.1.n) = s.1.n := by omega
    cases flo <;> simp [PABlocks.photonParts, locsOf, hs, PA.after, PA.afterPlus, PA.nshCount] <;> omega

theorem electron_locs {B : PABlocks} (h : B.Sound)
    (hsub : ∀ e, B.electrons = some e → e.subsh.xss.length = 5 * e.subsh.n) :
    locsOf (C32.shellPart B).1.length (headElectrons B.electrons) ++
      locsOf ((C32.shellPart B).1 ++ partsWords (headElectrons B.electrons)).length
        (tailElectrons ((C32.shellPart B).1 ++ partsWords (headElectrons B.electrons)).length B.electrons) =
      (C32.electronPart B).2 := by
  unfold C32.electronPart
  cases he : B.electrons with
  | none => rfl
  | some e =>
    have hr := (h.electrons e he).1
    have hc := hr.eion_count
    have ee := PA.addEION_eq e.eion ((C32.shellPart B).1 ++ e.subsh.xss ++ e.sphel.xss ++ e.xprob.xss ++ e.esze.xss ++
      e.excit.xss ++ e.elas.xss)
    rw [hc] at ee
    have l1 := hsub e he
    have l2 := hr.xprob_size
    have l3 := PA.electron_size hr.elas
    have l4 := PA.electron_size hr.breme
    have ew : ∀ k, (eionWords k e.eion).length = 3 * e.subsh.n + (e.eion.map (·.xss)).flatten.length := by
      intro k; rw [eion_words, List.length_append, PA.eionHead_length, hc]
    generalize (C32.shellPart B).1 = x9 at ee
    have m1 : min e.subsh.n e.subsh.xss.length = e.subsh.n := by omega
    have m2 : min e.subsh.n (e.subsh.xss.length - e.subsh.n) = e.subsh.n := by omega
    have m3 : min e.subsh.n (e.subsh.xss.length - 2 * e.subsh.n) = e.subsh.n := by omega
    have m4 : min e.subsh.n (e.subsh.xss.length - 3 * e.subsh.n) = e.subsh.n := by omega
    have m5 : min e.subsh.n e.xprob.xss.length = e.subsh.n := by omega
    have m6 : min (3 * e.elas.n) e.elas.xss.length = 3 * e.elas.n := by omega
    have m7 : min (3 * e.breme.n) e.breme.xss.length = 3 * e.breme.n := by omega
    have hlist : locsOf (x9 ++ partsWords (headElectrons (some e))).length
        (tailElectrons (x9 ++ partsWords (headElectrons (some e))).length (some e)) =
        locsOf (x9 ++ e.subsh.xss ++ e.sphel.xss ++ e.xprob.xss ++ e.esze.xss ++ e.excit.xss ++ e.elas.xss).length
        (tailElectrons (x9 ++ e.subsh.xss ++ e.sphel.xss ++ e.xprob.xss ++ e.esze.xss ++ e.excit.xss ++
          e.elas.xss).length (some e)) := by
      rw [head_words]; simp only [List.append_assoc]
    rw [hlist]
    cases hs : e.selas with
    | none =>
      simp only [headElectrons, tailElectrons, Option.map_some, Option.bind_some, hs, Option.map_none, locsOf,
        PA.addElectrons, ee, List.cons_append, List.nil_append, PA.after, PA.afterPlus, List.length_append,
        List.length_take, List.length_drop, ew, PA.eionHead_length, hc, m1, m2, m3, m4, m5, m6, m7,
        List.cons.injEq, Int.natCast_inj, and_true, true_and]
      omega
    | some s =>
      simp only [headElectrons, tailElectrons, Option.map_some, Option.bind_some, hs, locsOf,
        PA.addElectrons, ee, List.cons_append, List.nil_append, PA.after, PA.afterPlus, List.length_append,
        List.length_take, List.length_drop, ew, PA.eionHead_length, hc, m1, m2, m3, m4, m5, m6, m7,
        List.cons.injEq, Int.natCast_inj, and_true, true_and]
      omega

theorem pa_locs {B : PABlocks} (h : B.Sound)
    (hsub : ∀ e, B.electrons = some e → e.subsh.xss.length = 5 * e.subsh.n) (flo : Option Words)
    (hf : flo.getD [] = PA.jfloWords B.jflo) : locsOf 0 (B.parts flo ++ unusedFrom 28) =
      [((0 + 1 : Nat) : Int), PA.after B.eszg.xss, PA.after (B.eszg.xss ++ B.jinc.data.xss),
      (if flo.isSome then PA.after (B.eszg.xss ++ B.jinc.data.xss ++ B.jcoh.data.xss) else 0),
      PA.after (B.eszg.xss ++ B.jinc.data.xss ++ B.jcoh.data.xss ++ PA.jfloWords B.jflo)] ++
      ((C32.shellPart B).2 ++ ((C32.electronPart B).2 ++ List.replicate 5 0)) := by
  have hp := photon_locs h flo hf
  have he := electron_locs h hsub
  unfold PABlocks.parts
  rw [locsOf_append, locsOf_append, locsOf_append, hp]
  simp only [Nat.zero_add]
  rw [words_append,
    photon_words B hf, List.append_assoc, List.append_assoc, List.append_assoc, ← List.append_assoc (locsOf _ _), he]
  congr 3

theorem pa_indices (B : PABlocks) (flo : Option Words) :
    (B.parts flo ++ unusedFrom 28).map (·.1) = List.range' 1 32 := by
  simp only [PABlocks.parts, PABlocks.photonParts, headElectrons, tailElectrons, List.map_append, List.map_cons,
    List.map_nil]
  rfl

end C54

/-- A photoatomic table in the standard layout is read as its blocks. -/
theorem C54_photoatomic (zaid : List Char) (d : TableData) (B : PABlocks) (hs : B.Sound) (hf : B.Fits)
    (hsub : ∀ e, B.electrons = some e → e.subsh.xss.length = 5 * e.subsh.n) (hd : StandardPhotoatomic B d)
    (ht : TableType.photoatomic.verifyType zaid = .ok ()) :
    ∃ t, PA.ofTable zaid d = .ok t ∧ t.zaid = zaid ∧ t.data = d ∧ t.eszg = B.eszg ∧ t.jinc = B.jinc ∧
      t.jcoh = B.jcoh ∧ t.lhnm = B.lhnm ∧ t.jflo = B.jflo ∧ t.eps = B.shells.map (·.1) ∧
      t.swd = B.shells.map (·.2) ∧ t.subsh = B.electrons.map (·.subsh) ∧ t.sphel = B.electrons.map (·.sphel) ∧
      t.xprob = B.electrons.map (·.xprob) ∧ t.esze = B.electrons.map (·.esze) ∧
      t.excit = B.electrons.map (·.excit) ∧ t.elas = B.electrons.map (·.elas) ∧
      t.eion = (match B.electrons with | some e => e.eion | none => []) ∧
      t.breme = B.electrons.map (·.breme) ∧ t.breml = B.electrons.map (·.breml) ∧
      t.selas = B.electrons.bind (·.selas) := by
  obtain ⟨flo, hflo, hx, ho⟩ := hd.layout
  have hfl : flo.getD [] = PA.jfloWords B.jflo := by
    rcases hflo with rfl | ⟨e, rfl⟩
    · cases B.jflo <;> rfl
    · rw [e]; rfl
  have hl := C54.pa_locs hs hsub flo hfl
  rw [C54.order_locs hd.sized _ (C54.pa_indices B flo), hl] at ho
  rw [C54.pa_words hs hfl] at hx
  have h4 : (if flo.isSome then PA.after (B.eszg.xss ++ B.jinc.data.xss ++ B.jcoh.data.xss) else (0 : Int)) =
      PA.after (B.eszg.xss ++ B.jinc.data.xss ++ B.jcoh.data.xss) ∨ (B.jflo = none ∧
      (if flo.isSome then PA.after (B.eszg.xss ++ B.jinc.data.xss ++ B.jcoh.data.xss) else (0 : Int)) = 0) := by
    rcases hflo with rfl | ⟨e, rfl⟩
    · cases hb : B.jflo with
      | none => exact .inr ⟨rfl, rfl⟩
      | some b => exact .inl rfl
    · exact .inl rfl
  have h := C32.generateBlocks_eq zaid hs hf d hx _ h4 ho ?_
  · unfold PA.ofTable
    rw [ht, ok_bind, h]
    exact ⟨_, rfl, rfl, rfl, rfl, rfl, rfl, rfl, rfl, rfl, rfl, rfl, rfl, rfl, rfl, rfl, rfl, rfl, rfl, rfl, rfl⟩
  · intro i h1 h2
    match i, h1, h2 with
    | 2, _, _ => exact C54.nxs_of hd.nes
    | 3, _, _ => rw [C54.nxs_of hd.nflo]; cases hb : B.jflo <;> simp [C32.dataOf, PA.nfloCount, hb]
    | 4, _, _ => rw [C54.nxs_of hd.nsh]; cases hb : B.shells <;> simp [C32.dataOf, C32.nshOf, PA.nshCount, hb]
    | 5, _, _ =>
      rw [C54.nxs_of hd.nepr]
      cases hb : B.electrons with
      | none => simp [C32.dataOf, PA.neprOf, hb]
      | some e => cases hc : e.selas <;> simp [C32.dataOf, PA.neprOf, hb, hc]
    | 6, _, _ => rw [C54.nxs_of hd.nssh]; cases hb : B.electrons <;> simp [C32.dataOf, PA.ifElectrons, hb]
    | 7, _, _ => rw [C54.nxs_of hd.ne]; cases hb : B.electrons <;> simp [C32.dataOf, PA.ifElectrons, hb]
    | 8, _, _ => rw [C54.nxs_of hd.nxl]; cases hb : B.electrons <;> simp [C32.dataOf, PA.ifElectrons, hb]
    | 9, _, _ => rw [C54.nxs_of hd.na]; cases hb : B.electrons <;> simp [C32.dataOf, PA.ifElectrons, hb]
    | 10, _, _ => rw [C54.nxs_of hd.nb]; cases hb : B.electrons <;> simp [C32.dataOf, PA.ifElectrons, hb]
    | 11, _, _ => rw [C54.nxs_of hd.nbl]; cases hb : B.electrons <;> simp [C32.dataOf, PA.ifElectrons, hb]

/-- The photoatomic tables the library writes are in the standard layout. -/
theorem C54_photoatomic_written (B : PABlocks) (hs : B.Sound)
    (hsub : ∀ e, B.electrons = some e → e.subsh.xss.length = 5 * e.subsh.n) :
    ∃ d, PA.generateData B.input = .ok d ∧ StandardPhotoatomic B d := by
  refine ⟨_, C32.generateData_eq hs, ?_⟩
  have hz : (C32.dataOf B).Sized := by
    refine ⟨?_, ?_, rfl, ?_⟩
    · have := hs.sixteen
      simp [C32.dataOf]; omega
    · have := hs.sixteen
      have := hs.targets
      simp [C32.dataOf]; omega
    · have : (C32.electronPart B).2.length = 17 := by
        unfold C32.electronPart
        cases B.electrons with
        | none => rfl
        | some e => cases hs : e.selas <;> simp [PA.addElectrons, hs]
      simp [C32.dataOf, C32.shellPart_length, this]
  have hx : (C32.dataOf B).xss = (C32.electronPart B).1 := rfl
  have hj : (C32.dataOf B).jxs = _ := rfl
  have hn : ∀ i v, (C32.dataOf B).nxs[i]? = some v → (C32.dataOf B).NXS (i + 1) = .ok v :=
    fun i v h => NXS_get _ i v h
  refine ⟨hz, ?_, hn 2 _ rfl, hn 3 _ ?_, hn 4 _ ?_, hn 5 _ ?_, hn 6 _ ?_, hn 7 _ ?_, hn 8 _ ?_, hn 9 _ ?_,
    hn 10 _ ?_, hn 11 _ ?_⟩
  · have key : ∀ flo : Option Words, flo.isSome = true → flo.getD [] = PA.jfloWords B.jflo →
        (C32.dataOf B).xss = partsWords (B.parts flo) ∧ InOrder (C32.dataOf B) 0 (B.parts flo ++ unusedFrom 28) := by
      intro flo h1 h2
      refine ⟨by rw [C54.pa_words hs h2]; rfl, ?_⟩
      rw [C54.order_locs hz _ (C54.pa_indices B _), C54.pa_locs hs hsub flo h2, if_pos h1]
      simp [C32.dataOf]
    cases hb : B.jflo with
    | none => exact ⟨some [], .inr ⟨rfl, rfl⟩, key _ rfl (by rw [hb]; rfl)⟩
    | some b => exact ⟨some b.xss, .inl rfl, key _ rfl (by rw [hb]; rfl)⟩
  · cases hb : B.jflo <;> simp [C32.dataOf, PA.nfloCount, hb]
  · cases hb : B.shells <;> simp [C32.dataOf, C32.nshOf, PA.nshCount, hb]
  · cases hb : B.electrons with
    | none => simp [C32.dataOf, PA.neprOf, hb]
    | some e => cases hc : e.selas <;> simp [C32.dataOf, PA.neprOf, hb, hc]
  all_goals cases hb : B.electrons <;> simp [C32.dataOf, PA.ifElectrons, hb]

/-- All blocks, or none of the optional ones. -/
example : (∃ d t, PA.generateData C32.exAll.input = .ok d ∧ PA.ofTable "1000.12p".toList d = .ok t ∧
      t.data = d ∧ t.jflo = C32.exAll.jflo ∧ t.selas = C32.exAll.electrons.bind (·.selas)) ∧
    C32.exAll.electrons.isSome = true := by
  have hs := C32_built C32.exAll_made
  have h5 : ∀ e, C32.exAll.electrons = some e → e.subsh.xss.length = 5 * e.subsh.n := by
    intro e he
    have he' : C32.exElectrons = e := by injection he
    subst he'
    decide +kernel
  obtain ⟨d, h, hd⟩ := C54_photoatomic_written C32.exAll hs h5
  obtain ⟨t, h1, _, h2, _, _, _, _, h3, _, _, _, _, _, _, _, _, _, _, _, h4⟩ :=
    C54_photoatomic "1000.12p".toList d C32.exAll hs C32.exAll_fits h5 hd (by decide +kernel)
  exact ⟨⟨d, t, h, h1, h2, h3, h4⟩, rfl⟩

/-! ## Photonuclear tables -/

/-- The parts of a secondary particle. -/
def PNSecondary.parts (p : PNSecondary) : List Words :=
  [p.pxs.xss, p.phn.xss, p.mtrh.xss, (p.dlwh.frames.filterMap id).map (fun f => TYR.word f 1),
   p.sigh.xss.take p.mtrh.n, p.sigh.xss.drop p.mtrh.n, p.andh.xss.take p.mtrh.n, p.andh.xss.drop p.mtrh.n,
   p.dlwh.block.xss.take p.mtrh.n, p.dlwh.block.xss.drop p.mtrh.n]

/-- The numbers of the particles whose parts start after `n` words: the type, the number of reactions and ten
locators for each particle. -/
def pnRows : Nat → List PNSecondary → List Nat
  | _, [] => []
  | n, p :: ps => p.type :: p.mtrh.n :: startsOf n p.parts ++ pnRows (n + p.parts.flatten.length) ps

/-- The energies, total, elastic and heating numbers: with elastic data, JXS(4) is not zero; without, the total
is the nonelastic. -/
def PNBlocks.eszuParts (B : PNBlocks) : List (Nat × Option Words) :=
  if B.eszu.m = 4 then
    [(1, some (B.eszu.xss.take B.eszu.n)), (2, some ((B.eszu.xss.drop B.eszu.n).take B.eszu.n)), (3, none),
     (4, some ((B.eszu.xss.drop (2 * B.eszu.n)).take B.eszu.n)), (5, some (B.eszu.xss.drop (3 * B.eszu.n)))]
  else
    [(1, some (B.eszu.xss.take B.eszu.n)), (2, some []), (3, some ((B.eszu.xss.drop B.eszu.n).take B.eszu.n)),
     (4, none), (5, some (B.eszu.xss.drop (2 * B.eszu.n)))]

/-- The parts before the secondary particles. -/
def PNBlocks.frontParts (B : PNBlocks) : List (Nat × Option Words) :=
  B.eszuParts ++ [(6, some B.mtr.xss), (7, some B.lqr.xss), (8, some (B.sig.xss.take B.mtr.n)),
    (9, some (B.sig.xss.drop B.mtr.n))]

/-- The parts of the secondary particles, after `k` words. -/
def PNBlocks.particleParts (B : PNBlocks) (k : Nat) : List (Nat × Option Words) :=
  [(10, B.secondaries.map fun ps => (pnRows (k + 12 * ps.length) ps).map Dbl.ofNat),
   (11, B.secondaries.map fun ps => (ps.map (·.parts)).flatten.flatten)]

/-- The parts of a photonuclear table. -/
def PNBlocks.parts (B : PNBlocks) : List (Nat × Option Words) :=
  B.frontParts ++ B.particleParts (partsWords B.frontParts).length

/-- A photonuclear table in the standard layout. -/
structure StandardPhotonuclear (B : PNBlocks) (d : TableData) : Prop where
  sized : d.Sized
  xss : d.xss = partsWords B.parts
  blocks : InOrder d 0 (B.parts ++ unusedFrom 12)
  length : d.NXS 1 = .ok (d.xss.length : Int)
  nes : d.NXS 3 = .ok (B.eszu.n : Int)
  ntr : d.NXS 4 = .ok (B.mtr.n : Int)
  ntype : d.NXS 5 = .ok (B.particles.length : Int)

namespace C54

theorem pn_particle {p : PNSecondary} (h : p.Sound) (n : Nat) :
    startsOf n p.parts = PN.particleLocators n (C33.pin p) ∧ p.parts.flatten = PN.particleWords (C33.pin p) := by
  have l1 : p.mtrh.n ≤ p.sigh.xss.length := CE.locBlock_length h.sigh
  have l2 : p.mtrh.n ≤ p.andh.xss.length := by simpa using CE.angular_length h.andh
  have l3 : p.mtrh.n ≤ p.dlwh.block.xss.length := by
    have := CE.locBlock_length h.dlwh
    rw [h.ndlwh] at this
    exact this
  have ht : (CE.frameTyr (C33.framesOf p)).xss = (p.dlwh.frames.filterMap id).map (fun f => TYR.word f 1) := by
    simp [CE.frameTyr, C33.framesOf, Function.comp_def]
  have hn : p.sigh.n = p.mtrh.n := CE.block_n h.sigh
  constructor
  · simp only [startsOf, PNSecondary.parts, PN.particleLocators, C33.pin, List.length_take, List.length_drop, ht,
      Nat.min_eq_left l1, Nat.min_eq_left l2, Nat.min_eq_left l3, List.cons.injEq, and_true, true_and,
      List.length_append]
    omega
  · simp only [PNSecondary.parts, PN.particleWords, C33.pin, ht, List.flatten_cons, List.flatten_nil, List.append_nil]
    simp only [List.append_assoc, split2, List.take_append_drop]

theorem pn_rows (ps : List PNSecondary) (h : ∀ p ∈ ps, p.Sound) (n : Nat) :
    pnRows n ps = PN.flat n (ps.map C33.typed) ∧
      (ps.map (·.parts)).flatten.flatten = PN.bodies (ps.map C33.pin) := by
  induction ps generalizing n with
  | nil => exact ⟨rfl, rfl⟩
  | cons p ps ih =>
    obtain ⟨h1, h2⟩ := pn_particle (h p (by simp)) n
    have ih := fun n => ih (fun q hq => h q (by simp [hq])) n
    constructor
    · simp only [pnRows, List.map_cons, PN.flat, C33.typed, h1, h2, (ih _).1]
      rfl
    · simp only [List.map_cons, List.flatten_cons, List.flatten_append, PN.bodies, h2, (ih 0).2]

theorem split4 (w : Words) (n : Nat) (r : Words) :
    w.take n ++ ((w.drop n).take n ++ ((w.drop (2 * n)).take n ++ (w.drop (3 * n) ++ r))) = w ++ r := by
  rw [show 3 * n = 2 * n + n from by omega, ← List.drop_drop, split2, split3]

theorem front_words (B : PNBlocks) : partsWords B.frontParts = C33.frontWords B := by
  unfold PNBlocks.frontParts PNBlocks.eszuParts C33.frontWords
  by_cases hm : B.eszu.m = 4
  · rw [if_pos hm]
    simp [partsWords, split4]
  · rw [if_neg hm]
    simp [partsWords, split3]

theorem front_locs {B : PNBlocks} (h : B.Sound) : locsOf 0 B.frontParts =
    PN.principalLocators B.eszu.n (B.eszu.m == 4) ++
    [PA.after B.eszu.xss, PA.after (B.eszu.xss ++ B.mtr.xss), PA.after (B.eszu.xss ++ B.mtr.xss ++ B.lqr.xss),
      PA.afterPlus (B.eszu.xss ++ B.mtr.xss ++ B.lqr.xss) B.mtr.n] := by
  have hz := C33.eszu_size h
  have hl : B.mtr.n ≤ B.sig.xss.length := CE.locBlock_length h.sig
  unfold PNBlocks.frontParts PNBlocks.eszuParts PN.principalLocators
  rcases h.arrays with hm | ⟨hm, hn⟩
  · rw [hm] at hz ⊢
    have m1 : min B.eszu.n B.eszu.xss.length = B.eszu.n := by omega
    have m2 : min B.eszu.n (B.eszu.xss.length - B.eszu.n) = B.eszu.n := by omega
    have m3 : min B.mtr.n B.sig.xss.length = B.mtr.n := by omega
    rw [if_neg (by decide), if_neg (by decide)]
    simp only [locsOf, List.cons_append, List.nil_append, List.length_take, List.length_drop, m1, m2, m3, PA.after,
      PA.afterPlus, List.length_append, List.cons.injEq, Int.natCast_inj, and_true, true_and, List.length_nil]
    omega
  · rw [hm] at hz ⊢
    have m1 : min B.eszu.n B.eszu.xss.length = B.eszu.n := by omega
    have m2 : min B.eszu.n (B.eszu.xss.length - B.eszu.n) = B.eszu.n := by omega
    have m4 : min B.eszu.n (B.eszu.xss.length - 2 * B.eszu.n) = B.eszu.n := by omega
    have m3 : min B.mtr.n B.sig.xss.length = B.mtr.n := by omega
    rw [if_pos rfl, if_pos (by decide)]
    simp only [locsOf, List.cons_append, List.nil_append, List.length_take, List.length_drop, m1, m2, m3, m4, PA.after,
      PA.afterPlus, List.length_append, List.cons.injEq, Int.natCast_inj, and_true, true_and]
    omega

theorem pn_words {B : PNBlocks} (h : B.Sound) :
    partsWords B.parts = C33.frontWords B ++ C33.ixsWords B ++ PN.bodies (B.particles.map C33.pin) := by
  have hs := h.secondaries
  unfold PNBlocks.parts
  rw [words_append, front_words, List.append_assoc]
  congr 1
  unfold PNBlocks.particleParts C33.ixsWords C33.start PNBlocks.particles at *
  cases hp : B.secondaries with
  | none => simp [partsWords, PN.flat, PN.bodies]
  | some ps =>
    rw [hp] at hs
    obtain ⟨h1, h2⟩ := pn_rows ps hs ((C33.frontWords B).length + 12 * ps.length)
    simp only [partsWords, Option.map_some, List.map_cons, List.map_nil, Option.getD_some, List.flatten_cons,
      List.flatten_nil, List.append_nil, h1, h2]

theorem pn_locs {B : PNBlocks} (h : B.Sound) : locsOf 0 (B.parts ++ unusedFrom 12) =
    PN.principalLocators B.eszu.n (B.eszu.m == 4) ++
    [PA.after B.eszu.xss, PA.after (B.eszu.xss ++ B.mtr.xss), PA.after (B.eszu.xss ++ B.mtr.xss ++ B.lqr.xss),
      PA.afterPlus (B.eszu.xss ++ B.mtr.xss ++ B.lqr.xss) B.mtr.n] ++ C33.secondaryLocators B ++
    List.replicate 21 0 := by
  have hs := h.secondaries
  unfold PNBlocks.parts
  rw [locsOf_append, locsOf_append, front_locs h, front_words]
  have e : locsOf (0 + (C33.frontWords B).length) (B.particleParts (C33.frontWords B).length) =
      C33.secondaryLocators B := by
    unfold PNBlocks.particleParts C33.secondaryLocators PNBlocks.particles at *
    cases hp : B.secondaries with
    | none => rfl
    | some ps =>
      rw [hp] at hs
      obtain ⟨h1, _⟩ := pn_rows ps hs ((C33.frontWords B).length + 12 * ps.length)
      simp only [Option.map_some, locsOf, h1, List.length_map, PN.flat_length, Nat.zero_add]
  rw [e]
  congr 1

theorem pn_indices (B : PNBlocks) : (B.parts ++ unusedFrom 12).map (·.1) = List.range' 1 32 := by
  unfold PNBlocks.parts PNBlocks.frontParts PNBlocks.eszuParts PNBlocks.particleParts
  by_cases hm : B.eszu.m = 4
  · rw [if_pos hm]; simp only [List.map_append, List.map_cons, List.map_nil]; rfl
  · rw [if_neg hm]; simp only [List.map_append, List.map_cons, List.map_nil]; rfl

end C54

/-- A photonuclear table in the standard layout is read as its blocks. Missing: particle types and numbers of
reactions that look like locators, and tables whose target cannot be found. -/
theorem C54_photonuclear_partial (zaid : List Char) (d : TableData) (B : PNBlocks) (hs : B.Sound) (hsm : B.Small)
    (hf : FitsN (B.size + 1)) (hd : StandardPhotonuclear B d)
    (ht : TableType.photonuclear.verifyType zaid = .ok ())
    (hid : (d.NXS 9 ≠ .ok 0 ∨ d.NXS 10 ≠ .ok 0 ∨ d.NXS 11 ≠ .ok 0) ∨
      ∃ v, Ident.stoi (Ident.target zaid) = .ok v) :
    ∃ t, PN.ofTable zaid d = .ok t ∧ t.zaid = zaid ∧ t.data.xss = d.xss ∧ t.data.jxs = d.jxs ∧ PNReturned B t := by
  obtain ⟨d', hd'⟩ := CE.setSZA_ok d hd.sized zaid hid
  obtain ⟨hx', hj', hn'⟩ := CE.setSZA_same hd'
  have hget : ∀ i, i < 8 → d'.nxs[i]? = d.nxs[i]? := by
    intro i hi
    have := congrArg (·[i]?) hn'
    simpa [List.getElem?_take_of_lt hi] using this
  have hx := hd.xss
  rw [C54.pn_words hs] at hx
  have hj := hd.blocks
  rw [C54.order_locs hd.sized _ (C54.pn_indices B), C54.pn_locs hs] at hj
  obtain ⟨t, h1, h2, h3, h4⟩ := C33.returned hs hsm hf zaid 0 0 0 d' (hx'.trans hx) (hj'.trans hj) (by
    intro i h1 h2
    rw [hget i (by omega)]
    match i, h1, h2 with
    | 0, _, _ => rw [C54.nxs_of hd.length, hx]; rfl
    | 2, _, _ => exact C54.nxs_of hd.nes
    | 3, _, _ => exact C54.nxs_of hd.ntr
    | 4, _, _ => exact C54.nxs_of hd.ntype)
  refine ⟨t, ?_, h2, by rw [h3, hx'], by rw [h3, hj'], h4⟩
  unfold PN.ofTable
  rw [ht, ok_bind, hd', ok_bind, h1]

/-- The photonuclear tables the library writes are in the standard layout. -/
theorem C54_photonuclear_written (z a s : Nat) (B : PNBlocks) (hs : B.Sound) :
    ∃ d, PN.generateData z a s B.input = .ok d ∧ StandardPhotonuclear B d := by
  refine ⟨_, C33.generateData_eq z a s hs, C33.sized z a s hs, (C54.pn_words hs).symm, ?_, NXS_get _ 0 _ rfl,
    NXS_get _ 2 _ rfl, NXS_get _ 3 _ rfl, NXS_get _ 4 _ rfl⟩
  rw [C54.order_locs (C33.sized z a s hs) _ (C54.pn_indices B), C54.pn_locs hs]
  rfl

/-- Two particles, with other IZ and AW. -/
example : ∃ d t, PN.generateData 92 235 0 (exPNBlocks [1, 9]).input = .ok d ∧
    PN.ofTable "92235.70u".toList { d with iz := List.replicate 16 7 } = .ok t ∧ PNReturned (exPNBlocks [1, 9]) t := by
  obtain ⟨d, h, hd⟩ := C54_photonuclear_written 92 235 0 (exPNBlocks [1, 9]) (exPNBlocks_sound _)
  obtain ⟨t, h1, _, _, _, h2⟩ := C54_photonuclear_partial "92235.70u".toList { d with iz := List.replicate 16 7 }
    (exPNBlocks [1, 9]) (exPNBlocks_sound _)
    (by
      intro p hp
      have hl : 9 ≤ (exPNBlocks [1, 9]).front + 12 * (exPNBlocks [1, 9]).particles.length := by decide +kernel
      have hm : ∀ t, (exPN t).mtrh.n = 1 := fun _ => (by decide +kernel : (exSecondary 1).mtrh.n = 1)
      obtain ⟨t, ht, rfl⟩ := List.mem_map.mp hp
      simp at ht
      rw [hm]
      rcases ht with rfl | rfl <;> simp only [exPN] <;> omega)
    (by decide +kernel)
    ⟨⟨rfl, hd.sized.aw, hd.sized.nxs, hd.sized.jxs⟩, hd.xss, hd.blocks, hd.length, hd.nes, hd.ntr, hd.ntype⟩
    (by decide +kernel) (.inr ⟨92235, by decide +kernel⟩)
  exact ⟨d, t, h, h1, h2⟩

end ACE.Props

import Verif.Model.EnergyData
import Verif.Lemmas.Columns
import Verif.Lemmas.Located

/-! # Lemmas: the words of the energy laws without locators -/

namespace ACE

theorem toLongs_ofInt (l : List Int)
    (h : ∀ i ∈ l, -9223372036854775808 ≤ i ∧ i ≤ 9223372036854775807) :
    toLongs (l.map Dbl.ofInt) = .ok l := by
  unfold toLongs
  induction l with
  | nil => rfl
  | cons a l ih =>
    have ha := h a (by simp)
    rw [List.map_cons, List.mapM_cons, ih (fun i hi => h i (by simp [hi]))]
    simp [ha.1, ha.2]

theorem getLast_split {xs : Words} {v : Dbl} (h : xs.getLast? = some v) :
    last xs = .ok v := by
  unfold last; rw [h]

theorem deref_head {xs : Words} {v : Dbl} (h : xs.head? = some v) : deref xs 0 = .ok v := by
  cases xs with
  | nil => cases h
  | cons a l => injection h with h; subst h; rfl

namespace TabulatedData
variable {b i : List Int} {x y : Words}

theorem sub_words (h : Valid b i x y) (rest : Words) :
    sub (words b i x y ++ rest) 0 (2 * b.length + 2 * x.length + 2) = .ok (words b i x y) :=
  sub_of_eq (a := []) (c := rest) (by simp) rfl (by
    have := words_length h
    simp only [List.length_nil]; omega)

theorem ofRange_exact (h : Valid b i x y) : ofRange (words b i x y) = .ok (tab b i x y []) := by
  have := ofRange_ok h []
  rwa [List.append_nil] at this

theorem tab_xss (b i : List Int) (x y rest : Words) :
    (tab b i x y rest).xss = words b i x y ++ rest := rfl

end TabulatedData

/-! ## Evaporation spectra -/

namespace Evaporation
open TabulatedData
variable {b i : List Int} {x y : Words}

theorem generateBlocks_ok (h : Valid b i x y) (rest : Words) :
    generateBlocks (words b i x y ++ rest) = .ok ⟨words b i x y ++ rest, tab b i x y []⟩ := by
  unfold generateBlocks
  simp only [nr_int h, ok_bind, sizeOfInt_natCast h.fb, ne_int h, sizeOfInt_natCast h.fx]
  rw [sub_words h, ok_bind, ofRange_exact h]
  rfl

theorem mk'_ok (h : Valid b i x y) (u : Dbl) :
    mk' b i x y u = .ok ⟨words b i x y ++ [u], tab b i x y []⟩ := by
  unfold mk'
  rw [TabulatedData.mk'_ok h, ok_bind, tab_xss, List.append_nil]
  exact generateBlocks_ok h [u]

theorem ofRange_ok (h : Valid b i x y) (u : Dbl) (rest : Words) :
    ofRange (words b i x y ++ u :: rest) =
      .ok ⟨words b i x y ++ u :: rest, tab b i x y []⟩ := by
  unfold ofRange
  rw [nr_word h, ok_bind, Dbl.round?_ofNat, toSize_natCast h.fb, ok_bind, ne_word h, ok_bind,
    Dbl.round?_ofNat, toSize_natCast h.fx, ok_bind, guardThrow_not_lt (by
      rw [List.length_append, words_length h]; simp; omega), ok_bind]
  exact generateBlocks_ok h (u :: rest)

end Evaporation

/-! ## General evaporation spectrum -/

namespace GenEvap
open TabulatedData
variable {b i : List Int} {x y : Words}

theorem generateBlocks_ok (h : Valid b i x y) (bins rest : Words) (hb : FitsN bins.length) :
    generateBlocks (words b i x y ++ (ColumnData.words bins.length [bins] ++ rest)) =
      .ok ⟨words b i x y ++ (ColumnData.words bins.length [bins] ++ rest), tab b i x y [],
        ⟨ColumnData.words bins.length [bins] ++ rest, 1⟩⟩ := by
  unfold generateBlocks
  simp only [nr_int h, ok_bind, sizeOfInt_natCast h.fb, ne_int h, sizeOfInt_natCast h.fx]
  rw [sub_words h, ok_bind, ofRange_exact h, ok_bind,
    sub_of_eq (a := words b i x y) (b := ColumnData.words bins.length [bins] ++ rest) (c := [])
      (by simp) (by rw [words_length h]; omega) (by simp), ok_bind,
    ColumnData.ofRange_ok [bins] bins.length 1 rest rfl (by simp) hb]
  rfl

theorem mk'_ok (h : Valid b i x y) (bins : Words) (hb : FitsN bins.length) :
    mk' b i x y bins = .ok ⟨words b i x y ++ ColumnData.words bins.length [bins], tab b i x y [],
        ⟨ColumnData.words bins.length [bins], 1⟩⟩ := by
  unfold mk'
  rw [TabulatedData.mk'_ok h, ok_bind, tab_xss, List.append_nil]
  have := generateBlocks_ok h bins [] hb
  simpa [ColumnData.words] using this

theorem ofRange_ok (h : Valid b i x y) (bins rest : Words) (hb : FitsN bins.length) :
    ofRange (words b i x y ++ (ColumnData.words bins.length [bins] ++ rest)) =
      .ok ⟨words b i x y ++ (ColumnData.words bins.length [bins] ++ rest), tab b i x y [],
        ⟨ColumnData.words bins.length [bins] ++ rest, 1⟩⟩ := by
  unfold ofRange
  have i3 : Base.IXSS (words b i x y ++ (ColumnData.words bins.length [bins] ++ rest))
      (1 + 2 * b.length + 1 + 2 * x.length + 1) = .ok (bins.length : Int) :=
    Base.IXSS_ofNat (a := words b i x y) (c := [bins].flatten ++ rest) (by simp [ColumnData.words])
      (by rw [words_length h]; omega) hb
  simp only [nr_int h, ok_bind, sizeOfInt_natCast h.fb, ne_int h, sizeOfInt_natCast h.fx, i3,
    sizeOfInt_natCast hb]
  rw [guardThrow_not_lt (by
      rw [List.length_append, words_length h]; simp; omega), ok_bind]
  exact generateBlocks_ok h bins rest hb

end GenEvap

/-! ## Watt spectrum -/

namespace Watt
open TabulatedData
variable {b i b' i' : List Int} {x y x' y' : Words}

theorem generateBlocks_ok (h : Valid b i x y) (h' : Valid b' i' x' y') (rest : Words) :
    generateBlocks (words b i x y ++ (words b' i' x' y' ++ rest)) =
      .ok ⟨words b i x y ++ (words b' i' x' y' ++ rest), tab b i x y [], tab b' i' x' y' []⟩ := by
  have hl := words_length h
  have hl' := words_length h'
  have i3 : Base.IXSS (words b i x y ++ (words b' i' x' y' ++ rest))
      (2 * b.length + 2 * x.length + 2 + 1) = .ok (b'.length : Int) :=
    Base.IXSS_ofNat (a := words b i x y)
      (c := [b'.map Dbl.ofInt, i'.map Dbl.ofInt].flatten ++ ColumnData.words x'.length [x', y'] ++ rest)
      (by simp [words, ColumnData.words]) (by omega) h'.fb
  have i4 : Base.IXSS (words b i x y ++ (words b' i' x' y' ++ rest))
      (2 * b.length + 2 * x.length + 2 + 1 + 2 * b'.length + 1) = .ok (x'.length : Int) :=
    Base.IXSS_ofNat
      (a := words b i x y ++ ColumnData.words b'.length [b'.map Dbl.ofInt, i'.map Dbl.ofInt])
      (c := [x', y'].flatten ++ rest)
      (by simp [words, ColumnData.words]) (by
        have := h'.hi
        rw [List.length_append, hl]; simp; omega) h'.fx
  unfold generateBlocks
  simp only [nr_int h, ok_bind, sizeOfInt_natCast h.fb, ne_int h, sizeOfInt_natCast h.fx, i3, i4,
    sizeOfInt_natCast h'.fb, sizeOfInt_natCast h'.fx]
  rw [    sub_words h, ok_bind, ofRange_exact h, ok_bind,
    sub_of_eq (a := words b i x y) (b := words b' i' x' y') (c := rest)
      (by simp) (by omega) (by omega), ok_bind, ofRange_exact h']
  rfl

theorem mk'_ok (h : Valid b i x y) (h' : Valid b' i' x' y') (u : Dbl) :
    mk' (tab b i x y []) (tab b' i' x' y' []) u =
      .ok ⟨words b i x y ++ (words b' i' x' y' ++ [u]), tab b i x y [], tab b' i' x' y' []⟩ := by
  unfold mk'
  rw [tab_xss, tab_xss, List.append_nil, List.append_nil, List.append_assoc]
  exact generateBlocks_ok h h' [u]

theorem ofRange_ok (h : Valid b i x y) (h' : Valid b' i' x' y') (u : Dbl) (rest : Words) :
    ofRange (words b i x y ++ (words b' i' x' y' ++ u :: rest)) =
      .ok ⟨words b i x y ++ (words b' i' x' y' ++ u :: rest), tab b i x y [],
        tab b' i' x' y' []⟩ := by
  have hl := words_length h
  have hl' := words_length h'
  have i3 : Base.IXSS (words b i x y ++ (words b' i' x' y' ++ u :: rest))
      (2 + 2 * b.length + 2 * x.length + 1) = .ok (b'.length : Int) :=
    Base.IXSS_ofNat (a := words b i x y)
      (c := [b'.map Dbl.ofInt, i'.map Dbl.ofInt].flatten ++ ColumnData.words x'.length [x', y'] ++
        u :: rest)
      (by simp [words, ColumnData.words]) (by omega) h'.fb
  have i4 : Base.IXSS (words b i x y ++ (words b' i' x' y' ++ u :: rest))
      (2 + 2 * b.length + 2 * x.length + 1 + 2 * b'.length + 1) = .ok (x'.length : Int) :=
    Base.IXSS_ofNat
      (a := words b i x y ++ ColumnData.words b'.length [b'.map Dbl.ofInt, i'.map Dbl.ofInt])
      (c := [x', y'].flatten ++ u :: rest)
      (by simp [words, ColumnData.words]) (by
        have := h'.hi
        rw [List.length_append, hl]; simp; omega) h'.fx
  unfold ofRange
  simp only [nr_int h, ok_bind, sizeOfInt_natCast h.fb, ne_int h, sizeOfInt_natCast h.fx, i3, i4,
    sizeOfInt_natCast h'.fb, sizeOfInt_natCast h'.fx]
  rw [    guardThrow_not_lt (by simp only [List.length_append, hl, hl', List.length_cons]; omega), ok_bind]
  exact generateBlocks_ok h h' (u :: rest)

end Watt

/-! ## Equiprobable outgoing energy bins -/

namespace EquiBinData

/-- The words of equiprobable bin data. -/
def wordsOf (b i : List Int) (net : Nat) (order : List EquiEnergy) : Words :=
  ColumnData.words b.length [b.map Dbl.ofInt, i.map Dbl.ofInt] ++
    (ColumnData.words order.length [order.map (·.incident)] ++
      (Dbl.ofNat net :: (order.map (·.xss)).flatten))

theorem loop_ok (es : Words) (ds : List EquiEnergy) (head tail : Words) (index : Nat)
    (hes : es.length = ds.length) (hi : index = head.length) :
    loop ds (head ++ es ++ tail) index =
      head ++ ds.map (·.incident) ++ tail ++ (ds.map (·.xss)).flatten := by
  induction ds generalizing es head tail index with
  | nil =>
    have : es = [] := List.eq_nil_of_length_eq_zero hes
    subst this
    simp [loop]
  | cons d ds ih =>
    cases es with
    | nil => cases hes
    | cons e es =>
      unfold loop
      have hset : (head ++ e :: es ++ tail).set index d.incident ++ d.xss =
          (head ++ [d.incident]) ++ es ++ (tail ++ d.xss) := by
        subst hi
        rw [List.append_assoc, List.set_append_right _ _ (by omega)]
        simp
      rw [hset, ih es _ _ _ (by simpa using hes) (by simp [hi])]
      simp

theorem generateXSS_ok (b i : List Int) (order : List EquiEnergy) (net : Nat)
    (hi : i.length = b.length) (hne : order ≠ [])
    (hn : ∀ d ∈ order, d.xss.length = net) :
    generateXSS b i order = .ok (wordsOf b i net order) := by
  unfold generateXSS InterpolationData.mk'
  rw [ColumnData.ofColumns_ok _ b.length (by simp) (by simp [hi]), ok_bind]
  cases order with
  | nil => exact absurd rfl hne
  | cons front os =>
    have hf : Dbl.ofInt (front.numberBins + 1) = Dbl.ofNat net := by
      unfold EquiEnergy.numberBins Dbl.ofNat
      have := hn front (by simp)
      rw [this]
      have e : (net : Int) - 1 + 1 = net := by omega
      rw [e]
    simp only [hf]
    generalize hds : front :: os = ds at *
    have hl : (ColumnData.words b.length [b.map Dbl.ofInt, i.map Dbl.ofInt]).length =
        1 + 2 * b.length := by simp [hi]; omega
    have hx : ((ColumnData.words b.length [b.map Dbl.ofInt, i.map Dbl.ofInt] ++
        List.replicate (2 + ds.length) (Dbl.ofNat 0)).set (1 + 2 * b.length)
          (Dbl.ofNat ds.length)).set (2 + 2 * b.length + ds.length) (Dbl.ofNat net) =
        (ColumnData.words b.length [b.map Dbl.ofInt, i.map Dbl.ofInt] ++ [Dbl.ofNat ds.length]) ++
          List.replicate ds.length (Dbl.ofNat 0) ++ [Dbl.ofNat net] := by
      rw [List.set_append_right _ _ (by omega), List.set_append_right _ _ (by omega), hl]
      have e1 : 1 + 2 * b.length - (1 + 2 * b.length) = 0 := by omega
      have e2 : 2 + 2 * b.length + ds.length - (1 + 2 * b.length) = 1 + ds.length := by omega
      have e3 : List.replicate (2 + ds.length) (Dbl.ofNat 0) =
          Dbl.ofNat 0 :: (List.replicate ds.length (Dbl.ofNat 0) ++ [Dbl.ofNat 0]) := by
        rw [show 2 + ds.length = (ds.length + 1) + 1 by omega, List.replicate_succ,
          List.replicate_succ']
      rw [e1, e2, e3, List.append_assoc, List.append_assoc]
      have e4 : (1 + ds.length) = ds.length + 1 := by omega
      rw [e4, List.set_cons_zero, List.set_cons_succ, List.set_append_right _ _ (by simp)]
      simp
    rw [hx, loop_ok _ ds _ _ _ (by simp) (by simp [hl, hi]; omega)]
    simp [wordsOf, ColumnData.words]

theorem generateXSS_mismatch (b i : List Int) (order : List EquiEnergy)
    (hi : i.length ≠ b.length) : generateXSS b i order = .error .thrown := by
  unfold generateXSS InterpolationData.mk'
  rw [ColumnData.ofColumns_error _ _ (by simpa using hi)]
  rfl

variable {b i : List Int} {net : Nat} {order : List EquiEnergy}

theorem flatten_drop (net : Nat) (ws : List Words) (k : Nat) (hk : k < ws.length)
    (h : ∀ w ∈ ws, w.length = net) (rest : Words) :
    ∃ l r, ws.flatten ++ rest = l ++ ws[k] ++ r ∧ l.length = net * k := by
  refine ⟨(ws.take k).flatten, (ws.drop (k + 1)).flatten ++ rest, ?_, ?_⟩
  · rw [flatten_split ws k hk]; simp
  · rw [List.length_flatten]
    have : (ws.take k).map List.length = List.replicate k net := by
      refine List.ext_getElem (by simp; omega) (fun j h1 h2 => ?_)
      simp only [List.getElem_map, List.getElem_replicate]
      exact h _ (List.mem_of_mem_take (List.getElem_mem _))
    rw [this]
    simp [Nat.mul_comm]

/-- The fields of bin data over its words followed by `rest`. -/
def obj (b i : List Int) (net : Nat) (order : List EquiEnergy) (rest : Words) : EquiBinData :=
  ⟨wordsOf b i net order ++ rest,
    ⟨ColumnData.words b.length [b.map Dbl.ofInt, i.map Dbl.ofInt], 2⟩,
    ⟨ColumnData.words order.length [order.map (·.incident)], 1⟩, order⟩

theorem wordsOf_length (hi : i.length = b.length) (hn : ∀ d ∈ order, d.xss.length = net) :
    (wordsOf b i net order).length = 3 + 2 * b.length + order.length + order.length * net := by
  have : (order.map (·.xss)).flatten.length = order.length * net := by
    rw [List.length_flatten, List.map_map]
    have : order.map (List.length ∘ (·.xss)) = List.replicate order.length net := by
      refine List.ext_getElem (by simp) (fun j h1 h2 => ?_)
      simp only [List.getElem_map, List.getElem_replicate, Function.comp]
      exact hn _ (List.getElem_mem _)
    rw [this]; simp
  simp [wordsOf, hi, this]; omega

theorem NET_ok (hi : i.length = b.length)
    (fn : FitsN net) (fb : FitsN b.length) (fe : FitsN order.length) (rest : Words) :
    NETof (wordsOf b i net order ++ rest)
      ⟨ColumnData.words b.length [b.map Dbl.ofInt, i.map Dbl.ofInt], 2⟩
      ⟨ColumnData.words order.length [order.map (·.incident)], 1⟩ = .ok net := by
  unfold NETof
  have hI : ColumnData.Holds ⟨ColumnData.words b.length [b.map Dbl.ofInt, i.map Dbl.ofInt], 2⟩
      b.length [b.map Dbl.ofInt, i.map Dbl.ofInt] := ⟨by simp [hi], fb, [], by simp⟩
  have hE : ColumnData.Holds ⟨ColumnData.words order.length [order.map (·.incident)], 1⟩
      order.length [order.map (·.incident)] := ⟨by simp, fe, [], by simp⟩
  rw [hI.N, ok_bind, hE.N, ok_bind]
  rw [Base.IXSS_ofNat (n := net)
    (a := ColumnData.words b.length [b.map Dbl.ofInt, i.map Dbl.ofInt] ++
      ColumnData.words order.length [order.map (·.incident)])
    (c := (order.map (·.xss)).flatten ++ rest)
    (by simp [wordsOf, ColumnData.words]) (by simp [hi]; omega) fn, ok_bind, sizeOfInt_natCast fn]
  rfl

theorem incidentOf_ok (fe : FitsN order.length) (k : Nat) (hk : k < order.length) :
    incidentOf ⟨ColumnData.words order.length [order.map (·.incident)], 1⟩ (k + 1) =
      .ok order[k].incident := by
  have hE : ColumnData.Holds ⟨ColumnData.words order.length [order.map (·.incident)], 1⟩
      order.length [order.map (·.incident)] := ⟨by simp, fe, [], by simp⟩
  unfold incidentOf
  rw [hE.N, ok_bind, if_neg (by omega)]
  have := hE.value 0 k (by simp) (by simpa using hk)
  simpa using this

theorem generateBlocks_ok (hi : i.length = b.length) (hn : ∀ d ∈ order, d.xss.length = net)
    (fn : FitsN net) (hf : FitsN (wordsOf b i net order).length) (rest : Words) :
    generateBlocks (wordsOf b i net order ++ rest) = .ok (obj b i net order rest) := by
  have hl := wordsOf_length (b := b) hi hn
  have fb : FitsN b.length := by omega
  have fe : FitsN order.length := by omega
  have hI : ColumnData.Holds ⟨ColumnData.words b.length [b.map Dbl.ofInt, i.map Dbl.ofInt], 2⟩
      b.length [b.map Dbl.ofInt, i.map Dbl.ofInt] := ⟨by simp [hi], fb, [], by simp⟩
  have i1 : Base.IXSS (wordsOf b i net order ++ rest) 1 = .ok (b.length : Int) :=
    Base.IXSS_ofNat (a := []) (by simp [wordsOf, ColumnData.words]; rfl) (by simp) fb
  have i2 : Base.IXSS (wordsOf b i net order ++ rest) (1 + 2 * b.length + 1) =
      .ok (order.length : Int) :=
    Base.IXSS_ofNat (a := ColumnData.words b.length [b.map Dbl.ofInt, i.map Dbl.ofInt])
      (c := [order.map (·.incident)].flatten ++ Dbl.ofNat net :: (order.map (·.xss)).flatten ++ rest)
      (by simp [wordsOf, ColumnData.words]) (by simp [hi]; omega) fe
  unfold generateBlocks
  simp only [i1, ok_bind, sizeOfInt_natCast fb, i2, sizeOfInt_natCast fe]
  rw [sub_of_eq (l := 0) (a := []) (b := ColumnData.words b.length [b.map Dbl.ofInt, i.map Dbl.ofInt])
    (c := ColumnData.words order.length [order.map (·.incident)] ++
      (Dbl.ofNat net :: (order.map (·.xss)).flatten) ++ rest)
    (by simp [wordsOf]) rfl (by simp [hi]; omega), ok_bind]
  unfold InterpolationData.ofRange
  have r1 := ColumnData.ofRange_ok [b.map Dbl.ofInt, i.map Dbl.ofInt] b.length 2 [] rfl (by simp [hi]) fb
  have r2 := ColumnData.ofRange_ok [order.map (·.incident)] order.length 1 [] rfl (by simp) fe
  rw [List.append_nil] at r1 r2
  rw [r1, ok_bind, sub_of_eq
    (a := ColumnData.words b.length [b.map Dbl.ofInt, i.map Dbl.ofInt])
    (b := ColumnData.words order.length [order.map (·.incident)])
    (c := (Dbl.ofNat net :: (order.map (·.xss)).flatten) ++ rest)
    (by simp [wordsOf]) (by simp [hi]; omega) (by simp [hi]; omega), ok_bind, r2, ok_bind]
  rw [mapM_range_eq _ order _ rfl (fun k hk => ?_)]
  · rfl
  · unfold generateBlock
    rw [incidentOf_ok fe k hk, ok_bind, NET_ok hi fn fb fe, ok_bind]
    obtain ⟨l, r, h1, h2⟩ := flatten_drop net (order.map (·.xss)) k (by simpa using hk)
      (by simpa using hn) rest
    have hxk : (order.map (·.xss))[k]'(by simpa using hk) = order[k].xss := by simp
    rw [hxk] at h1
    have hle : order[k].xss.length = net := hn _ (List.getElem_mem hk)
    rw [sub_of_eq (a := ColumnData.words b.length [b.map Dbl.ofInt, i.map Dbl.ofInt] ++
        (ColumnData.words order.length [order.map (·.incident)] ++ (Dbl.ofNat net :: l)))
      (b := order[k].xss) (c := r)
      (by
        have e : wordsOf b i net order ++ rest =
            ColumnData.words b.length [b.map Dbl.ofInt, i.map Dbl.ofInt] ++
            (ColumnData.words order.length [order.map (·.incident)] ++ (Dbl.ofNat net ::
              ((order.map (·.xss)).flatten ++ rest))) := by simp [wordsOf]
        rw [e, h1]; simp)
      (by simp [hi, h2]; omega)
      (by simp [hi, h2, hle, Nat.mul_add]; omega), ok_bind]
    rfl

theorem ofRange_ok (hi : i.length = b.length) (hn : ∀ d ∈ order, d.xss.length = net)
    (fn : FitsN net) (hf : FitsN (wordsOf b i net order).length) (rest : Words) :
    ofRange (wordsOf b i net order ++ rest) = .ok (obj b i net order rest) := by
  have hl := wordsOf_length (b := b) hi hn
  have fb : FitsN b.length := by omega
  have fe : FitsN order.length := by omega
  have i1 : Base.IXSS (wordsOf b i net order ++ rest) 1 = .ok (b.length : Int) :=
    Base.IXSS_ofNat (a := []) (by simp [wordsOf, ColumnData.words]; rfl) (by simp) fb
  have i2 : Base.IXSS (wordsOf b i net order ++ rest) (1 + 2 * b.length + 1) =
      .ok (order.length : Int) :=
    Base.IXSS_ofNat (a := ColumnData.words b.length [b.map Dbl.ofInt, i.map Dbl.ofInt])
      (c := [order.map (·.incident)].flatten ++ Dbl.ofNat net :: (order.map (·.xss)).flatten ++ rest)
      (by simp [wordsOf, ColumnData.words]) (by simp [hi]; omega) fe
  have i3 : Base.IXSS (wordsOf b i net order ++ rest) (1 + 2 * b.length + 1 + order.length + 1) =
      .ok (net : Int) :=
    Base.IXSS_ofNat (a := ColumnData.words b.length [b.map Dbl.ofInt, i.map Dbl.ofInt] ++
        ColumnData.words order.length [order.map (·.incident)])
      (c := (order.map (·.xss)).flatten ++ rest)
      (by simp [wordsOf, ColumnData.words]) (by simp [hi]; omega) fn
  unfold ofRange
  simp only [i1, ok_bind, sizeOfInt_natCast fb, i2, sizeOfInt_natCast fe, i3, sizeOfInt_natCast fn]
  rw [guardThrow_not_lt (by rw [List.length_append, hl]; omega), ok_bind]
  exact generateBlocks_ok hi hn fn hf rest

end EquiBinData
end ACE

import Verif.Model.Photoatomic
import Verif.Lemmas.ThermalTable
import Verif.Lemmas.Located
import Verif.Lemmas.ContinuousRead

/-! # The data and blocks of a photoatomic table -/

namespace ACE.PA
open ACE.Props

/-! ## Searching the JXS array -/

theorem find_after_zeros {k q s : Nat} {rest : List Int} (hs : 1 ≤ s) (h : s ≤ q + 1)
    (hf : FitsN (q + 1)) :
    (List.replicate k (0 : Int) ++ ((q + 1 : Nat) : Int) :: rest).find?
      (fun value => decide (s ≤ sizeOfInt value)) = some ((q + 1 : Nat) : Int) := by
  induction k with
  | zero => exact TS.find_hit h hf
  | succ k ih => rw [List.replicate_succ, List.cons_append, TS.find_zero hs]; exact ih

theorem locator_get {d : TableData} {i p : Nat} (hj : d.jxs[i]? = some ((p + 1 : Nat) : Int))
    (hf : FitsN (p + 1)) : d.locator (i + 1) = .ok (p + 1) := by
  unfold TableData.locator
  rw [JXS_get d i _ hj, ok_bind, sizeOfInt_natCast hf]
  rfl

theorem offset_get {d : TableData} {i p : Nat} (hj : d.jxs[i]? = some ((p + 1 : Nat) : Int))
    (hl : p ≤ d.xss.length) : d.offset (i + 1) = .ok p := by
  unfold TableData.offset
  rw [JXS_get d i _ hj, ok_bind, if_neg (by omega)]
  simp only [pure_eq_ok]
  congr 1

/-- A block that is followed by zero locators and then a locator. -/
theorem block_hit {d : TableData} {i p q k : Nat} {rest : List Int}
    (hj : d.jxs.drop i = ((p + 1 : Nat) : Int) ::
      (List.replicate k 0 ++ ((q + 1 : Nat) : Int) :: rest))
    (hpq : p ≤ q) (hq : q ≤ d.xss.length) (hf : FitsN (d.xss.length + 1)) :
    block d (i + 1) = .ok (p, q) := by
  unfold FitsN at hf
  have h0 : d.jxs[i]? = some ((p + 1 : Nat) : Int) := by
    have : d.jxs[i]? = (d.jxs.drop i)[0]? := by simp
    rw [this, hj]; rfl
  have h1 : d.jxs.drop (i + 1) = List.replicate k 0 ++ ((q + 1 : Nat) : Int) :: rest := by
    have : d.jxs.drop (i + 1) = (d.jxs.drop i).drop 1 := by simp
    rw [this, hj]; rfl
  unfold block
  rw [locator_get h0 (by unfold FitsN; omega), ok_bind, if_neg (by omega), h1,
    find_after_zeros (by omega) (by omega) (by unfold FitsN; omega)]
  simp only
  rw [sizeOfInt_natCast (by unfold FitsN; omega)]
  unfold TableData.range
  rw [if_neg (by omega), if_neg (by omega), if_neg (by omega)]
  rfl

/-- The last block. -/
theorem block_end {d : TableData} {i p k : Nat}
    (hj : d.jxs.drop i = ((p + 1 : Nat) : Int) :: List.replicate k 0)
    (hq : p ≤ d.xss.length) (hf : FitsN (d.xss.length + 1)) :
    block d (i + 1) = .ok (p, d.xss.length) := by
  unfold FitsN at hf
  have h0 : d.jxs[i]? = some ((p + 1 : Nat) : Int) := by
    have : d.jxs[i]? = (d.jxs.drop i)[0]? := by simp
    rw [this, hj]; rfl
  have h1 : d.jxs.drop (i + 1) = List.replicate k 0 := by
    have : d.jxs.drop (i + 1) = (d.jxs.drop i).drop 1 := by simp
    rw [this, hj]; rfl
  unfold block
  rw [locator_get h0 (by unfold FitsN; omega), ok_bind, if_neg (by omega), h1, TS.find_zeros (by omega)]
  unfold TableData.range
  rw [if_neg (by omega), if_pos rfl]
  rfl

/-! ## The EION blocks -/

/-- The locations of the distributions of the EION blocks. -/
def eionSecond (k : Nat) : List ElectronBlock → Words
  | [] => []
  | b :: bs => Dbl.ofNat (k + 3 * b.n + 1) :: eionSecond (k + b.xss.length) bs

theorem eionSecond_length (k : Nat) (bs : List ElectronBlock) : (eionSecond k bs).length = bs.length := by
  induction bs generalizing k with
  | nil => rfl
  | cons b bs ih => simp [eionSecond, ih]

theorem set_mid {α : Type} {xs a c : List α} {x v : α} {i : Nat} (h : xs = a ++ x :: c)
    (hi : i = a.length) : xs.set i v = a ++ v :: c := by
  subst h hi; simp

theorem eionLoop_spec (bs : List ElectronBlock) (pre A B C acc : Words) (nssh i : Nat) (z : Dbl)
    (hA : A.length = i) (hB : B.length = i) (hC : C.length = i) (hn : nssh = i + bs.length) :
    eionLoop nssh pre.length bs (pre ++ (A ++ List.replicate bs.length z) ++
        (B ++ List.replicate bs.length z) ++ (C ++ List.replicate bs.length z) ++ acc) i =
      pre ++ (A ++ bs.map (fun b => Dbl.ofNat b.n)) ++
        (B ++ locsFrom (fun p => Dbl.ofNat (p + 1)) (pre.length + 3 * nssh + acc.length) (bs.map (·.xss))) ++
        (C ++ eionSecond (pre.length + 3 * nssh + acc.length) bs) ++ acc ++ (bs.map (·.xss)).flatten := by
  induction bs generalizing A B C acc i with
  | nil => simp [eionLoop, locsFrom, eionSecond]
  | cons b bs ih =>
    have hlen : ∀ x y : Dbl, (pre ++ (A ++ x :: List.replicate bs.length z) ++
        (B ++ y :: List.replicate bs.length z) ++ (C ++ z :: List.replicate bs.length z) ++ acc).length =
          pre.length + 3 * nssh + acc.length := by
      intro x y
      simp [hA, hB, hC] at hn ⊢; omega
    simp only [List.length_cons, List.replicate_succ, eionLoop]
    have s1 : (pre ++ (A ++ z :: List.replicate bs.length z) ++
        (B ++ z :: List.replicate bs.length z) ++ (C ++ z :: List.replicate bs.length z) ++ acc).set
          (pre.length + i) (Dbl.ofNat b.n) =
        pre ++ (A ++ Dbl.ofNat b.n :: List.replicate bs.length z) ++
        (B ++ z :: List.replicate bs.length z) ++ (C ++ z :: List.replicate bs.length z) ++ acc := by
      rw [set_mid (a := pre ++ A) (x := z) (c := List.replicate bs.length z ++
        (B ++ z :: List.replicate bs.length z) ++ (C ++ z :: List.replicate bs.length z) ++ acc)
        (by simp) (by simp; omega)]
      simp
    rw [s1, hlen]
    generalize hL : pre.length + 3 * nssh + acc.length = L at *
    have s2 : (pre ++ (A ++ Dbl.ofNat b.n :: List.replicate bs.length z) ++
        (B ++ z :: List.replicate bs.length z) ++ (C ++ z :: List.replicate bs.length z) ++ acc).set
          (pre.length + i + nssh) (Dbl.ofNat (L + 1)) =
        pre ++ (A ++ Dbl.ofNat b.n :: List.replicate bs.length z) ++
        (B ++ Dbl.ofNat (L + 1) :: List.replicate bs.length z) ++
        (C ++ z :: List.replicate bs.length z) ++ acc := by
      rw [set_mid (a := pre ++ (A ++ Dbl.ofNat b.n :: List.replicate bs.length z) ++ B) (x := z)
        (c := List.replicate bs.length z ++ (C ++ z :: List.replicate bs.length z) ++ acc)
        (by simp) (by simp at hn ⊢; omega)]
      simp
    rw [s2, hlen]
    have s3 : (pre ++ (A ++ Dbl.ofNat b.n :: List.replicate bs.length z) ++
        (B ++ Dbl.ofNat (L + 1) :: List.replicate bs.length z) ++
        (C ++ z :: List.replicate bs.length z) ++ acc).set
          (pre.length + i + 2 * nssh) (Dbl.ofNat (L + 3 * b.n + 1)) =
        pre ++ (A ++ Dbl.ofNat b.n :: List.replicate bs.length z) ++
        (B ++ Dbl.ofNat (L + 1) :: List.replicate bs.length z) ++
        (C ++ Dbl.ofNat (L + 3 * b.n + 1) :: List.replicate bs.length z) ++ acc := by
      rw [set_mid (a := pre ++ (A ++ Dbl.ofNat b.n :: List.replicate bs.length z) ++
        (B ++ Dbl.ofNat (L + 1) :: List.replicate bs.length z) ++ C) (x := z)
        (c := List.replicate bs.length z ++ acc)
        (by simp) (by simp at hn ⊢; omega)]
      simp
    rw [s3]
    have := ih (A ++ [Dbl.ofNat b.n]) (B ++ [Dbl.ofNat (L + 1)]) (C ++ [Dbl.ofNat (L + 3 * b.n + 1)])
      (acc ++ b.xss) (i + 1) (by simp [hA]) (by simp [hB]) (by simp [hC])
      (by simp at hn ⊢; omega)
    have hL' : pre.length + 3 * nssh + (acc ++ b.xss).length = L + b.xss.length := by
      rw [List.length_append]; omega
    rw [hL'] at this
    simp only [List.append_assoc, List.singleton_append] at this ⊢
    rw [this]
    simp [locsFrom, eionSecond]

/-- The three arrays before the EION blocks. -/
def eionHead (k : Nat) (bs : List ElectronBlock) : Words :=
  bs.map (fun b => Dbl.ofNat b.n) ++
    locsFrom (fun p => Dbl.ofNat (p + 1)) (k + 3 * bs.length) (bs.map (·.xss)) ++
    eionSecond (k + 3 * bs.length) bs

theorem eionHead_length (k : Nat) (bs : List ElectronBlock) : (eionHead k bs).length = 3 * bs.length := by
  simp [eionHead, eionSecond_length]; omega

theorem addEION_eq (bs : List ElectronBlock) (xss : Words) :
    addEION bs.length bs xss = xss ++ eionHead xss.length bs ++ (bs.map (·.xss)).flatten := by
  unfold addEION
  have := eionLoop_spec bs xss [] [] [] [] bs.length 0 (Dbl.ofNat 0) rfl rfl rfl (by simp)
  simp only [List.nil_append, List.append_nil, List.length_nil, Nat.add_zero] at this
  have e : List.replicate (3 * bs.length) (Dbl.ofNat 0) = List.replicate bs.length (Dbl.ofNat 0) ++
      List.replicate bs.length (Dbl.ofNat 0) ++ List.replicate bs.length (Dbl.ofNat 0) := by
    simp only [List.replicate_append_replicate]
    congr 1; omega
  rw [e, ← List.append_assoc, ← List.append_assoc, this]
  simp [eionHead]

theorem readEION_eq {d : TableData} {bs : List ElectronBlock} {p c : Words} {i : Nat}
    (hx : d.xss = p ++ eionHead p.length bs ++ (bs.map (·.xss)).flatten ++ c)
    (h23 : d.jxs[22]? = some ((p.length + 1 : Nat) : Int))
    (h24 : d.jxs[23]? = some (((p ++ eionHead p.length bs ++ (bs.map (·.xss)).flatten).length + 1 : Nat) : Int))
    (hf : FitsN (d.xss.length + 1)) (hi : i < bs.length) (hn : FitsN bs[i].n)
    (hb : ElectronBlock.ofRange bs[i].xss bs[i].n = .ok bs[i]) :
    readEION d bs.length (1 + i) = .ok bs[i] := by
  unfold FitsN at hf
  have hlen : d.xss.length = p.length + 3 * bs.length + (bs.map (·.xss)).flatten.length + c.length := by
    rw [hx]; simp [eionHead_length]; omega
  have hj : d.offset 23 = .ok p.length := offset_get h23 (by omega)
  have hj4 : d.offset 24 = .ok (p.length + 3 * bs.length + (bs.map (·.xss)).flatten.length) := by
    have := offset_get (d := d) (i := 23) h24 (by rw [hx]; simp)
    rw [this]
    congr 1
    simp [eionHead_length]; omega
  -- the count
  have hcount : deref d.xss (p.length + i) = .ok (Dbl.ofNat bs[i].n) := by
    obtain ⟨a, r, h1, h2⟩ := getElem_split (bs.map (fun b => Dbl.ofNat b.n)) i (by simpa using hi)
    refine deref_of_eq (a := p ++ a) (c := r ++ locsFrom (fun p => Dbl.ofNat (p + 1))
      (p.length + 3 * bs.length) (bs.map (·.xss)) ++
      eionSecond (p.length + 3 * bs.length) bs ++ (bs.map (·.xss)).flatten ++ c) ?_ (by simp [h2])
    rw [hx, eionHead, h1]
    simp
  -- the locators
  have hloc : ∀ j, j < bs.length → deref d.xss (p.length + bs.length + j) =
      .ok (Dbl.ofNat (p.length + 3 * bs.length + startOf (bs.map (·.xss)) j + 1)) := by
    intro j hj
    have hjl : j < (locsFrom (fun p => Dbl.ofNat (p + 1)) (p.length + 3 * bs.length)
        (bs.map (·.xss))).length := by simpa using hj
    obtain ⟨a, r, h1, h2⟩ := getElem_split _ j hjl
    rw [locsFrom_getElem] at h1
    refine deref_of_eq (a := p ++ bs.map (fun b => Dbl.ofNat b.n) ++ a) (c := r ++
      eionSecond (p.length + 3 * bs.length) bs ++ (bs.map (·.xss)).flatten ++ c) ?_ (by simp [h2]; omega)
    rw [hx, eionHead, h1]
    simp
  have hst : ∀ j, j < bs.length → wordOffset d (p.length + bs.length + j) =
      .ok (p.length + 3 * bs.length + startOf (bs.map (·.xss)) j) := by
    intro j hj
    unfold wordOffset
    have := startOf_le (bs.map (·.xss)) j
    rw [hloc j hj, ok_bind, Dbl.trunc?_ofNat, toSize_natCast (by unfold FitsN; omega), ok_bind,
      if_neg (by omega)]
    rfl
  have hstop : (if 1 + i ≠ bs.length then wordOffset d (p.length + bs.length + (1 + i))
      else d.offset 24) = .ok (p.length + 3 * bs.length + startOf (bs.map (·.xss)) i + bs[i].xss.length) := by
    have hs := startOf_succ (bs.map (·.xss)) i (by simpa using hi)
    simp only [List.getElem_map] at hs
    by_cases hl : 1 + i ≠ bs.length
    · rw [if_pos hl, hst _ (by omega), Nat.add_comm 1 i, hs]
      congr 1; omega
    · rw [if_neg hl, hj4]
      have hlast := startOf_length (bs.map (·.xss))
      have e : (bs.map (·.xss)).length = i + 1 := by simp; omega
      rw [e, hs] at hlast
      congr 1; omega
  unfold readEION
  simp only [hj, ok_bind]
  rw [show p.length + (1 + i) - 1 = p.length + i by omega, hcount, ok_bind, Dbl.trunc?_ofNat,
    toSize_natCast hn, ok_bind, show p.length + bs.length + (1 + i) - 1 = p.length + bs.length + i by omega,
    hst i hi, ok_bind]
  have hsub : sub d.xss (p.length + 3 * bs.length + startOf (bs.map (·.xss)) i)
      (p.length + 3 * bs.length + startOf (bs.map (·.xss)) i + bs[i].xss.length) = .ok bs[i].xss := by
    have h1 := flatten_split (bs.map (·.xss)) i (by simpa using hi)
    simp only [List.getElem_map] at h1
    refine sub_of_eq (a := p ++ eionHead p.length bs ++ ((bs.map (·.xss)).take i).flatten)
      (c := ((bs.map (·.xss)).drop (i + 1)).flatten ++ c) ?_ ?_ ?_
    · rw [hx, h1]; simp
    · simp only [List.length_append, eionHead_length, startOf]
    · simp only [List.length_append, eionHead_length, startOf]
  by_cases hl : 1 + i ≠ bs.length
  · simp only [hl, if_true, ne_eq, not_false_eq_true] at hstop ⊢
    rw [hstop]
    simp only [ok_bind, hsub, hb]
  · simp only [hl, if_false] at hstop ⊢
    rw [hstop]
    simp only [ok_bind, hsub, hb]

end ACE.PA

namespace ACE.PA
open ACE.Props

/-- The first locator after a block: `q` words precede what follows, or there is none and the
block ends the array of `total` words. -/
def Next (l : List Int) (q total : Nat) : Prop :=
  (∃ k rest, l = List.replicate k 0 ++ ((q + 1 : Nat) : Int) :: rest) ∨
    (∃ k, l = List.replicate k 0) ∧ q = total

theorem Next.here {q t : Nat} {l : List Int} : Next (((q + 1 : Nat) : Int) :: l) q t :=
  .inl ⟨0, l, rfl⟩
theorem Next.zero {q t : Nat} {l : List Int} (h : Next l q t) : Next (0 :: l) q t := by
  rcases h with ⟨k, r, h⟩ | ⟨⟨k, h⟩, e⟩
  · exact .inl ⟨k + 1, r, by rw [h]; rfl⟩
  · exact .inr ⟨⟨k + 1, by rw [h]; rfl⟩, e⟩
theorem Next.nil {t : Nat} : Next [] t t := .inr ⟨⟨0, rfl⟩, rfl⟩
theorem Next.zeros {t : Nat} (k : Nat) : Next (List.replicate k 0) t t := .inr ⟨⟨k, rfl⟩, rfl⟩

theorem afterPlus_eq (w : Words) (n : Nat) : afterPlus w n = ((w.length + n + 1 : Nat) : Int) := by
  unfold afterPlus; congr 1; omega
theorem Next.plus {w : Words} {n t : Nat} {l : List Int} : Next (afterPlus w n :: l) (w.length + n) t := by
  rw [afterPlus_eq]; exact .here

theorem block_next {d : TableData} {i p q : Nat} {l : List Int}
    (hj : d.jxs.drop i = ((p + 1 : Nat) : Int) :: l) (hl : Next l q d.xss.length)
    (hpq : p ≤ q) (hq : q ≤ d.xss.length) (hf : FitsN (d.xss.length + 1)) :
    block d (i + 1) = .ok (p, q) := by
  rcases hl with ⟨k, r, h⟩ | ⟨⟨k, h⟩, rfl⟩
  · exact block_hit (by rw [hj, h]) hpq hq hf
  · exact block_end (by rw [hj, h]) hpq hf

/-! ## The electron data -/

/-- The blocks read back from their own words with their own counts, and the counts agree. -/
structure ElectronsRead (e : Electrons) (nes : Nat) : Prop where
  subsh : SUBSH.ofRange e.subsh.xss e.subsh.n = .ok e.subsh
  subsh_size : e.subsh.n ≤ e.subsh.xss.length
  sphel : SPHEL.ofRange e.sphel.xss e.subsh.n nes = .ok e.sphel
  xprob : XPROB.ofRange e.xprob.xss e.subsh.n e.subsh.n = .ok e.xprob
  xprob_size : e.subsh.n ≤ e.xprob.xss.length
  esze : ESZE.ofRange e.esze.xss e.subsh.n e.esze.n = .ok e.esze
  excit : EXCIT.ofRange e.excit.xss e.excit.n = .ok e.excit
  elas : ElectronBlock.ofRange e.elas.xss e.elas.n = .ok e.elas
  eion_count : e.eion.length = e.subsh.n
  eion : ∀ b ∈ e.eion, ElectronBlock.ofRange b.xss b.n = .ok b ∧ FitsN b.n
  breme : ElectronBlock.ofRange e.breme.xss e.breme.n = .ok e.breme
  breml : BREML.ofRange e.breml.xss e.breml.n = .ok e.breml
  selas : ∀ s, e.selas = some s → SELAS.ofRange s.xss e.esze.n = .ok s

theorem electron_size {xs : Words} {n : Nat} {b : ElectronBlock} (h : ElectronBlock.ofRange xs n = .ok b) :
    3 * n ≤ xs.length := by
  unfold ElectronBlock.ofRange ElectronBlock.generateBlocks at h
  obtain ⟨i, h1, _⟩ := bind_eq_ok.mp h
  unfold sub at h1
  split at h1
  · rename_i hc; omega
  · cases h1

theorem electrons_read {d : TableData} {x9 : Words} {e : Electrons} {nes : Nat}
    (hs : ElectronsRead e nes)
    (hj : d.jxs.drop 10 = (addElectrons x9 (some e)).2 ++ List.replicate 5 0)
    (hx : d.xss = (addElectrons x9 (some e)).1)
    (c3 : d.count 3 = .ok nes) (c7 : d.count 7 = .ok e.subsh.n) (c8 : d.count 8 = .ok e.esze.n)
    (c9 : d.count 9 = .ok e.excit.n) (c10 : d.count 10 = .ok e.elas.n)
    (c11 : d.count 11 = .ok e.breme.n) (c12 : d.count 12 = .ok e.breml.n)
    (hf : FitsN (d.xss.length + 1)) :
    readElectrons d (neprOf (some e)) = .ok e := by
  have hc := hs.eion_count
  have ex23 := addEION_eq e.eion (x9 ++ e.subsh.xss ++ e.sphel.xss ++ e.xprob.xss ++ e.esze.xss ++
    e.excit.xss ++ e.elas.xss)
  rw [hc] at ex23
  generalize hL : (x9 ++ e.subsh.xss ++ e.sphel.xss ++ e.xprob.xss ++ e.esze.xss ++
    e.excit.xss ++ e.elas.xss) = x21 at ex23
  generalize hE : eionHead x21.length e.eion ++ (e.eion.map (·.xss)).flatten = E
  have hE' : addEION e.subsh.n e.eion x21 = x21 ++ E := by rw [ex23, ← hE]; simp
  obtain ⟨sw, sj, hw, hjs, hnext⟩ : ∃ (sw : Words) (sj : Int),
      (addElectrons x9 (some e)).1 = x21 ++ E ++ e.breme.xss ++ e.breml.xss ++ sw ∧
      (addElectrons x9 (some e)).2 = [after x9, afterPlus x9 e.subsh.n, afterPlus x9 (2 * e.subsh.n),
        afterPlus x9 (3 * e.subsh.n), afterPlus x9 (4 * e.subsh.n), after (x9 ++ e.subsh.xss),
        after (x9 ++ e.subsh.xss ++ e.sphel.xss),
        afterPlus (x9 ++ e.subsh.xss ++ e.sphel.xss) e.subsh.n,
        after (x9 ++ e.subsh.xss ++ e.sphel.xss ++ e.xprob.xss),
        after (x9 ++ e.subsh.xss ++ e.sphel.xss ++ e.xprob.xss ++ e.esze.xss),
        after (x9 ++ e.subsh.xss ++ e.sphel.xss ++ e.xprob.xss ++ e.esze.xss ++ e.excit.xss),
        afterPlus (x9 ++ e.subsh.xss ++ e.sphel.xss ++ e.xprob.xss ++ e.esze.xss ++ e.excit.xss)
          (3 * e.elas.n),
        after x21, after (x21 ++ E), afterPlus (x21 ++ E) (3 * e.breme.n),
        after (x21 ++ E ++ e.breme.xss)] ++ [sj] ∧
      ((e.selas = none ∧ sw = [] ∧ sj = 0) ∨ ∃ s, e.selas = some s ∧ sw = s.xss ∧
        sj = after (x21 ++ E ++ e.breme.xss ++ e.breml.xss)) := by
    cases hsel : e.selas with
    | none => exact ⟨[], 0, by simp only [addElectrons, hsel, hL, hE', List.append_nil],
        by simp only [addElectrons, hsel, hL, hE'], .inl ⟨rfl, rfl, rfl⟩⟩
    | some s => exact ⟨s.xss, _, by simp only [addElectrons, hsel, hL, hE'],
        by simp only [addElectrons, hsel, hL, hE'], .inr ⟨s, rfl, rfl, rfl⟩⟩
  rw [hjs] at hj
  rw [hw] at hx
  have hlen : d.xss.length = x9.length + e.subsh.xss.length + e.sphel.xss.length + e.xprob.xss.length +
      e.esze.xss.length + e.excit.xss.length + e.elas.xss.length + E.length + e.breme.xss.length +
      e.breml.xss.length + sw.length := by
    rw [hx, ← hL]; simp only [List.length_append]
  have hl21 : x21.length = x9.length + e.subsh.xss.length + e.sphel.xss.length + e.xprob.xss.length +
      e.esze.xss.length + e.excit.xss.length + e.elas.xss.length := by
    rw [← hL]; simp only [List.length_append]
  have hdrop : ∀ i, d.jxs.drop (10 + i) = (d.jxs.drop 10).drop i := by intro i; simp
  have s1 := hs.subsh_size
  have s2 := hs.xprob_size
  have s3 := electron_size hs.elas
  have s4 := electron_size hs.breme
  have b11 : block d 11 = .ok (x9.length, x9.length + e.subsh.n) :=
    block_next (i := 10) hj .plus (by omega) (by omega) hf
  have b16 : block d 16 = .ok ((x9 ++ e.subsh.xss).length, (x9 ++ e.subsh.xss ++ e.sphel.xss).length) :=
    block_next (i := 15) (by rw [hdrop 5, hj]; rfl) .here (by simp) (by simp; omega) hf
  have b17 : block d 17 = .ok ((x9 ++ e.subsh.xss ++ e.sphel.xss).length,
      (x9 ++ e.subsh.xss ++ e.sphel.xss).length + e.subsh.n) :=
    block_next (i := 16) (by rw [hdrop 6, hj]; rfl) .plus (by omega)
      (by simp; omega) hf
  have b18 : block d 18 = .ok ((x9 ++ e.subsh.xss ++ e.sphel.xss).length + e.subsh.n,
      (x9 ++ e.subsh.xss ++ e.sphel.xss ++ e.xprob.xss).length) :=
    block_next (i := 17) (by rw [hdrop 7, hj, ← afterPlus_eq]; rfl) .here (by simp; omega)
      (by simp; omega) hf
  have b19 : block d 19 = .ok ((x9 ++ e.subsh.xss ++ e.sphel.xss ++ e.xprob.xss).length,
      (x9 ++ e.subsh.xss ++ e.sphel.xss ++ e.xprob.xss ++ e.esze.xss).length) :=
    block_next (i := 18) (by rw [hdrop 8, hj]; rfl) .here (by simp) (by simp; omega) hf
  have b20 : block d 20 = .ok ((x9 ++ e.subsh.xss ++ e.sphel.xss ++ e.xprob.xss ++ e.esze.xss).length,
      (x9 ++ e.subsh.xss ++ e.sphel.xss ++ e.xprob.xss ++ e.esze.xss ++ e.excit.xss).length) :=
    block_next (i := 19) (by rw [hdrop 9, hj]; rfl) .here (by simp) (by simp; omega) hf
  generalize hx20 : x9 ++ e.subsh.xss ++ e.sphel.xss ++ e.xprob.xss ++ e.esze.xss ++ e.excit.xss = x20 at *
  have hl20 : x21.length = x20.length + e.elas.xss.length := by rw [← hL]; simp
  have b21 : block d 21 = .ok (x20.length, x20.length + 3 * e.elas.n) :=
    block_next (i := 20) (by rw [hdrop 10, hj]; rfl) .plus (by omega)
      (by omega) hf
  have b22 : block d 22 = .ok (x20.length + 3 * e.elas.n, x21.length) :=
    block_next (i := 21) (by rw [hdrop 11, hj, ← afterPlus_eq]; rfl)
      .here (by omega) (by omega) hf
  have b24 : block d 24 = .ok ((x21 ++ E).length, (x21 ++ E).length + 3 * e.breme.n) :=
    block_next (i := 23) (by rw [hdrop 13, hj]; rfl) .plus
      (by omega) (by simp; omega) hf
  have b25 : block d 25 = .ok ((x21 ++ E).length + 3 * e.breme.n, (x21 ++ E ++ e.breme.xss).length) :=
    block_next (i := 24) (by rw [hdrop 14, hj, ← afterPlus_eq]; rfl) .here (by simp; omega) (by simp; omega) hf
  have b26 : block d 26 = .ok ((x21 ++ E ++ e.breme.xss).length,
      (x21 ++ E ++ e.breme.xss ++ e.breml.xss).length) := by
    refine block_next (i := 25) (l := sj :: List.replicate 5 0) (by rw [hdrop 15, hj]; rfl) ?_ (by simp)
      (by simp; omega) hf
    rcases hnext with ⟨_, h1, h2⟩ | ⟨s, _, h1, h2⟩
    · subst h1 h2
      have : (x21 ++ E ++ e.breme.xss ++ e.breml.xss).length = d.xss.length := by rw [hx]; simp
      rw [this]
      exact .inr ⟨⟨6, rfl⟩, rfl⟩
    · subst h2; exact .here
  have bs : CE.onlyIf (decide (neprOf (some e) = 3)) (do SELAS.ofRange (← d.words (← block d 27)) e.esze.n) =
      .ok e.selas := by
    rcases hnext with ⟨h0, h1, h2⟩ | ⟨s, h0, h1, h2⟩
    · rw [h0]
      exact CE.onlyIf_false (by simp [neprOf, h0])
    · rw [h0]
      refine CE.onlyIf_true (by simp [neprOf, h0]) ?_
      have : block d 27 = .ok ((x21 ++ E ++ e.breme.xss ++ e.breml.xss).length, d.xss.length) :=
        block_next (i := 26) (l := List.replicate 5 0) (by rw [hdrop 16, hj, h2]; rfl) (Next.zeros 5)
          (by rw [hx]; simp) (by omega) hf
      rw [this, ok_bind]
      unfold TableData.words
      rw [sub_of_eq (a := x21 ++ E ++ e.breme.xss ++ e.breml.xss) (b := s.xss) (c := [])
        (by rw [hx, h1]; simp) rfl (by rw [hx, h1]; simp; omega), ok_bind]
      exact hs.selas s h0
  have w11 : sub d.xss x9.length (x9 ++ e.subsh.xss).length = .ok e.subsh.xss :=
    sub_of_eq (a := x9) (c := e.sphel.xss ++ e.xprob.xss ++ e.esze.xss ++ e.excit.xss ++ e.elas.xss ++ E ++
      e.breme.xss ++ e.breml.xss ++ sw) (by rw [hx, ← hL, ← hx20]; simp) rfl (by simp)
  have w16 : sub d.xss (x9 ++ e.subsh.xss).length (x9 ++ e.subsh.xss ++ e.sphel.xss).length =
      .ok e.sphel.xss :=
    sub_of_eq (a := x9 ++ e.subsh.xss) (c := e.xprob.xss ++ e.esze.xss ++ e.excit.xss ++ e.elas.xss ++ E ++
      e.breme.xss ++ e.breml.xss ++ sw) (by rw [hx, ← hL, ← hx20]; simp) rfl (by simp; omega)
  have w17 : sub d.xss (x9 ++ e.subsh.xss ++ e.sphel.xss).length
      (x9 ++ e.subsh.xss ++ e.sphel.xss ++ e.xprob.xss).length = .ok e.xprob.xss :=
    sub_of_eq (a := x9 ++ e.subsh.xss ++ e.sphel.xss) (c := e.esze.xss ++ e.excit.xss ++ e.elas.xss ++ E ++
      e.breme.xss ++ e.breml.xss ++ sw) (by rw [hx, ← hL, ← hx20]; simp) rfl (by simp; omega)
  have w19 : sub d.xss (x9 ++ e.subsh.xss ++ e.sphel.xss ++ e.xprob.xss).length
      (x9 ++ e.subsh.xss ++ e.sphel.xss ++ e.xprob.xss ++ e.esze.xss).length = .ok e.esze.xss :=
    sub_of_eq (a := x9 ++ e.subsh.xss ++ e.sphel.xss ++ e.xprob.xss) (c := e.excit.xss ++ e.elas.xss ++ E ++
      e.breme.xss ++ e.breml.xss ++ sw) (by rw [hx, ← hL, ← hx20]; simp) rfl (by simp; omega)
  have w20 : sub d.xss (x9 ++ e.subsh.xss ++ e.sphel.xss ++ e.xprob.xss ++ e.esze.xss).length x20.length =
      .ok e.excit.xss :=
    sub_of_eq (a := x9 ++ e.subsh.xss ++ e.sphel.xss ++ e.xprob.xss ++ e.esze.xss) (c := e.elas.xss ++ E ++
      e.breme.xss ++ e.breml.xss ++ sw) (by rw [hx, ← hL, ← hx20]; simp) rfl (by rw [← hx20]; simp; omega)
  have w21 : sub d.xss x20.length x21.length = .ok e.elas.xss :=
    sub_of_eq (a := x20) (c := E ++ e.breme.xss ++ e.breml.xss ++ sw) (by rw [hx, ← hL]; simp) rfl hl20
  have w24 : sub d.xss (x21 ++ E).length (x21 ++ E ++ e.breme.xss).length = .ok e.breme.xss :=
    sub_of_eq (a := x21 ++ E) (c := e.breml.xss ++ sw) (by rw [hx]; simp) rfl (by simp; omega)
  have w26 : sub d.xss (x21 ++ E ++ e.breme.xss).length (x21 ++ E ++ e.breme.xss ++ e.breml.xss).length =
      .ok e.breml.xss :=
    sub_of_eq (a := x21 ++ E ++ e.breme.xss) (c := sw) (by rw [hx]) rfl (by simp; omega)
  have beion : (List.range' 1 e.subsh.n).mapM (readEION d e.subsh.n) = .ok e.eion := by
    have hx' : d.xss = x21 ++ eionHead x21.length e.eion ++ (e.eion.map (·.xss)).flatten ++
        (e.breme.xss ++ e.breml.xss ++ sw) := by rw [hx, ← hE]; simp
    have hg : ∀ i, d.jxs[10 + i]? = (d.jxs.drop 10)[i]? := by intro i; simp
    refine mapM_range_ok _ e.eion 1 _ hc.symm ?_
    intro i hi
    rw [← hc]
    refine readEION_eq (p := x21) hx' ?_ ?_ hf hi (hs.eion _ (List.getElem_mem hi)).2
      (hs.eion _ (List.getElem_mem hi)).1
    · rw [hg 12, hj]; rfl
    · rw [hg 13, hj, ← hE]
      simp only [after, List.append_assoc]
      rfl
  unfold readElectrons CE.located TableData.words
  simp only [c3, c7, c8, c9, c10, c11, c12, b11, b16, b17, b18, b19, b20, b21, b22, b24, b25, b26, ok_bind,
    w11, w16, w17, w19, w20, w21, w24, w26, hs.subsh, hs.sphel, hs.esze, hs.excit, hs.elas, hs.breme,
    hs.breml, beion, pure_eq_ok, Nat.add_sub_cancel_left, hs.xprob]
  unfold TableData.words at bs
  rw [bs]
  rfl

end ACE.PA

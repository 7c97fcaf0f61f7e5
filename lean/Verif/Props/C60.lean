import Verif.Props.C56Unchecked
import Verif.Props.C36
import Verif.Model.Typed
import Verif.Props.C32
import Verif.Props.C33
import Verif.Props.C34
import Verif.Props.C35

/-!
# C60: interpreting a generic table as a typed table ends with the table or with an exception

A generic table that was read from a file can have any counts, locators and words. The constructors of the typed
tables use its locators without comparing them with the number of words: a locator that is not in the XSS array
makes the behaviour undefined (`C60_false`, `C60_outside_*`). When the locators are inside and in order, and the words are
moderate and not negative, reading the smaller kinds of tables ends with the table or with an exception.
-/

namespace ACE.Props
open ACE

/-- The value of a locator. -/
def jxsAt (d : TableData) (i : Nat) : Int := d.jxs.getD (i - 1) 0
/-- The value of a count. -/
def nxsAt (d : TableData) (i : Nat) : Int := d.nxs.getD (i - 1) 0

/-- A table of the usual size, with locators that are zero or inside of the XSS array (or right behind it) and
words that are not large. -/
structure InPlace (d : TableData) : Prop where
  sized : d.Sized
  locators : ∀ j ∈ d.jxs, 0 ≤ j ∧ j ≤ (d.xss.length : Int) + 1
  moderate : Moderate d.xss

/-- Such a table whose words are not negative. -/
structure Regular (d : TableData) : Prop extends InPlace d where
  positive : ∀ x ∈ d.xss, ∀ v, x.round? = some v → 0 ≤ v

/-- The locators of the data of a block whose locators begin at `JXS( index )` are in order. -/
def OrderedAt (d : TableData) (index n : Nat) : Prop :=
  LocatorsInOrder (d.xss.drop (jxsAt d index - 1).toNat) n true

namespace C60

theorem fetch_at {α : Type} {l : List α} {i : Nat} {a : α} (h1 : 1 ≤ i) (h2 : i ≤ l.length) :
    TableData.fetch l i = .ok (l.getD (i - 1) a) := by
  unfold TableData.fetch TableData.verifyIndex
  rw [if_neg (by omega)]
  simp only [ok_bind]
  rw [List.getElem?_eq_getElem (by omega)]
  simp [List.getD, List.getElem?_eq_getElem (show i - 1 < l.length by omega)]

theorem JXS_at {d : TableData} (hs : d.Sized) {i : Nat} (h1 : 1 ≤ i) (h2 : i ≤ 32) : d.JXS i = .ok (jxsAt d i) :=
  fetch_at h1 (by rw [hs.jxs]; exact h2)

theorem NXS_at {d : TableData} (hs : d.Sized) {i : Nat} (h1 : 1 ≤ i) (h2 : i ≤ 16) : d.NXS i = .ok (nxsAt d i) :=
  fetch_at h1 (by rw [hs.nxs]; exact h2)

theorem count_at {d : TableData} (hs : d.Sized) {i : Nat} (h1 : 1 ≤ i) (h2 : i ≤ 16) :
    d.count i = .ok (u32OfInt (nxsAt d i)) := by
  unfold TableData.count
  rw [NXS_at hs h1 h2]
  rfl

theorem jxs_mem {d : TableData} (hs : d.Sized) {i : Nat} (h1 : 1 ≤ i) (h2 : i ≤ 32) : jxsAt d i ∈ d.jxs := by
  have h : i - 1 < d.jxs.length := by rw [hs.jxs]; omega
  have : jxsAt d i = d.jxs[i - 1] := by simp [jxsAt, List.getD, List.getElem?_eq_getElem h]
  rw [this]
  exact List.getElem_mem h

/-- Words that are moderate and not negative. -/
structure Good (xs : Words) : Prop where
  moderate : Moderate xs
  positive : ∀ x ∈ xs, ∀ v, x.round? = some v → 0 ≤ v

theorem Good.sub {xs ws : Words} {l r : Nat} (hp : Good xs) (h : ACE.sub xs l r = .ok ws) : Good ws :=
  ⟨C56.Moderate.sub hp.moderate h, fun x hx => hp.positive x ((C56.sub_mem h).2.2 x hx)⟩

theorem Good.int {xs : Words} (h : Good xs) {i : Nat} {v : Int} (hv : Base.IXSS xs i = .ok v) : 0 ≤ v := by
  obtain ⟨x, h1, h2⟩ := C56.IXSS_round hv
  exact h.positive x (C56.XSS_mem h1).2.2 v h2

theorem Good.counted {xs : Words} (h : Good xs) : Counted xs :=
  ⟨h.moderate, fun _ hv => h.int hv, fun _ _ _ hv => h.int hv⟩

theorem Good.column {xs : Words} (h : Good xs) (nc : Nat) : EndsChecked (ColumnData.ofRange xs nc) :=
  .of_ends (C56.column xs nc h.moderate fun _ hv => h.int hv)

/-- Locators in order are in order in every prefix. -/
theorem order_sub {xs ws : Words} {l r n : Nat} {b : Bool} (ho : LocatorsInOrder (xs.drop l) n b)
    (h : sub xs l r = .ok ws) : LocatorsInOrder ws n b := by
  have hint : ∀ i v, Base.IXSS ws i = .ok v → Base.IXSS (xs.drop l) i = .ok v := by
    intro i v hv
    have h' : sub (xs.drop l) 0 (r - l) = .ok ws := by
      unfold sub at h ⊢
      split at h
      · rename_i hb
        rw [if_pos (by simp only [List.length_drop]; omega)]
        simpa using h
      · cases h
    exact C56.IXSS_prefix h' hv
  have hloc : ∀ i v, LocBlock.LLOCof ws n b i = .ok v → LocBlock.LLOCof (xs.drop l) n b i = .ok v := by
    intro i v hv
    unfold LocBlock.LLOCof at hv ⊢
    obtain ⟨u, h1, hv⟩ := bind_eq_ok.mp hv
    rw [h1]
    cases b <;> simp only [ok_bind, if_true, Bool.false_eq_true, if_false] at hv ⊢ <;>
      (obtain ⟨w, h2, hv⟩ := bind_eq_ok.mp hv; rw [hint _ _ h2]; exact hv)
  exact fun i a c hi ha hc => ho i a c hi (hloc _ _ ha) (hloc _ _ hc)

/-- As `C56.LocBlock_checked`, for words that are not negative. -/
theorem LocBlock_checked {D : Type} {gen : Nat → Words → Res D} {xs : Words} (hm : Good xs) {iter n : Nat}
    {locator : Bool} (ho : LocatorsInOrder xs n locator) (hg : ∀ l ws, Good ws → EndsChecked (gen l ws)) :
    EndsChecked (LocBlock.ofRange gen xs iter n locator) := by
  unfold LocBlock.ofRange LocBlock.generateBlocks
  have hloc : ∀ i, EndsChecked (LocBlock.LLOCof xs n locator i) := by
    intro i
    unfold LocBlock.LLOCof LocBlock.verifyDataIndex
    refine EndsChecked.bind ?_ fun _ _ => ?_
    · split
      · exact .range
      · exact .ok _
    · split <;> exact (C56.IXSS_checked hm.moderate i).bind fun _ _ => .ok _
  refine (EndsChecked.guard _).bind fun _ _ => (EndsChecked.mapM _ fun i hi => ?_).bind fun _ _ => .ok _
  unfold LocBlock.generateBlock
  refine (hloc _).bind fun loc hl => (C56.iterator_checked xs _).bind fun left hleft => ?_
  have h1 := C56.iterator_ok hleft
  have hi := List.mem_range.mp hi
  have hgo : ∀ right, left ≤ right → right ≤ xs.length → EndsChecked (ACE.sub xs left right >>= gen loc) := by
    intro right h2 h3
    obtain ⟨ws, hw⟩ := C56.sub_ok h2 h3
    rw [hw]
    exact hg _ _ (Good.sub hm hw)
  by_cases hn : i + 1 = n
  · simp only [hn, if_true]
    exact hgo _ h1.2.2 (Nat.le_refl _)
  · simp only [hn, if_false]
    refine (hloc _).bind fun next hnext => (C56.iterator_checked xs _).bind fun right hr => ?_
    have h2 := C56.iterator_ok hr
    have h3 := ho (i + 1) loc next (by omega) hl hnext
    exact hgo right (by omega) h2.2.2

variable {d : TableData}

theorem Regular.good (h : Regular d) : Good d.xss := ⟨h.moderate, h.positive⟩

/-- Reading some of the words. -/
theorem words_checked {α : Type} (h : Regular d) {f : Words → Res α} {l r : Nat} (h1 : l ≤ r) (h2 : r ≤ d.xss.length)
    (hf : ∀ ws, sub d.xss l r = .ok ws → Good ws → EndsChecked (f ws)) : EndsChecked (sub d.xss l r >>= f) := by
  obtain ⟨ws, hw⟩ := C56.sub_ok h1 h2
  rw [hw]
  exact hf ws hw (Good.sub (Regular.good h) hw)

theorem size_eq {j : Int} {n : Nat} (hn : n < 1073741824) (h : 0 ≤ j ∧ j ≤ (n : Int) + 1) : sizeOfInt j = j.toNat := by
  unfold sizeOfInt
  omega

/-- The iterators of a block that is present. -/
theorem range_of (h : InPlace d) {j : Int} (hj : 1 ≤ j) (hj' : j ≤ (d.xss.length : Int) + 1) {l : List Int}
    (hl : ∀ v ∈ l, v ∈ d.jxs) :
    ∃ r : Nat × Nat, (match l.find? (fun value => decide (sizeOfInt j ≤ sizeOfInt value)) with
      | none => d.range (sizeOfInt j) 0
      | some value => d.range (sizeOfInt j) (sizeOfInt value)) = .ok r ∧
      r.1 = (j - 1).toNat ∧ r.1 ≤ r.2 ∧ r.2 ≤ d.xss.length := by
  have hn := h.moderate.length
  have e := size_eq hn ⟨by omega, hj'⟩
  cases hf : l.find? (fun value => decide (sizeOfInt j ≤ sizeOfInt value)) with
  | none =>
    refine ⟨(j.toNat - 1, d.xss.length), ?_, ?_, ?_, ?_⟩
    · simp only [TableData.range, e]
      rw [if_neg (by omega)]
      rfl
    · simp only; omega
    · simp only; omega
    · simp only; omega
  | some v =>
    have hv : sizeOfInt j ≤ sizeOfInt v := by simpa using List.find?_some hf
    have hm := h.locators v (hl v (List.mem_of_find?_eq_some hf))
    have e' := size_eq hn hm
    rw [e, e'] at hv
    refine ⟨(j.toNat - 1, v.toNat - 1), ?_, ?_, ?_, ?_⟩
    · simp only [TableData.range, e, e']
      rw [if_neg (by omega), if_neg (by omega), if_neg (by omega)]
    · simp only; omega
    · simp only; omega
    · simp only; omega

theorem PA_place (h : InPlace d) {i : Nat} (h1 : 1 ≤ i) (h2 : i ≤ 32) (hj : 1 ≤ jxsAt d i) :
    ∃ r, PA.block d i = .ok r ∧ r.1 = (jxsAt d i - 1).toNat ∧ r.1 ≤ r.2 ∧ r.2 ≤ d.xss.length := by
  have hm := h.locators _ (jxs_mem h.sized h1 h2)
  have e := size_eq h.moderate.length hm
  unfold PA.block TableData.locator
  rw [JXS_at h.sized h1 h2]
  simp only [ok_bind, pure_eq_ok]
  rw [if_neg (by omega)]
  exact range_of h hj hm.2 fun v hv => List.mem_of_mem_drop hv

theorem PA_block (h : Regular d) {i : Nat} (h1 : 1 ≤ i) (h2 : i ≤ 32) (hj : 1 ≤ jxsAt d i) :
    ∃ r, PA.block d i = .ok r ∧ r.1 = (jxsAt d i - 1).toNat ∧ r.1 ≤ r.2 ∧ r.2 ≤ d.xss.length :=
  PA_place h.toInPlace h1 h2 hj

theorem TS_place (h : InPlace d) {i : Nat} (h1 : 1 ≤ i) (h2 : i ≤ 32) (hj : 1 ≤ jxsAt d i) :
    ∃ r, TS.block d i = .ok r ∧ r.1 = (jxsAt d i - 1).toNat ∧ r.1 ≤ r.2 ∧ r.2 ≤ d.xss.length := by
  have hm := h.locators _ (jxs_mem h.sized h1 h2)
  have e := size_eq h.moderate.length hm
  unfold TS.block TableData.locator
  rw [JXS_at h.sized h1 h2]
  simp only [ok_bind, pure_eq_ok]
  rw [if_neg (by omega)]
  exact range_of h hj hm.2 fun v hv => List.mem_of_mem_drop hv

theorem TS_block (h : Regular d) {i : Nat} (h1 : 1 ≤ i) (h2 : i ≤ 32) (hj : 1 ≤ jxsAt d i) :
    ∃ r, TS.block d i = .ok r ∧ r.1 = (jxsAt d i - 1).toNat ∧ r.1 ≤ r.2 ∧ r.2 ≤ d.xss.length :=
  TS_place h.toInPlace h1 h2 hj

theorem onlyIf_checked {α : Type} {c : Bool} {r : Res α} (h : c = true → EndsChecked r) :
    EndsChecked (CE.onlyIf c r) := by
  unfold CE.onlyIf
  split
  · rename_i hc
    exact (h hc).bind fun _ _ => .ok _
  · exact .ok _

theorem verifyType_checked (t : TableType) {zaid : List Char} (hz : zaid ≠ []) : EndsChecked (t.verifyType zaid) := by
  unfold TableType.verifyType
  cases h : zaid.getLast? with
  | none => exact absurd (List.getLast?_eq_none_iff.mp h) hz
  | some c => exact .guard _

/-- The words of a block are read. -/
theorem block_words {α : Type} (h : Regular d) {f : Words → Res α} {b : Res (Nat × Nat)} {r : Nat × Nat}
    (hb : b = .ok r) (h1 : r.1 ≤ r.2) (h2 : r.2 ≤ d.xss.length) (hf : ∀ ws, Good ws → EndsChecked (f ws)) :
    EndsChecked (b >>= fun r => d.words r >>= f) := by
  subst hb
  exact words_checked h h1 h2 fun ws _ hg => hf ws hg

end C60

/-- A dosimetry table whose locators are in order is read or refused. -/
theorem C60_dosimetry_partial (zaid : List Char) (hz : zaid ≠ []) (d : TableData) (h : Regular d)
    (h3 : 1 ≤ jxsAt d 3) (h6 : jxsAt d 3 ≤ jxsAt d 6) (h7 : jxsAt d 6 ≤ jxsAt d 7)
    (ho : ∀ ntr, d.count 4 = .ok ntr → OrderedAt d 6 ntr) : EndsChecked (Dosimetry.ofTable zaid d) := by
  unfold Dosimetry.ofTable Dosimetry.generateBlocks
  refine (C60.verifyType_checked _ hz).bind fun _ _ => ?_
  have m7 := h.locators _ (C60.jxs_mem h.sized (show 1 ≤ 7 by decide) (by decide))
  have off : ∀ i, 1 ≤ i → i ≤ 32 → 1 ≤ jxsAt d i → jxsAt d i ≤ jxsAt d 7 →
      d.offset i = .ok ((jxsAt d i).toNat - 1) := by
    intro i h1 h2 h4 h5
    unfold TableData.offset
    rw [C60.JXS_at h.sized h1 h2]
    simp only [ok_bind]
    rw [if_neg (by omega)]
    rfl
  rw [off 3 (by decide) (by decide) h3 (by omega), off 6 (by decide) (by decide) (by omega) h7,
    off 7 (by decide) (by decide) (by omega) (by omega)]
  simp only [ok_bind]
  have hc := C60.count_at h.sized (show 1 ≤ 4 by decide) (by decide)
  rw [hc]
  simp only [ok_bind]
  refine C60.words_checked h (by omega) (by omega) fun ws _ _ => ?_
  refine (EndsChecked.of_ends ((C56_arrays ws).1 _).2.2.2.1).bind fun m _ => ?_
  unfold CE.located
  simp only [bind_assoc]
  refine C60.words_checked h (by omega) (by omega) fun ls hls hg => ?_
  simp only [pure_eq_ok, ok_bind]
  refine EndsChecked.bind ?_ fun _ _ => .ok _
  have e : (jxsAt d 6 - 1).toNat = (jxsAt d 6).toNat - 1 := by omega
  have ho' := ho _ hc
  unfold OrderedAt at ho'
  rw [e] at ho'
  exact C60.LocBlock_checked hg (C60.order_sub ho' hls) fun _ ws hw => C56.tabulated hw.counted

/-- The words from the beginning of block `i` to the end of block `j` of a photoatomic table. -/
def AtomicStretch (d : TableData) (i j : Nat) (ws : Words) : Prop :=
  ∃ a b : Nat × Nat, PA.block d i = .ok a ∧ PA.block d j = .ok b ∧ sub d.xss a.1 b.2 = .ok ws

/-- Word `i` of a table is a natural number. -/
def NaturalAt (d : TableData) (i n : Nat) : Prop := ∃ x, d.XSS i = .ok x ∧ x.trunc? = some (n : Int)

/-- The electron data for `nssh` subshells: the blocks are present and in order in pairs, the locators of the
transition data are in order, and the numbers and locators of the electroionisation data lead to electron data. -/
structure AtomicElectronsReady (d : TableData) (nssh : Nat) : Prop where
  present : ∀ i ∈ [11, 16, 17, 18, 19, 20, 21, 22, 23, 24, 25, 26], 1 ≤ jxsAt d i
  elastic : d.count 6 = .ok 3 → 1 ≤ jxsAt d 27
  order : jxsAt d 11 ≤ jxsAt d 16 ∧ jxsAt d 17 ≤ jxsAt d 18 ∧ jxsAt d 21 ≤ jxsAt d 22 ∧ jxsAt d 24 ≤ jxsAt d 25
  xprob : LocatorsInOrder (d.xss.drop (jxsAt d 17 - 1).toNat) nssh false
  elas : ∀ ws n, AtomicStretch d 21 22 ws → d.count 10 = .ok n → ElectronReady ws n
  breme : ∀ ws n, AtomicStretch d 24 25 ws → d.count 11 = .ok n → ElectronReady ws n
  eion : ∀ k, 1 ≤ k → k ≤ nssh → ∃ n start stop : Nat, NaturalAt d ((jxsAt d 23).toNat + k - 1) n ∧
    NaturalAt d ((jxsAt d 23).toNat + nssh + k - 1) start ∧
    (k ≠ nssh → NaturalAt d ((jxsAt d 23).toNat + nssh + k) stop) ∧ (k = nssh → (stop : Int) = jxsAt d 24) ∧
    1 ≤ start ∧ start ≤ stop ∧ stop ≤ d.xss.length + 1 ∧
    ∀ ws, sub d.xss (start - 1) (stop - 1) = .ok ws → ElectronReady ws n

namespace C60
variable {d : TableData}

/-- Reading some of the words. -/
theorem place_words {α : Type} (h : InPlace d) {f : Words → Res α} {l r : Nat} (h1 : l ≤ r) (h2 : r ≤ d.xss.length)
    (hf : ∀ ws, sub d.xss l r = .ok ws → Moderate ws → EndsChecked (f ws)) : EndsChecked (sub d.xss l r >>= f) := by
  obtain ⟨ws, hw⟩ := C56.sub_ok h1 h2
  rw [hw]
  exact hf ws hw (C56.Moderate.sub h.moderate hw)

theorem natural_deref {i n : Nat} (h : NaturalAt d i n) :
    ∃ x ∈ d.xss, deref d.xss (i - 1) = .ok x ∧ x.trunc? = some (n : Int) := by
  obtain ⟨x, hx, ht⟩ := h
  unfold TableData.XSS TableData.fetch TableData.verifyIndex at hx
  rw [bind_eq_ok] at hx
  obtain ⟨_, hb, hx⟩ := hx
  cases hg : d.xss[i - 1]? with
  | none => rw [hg] at hx; cases hx
  | some y =>
    rw [hg] at hx
    obtain rfl := Except.ok.inj hx
    refine ⟨y, List.mem_of_getElem? hg, ?_, ht⟩
    unfold deref
    rw [hg]

theorem natural_size (h : InPlace d) {x : Dbl} {n : Nat} (hx : x ∈ d.xss) (ht : x.trunc? = some (n : Int)) :
    toSize x.trunc? = .ok n := by
  obtain ⟨u, u1, u2, u3⟩ := h.moderate.words x hx
  obtain ⟨j, j1, j2, j3⟩ := C56.trunc_of_round u1
  have e := Option.some.inj (j1.symm.trans ht)
  rw [ht]
  unfold toSize
  simp only
  rw [if_pos (by omega), Int.toNat_natCast]

theorem natural_offset (h : InPlace d) {i n : Nat} (hn : 1 ≤ n) (ha : NaturalAt d i n) :
    PA.wordOffset d (i - 1) = .ok (n - 1) := by
  obtain ⟨x, hx, e, ht⟩ := natural_deref ha
  unfold PA.wordOffset
  rw [e, ok_bind, natural_size h hx ht, ok_bind, if_neg (by omega)]
  rfl

theorem place_offset (h : InPlace d) {i : Nat} (h1 : 1 ≤ i) (h2 : i ≤ 32) (hj : 1 ≤ jxsAt d i) :
    d.offset i = .ok ((jxsAt d i).toNat - 1) := by
  have := h.locators _ (jxs_mem h.sized h1 h2)
  unfold TableData.offset
  rw [JXS_at h.sized h1 h2, ok_bind, if_neg (by omega)]
  rfl

theorem eion (h : InPlace d) {nssh k : Nat} (hp : AtomicElectronsReady d nssh) (h1 : 1 ≤ k) (h2 : k ≤ nssh) :
    EndsChecked (PA.readEION d nssh k) := by
  obtain ⟨n, start, stop, a, b, c, e, s1, s2, s3, hr⟩ := hp.eion k h1 h2
  have p23 := hp.present 23 (by decide)
  have p24 := hp.present 24 (by decide)
  have a' := natural_deref a
  obtain ⟨x, hx, ex, ht⟩ := a'
  have eb := natural_offset h s1 b
  unfold PA.readEION
  rw [place_offset h (show 1 ≤ 23 by decide) (by decide) p23, ok_bind]
  have i1 : (jxsAt d 23).toNat - 1 + k - 1 = (jxsAt d 23).toNat + k - 1 - 1 := by omega
  have i2 : (jxsAt d 23).toNat - 1 + nssh + k - 1 = (jxsAt d 23).toNat + nssh + k - 1 - 1 := by omega
  have i3 : (jxsAt d 23).toNat - 1 + nssh + k = (jxsAt d 23).toNat + nssh + k - 1 := by omega
  rw [i1, i2, i3, ex, ok_bind, natural_size h hx ht, ok_bind, eb, ok_bind]
  have go : EndsChecked (sub d.xss (start - 1) (stop - 1) >>= fun ws => ElectronBlock.ofRange ws n) :=
    place_words h (by omega) (by omega) fun ws hw hm => C56_electrons_partial ws hm n (hr ws hw)
  by_cases hk : k = nssh
  · have := e hk
    have es : (jxsAt d 24).toNat - 1 = stop - 1 := by omega
    simp only [hk, ne_eq, not_true_eq_false, if_false]
    rw [place_offset h (show 1 ≤ 24 by decide) (by decide) p24, ok_bind, es]
    exact go
  · simp only [ne_eq, hk, not_false_eq_true, if_true]
    rw [natural_offset h (by omega) (c hk), ok_bind]
    exact go

theorem electrons (h : InPlace d) {nssh nepr : Nat} (hn : d.count 7 = .ok nssh) (hc : d.count 6 = .ok nepr)
    (hp : AtomicElectronsReady d nssh) : EndsChecked (PA.readElectrons d nepr) := by
  have blk : ∀ i, 1 ≤ i → i ≤ 32 → 1 ≤ jxsAt d i → _ := fun i a b c => PA_place h (i := i) a b c
  have pr := hp.present
  have cnt : ∀ i, 1 ≤ i → i ≤ 16 → ∃ n, d.count i = .ok n := fun i a b => ⟨_, count_at h.sized a b⟩
  have one : ∀ i, i ∈ [16, 19, 20, 26, 27] → 1 ≤ jxsAt d i → ∀ {α : Type} {f : Words → Res α},
      (∀ ws, EndsChecked (f ws)) → EndsChecked (PA.block d i >>= fun r => d.words r >>= f) := by
    intro i hi hj α f hf
    have hi' : 1 ≤ i ∧ i ≤ 32 := by
      simp only [List.mem_cons, List.not_mem_nil, or_false] at hi
      omega
    obtain ⟨r, e, _, h4, h5⟩ := blk i hi'.1 hi'.2 hj
    rw [e, ok_bind]
    exact place_words h h4 h5 fun ws _ _ => hf ws
  obtain ⟨ne, c8⟩ := cnt 8 (by decide) (by decide)
  obtain ⟨n3, c3⟩ := cnt 3 (by decide) (by decide)
  obtain ⟨n9, c9⟩ := cnt 9 (by decide) (by decide)
  obtain ⟨n10, c10⟩ := cnt 10 (by decide) (by decide)
  obtain ⟨n11, c11⟩ := cnt 11 (by decide) (by decide)
  obtain ⟨n12, c12⟩ := cnt 12 (by decide) (by decide)
  obtain ⟨r11, e11, a11, b11, d11⟩ := blk 11 (by decide) (by decide) (pr 11 (by decide))
  obtain ⟨r16, e16, a16, b16, d16⟩ := blk 16 (by decide) (by decide) (pr 16 (by decide))
  obtain ⟨r17, e17, a17, b17, d17⟩ := blk 17 (by decide) (by decide) (pr 17 (by decide))
  obtain ⟨r18, e18, a18, b18, d18⟩ := blk 18 (by decide) (by decide) (pr 18 (by decide))
  obtain ⟨r21, e21, a21, b21, d21⟩ := blk 21 (by decide) (by decide) (pr 21 (by decide))
  obtain ⟨r22, e22, a22, b22, d22⟩ := blk 22 (by decide) (by decide) (pr 22 (by decide))
  obtain ⟨r24, e24, a24, b24, d24⟩ := blk 24 (by decide) (by decide) (pr 24 (by decide))
  obtain ⟨r25, e25, a25, b25, d25⟩ := blk 25 (by decide) (by decide) (pr 25 (by decide))
  obtain ⟨o1, o2, o3, o4⟩ := hp.order
  unfold PA.readElectrons CE.located
  rw [hn, c8, c3, c9, c10, c11, c12, e11, e16, e17, e18, e21, e22, e24, e25]
  simp only [ok_bind, bind_assoc]
  refine place_words h (by omega) (by omega) fun ws _ _ => ?_
  refine (EndsChecked.of_ends ((C56_arrays ws).1 nssh).2.2.2.2.2.2.2.2.1).bind fun _ _ => ?_
  refine place_words h b16 d16 fun ws _ _ => ?_
  refine (EndsChecked.of_ends ((C56_arrays ws).2.1 nssh n3).2.1).bind fun _ _ => ?_
  refine place_words h (by omega) d18 fun ls hls hg => ?_
  simp only [pure_eq_ok, ok_bind]
  have ho := hp.xprob
  rw [← a17] at ho
  refine (C56.LocBlock_checked hg (order_sub ho hls) fun _ _ _ ws _ _ _ _ =>
    .of_ends (C56_arrays ws).2.2.1.2.2).bind fun _ _ => ?_
  refine one 19 (by decide) (pr 19 (by decide)) fun ws => ?_
  refine (EndsChecked.of_ends ((C56_arrays ws).2.1 nssh ne).2.2.2).bind fun _ _ => ?_
  refine one 20 (by decide) (pr 20 (by decide)) fun ws => ?_
  refine (EndsChecked.of_ends ((C56_arrays ws).1 n9).2.2.2.2.2.2.2.2.2.1).bind fun _ _ => ?_
  refine place_words h (by omega) d22 fun ws hw hm => ?_
  refine (C56_electrons_partial ws hm n10 (hp.elas ws n10 ⟨_, _, e21, e22, hw⟩ c10)).bind fun _ _ => ?_
  refine EndsChecked.bind (EndsChecked.mapM _ fun k hk => ?_) fun _ _ => ?_
  · obtain ⟨k, hk, rfl⟩ := List.mem_range'.mp hk
    exact eion h hp (by omega) (by omega)
  refine place_words h (by omega) d25 fun ws hw hm => ?_
  refine (C56_electrons_partial ws hm n11 (hp.breme ws n11 ⟨_, _, e24, e25, hw⟩ c11)).bind fun _ _ => ?_
  refine one 26 (by decide) (pr 26 (by decide)) fun ws => ?_
  refine (EndsChecked.of_ends ((C56_arrays ws).1 n12).2.2.2.2.2.2.2.2.2.2.1).bind fun _ _ => ?_
  refine (onlyIf_checked fun hc3 => ?_).bind fun _ _ => .ok _
  have := of_decide_eq_true hc3
  subst this
  exact one 27 (by decide) (hp.elastic hc) fun ws => .of_ends ((C56_arrays ws).1 ne).2.2.2.2.2.2.2.2.2.2.2.1

end C60

/-- A photoatomic table whose blocks are present and in order, and whose electron data, if there are any, are
ready, is read or refused. -/
theorem C60_photoatomic_partial (zaid : List Char) (hz : zaid ≠ []) (d : TableData) (h : InPlace d)
    (hp : 1 ≤ jxsAt d 1 ∧ 1 ≤ jxsAt d 2 ∧ 1 ≤ jxsAt d 3 ∧ 1 ≤ jxsAt d 5)
    (hf : d.count 4 ≠ .ok 0 → 1 ≤ jxsAt d 4)
    (hs : d.count 5 ≠ .ok 0 → 1 ≤ jxsAt d 6 ∧ jxsAt d 6 ≤ jxsAt d 8 ∧ 1 ≤ jxsAt d 9 ∧ jxsAt d 9 ≤ jxsAt d 10 ∧
      ∀ nsh, d.count 5 = .ok nsh → OrderedAt d 9 nsh)
    (he : d.count 6 ≠ .ok 0 → ∀ nssh, d.count 7 = .ok nssh → AtomicElectronsReady d nssh) :
    EndsChecked (PA.ofTable zaid d) := by
  unfold PA.ofTable PA.generateBlocks
  refine (C60.verifyType_checked _ hz).bind fun _ _ => ?_
  have hb : ∀ i, 1 ≤ i → i ≤ 32 → 1 ≤ jxsAt d i → ∀ {α : Type} {f : Words → Res α},
      (∀ ws, EndsChecked (f ws)) → EndsChecked (PA.block d i >>= fun r => d.words r >>= f) := by
    intro i h1 h2 h3 α f hf
    obtain ⟨r, e, _, h4, h5⟩ := C60.PA_place h h1 h2 h3
    rw [e, ok_bind]
    exact C60.place_words h h4 h5 fun ws _ _ => hf ws
  rw [C60.count_at h.sized (show 1 ≤ 3 by decide) (by decide)]
  simp only [ok_bind]
  refine hb 1 (by decide) (by decide) hp.1 fun w1 => (EndsChecked.of_ends ((C56_arrays w1).1 _).2.2.2.2.1).bind fun _ _ => ?_
  refine hb 2 (by decide) (by decide) hp.2.1 fun w2 => (EndsChecked.of_ends (C56_arrays w2).2.2.1.1).bind fun _ _ => ?_
  refine hb 3 (by decide) (by decide) hp.2.2.1 fun w3 => (EndsChecked.of_ends (C56_arrays w3).2.2.1.2.1).bind fun _ _ => ?_
  have c4 := C60.count_at h.sized (show 1 ≤ 4 by decide) (by decide)
  have c5 := C60.count_at h.sized (show 1 ≤ 5 by decide) (by decide)
  have c6 := C60.count_at h.sized (show 1 ≤ 6 by decide) (by decide)
  have c7 := C60.count_at h.sized (show 1 ≤ 7 by decide) (by decide)
  rw [c4] at hf ⊢
  rw [c5] at hs ⊢
  simp only [ok_bind]
  refine (C60.onlyIf_checked fun hc => ?_).bind fun _ _ => ?_
  · refine hb 4 (by decide) (by decide) (hf fun e => ?_) fun w4 => .of_ends ((C56_arrays w4).1 _).2.2.2.2.2.2.1
    have := of_decide_eq_true hc
    injection e with e
    omega
  refine hb 5 (by decide) (by decide) hp.2.2.2 fun w5 => (EndsChecked.of_ends ((C56_arrays w5).1 _).2.2.2.2.2.1).bind fun _ _ => ?_
  refine (C60.onlyIf_checked fun hc => ?_).bind fun _ _ => ?_
  · obtain ⟨s1, s2, s3, s4, s5⟩ := hs (by
      have := of_decide_eq_true hc
      intro e
      injection e with e
      omega)
    unfold PA.readShells CE.located
    obtain ⟨r6, e6, a6, b6, d6⟩ := C60.PA_place h (show 1 ≤ 6 by decide) (by decide) s1
    obtain ⟨r8, e8, a8, b8, d8⟩ := C60.PA_place h (show 1 ≤ 8 by decide) (by decide) (by omega)
    obtain ⟨r9, e9, a9, b9, d9⟩ := C60.PA_place h (show 1 ≤ 9 by decide) (by decide) s3
    obtain ⟨r10, e10, a10, b10, d10⟩ := C60.PA_place h (show 1 ≤ 10 by decide) (by decide) (by omega)
    rw [e6, e8, e9, e10]
    simp only [ok_bind, bind_assoc]
    refine C60.place_words h (by omega) d8 fun ws _ _ => ?_
    refine (EndsChecked.of_ends ((C56_arrays ws).1 _).2.2.2.2.2.2.2.1).bind fun _ _ => ?_
    refine C60.place_words h (by omega) d10 fun ls hls hg => ?_
    simp only [pure_eq_ok, ok_bind]
    refine EndsChecked.bind ?_ fun _ _ => .ok _
    have ho := s5 _ rfl
    unfold OrderedAt at ho
    rw [← a9] at ho
    exact C56.LocBlock_checked hg (C60.order_sub ho hls) fun _ _ _ ws _ _ _ hw =>
      (C56_counted_partial ws (C56.Moderate.sub hg hw)).2.1
  · rw [c6]
    simp only [ok_bind]
    refine (C60.onlyIf_checked fun hc => ?_).bind fun _ _ => .ok _
    refine C60.electrons h c7 c6 (he ?_ _ c7)
    rw [c6]
    intro e
    have := of_decide_eq_true hc
    injection e with e
    omega

namespace C60

/-- A call without checks that cannot go wrong. -/
theorem plainLoop_checked {xs : Words} {nc : Nat} : ∀ (todo cur : Nat), cur + todo * (nc + 1) ≤ xs.length →
    ∃ ds, ITXE.plainLoop xs nc todo cur = .ok (ds, cur + todo * (nc + 1))
  | 0, cur, _ => ⟨[], by simp [ITXE.plainLoop, pure_eq_ok]⟩
  | todo + 1, cur, h => by
    have e : (todo + 1) * (nc + 1) = todo * (nc + 1) + (nc + 1) := Nat.succ_mul ..
    obtain ⟨ws, hw⟩ := C56.sub_ok (xs := xs) (show cur ≤ cur + nc + 1 by omega) (by omega)
    obtain ⟨ds, hd⟩ := plainLoop_checked (xs := xs) (nc := nc) todo (cur + nc + 1) (by omega)
    have hl := (C56.sub_mem hw).1
    refine ⟨.plain ⟨ws, nc⟩ :: ds, ?_⟩
    have hd' : DCos.ofRange nc ws = .ok ⟨ws, nc⟩ := by
      unfold DCos.ofRange
      rw [show (!decide (ws.length < 1 + nc)) = true by simp; omega]
      rfl
    simp only [ITXE.plainLoop, hw, hd', hd, ok_bind, pure_eq_ok]
    rw [e]
    exact congrArg _ (Prod.ext rfl (by simp only; omega))

theorem plainBlocks_checked {xs : Words} {nc nieb : Nat} : ∀ (todo cur : Nat),
    cur + todo * (nieb * (nc + 1)) ≤ xs.length → ∃ ds, ITXE.plainBlocks xs nc nieb todo cur = .ok ds
  | 0, cur, _ => ⟨[], rfl⟩
  | todo + 1, cur, h => by
    have e : (todo + 1) * (nieb * (nc + 1)) = todo * (nieb * (nc + 1)) + nieb * (nc + 1) := Nat.succ_mul ..
    obtain ⟨ds, hd⟩ := plainLoop_checked (xs := xs) (nc := nc) nieb cur (by omega)
    obtain ⟨dss, hds⟩ := plainBlocks_checked (xs := xs) (nc := nc) (nieb := nieb) todo (cur + nieb * (nc + 1)) (by omega)
    exact ⟨ds :: dss, by simp only [ITXE.plainBlocks, hd, hds, ok_bind, pure_eq_ok]⟩

theorem ITXE_checked (xs : Words) (ifeng nieb nc ne locb : Nat) (hi : ifeng < 2) (hw : ne * nieb * (1 + nc) < 4294967296) :
    EndsChecked (ITXE.ofRange ifeng nieb nc ne locb xs) := by
  unfold ITXE.ofRange ITXE.verifySize ITXE.generateBlocks
  simp only [if_pos hi]
  rw [Nat.mod_eq_of_lt hw]
  refine (EndsChecked.guard _).bind fun _ hg => ?_
  have hl := C56.guard_length hg
  refine EndsChecked.bind ?_ fun _ _ => .ok _
  by_cases h0 : ne = 0
  · rw [if_pos h0]
    subst h0
    exact .ok _
  · rw [if_neg h0]
    obtain ⟨ds, hd⟩ := plainBlocks_checked (xs := xs) (nc := nc) (nieb := nieb) ne 0 (by
      rw [Nat.add_comm 1 nc, Nat.mul_assoc] at hl
      omega)
    exact .inl ⟨ds, hd⟩

theorem N_checked {xs : Words} {nc : Nat} {c : ColumnData} (hm : Moderate xs) (h : ColumnData.ofRange xs nc = .ok c) :
    EndsChecked c.N := by
  rw [← C56.column_xss h] at hm
  exact C56.values_N hm

/-- The number of points is zero or the first word. -/
theorem N_word {xs : Words} {nc n : Nat} {c : ColumnData} (hg : Moderate xs) (h0 : ∀ v, Base.IXSS xs 1 = .ok v → 0 ≤ v)
    (h : ColumnData.ofRange xs nc = .ok c)
    (hn : c.N = .ok n) : n = 0 ∨ ∃ v, Base.IXSS xs 1 = .ok v ∧ 1 ≤ xs.length ∧ n = v.toNat := by
  have e := C56.column_xss h
  unfold ColumnData.N at hn
  rw [e] at hn
  split at hn
  · injection hn with hn
    exact .inl hn.symm
  · obtain ⟨v, hv, hn⟩ := bind_eq_ok.mp hn
    injection hn with hn
    have hp := h0 v hv
    have hm := C56.IXSS_moderate hg hv
    refine .inr ⟨v, hv, hm.2.1, ?_⟩
    unfold sizeOfInt at hn
    omega

theorem table_int (d : TableData) (i : Nat) : d.IXSS i = Base.IXSS d.xss i := by
  unfold TableData.IXSS TableData.fetch TableData.verifyIndex Base.IXSS Base.XSS Base.verifyIndex deref
  cases d.xss[i - 1]? <;> rfl

end C60

/-- Inelastic cosines with probabilities, for `ne` incident energies and `nc` cosines: each incident energy has
outgoing energies, and all of them but the last, which ends at the next incident energy, have room for their
words. -/
def OutgoingReady (xs : Words) (nc ne locb : Nat) : Prop :=
  ∀ incident nieb start next, 1 ≤ incident → incident ≤ ne → ITXE.NIEBof xs none ne incident = .ok nieb →
    ITXE.relLocator xs locb incident = .ok start →
    ((incident = ne ∧ next = xs.length) ∨ (incident ≠ ne ∧ ITXE.relLocator xs locb (incident + 1) = .ok (next + 1))) →
    1 ≤ nieb ∧ start - 1 + (nieb - 1) * (nc + 3) ≤ next

/-- The words of a block of a thermal scattering table. -/
def ThermalBlock (d : TableData) (i : Nat) (ws : Words) : Prop :=
  ∃ a : Nat × Nat, TS.block d i = .ok a ∧ sub d.xss a.1 a.2 = .ok ws

/-- The inelastic data: discrete cosines, whose number of words is less than 2^32, or cosines with probabilities. -/
def InelasticReady (d : TableData) : Prop :=
  (∃ ifeng nil nieb, d.count 7 = .ok ifeng ∧ d.count 3 = .ok nil ∧ d.count 4 = .ok nieb ∧ ifeng < 2 ∧
    nil + 1 < 4294967296 ∧ ∀ ne, d.IXSS (jxsAt d 1).toNat = .ok ne → ne.toNat * nieb * (nil + 2) < 4294967296) ∨
  (∃ ifeng nil, d.count 7 = .ok ifeng ∧ d.count 3 = .ok nil ∧ 2 ≤ ifeng ∧ 1 ≤ nil ∧ ∀ ws ne,
    ThermalBlock d 3 ws → d.IXSS (jxsAt d 1).toNat = .ok ne → OutgoingReady ws (nil - 1) ne.toNat (jxsAt d 3).toNat)

namespace C60

theorem probLoop_checked {xs : Words} {nc next : Nat} (hn : next ≤ xs.length) : ∀ (todo cur : Nat), 1 ≤ todo →
    cur + (todo - 1) * (nc + 3) ≤ next →
    EndsChecked (ITXE.probLoop xs nc next todo cur) ∧ ∀ r, ITXE.probLoop xs nc next todo cur = .ok r → r.2 = next
  | 0, _, h, _ => absurd h (by decide)
  | 1, cur, _, h => by
    obtain ⟨ws, hw⟩ := C56.sub_ok (xs := xs) (l := cur) (r := next) (by omega) hn
    unfold ITXE.probLoop ITXE.probLoop
    simp only [if_true]
    rw [hw, ok_bind]
    refine ⟨(EndsChecked.of_ends ((C56_arrays ws).2.2.2.2.2 nc).2).bind fun _ _ => .ok _, fun r hr => ?_⟩
    obtain ⟨_, _, hr⟩ := bind_eq_ok.mp hr
    obtain rfl := Except.ok.inj hr
    rfl
  | todo + 2, cur, _, h => by
    have e : (todo + 2 - 1) * (nc + 3) = (todo + 1 - 1) * (nc + 3) + (nc + 3) := Nat.succ_mul ..
    obtain ⟨ih1, ih2⟩ := probLoop_checked (xs := xs) (nc := nc) hn (todo + 1) (cur + nc + 3) (by omega) (by omega)
    obtain ⟨ws, hw⟩ := C56.sub_ok (xs := xs) (l := cur) (r := cur + nc + 3) (by omega) (by omega)
    rw [ITXE.probLoop]
    simp only [Nat.succ_ne_zero, if_false]
    rw [hw, ok_bind]
    refine ⟨(EndsChecked.of_ends ((C56_arrays ws).2.2.2.2.2 nc).2).bind fun _ _ => ih1.bind fun _ _ => .ok _, fun r hr => ?_⟩
    obtain ⟨_, _, hr⟩ := bind_eq_ok.mp hr
    obtain ⟨q, hq, hr⟩ := bind_eq_ok.mp hr
    obtain rfl := Except.ok.inj hr
    exact ih2 q hq

theorem relLocator_checked {xs : Words} (hm : Moderate xs) (locb i : Nat) : EndsChecked (ITXE.relLocator xs locb i) := by
  unfold ITXE.relLocator
  refine (C56.IXSS_checked hm i).bind fun v hv => ?_
  have m := C56.IXSS_moderate hm hv
  unfold toInt32
  simp only
  rw [if_pos (by omega), ok_bind]
  exact .ok _

theorem probBlocks_checked {xs : Words} (hm : Moderate xs) {nc ne locb : Nat} (h : OutgoingReady xs nc ne locb) :
    ∀ (todo incident cur : Nat), 1 ≤ incident → incident + todo = ne + 1 →
      (∀ l, incident ≤ ne → ITXE.relLocator xs locb incident = .ok l → cur = l - 1) →
      (incident ≤ ne → ∃ l, ITXE.relLocator xs locb incident = .ok l) →
      EndsChecked (ITXE.probBlocks xs nc ne locb todo incident cur)
  | 0, _, _, _, _, _, _ => .ok _
  | todo + 1, incident, cur, h1, h2, h3, h4 => by
    obtain ⟨l, hl⟩ := h4 (by omega)
    obtain rfl := h3 l (by omega) hl
    unfold ITXE.probBlocks
    refine (relLocator_checked hm locb (incident + 1)).bind fun locator hloc => EndsChecked.bind ?_ fun nieb hnieb =>
      EndsChecked.bind ?_ fun next hnext => ?_
    · unfold ITXE.NIEBof
      simp only
      rw [if_neg (by omega)]
      exact (C56.IXSS_checked hm _).bind fun _ _ => .ok _
    · unfold ITXE.nextOf
      split
      · exact .ok _
      · exact C56.iterator_checked xs _
    · unfold ITXE.nextOf at hnext
      have hn : next ≤ xs.length ∧
          ((incident = ne ∧ next = xs.length) ∨ (incident ≠ ne ∧ locator = next + 1)) := by
        by_cases hi : incident = ne
        · rw [if_pos hi] at hnext
          obtain rfl := Except.ok.inj hnext
          exact ⟨Nat.le_refl _, .inl ⟨hi, rfl⟩⟩
        · rw [if_neg hi] at hnext
          have := C56.iterator_ok hnext
          exact ⟨by omega, .inr ⟨hi, by omega⟩⟩
      have hr := h incident nieb l next h1 (by omega) hnieb hl
        (hn.2.imp_right fun ⟨a, b⟩ => ⟨a, b ▸ hloc⟩)
      obtain ⟨k1, k2⟩ := probLoop_checked (nc := nc) hn.1 nieb (l - 1) hr.1 hr.2
      refine k1.bind fun r hr' => ?_
      have e := k2 r hr'
      refine EndsChecked.bind (probBlocks_checked hm h todo (incident + 1) r.2 (by omega) (by omega) (fun l' hi hl' => ?_)
        fun _ => ⟨locator, hloc⟩) fun _ _ => .ok _
      obtain rfl := Except.ok.inj (hloc.symm.trans hl')
      omega

theorem ITXE_outgoing {xs : Words} (hm : Moderate xs) (ifeng nieb nc ne locb : Nat) (hi : 2 ≤ ifeng)
    (h : OutgoingReady xs nc ne locb) : EndsChecked (ITXE.ofRange ifeng nieb nc ne locb xs) := by
  unfold ITXE.ofRange ITXE.verifySize ITXE.generateBlocks
  simp only [if_neg (show ¬ ifeng < 2 by omega), ok_bind]
  refine EndsChecked.bind ?_ fun _ _ => .ok _
  refine (relLocator_checked hm locb 1).bind fun l hl => (C56.iterator_checked xs _).bind fun cur hcur => ?_
  have := C56.iterator_ok hcur
  refine probBlocks_checked hm h ne 1 cur (by omega) (by omega) (fun l' _ hl' => ?_) fun _ => ⟨l, hl⟩
  obtain rfl := Except.ok.inj (hl.symm.trans hl')
  omega

end C60

/-- A thermal scattering table whose blocks are present, and whose numbers of points are not negative, is read or
refused. -/
theorem C60_thermal_partial (zaid : List Char) (hz : zaid ≠ []) (d : TableData) (h : InPlace d)
    (h0 : ∀ i ∈ [1, 4, 7], ∀ v, d.IXSS (jxsAt d i).toNat = .ok v → 0 ≤ v)
    (hi : 1 ≤ jxsAt d 1 → 1 ≤ jxsAt d 3 ∧ InelasticReady d)
    (hc : ∀ idpnc, d.count 5 = .ok idpnc → 3 ≤ idpnc →
      1 ≤ jxsAt d 4 ∧ (d.signed 6 ≠ .ok (-1) → 1 ≤ jxsAt d 6) ∧ (idpnc = 3 → 1 ≤ jxsAt d 6) ∧
        (idpnc = 5 → 1 ≤ jxsAt d 7 ∧ 1 ≤ jxsAt d 9)) :
    EndsChecked (TS.ofTable zaid d) := by
  unfold TS.ofTable TS.generateBlocks
  refine (C60.verifyType_checked _ hz).bind fun _ _ => ?_
  have hb : ∀ i, 1 ≤ i → i ≤ 32 → 1 ≤ jxsAt d i → ∀ {α : Type} {f : Words → Res α},
      (∀ ws, sub d.xss (jxsAt d i - 1).toNat ((jxsAt d i - 1).toNat + ws.length) = .ok ws → Moderate ws → EndsChecked (f ws)) →
      EndsChecked (TS.block d i >>= fun r => d.words r >>= f) := by
    intro i h1 h2 h3 α f hf
    obtain ⟨r, e, e1, h4, h5⟩ := C60.TS_place h h1 h2 h3
    rw [e, ok_bind]
    refine C60.place_words h h4 h5 fun ws hw hm => hf ws ?_ hm
    have := (C56.sub_mem hw).1
    rw [← e1, this, show r.1 + (r.2 - r.1) = r.2 by omega]
    exact hw
  have first : ∀ i ∈ [1, 4, 7], 1 ≤ jxsAt d i → ∀ {r : Nat} {ws : Words}, sub d.xss (jxsAt d i - 1).toNat r = .ok ws →
      ∀ v, Base.IXSS ws 1 = .ok v → d.IXSS (jxsAt d i).toNat = .ok v := by
    intro i _ hj r ws hw v hv
    have hl := (C56.IXSS_moderate (C56.Moderate.sub h.moderate hw) hv).2.1
    rw [C60.table_int, ← hv, C56.sub_int hw (by omega) (by have := (C56.sub_mem hw).1; omega)]
    congr 1
    omega
  have column : ∀ i ∈ [1, 4, 7], 1 ≤ jxsAt d i → ∀ {r : Nat} {ws : Words}, sub d.xss (jxsAt d i - 1).toNat r = .ok ws →
      EndsChecked (ColumnData.ofRange ws 2) := fun i hi hj r ws hw =>
    .of_ends (C56.column ws 2 (C56.Moderate.sub h.moderate hw) fun v hv => h0 i hi v (first i hi hj hw v hv))
  have hs : ∀ i, 1 ≤ i → i ≤ 16 → ∃ v, d.signed i = .ok v := fun i h1 h2 => by
    unfold TableData.signed
    rw [C60.NXS_at h.sized h1 h2]
    exact ⟨_, rfl⟩
  have hcos : ∀ i, 1 ≤ i → i ≤ 32 → 1 ≤ jxsAt d i → ∀ {α : Type} {f : ITCA → Res α} {t : ITIE} {n : Nat},
      EndsChecked t.NE → (∀ c, EndsChecked (f c)) →
      EndsChecked (TS.block d i >>= fun r => d.words r >>= fun ws => t.NE >>= fun ne => ITCA.ofRange ws ne n >>= f) := by
    intro i h1 h2 h3 α f t n ht hf
    exact hb i h1 h2 h3 fun ws _ _ => ht.bind fun ne _ =>
      (EndsChecked.of_ends ((C56_arrays ws).2.1 ne n).2.2.1).bind fun c _ => hf c
  rw [C60.JXS_at h.sized (show 1 ≤ 1 by decide) (by decide)]
  simp only [ok_bind]
  refine EndsChecked.bind ?_ fun itie hitie => EndsChecked.bind ?_ fun itxe _ => ?_
  · unfold TS.readITIE
    split
    · rename_i h1
      exact hb 1 (by decide) (by decide) (of_decide_eq_true h1) fun ws hw _ =>
        column 1 (by decide) (of_decide_eq_true h1) hw
    · exact .inl ⟨_, rfl⟩
  · unfold TS.readITIE at hitie
    unfold TS.readITXE
    by_cases h1 : jxsAt d 1 > 0
    · simp only [h1, decide_true, if_true] at hitie ⊢
      obtain ⟨h3, hready⟩ := hi h1
      obtain ⟨r1, e1, a1, b1, d1⟩ := C60.TS_place h (show 1 ≤ 1 by decide) (by decide) h1
      rw [e1] at hitie
      simp only [ok_bind, TableData.words] at hitie
      obtain ⟨ws, hws, hit⟩ := bind_eq_ok.mp hitie
      have hg := C56.Moderate.sub h.moderate hws
      have hf := fun v hv => first 1 (by decide) h1 (a1 ▸ hws) v hv
      have hne' := fun {ne : Nat} (hne : itie.NE = .ok ne) =>
        C60.N_word hg (fun v hv => h0 1 (by decide) v (hf v hv)) hit hne
      obtain ⟨r3, e3, a3, b3, d3⟩ := C60.TS_place h (show 1 ≤ 3 by decide) (by decide) h3
      have c4' := C60.count_at h.sized (show 1 ≤ 4 by decide) (by decide)
      rw [e3, c4']
      simp only [ok_bind]
      rcases hready with ⟨ifeng, nil, nieb, c7, c3, c4, hif, hnil, hsize⟩ | ⟨ifeng, nil, c7, c3, hif, hnil, hsize⟩
      · have e4 := Except.ok.inj (c4.symm.trans c4')
        rw [c7, c3]
        simp only [ok_bind]
        refine (C60.N_checked hg hit).bind fun ne hne => ?_
        unfold TableData.locator
        rw [C60.JXS_at h.sized (show 1 ≤ 3 by decide) (by decide)]
        simp only [ok_bind, pure_eq_ok]
        refine C60.place_words h b3 d3 fun w3 _ _ => ?_
        simp only [hif, if_true]
        rw [Nat.mod_eq_of_lt hnil, ← e4]
        refine C60.ITXE_checked _ _ _ _ _ _ hif ?_
        rw [show 1 + (nil + 1) = nil + 2 by omega]
        rcases hne' hne with rfl | ⟨v, hv, hl, rfl⟩
        · simp
        · exact hsize v (hf v hv)
      · have n3 : nil < 4294967296 := by
          have c3' := C60.count_at h.sized (show 1 ≤ 3 by decide) (by decide)
          have := Except.ok.inj (c3.symm.trans c3')
          unfold u32OfInt at this
          omega
        rw [c7, c3]
        simp only [ok_bind]
        refine (C60.N_checked hg hit).bind fun ne hne => ?_
        unfold TableData.locator
        rw [C60.JXS_at h.sized (show 1 ≤ 3 by decide) (by decide)]
        simp only [ok_bind, pure_eq_ok]
        refine C60.place_words h b3 d3 fun w3 hw3 hm3 => ?_
        simp only [show ¬ ifeng < 2 by omega, if_false]
        have m3 := h.locators _ (C60.jxs_mem h.sized (show 1 ≤ 3 by decide) (by decide))
        rw [show (nil + 4294967295) % 4294967296 = nil - 1 by omega, C60.size_eq h.moderate.length m3]
        refine C60.ITXE_outgoing hm3 _ _ _ _ _ hif ?_
        rcases hne' hne with rfl | ⟨v, hv, hl, rfl⟩
        · intro incident _ _ _ k1 k2
          omega
        · exact hsize w3 v ⟨_, e3, hw3⟩ (hf v hv)
    · simp only [h1, decide_false, Bool.false_eq_true, if_false]
      exact .inl ⟨_, rfl⟩
  · have c5 := C60.count_at h.sized (show 1 ≤ 5 by decide) (by decide)
    rw [c5]
    simp only [ok_bind]
    have hc := hc _ c5
    generalize u32OfInt (nxsAt d 5) = idpnc at hc
    have hn : ∀ {ws : Words} {t : ITIE}, Moderate ws → ITIE.ofRange ws = .ok t → EndsChecked t.NE :=
      fun hg ht => C60.N_checked hg ht
    refine (C60.onlyIf_checked fun h1 => ?_).bind fun _ _ => (C60.onlyIf_checked fun h1 => ?_).bind fun _ _ => .ok _
    · have h1 := of_decide_eq_true h1
      obtain ⟨j4, j6, _, _⟩ := hc (by omega)
      unfold TS.readCoherent
      refine hb 4 (by decide) (by decide) j4 fun ws hw hg => (column 4 (by decide) j4 hw).bind fun t ht => ?_
      obtain ⟨v, hv⟩ := hs 6 (by decide) (by decide)
      rw [hv] at j6 ⊢
      simp only [ok_bind]
      split
      · rename_i hne
        exact hcos 6 (by decide) (by decide) (j6 fun e => hne (by injection e with e; omega)) (hn hg ht) fun _ => .ok _
      · exact .ok _
    · have h1 := of_decide_eq_true h1
      obtain ⟨j4, _, k6, k7⟩ := hc (by omega)
      unfold TS.readIncoherent
      by_cases h3 : idpnc = 3
      · simp only [h3, if_true]
        refine hb 4 (by decide) (by decide) j4 fun ws hw hg => (column 4 (by decide) j4 hw).bind fun t ht => ?_
        obtain ⟨v, hv⟩ := hs 6 (by decide) (by decide)
        rw [hv]
        simp only [ok_bind]
        exact hcos 6 (by decide) (by decide) (k6 h3) (hn hg ht) fun _ => .ok _
      · simp only [h3, if_false]
        obtain ⟨j7, j9⟩ := k7 (by omega)
        refine hb 7 (by decide) (by decide) j7 fun ws hw hg => (column 7 (by decide) j7 hw).bind fun t ht => ?_
        obtain ⟨v, hv⟩ := hs 8 (by decide) (by decide)
        rw [hv]
        simp only [ok_bind]
        exact hcos 9 (by decide) (by decide) j9 (hn hg ht) fun _ => .ok _

/-! ## What happens otherwise -/

/-- The full statement. -/
def C60Statement : Prop := ∀ (kind : TableType) (t : Table), EndsChecked (Typed.ofTable kind t)

namespace C60

theorem sub_ub {l r : Nat} {d : TableData} (h : l > d.xss.length) : sub d.xss l r = .error .ub := by
  unfold sub
  rw [if_neg (by omega)]

theorem range_ub {d : TableData} {j : Int} (h : j = 0 ∨ (d.xss.length : Int) + 1 < j) (hj : j < 2 ^ 63) (stop : Nat) :
    d.range (sizeOfInt j) stop = .error .ub := by
  unfold TableData.range
  rw [if_pos]
  unfold sizeOfInt
  omega

theorem PA_block_ub {d : TableData} (hs : d.Sized) {i : Nat} (h1 : 1 ≤ i) (h2 : i ≤ 32)
    (h : jxsAt d i = 0 ∨ (d.xss.length : Int) + 1 < jxsAt d i) (hj : jxsAt d i < 2 ^ 63) : PA.block d i = .error .ub := by
  unfold PA.block TableData.locator
  rw [JXS_at hs h1 h2]
  simp only [ok_bind, pure_eq_ok]
  split
  · rfl
  · split <;> exact range_ub h hj _

theorem TS_block_ub {d : TableData} (hs : d.Sized) {i : Nat} (h1 : 1 ≤ i) (h2 : i ≤ 32)
    (h : jxsAt d i = 0 ∨ (d.xss.length : Int) + 1 < jxsAt d i) (hj : jxsAt d i < 2 ^ 63) : TS.block d i = .error .ub := by
  unfold TS.block TableData.locator
  rw [JXS_at hs h1 h2]
  simp only [ok_bind, pure_eq_ok]
  split
  · rfl
  · split <;> exact range_ub h hj _

end C60

/-- A dosimetry table whose locator of the reaction numbers is not in the XSS array. -/
theorem C60_outside_dosimetry (zaid : List Char) (hz : TableType.dosimetry.verifyType zaid = .ok ()) (d : TableData)
    (hs : d.Sized) (h : jxsAt d 3 < 1 ∨ (d.xss.length : Int) + 1 < jxsAt d 3) :
    Dosimetry.ofTable zaid d = .error .ub := by
  unfold Dosimetry.ofTable Dosimetry.generateBlocks TableData.offset
  rw [hz, C60.JXS_at hs (show 1 ≤ 3 by decide) (by decide)]
  simp only [ok_bind]
  rw [if_pos (by omega)]
  rfl

/-- A photoatomic table without the locator of its first block, or with one behind the XSS array. -/
theorem C60_outside_photoatomic (zaid : List Char) (hz : TableType.photoatomic.verifyType zaid = .ok ()) (d : TableData)
    (hs : d.Sized) (h : jxsAt d 1 = 0 ∨ (d.xss.length : Int) + 1 < jxsAt d 1) (hj : jxsAt d 1 < 2 ^ 63) :
    PA.ofTable zaid d = .error .ub := by
  unfold PA.ofTable PA.generateBlocks
  rw [hz, C60.count_at hs (show 1 ≤ 3 by decide) (by decide), C60.PA_block_ub hs (by decide) (by decide) h hj]
  rfl

/-- A photonuclear table without the locator of its first block, or with one behind the XSS array. -/
theorem C60_outside_photonuclear (zaid : List Char) (hz : TableType.photonuclear.verifyType zaid = .ok ()) (d : TableData)
    (hs : d.Sized) (hid : d.NXS 9 ≠ .ok 0 ∨ d.NXS 10 ≠ .ok 0 ∨ d.NXS 11 ≠ .ok 0)
    (h : jxsAt d 1 = 0 ∨ (d.xss.length : Int) + 1 < jxsAt d 1) (hj : jxsAt d 1 < 2 ^ 63) :
    PN.ofTable zaid d = .error .ub := by
  unfold PN.ofTable PN.generateBlocks PN.block
  rw [hz, C36_stored d hs zaid hid]
  simp only [ok_bind]
  rw [C60.JXS_at hs (show 1 ≤ 4 by decide) (by decide), C60.PA_block_ub hs (by decide) (by decide) h hj]
  rfl

/-- A thermal scattering table whose first locator is behind the XSS array. -/
theorem C60_outside_thermal (zaid : List Char) (hz : TableType.thermal.verifyType zaid = .ok ()) (d : TableData)
    (hs : d.Sized) (h : (d.xss.length : Int) + 1 < jxsAt d 1) (hj : jxsAt d 1 < 2 ^ 63) :
    TS.ofTable zaid d = .error .ub := by
  unfold TS.ofTable TS.generateBlocks TS.readITIE
  rw [hz, C60.JXS_at hs (show 1 ≤ 1 by decide) (by decide)]
  simp only [ok_bind]
  rw [if_pos (decide_eq_true (by omega)), C60.TS_block_ub hs (by decide) (by decide) (.inr h) hj]
  rfl

/-- A continuous energy table without the locator of its first block. -/
theorem C60_outside_continuous (zaid : List Char) (hz : TableType.continuousEnergy.verifyType zaid = .ok ()) (d : TableData)
    (hs : d.Sized) (hid : d.NXS 9 ≠ .ok 0 ∨ d.NXS 10 ≠ .ok 0 ∨ d.NXS 11 ≠ .ok 0)
    (h : jxsAt d 1 = 0) : CE.ofTable zaid d = .error .ub := by
  unfold CE.ofTable CE.generateBlocks CE.readPrincipal CE.block
  rw [hz, C36_stored d hs zaid hid]
  simp only [ok_bind]
  rw [C60.count_at hs (show 1 ≤ 4 by decide) (by decide), C60.count_at hs (show 1 ≤ 5 by decide) (by decide)]
  simp only [ok_bind]
  unfold TableData.locator
  rw [C60.JXS_at hs (show 1 ≤ 1 by decide) (by decide), h]
  rfl

/-! ## The hypotheses can be met -/

namespace C60

/-- `Regular` can be decided. -/
def regular (d : TableData) : Bool :=
  decide (d.iz.length = 16 ∧ d.aw.length = 16 ∧ d.nxs.length = 16 ∧ d.jxs.length = 32) &&
  d.jxs.all (fun j => decide (0 ≤ j ∧ j ≤ (d.xss.length : Int) + 1)) && decide (d.xss.length < 1073741824) &&
  d.xss.all (fun x => x.round?.any fun i => decide (0 ≤ i ∧ i < 1073741824))

theorem regular_of {d : TableData} (h : regular d = true) : Regular d := by
  simp only [regular, Bool.and_eq_true, decide_eq_true_eq] at h
  obtain ⟨⟨⟨h1, h2⟩, h3⟩, h4⟩ := h
  have hw : ∀ x ∈ d.xss, ∃ i : Int, x.round? = some i ∧ 0 ≤ i ∧ i < 1073741824 := by
    intro x hx
    obtain ⟨i, e, hi⟩ := (Option.any_eq_true _ _).mp (List.all_eq_true.mp h4 x hx)
    exact ⟨i, e, of_decide_eq_true hi⟩
  refine ⟨⟨⟨h1.1, h1.2.1, h1.2.2.1, h1.2.2.2⟩, fun j hj => of_decide_eq_true (List.all_eq_true.mp h2 j hj), ⟨h3, fun x hx => ?_⟩⟩,
    fun x hx v hv => ?_⟩
  · obtain ⟨i, e, h⟩ := hw x hx
    exact ⟨i, e, by omega, h.2⟩
  · obtain ⟨i, e, h⟩ := hw x hx
    rw [hv] at e
    injection e with e
    omega

/-- The order of two locators. -/
def inOrder (a b : Res Nat) : Bool :=
  match a, b with
  | .ok a, .ok b => decide (a ≤ b)
  | _, _ => true

/-- `InPlace` can be decided. -/
def inPlace (d : TableData) : Bool :=
  decide (d.iz.length = 16 ∧ d.aw.length = 16 ∧ d.nxs.length = 16 ∧ d.jxs.length = 32) &&
  d.jxs.all (fun j => decide (0 ≤ j ∧ j ≤ (d.xss.length : Int) + 1)) && decide (d.xss.length < 1073741824) &&
  d.xss.all (fun x => x.round?.any fun i => decide (-1073741824 < i ∧ i < 1073741824))

theorem inPlace_of {d : TableData} (h : inPlace d = true) : InPlace d := by
  simp only [inPlace, Bool.and_eq_true, decide_eq_true_eq] at h
  obtain ⟨⟨⟨h1, h2⟩, h3⟩, h4⟩ := h
  refine ⟨⟨h1.1, h1.2.1, h1.2.2.1, h1.2.2.2⟩, fun j hj => of_decide_eq_true (List.all_eq_true.mp h2 j hj), ⟨h3, fun x hx => ?_⟩⟩
  obtain ⟨i, e, hi⟩ := (Option.any_eq_true _ _).mp (List.all_eq_true.mp h4 x hx)
  exact ⟨i, e, of_decide_eq_true hi⟩

theorem ordered_of {d : TableData} {i n : Nat}
    (h : (List.range n).all (fun k => inOrder (LocBlock.LLOCof (d.xss.drop (jxsAt d i - 1).toNat) n true k)
      (LocBlock.LLOCof (d.xss.drop (jxsAt d i - 1).toNat) n true (k + 1))) = true) : OrderedAt d i n := by
  intro k a b hk ha hb
  have := List.all_eq_true.mp h k (List.mem_range.mpr (by omega))
  rw [ha, hb] at this
  exact of_decide_eq_true this

instance : Inhabited TableData := ⟨⟨[], [], [], [], []⟩⟩

/-- A dosimetry table, the same table with one word less, and with a locator in the middle of a number of points. -/
def exDos : TableData := made (Dosimetry.generateData 26 56 (made (MTR.mk' [16, 107])) (made (SIGD.mk' exSigd)))
def shortDos : TableData := { exDos with xss := exDos.xss.dropLast, jxs := exDos.jxs.set 21 0 }
/-- A photoatomic table with shell data and fluorescence data. -/
def exPA : TableData := made (PA.generateData { C32.exAll with electrons := none }.input)
/-- The same with two words less. -/
def shortPA : TableData := { exPA with xss := exPA.xss.dropLast.dropLast, jxs := exPA.jxs.map fun j => min j (exPA.xss.length - 1) }
/-- A photonuclear table without secondary particles. -/
def exPNData : TableData := made (PN.generateData 92 235 0 { exPNBlocks [] with secondaries := none }.input)
/-- A thermal scattering table with coherent and incoherent elastic scattering. -/
def exTS : TableData := made (TS.generateData (tsInput [1001, 8016] exXS (made (ITXE.mkPlain exDCos true 1)) exElastic))

end C60

open C60

example : EndsChecked (Dosimetry.ofTable "26056.10y".toList exDos) :=
  C60_dosimetry_partial _ (by decide) _ (regular_of (by decide +kernel)) (by decide +kernel) (by decide +kernel)
    (by decide +kernel) fun ntr h => by
      have e : exDos.count 4 = .ok 2 := by decide +kernel
      obtain rfl := Except.ok.inj (e.symm.trans h)
      exact ordered_of (by decide +kernel)

example : Dosimetry.ofTable "26056.10y".toList shortDos = .error .thrown ∧
    EndsChecked (Dosimetry.ofTable "26056.10y".toList shortDos) :=
  ⟨by decide +kernel, C60_dosimetry_partial _ (by decide) _ (regular_of (by decide +kernel)) (by decide +kernel)
    (by decide +kernel) (by decide +kernel) fun ntr h => by
      have e : shortDos.count 4 = .ok 2 := by decide +kernel
      obtain rfl := Except.ok.inj (e.symm.trans h)
      exact ordered_of (by decide +kernel)⟩

example : EndsChecked (PA.ofTable "1000.12p".toList exPA) :=
  C60_photoatomic_partial _ (by decide) _ (regular_of (by decide +kernel)).toInPlace (by decide +kernel) (fun _ => by decide +kernel)
    (fun _ => ⟨by decide +kernel, by decide +kernel, by decide +kernel, by decide +kernel, fun nsh h => by
      have e : exPA.count 5 = .ok 2 := by decide +kernel
      obtain rfl := Except.ok.inj (e.symm.trans h)
      exact ordered_of (by decide +kernel)⟩) fun h => absurd h (by decide +kernel)

example : PA.ofTable "1000.12p".toList shortPA = .error .thrown ∧ EndsChecked (PA.ofTable "1000.12p".toList shortPA) :=
  ⟨by decide +kernel,
  C60_photoatomic_partial _ (by decide) _ (regular_of (by decide +kernel)).toInPlace (by decide +kernel) (fun _ => by decide +kernel)
    (fun _ => ⟨by decide +kernel, by decide +kernel, by decide +kernel, by decide +kernel, fun nsh h => by
      have e : shortPA.count 5 = .ok 2 := by decide +kernel
      obtain rfl := Except.ok.inj (e.symm.trans h)
      exact ordered_of (by decide +kernel)⟩) fun h => absurd h (by decide +kernel)⟩

namespace C60

/-- The distributions of electron data are inside. -/
def electronAt : Res Int → Res Int → Nat → Nat → Bool
  | .ok length, .ok locator, n, size => decide (0 ≤ length ∧ 0 ≤ locator ∧ 3 * n + locator.toNat + 2 * length.toNat ≤ size)
  | _, _, _, _ => true

theorem electron_of {xs : Words} {n : Nat} (h0 : 3 * n ≤ xs.length)
    (h : ∀ i ∈ List.range' 1 n, electronAt (Base.IXSS xs (n + i)) (Base.IXSS xs (2 * n + i)) n xs.length = true) :
    ElectronReady xs n := by
  refine ⟨h0, fun i length locator h1 h2 hl ho => ?_⟩
  have := h i (by rw [List.mem_range'_1]; omega)
  rw [hl, ho] at this
  exact of_decide_eq_true this

/-- The photoatomic table of C32 with electron data for two subshells. -/
def exElectrons : TableData := made (PA.generateData C32.exAll.input)
/-- Its ELAS block. -/
def exElas : Words := made (sub exElectrons.xss 83 97)
/-- Its BREME block. -/
def exBreme : Words := made (sub exElectrons.xss 124 131)
/-- Its EION blocks. -/
def exEion (start stop : Nat) : Words := made (sub exElectrons.xss start stop)

theorem natural_of {d : TableData} {i n : Nat} (h : ((d.XSS i).toOption.bind (·.trunc?)) = some (n : Int)) :
    NaturalAt d i n := by
  unfold NaturalAt
  cases e : d.XSS i with
  | error _ => rw [e] at h; cases h
  | ok x => rw [e] at h; exact ⟨x, rfl, h⟩

theorem atomic_of {d : TableData} {i j : Nat} {a b : Nat × Nat} {ws vs : Words} (h : AtomicStretch d i j ws)
    (ha : PA.block d i = .ok a) (hb : PA.block d j = .ok b) (hs : sub d.xss a.1 b.2 = .ok vs) : ws = vs := by
  obtain ⟨a', b', ha', hb', hs'⟩ := h
  obtain rfl := Except.ok.inj (ha.symm.trans ha')
  obtain rfl := Except.ok.inj (hb.symm.trans hb')
  exact Except.ok.inj (hs'.symm.trans hs)

set_option maxRecDepth 10000 in
theorem exElectrons_ready : AtomicElectronsReady exElectrons 2 where
  present := by decide +kernel
  elastic := fun _ => by decide +kernel
  order := by decide +kernel
  xprob := by
    intro i a b hi ha hb
    have e1 : LocBlock.LLOCof (exElectrons.xss.drop (jxsAt exElectrons 17 - 1).toNat) 2 false 1 = .ok 1 := by decide +kernel
    have e2 : LocBlock.LLOCof (exElectrons.xss.drop (jxsAt exElectrons 17 - 1).toNat) 2 false 2 = .ok 5 := by decide +kernel
    obtain rfl | rfl : i = 0 ∨ i = 1 := by omega
    · unfold LocBlock.LLOCof LocBlock.verifyDataIndex at ha
      rw [if_pos (by omega)] at ha
      cases ha
    · obtain rfl := Except.ok.inj (e1.symm.trans ha)
      obtain rfl := Except.ok.inj (e2.symm.trans hb)
      decide
  elas := fun ws n hs hn => by
    have e : exElectrons.count 10 = .ok 2 := by decide +kernel
    obtain rfl := Except.ok.inj (e.symm.trans hn)
    obtain rfl := atomic_of (vs := exElas) (a := (83, 89)) (b := (89, 97)) hs (by decide +kernel) (by decide +kernel)
      (by decide +kernel)
    exact electron_of (by decide +kernel) (by decide +kernel)
  breme := fun ws n hs hn => by
    have e : exElectrons.count 11 = .ok 1 := by decide +kernel
    obtain rfl := Except.ok.inj (e.symm.trans hn)
    obtain rfl := atomic_of (vs := exBreme) (a := (124, 127)) (b := (127, 131)) hs (by decide +kernel) (by decide +kernel)
      (by decide +kernel)
    exact electron_of (by decide +kernel) (by decide +kernel)
  eion := fun k h1 h2 => by
    obtain rfl | rfl : k = 1 ∨ k = 2 := by omega
    · refine ⟨1, 104, 111, natural_of (by decide +kernel), natural_of (by decide +kernel),
        fun _ => natural_of (by decide +kernel), fun h => absurd h (by decide), by decide, by decide, by decide +kernel,
        fun ws hw => ?_⟩
      have e : sub exElectrons.xss 103 110 = .ok (exEion 103 110) := by decide +kernel
      obtain rfl := Except.ok.inj (e.symm.trans hw)
      exact electron_of (by decide +kernel) (by decide +kernel)
    · refine ⟨2, 111, 125, natural_of (by decide +kernel), natural_of (by decide +kernel),
        fun h => absurd rfl h, fun _ => by decide +kernel, by decide, by decide, by decide +kernel, fun ws hw => ?_⟩
      have e : sub exElectrons.xss 110 124 = .ok (exEion 110 124) := by decide +kernel
      obtain rfl := Except.ok.inj (e.symm.trans hw)
      exact electron_of (by decide +kernel) (by decide +kernel)

end C60

example : (PA.ofTable "1000.12p".toList exElectrons).toOption.isSome ∧ EndsChecked (PA.ofTable "1000.12p".toList exElectrons) :=
  ⟨by decide +kernel,
  C60_photoatomic_partial _ (by decide) _ (regular_of (by decide +kernel)).toInPlace (by decide +kernel)
    (fun _ => by decide +kernel)
    (fun _ => ⟨by decide +kernel, by decide +kernel, by decide +kernel, by decide +kernel, fun nsh h => by
      have e : exElectrons.count 5 = .ok 2 := by decide +kernel
      obtain rfl := Except.ok.inj (e.symm.trans h)
      exact ordered_of (by decide +kernel)⟩) fun _ nssh h => by
      have e : exElectrons.count 7 = .ok 2 := by decide +kernel
      obtain rfl := Except.ok.inj (e.symm.trans h)
      exact exElectrons_ready⟩

namespace C60

/-- The thermal scattering table with a negative cosine. -/
def backTS : TableData := { exTS with xss := exTS.xss.set 7 (Dbl.ofInt (-1)) }
/-- A table that has cosines with probabilities. -/
def probTS : TableData := made (TS.generateData (tsInput [1001, 8016] exXS (made (ITXE.mkProb exPCos 6)) exElastic))

theorem natural_first {d : TableData} (h : [1, 4, 7].all (fun i => (d.IXSS (jxsAt d i).toNat).toOption.all fun v => decide (0 ≤ v)) = true) :
    ∀ i ∈ [1, 4, 7], ∀ v, d.IXSS (jxsAt d i).toNat = .ok v → 0 ≤ v := by
  intro i hi v hv
  have := List.all_eq_true.mp h i hi
  rw [hv] at this
  exact of_decide_eq_true this

end C60

example : EndsChecked (TS.ofTable "lwtr.10t".toList backTS) :=
  C60_thermal_partial _ (by decide) _ (inPlace_of (by decide +kernel)) (natural_first (by decide +kernel))
    (fun _ => ⟨by decide +kernel, .inl ⟨1, 0, 2, by decide +kernel, by decide +kernel, by decide +kernel, by decide, by decide,
      fun ne h => by
        have e : backTS.IXSS (jxsAt backTS 1).toNat = .ok 2 := by decide +kernel
        obtain rfl := Except.ok.inj (e.symm.trans h)
        decide⟩⟩)
    (fun idpnc h _ => by
      have e : backTS.count 5 = .ok 5 := by decide +kernel
      obtain rfl := Except.ok.inj (e.symm.trans h)
      decide +kernel)

namespace C60

/-- The inelastic block of that table. -/
def outgoingWords : Words := made (sub probTS.xss 5 21)

theorem outgoingWords_ready : OutgoingReady outgoingWords 1 2 6 := by
  intro incident nieb start next h1 h2 hn hs hx
  have n1 : ITXE.NIEBof outgoingWords none 2 1 = .ok 2 := by decide +kernel
  have n2 : ITXE.NIEBof outgoingWords none 2 2 = .ok 1 := by decide +kernel
  have s1 : ITXE.relLocator outgoingWords 6 1 = .ok 5 := by decide +kernel
  have s2 : ITXE.relLocator outgoingWords 6 2 = .ok 13 := by decide +kernel
  have l : outgoingWords.length = 16 := by decide +kernel
  obtain rfl | rfl : incident = 1 ∨ incident = 2 := by omega
  · obtain rfl := Except.ok.inj (n1.symm.trans hn)
    obtain rfl := Except.ok.inj (s1.symm.trans hs)
    rcases hx with ⟨h, _⟩ | ⟨_, h⟩
    · omega
    · have := Except.ok.inj (s2.symm.trans h)
      omega
  · obtain rfl := Except.ok.inj (n2.symm.trans hn)
    obtain rfl := Except.ok.inj (s2.symm.trans hs)
    rcases hx with ⟨_, h⟩ | ⟨h, _⟩
    · omega
    · omega

end C60

example : (TS.ofTable "lwtr.10t".toList probTS).toOption.isSome ∧ EndsChecked (TS.ofTable "lwtr.10t".toList probTS) :=
  ⟨by decide +kernel,
  C60_thermal_partial _ (by decide) _ (inPlace_of (by decide +kernel)) (natural_first (by decide +kernel))
    (fun _ => ⟨by decide +kernel, .inr ⟨2, 2, by decide +kernel, by decide +kernel, by decide, by decide, fun ws ne hw h => by
        have e : probTS.IXSS (jxsAt probTS 1).toNat = .ok 2 := by decide +kernel
        obtain rfl := Except.ok.inj (e.symm.trans h)
        obtain ⟨a, ha, hs⟩ := hw
        have ea : TS.block probTS 3 = .ok (5, 21) := by decide +kernel
        obtain rfl := Except.ok.inj (ea.symm.trans ha)
        have e : sub probTS.xss 5 21 = .ok outgoingWords := by decide +kernel
        obtain rfl := Except.ok.inj (e.symm.trans hs)
        have e : (jxsAt probTS 3).toNat = 6 := by decide +kernel
        rw [e]
        exact outgoingWords_ready⟩⟩)
    (fun idpnc h _ => by
      have e : probTS.count 5 = .ok 5 := by decide +kernel
      obtain rfl := Except.ok.inj (e.symm.trans h)
      decide +kernel)⟩

example := C60_outside_dosimetry "26056.10y".toList (by decide) { exDos with jxs := exDos.jxs.set 2 1000 }
  (by constructor <;> decide +kernel) (by decide +kernel)
example := C60_outside_photoatomic "1000.12p".toList (by decide) { exPA with jxs := exPA.jxs.set 0 1000 }
  (by constructor <;> decide +kernel) (by decide +kernel) (by decide +kernel)
example := C60_outside_photonuclear "92235.70u".toList (by decide) { exPNData with jxs := exPNData.jxs.set 0 0 }
  (by constructor <;> decide +kernel) (by decide +kernel) (by decide +kernel) (by decide +kernel)
example := C60_outside_thermal "lwtr.10t".toList (by decide) { exTS with jxs := exTS.jxs.set 0 1000 }
  (by constructor <;> decide +kernel) (by decide +kernel) (by decide +kernel)
example := C60_outside_continuous "92235.80c".toList (by decide) { exPNData with jxs := exPNData.jxs.set 0 0 }
  (by constructor <;> decide +kernel) (by decide +kernel) (by decide +kernel)

/-- A table that is read from a file and cannot be interpreted safely. -/
theorem C60_false : ¬ C60Statement := by
  intro h
  have h := h .photoatomic ⟨.v1 (Header.mk' "1000.12p".toList (num 1) (num 0) [] [] []), { exPA with jxs := exPA.jxs.set 0 1000 }⟩
  refine h.not_ub.1 ?_
  have e := C60_outside_photoatomic "1000.12p".toList (by decide) { exPA with jxs := exPA.jxs.set 0 1000 }
    (by constructor <;> decide +kernel) (by decide +kernel) (by decide +kernel)
  have hz : (AnyHeader.v1 (Header.mk' "1000.12p".toList (num 1) (num 0) [] [] [])).zaid = "1000.12p".toList := by decide +kernel
  unfold Typed.ofTable Content.ofTable
  simp only [hz]
  rw [e]
  rfl

end ACE.Props

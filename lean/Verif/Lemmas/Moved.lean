import Verif.Props.PlaceSpec
import Verif.Lemmas.AgreeContinuous

/-!
# The blocks of a table at other places
-/

namespace ACE

namespace Moved

/-- All locators are in the XSS array. -/
def Inside (d : TableData) : Prop := d.jxs.length = 32 ∧ ∀ v ∈ d.jxs, 0 ≤ v ∧ v ≤ d.xss.length + 1

variable {d : TableData}

theorem jxs_get (h : Inside d) {j : Nat} (h1 : 1 ≤ j) (h2 : j ≤ 32) : ∃ v, d.JXS j = .ok v ∧ v ∈ d.jxs := by
  obtain ⟨v, hv⟩ : ∃ v, d.jxs[j - 1]? = some v := ⟨_, List.getElem?_eq_getElem (by rw [h.1]; omega)⟩
  refine ⟨v, ?_, List.mem_of_getElem? hv⟩
  unfold TableData.JXS TableData.fetch TableData.verifyIndex
  rw [hv, if_neg (by rw [h.1]; omega)]
  rfl

theorem jxs_drop (h : Inside d) {index : Nat} {v : Int} (hv : v ∈ d.jxs.drop index) :
    ∃ j, index < j ∧ j ≤ 32 ∧ d.JXS j = .ok v := by
  obtain ⟨k, hk⟩ := List.mem_iff_getElem?.mp hv
  rw [List.getElem?_drop] at hk
  have hlt : index + k < d.jxs.length := (List.getElem?_eq_some_iff.mp hk).1
  refine ⟨index + k + 1, by omega, by rw [h.1] at hlt; omega, ?_⟩
  unfold TableData.JXS TableData.fetch TableData.verifyIndex
  rw [show index + k + 1 - 1 = index + k from rfl, hk, if_neg (by omega)]
  rfl

theorem locator_of {j : Nat} {v : Int} (h : d.JXS j = .ok v) : d.locator j = .ok (sizeOfInt v) := by
  unfold TableData.locator; rw [h]; rfl

theorem size_nat {v : Int} {n : Nat} (h0 : 0 ≤ v) (h1 : v ≤ n) (hn : n < 4294967296) :
    ((sizeOfInt v : Nat) : Int) = v := by
  unfold sizeOfInt
  rw [Int.emod_eq_of_lt h0 (by omega)]
  omega

/-- Where a block ends. -/
structure Stop (d : TableData) (start len stop : Nat) : Prop where
  ends : stop = 0 ∨ start + len ≤ stop
  inside : stop ≤ d.xss.length + 1

variable (hI : Inside d) (hL : ∀ v, d.JXS 22 = .ok v → v ≤ d.xss.length) (hS : d.xss.length < 2147483648)
include hI hL hS

theorem value {v : Int} (hv : v ∈ d.jxs) : ((sizeOfInt v : Nat) : Int) = v :=
  size_nat (hI.2 v hv).1 (n := d.xss.length + 1) (hI.2 v hv).2 (by omega)

theorem last_of : ∃ v, d.JXS 22 = .ok v ∧ v ∈ d.jxs ∧ ((sizeOfInt (v + 1) : Nat) : Int) = v + 1 ∧ v ≤ d.xss.length := by
  obtain ⟨v, h, hm⟩ := jxs_get hI (j := 22) (by omega) (by omega)
  have := hI.2 v hm
  exact ⟨v, h, hm, size_nat (n := d.xss.length + 1) (by omega) (by have := hL v h; omega) (by omega), hL v h⟩

theorem general {index start len : Nat} (hc : CE.Clear d index start len) :
    ∃ stop, CE.generalEnd d index start = .ok stop ∧ Stop d start len stop := by
  obtain ⟨last, hl, hlm, hl1, hl2⟩ := last_of hI hL hS
  obtain ⟨fis, hf, hfm⟩ := jxs_get hI (j := 21) (by omega) (by omega)
  have hlast := hc.2 last hl
  unfold CE.generalEnd
  rw [hl, ok_bind, locator_of hf, ok_bind]
  cases hfind : (d.jxs.drop index).find? (fun value => decide (start ≤ sizeOfInt value)) with
  | none => exact ⟨0, rfl, .inl rfl, by omega⟩
  | some v =>
      have hv := List.find?_some hfind
      have hm := List.mem_of_find?_eq_some hfind
      have hmj := List.mem_of_mem_drop hm
      have hvv := value hI hL hS hmj
      simp only [decide_eq_true_eq] at hv
      obtain ⟨j, h1, h2, hj⟩ := jxs_drop hI hm
      have hb := hI.2 v hmj
      dsimp only
      by_cases hvl : v = last
      · subst hvl
        rw [if_neg (not_not.mpr rfl : ¬ v ≠ v)]
        split
        · exact ⟨_, rfl, .inr (by omega), by omega⟩
        · exact ⟨_, rfl, .inr (by omega), by omega⟩
      · rw [if_pos hvl]
        split
        · exact ⟨_, rfl, .inr (by omega), by omega⟩
        · rename_i hne
          refine ⟨_, rfl, .inr ?_, by omega⟩
          by_cases h21 : j = 21
          · subst h21
            rw [hf] at hj
            exact absurd (by rw [Except.ok.inj hj]) hne
          by_cases h22 : j = 22
          · subst h22
            rw [hl] at hj
            exact absurd (Except.ok.inj hj).symm hvl
          have := hc.1 j h1 h21 h22 v hj (by omega)
          omega

theorem blockEnd {index start len : Nat} (h0 : start ≠ 0) (hi : index ≠ 32) (hc : CE.Clear d index start len)
    (h27 : index = 27 → ∀ gpd, d.JXS 12 = .ok gpd → gpd = 0 ∨ (start + len : Nat) ≤ gpd) :
    ∃ stop, CE.blockEnd d index start = .ok stop ∧ Stop d start len stop := by
  obtain ⟨stop, hg, hs⟩ := general hI hL hS hc
  unfold CE.blockEnd
  rw [if_neg hi, if_pos h0, hg, ok_bind]
  unfold CE.exceptions
  split
  · rename_i h11
    subst h11
    cases hfind : (d.jxs.drop 22).find? (fun value => decide (start ≤ sizeOfInt value)) with
    | none => exact ⟨stop, rfl, hs⟩
    | some v =>
        have hv := List.find?_some hfind
        have hm := List.mem_of_find?_eq_some hfind
        have hvv := value hI hL hS (List.mem_of_mem_drop hm)
        simp only [decide_eq_true_eq] at hv
        obtain ⟨j, h1, h2, hj⟩ := jxs_drop hI hm
        have hb := hI.2 v (List.mem_of_mem_drop hm)
        have := hc.1 j (by omega) (by omega) (by omega) v hj (by omega)
        dsimp only
        split
        · exact ⟨_, rfl, .inr (by omega), by omega⟩
        · exact ⟨stop, rfl, hs⟩
  · split
    · rename_i h
      subst h
      obtain ⟨last, hl, hlm, hl1, hl2⟩ := last_of hI hL hS
      obtain ⟨gpd, hgp, hgm⟩ := jxs_get hI (j := 12) (by omega) (by omega)
      have hvv := value hI hL hS hgm
      have hb := hI.2 gpd hgm
      have hlast := hc.2 last hl
      have h27 := h27 rfl gpd hgp
      have he := hs.ends
      have hi := hs.inside
      rw [hl, ok_bind]
      dsimp only
      rw [locator_of hgp, ok_bind]
      generalize hstop : (if stop = 0 then sizeOfInt (last + 1) else stop) = stop'
      have hs' : Stop d start len stop' := by
        subst hstop
        split
        · exact ⟨.inr (by omega), by omega⟩
        · exact hs
      split
      · exact ⟨_, rfl, .inr (by omega), by omega⟩
      · exact ⟨_, rfl, hs'⟩
    · exact ⟨stop, rfl, hs⟩

omit hI hL hS in
/-- The words of a range that starts with `ws`. -/
theorem words_of {start stop : Nat} {ws : Words} (hw : d.Has start ws) (hs : Stop d start ws.length stop) :
    ∃ r zs, d.range start stop = .ok r ∧ r.1 = start - 1 ∧ d.words r = .ok (ws ++ zs) ∧ start - 1 + ws.length ≤ r.2 ∧
      r.2 ≤ d.xss.length := by
  obtain ⟨h0, hlen, zs, hz⟩ := hw
  have key (e : Nat) (h1 : start - 1 + ws.length ≤ e) (h2 : e ≤ d.xss.length) :
      ∃ zs, sub d.xss (start - 1) e = .ok (ws ++ zs) := by
    refine ⟨zs.take (e - (start - 1) - ws.length), ?_⟩
    unfold sub
    rw [if_pos ⟨by omega, h2⟩, ← hz, List.take_append, List.take_of_length_le (by omega)]
  have hin := hs.inside
  have hend := hs.ends
  unfold TableData.range
  rw [if_neg (by omega)]
  split
  · obtain ⟨zs, h⟩ := key d.xss.length hlen (Nat.le_refl _)
    exact ⟨_, zs, rfl, rfl, h, hlen, Nat.le_refl _⟩
  · rw [if_neg (by omega)]
    obtain ⟨zs, h⟩ := key (stop - 1) (by omega) (by omega)
    exact ⟨_, zs, rfl, rfl, h, by dsimp only; omega, by dsimp only; omega⟩

theorem single {index : Nat} {ws : Words} (hi : index ≠ 32) (h27 : index ≠ 27) (h : CE.Placed d index ws) :
    ∃ r zs, CE.block d index = .ok r ∧ d.words r = .ok (ws ++ zs) := by
  obtain ⟨start, hj, hw, hc⟩ := h
  obtain ⟨stop, hb, hs⟩ := blockEnd hI hL hS hw.1 hi hc (fun e => absurd e h27)
  obtain ⟨r, zs, hr, _, hz, _⟩ := words_of hw hs
  refine ⟨r, zs, ?_, hz⟩
  unfold CE.block
  rw [locator_of hj, ok_bind, show sizeOfInt (start : Int) = start from by
    have := size_nat (v := (start : Int)) (n := start) (by omega) (by omega) (by have := hw.2.1; have := hw.1; omega)
    omega, hb, ok_bind, hr]

theorem pair {index first : Nat} {ws : Words} (hi : index < 30) (hi' : index ≠ 27) (h : CE.PlacedPair d index ws first)
    (h27 : index = 26 → ∀ start gpd, d.JXS 26 = .ok start → d.JXS 12 = .ok gpd → gpd = 0 ∨ start + ws.length ≤ gpd) :
    ∃ r s zs, CE.block d index = .ok r ∧ CE.block d (index + 1) = .ok s ∧
      CE.located d r s = .ok (ws ++ zs, first) := by
  obtain ⟨start, hj, hj', hw, hf, hc, hl⟩ := h
  have h0 := hw.1
  have hlen := hw.2.1
  have e1 : sizeOfInt (start : Int) = start := by
    have := size_nat (v := (start : Int)) (n := start) (by omega) (by omega) (by omega)
    omega
  have e2 : sizeOfInt ((start + first : Nat) : Int) = start + first := by
    have := size_nat (v := ((start + first : Nat) : Int)) (n := start + first) (by omega) (by omega) (by omega)
    omega
  obtain ⟨stop, hb, hs⟩ := blockEnd hI hL hS (index := index) (len := 0) h0 (by omega) ⟨fun j _ _ _ v _ h => by omega,
    fun last e => by have := hl last e; omega⟩ (fun e => absurd e hi')
  obtain ⟨stop', hb', hs'⟩ := blockEnd hI hL hS (index := index + 1) (start := start + first)
    (len := ws.length - first) (by omega) (by omega) hc (fun e gpd hg => by
      have := h27 (by omega) start gpd (by rw [show (26 : Nat) = index by omega]; exact hj) hg
      omega)
  obtain ⟨r, _, hr, hr1, _⟩ := words_of (ws := []) ⟨h0, by simp; omega, List.nil_prefix⟩ hs
  obtain ⟨s, _, hs1, hs2, _⟩ := words_of (ws := []) ⟨by omega, by simp; omega, List.nil_prefix⟩
    (⟨hs'.ends.imp_right fun h => by simp; omega, hs'.inside⟩ : Stop d (start + first) _ stop')
  obtain ⟨r', zs, hr', hr1', hz, _⟩ := words_of hw (⟨hs'.ends.imp_right fun h => by omega, hs'.inside⟩ : Stop d start _ stop')
  have e : r'.2 = s.2 := by
    unfold TableData.range at hs1 hr'
    split at hs1
    · cases hs1
    split at hr'
    · cases hr'
    split at hs1
    · rename_i hz
      rw [if_pos hz] at hr'
      rw [← Except.ok.inj hs1, ← Except.ok.inj hr']
    · rename_i hz
      rw [if_neg hz] at hr'
      split at hs1
      · cases hs1
      rw [← Except.ok.inj hs1]
      split at hr'
      · cases hr'
      rw [← Except.ok.inj hr']
  refine ⟨r, s, zs, ?_, ?_, ?_⟩
  · unfold CE.block
    rw [locator_of hj, ok_bind, e1, hb, ok_bind, hr]
  · unfold CE.block
    rw [locator_of hj', ok_bind, e2, hb', ok_bind, hs1]
  · unfold CE.located
    have : sub d.xss r.1 s.2 = .ok (ws ++ zs) := by
      rw [hr1, ← hr1', ← e]; exact hz
    rw [this, hs2, hr1, show start + first - 1 - (start - 1) = first by omega]
    rfl

end Moved

namespace Moved

section

open CE Padded

variable {d d' : TableData} (hm : CE.MovedInOrder d d')

include hm in
theorem singleUp {i : Nat} (hi : i ∈ CE.singles) {r : Nat × Nat} {ws : Words} (h1 : CE.block d i = .ok r)
    (h2 : d.words r = .ok ws) : ∃ r' zs, CE.block d' i = .ok r' ∧ d'.words r' = .ok (ws ++ zs) :=
  single ⟨hm.inside.1, hm.inside.2⟩ hm.last hm.size
    (by rintro rfl; exact absurd hi (by decide)) (by rintro rfl; exact absurd hi (by decide)) (hm.single i hi r ws h1 h2)

include hm in
theorem pairUp {i : Nat} (hi : i ∈ CE.pairs) {r s : Nat × Nat} {p : Words × Nat} (h1 : CE.block d i = .ok r)
    (h2 : CE.block d (i + 1) = .ok s) (h3 : CE.located d r s = .ok p) :
    ∃ r' s' zs, CE.block d' i = .ok r' ∧ CE.block d' (i + 1) = .ok s' ∧ CE.located d' r' s' = .ok (p.1 ++ zs, p.2) :=
  pair ⟨hm.inside.1, hm.inside.2⟩ hm.last hm.size
    (by have : ∀ i ∈ CE.pairs, i < 30 := by decide
        exact this i hi) (by rintro rfl; exact absurd hi (by decide)) (hm.pair i hi r s p h1 h2 h3)
    fun e start gpd a b => by subst e; exact hm.photons r s p start gpd h1 h2 h3 a b

include hm in
theorem blkIf {β : Type} {P : β → Prop} {R : β → β → Prop} {i : Nat} (hi : i ∈ CE.singles) {k k' : Words → Res β}
    (hk : ∀ w w' ys, Ext ys w w' → UpIf P R (k w) (k' w')) :
    UpIf P R (CE.block d i >>= fun r => d.words r >>= k) (CE.block d' i >>= fun r => d'.words r >>= k') := by
  intro v hv hP
  obtain ⟨r, h1, hv⟩ := bind_eq_ok.mp hv
  obtain ⟨ws, h2, hv⟩ := bind_eq_ok.mp hv
  obtain ⟨r', zs, e1, e2⟩ := singleUp hm hi h1 h2
  obtain ⟨v', e3, hR⟩ := hk ws (ws ++ zs) zs (.inr rfl) v hv hP
  exact ⟨v', by rw [e1, ok_bind, e2, ok_bind, e3], hR⟩

include hm in
theorem prsIf {β : Type} {P : β → Prop} {R : β → β → Prop} {i : Nat} (hi : i ∈ CE.pairs) {k k' : Words × Nat → Res β}
    (hk : ∀ p p' ys, p'.2 = p.2 ∧ Ext ys p.1 p'.1 → UpIf P R (k p) (k' p')) :
    UpIf P R (CE.block d i >>= fun r => CE.block d (i + 1) >>= fun s => CE.located d r s >>= k)
      (CE.block d' i >>= fun r => CE.block d' (i + 1) >>= fun s => CE.located d' r s >>= k') := by
  intro v hv hP
  obtain ⟨r, h1, hv⟩ := bind_eq_ok.mp hv
  obtain ⟨s, h2, hv⟩ := bind_eq_ok.mp hv
  obtain ⟨p, h3, hv⟩ := bind_eq_ok.mp hv
  obtain ⟨r', s', zs, e1, e2, e3⟩ := pairUp hm hi h1 h2 h3
  obtain ⟨v', e4, hR⟩ := hk p (p.1 ++ zs, p.2) zs ⟨rfl, .inr rfl⟩ v hv hP
  exact ⟨v', by rw [e1, ok_bind, e2, ok_bind, e3, ok_bind, e4], hR⟩

theorem _root_.ACE.UpIf.toUp {α : Type} {R : α → α → Prop} {r r' : Res α} (h : UpIf (fun _ => True) R r r') :
    Up R r r' := fun v hv => h v hv trivial

include hm in
theorem blk {β : Type} {R : β → β → Prop} {i : Nat} (hi : i ∈ CE.singles) {k k' : Words → Res β}
    (hk : ∀ w w' ys, Ext ys w w' → Up R (k w) (k' w')) :
    Up R (CE.block d i >>= fun r => d.words r >>= k) (CE.block d' i >>= fun r => d'.words r >>= k') :=
  (blkIf hm hi fun w w' ys h => UpIf.ofUp (hk w w' ys h)).toUp

include hm in
theorem prs {β : Type} {R : β → β → Prop} {i : Nat} (hi : i ∈ CE.pairs) {k k' : Words × Nat → Res β}
    (hk : ∀ p p' ys, p'.2 = p.2 ∧ Ext ys p.1 p'.1 → Up R (k p) (k' p')) :
    Up R (CE.block d i >>= fun r => CE.block d (i + 1) >>= fun s => CE.located d r s >>= k)
      (CE.block d' i >>= fun r => CE.block d' (i + 1) >>= fun s => CE.located d' r s >>= k') :=
  (prsIf hm hi fun p p' ys h => UpIf.ofUp (hk p p' ys h)).toUp

include hm in
theorem cnt (i : Nat) : Up Eq (d.count i) (d'.count i) := by
  unfold TableData.count TableData.NXS
  rw [hm.nxs]
  exact Up.same _

include hm in
theorem pres {i : Nat} (hi : i ∈ [2, 23, 24]) :
    Up (fun j j' => decide (j > 0) = decide (j' > 0)) (d.JXS i) (d'.JXS i) := by
  obtain ⟨v, v', h1, h2, h3⟩ := hm.present i hi
  intro w hw
  rw [h1] at hw
  exact ⟨v', h2, by rw [← Except.ok.inj hw]; exact decide_eq_decide.mpr h3⟩

include hm in
theorem principal : Up Principals (CE.readPrincipal d) (CE.readPrincipal d') := by
  unfold CE.readPrincipal
  refine Up.bind (cnt hm 4) fun ntr _ => Up.bind (cnt hm 5) fun nr _ => ?_
  refine blk hm (i := 1) (by decide) fun _ _ ys w1 =>
    Up.bind (cnt hm 3) fun nes _ => Up.step (array ys w1 nes 5) fun esz esz' _ _ g1 => ?_
  refine Up.step (pres hm (i := 2) (by decide)) fun j j' _ _ hj => ?_
  rw [hj]
  refine Up.step (onlyIf (decide (j' > 0)) ?_) fun nu nu' _ _ g2 => ?_
  · exact blk hm (i := 2) (by decide) fun w _ ys w1 =>
      gives ys (f := NU.ofRange) w1 (Longer.nu w ys)
  refine blk hm (i := 3) (by decide) fun _ _ ys w1 =>
    Up.step (array ys w1 ntr 1) fun mtr mtr' _ _ g3 => ?_
  refine blk hm (i := 4) (by decide) fun _ _ ys w1 =>
    Up.step (array ys w1 ntr 1) fun lqr lqr' _ _ g4 => ?_
  refine blk hm (i := 5) (by decide) fun _ _ ys w1 =>
    Up.step (tyr ys w1 ntr) fun tyr tyr' _ _ g5 => ?_
  refine prs hm (i := 6) (by decide) fun _ _ ys l => Up.step (sig l ntr) fun _ _ _ _ g6 => ?_
  refine prs hm (i := 8) (by decide) fun _ _ ys l => Up.step (angular l nr true) fun _ _ _ _ g7 => ?_
  refine prs hm (i := 10) (by decide) fun p p' ys l => ?_
  rw [l.1]
  exact Up.step (dlw ys l.2 p.2 g5 nr) fun _ _ _ _ g8 =>
    Up.pure' ⟨g1, g2, g3, g4, tyr_gives g5, g6, g7, g8⟩

include hm in
theorem photons : UpIf (fun p : CE.Photons => p.yp.xss ≠ []) Photons (CE.readPhotons d)
    (CE.readPhotons d') := by
  unfold CE.readPhotons
  refine UpIf.bind (cnt hm 3) fun nes _ => UpIf.bind (cnt hm 6) fun n _ => ?_
  refine blkIf hm (i := 12) (by decide) fun _ _ ys w1 =>
    UpIf.up (array ys w1 nes 1) fun _ _ _ g1 => ?_
  refine blkIf hm (i := 13) (by decide) fun _ _ ys w1 =>
    UpIf.up (array ys w1 n 1) fun _ _ _ g2 => ?_
  refine prsIf hm (i := 14) (by decide) fun _ _ ys l => UpIf.up (sigp l n) fun _ _ _ g3 => ?_
  refine prsIf hm (i := 16) (by decide) fun _ _ ys l => UpIf.up (angular l n false) fun _ _ _ g4 => ?_
  refine prsIf hm (i := 18) (by decide) fun _ _ ys l => UpIf.up (dlwhNone l n) fun _ _ _ g5 => ?_
  refine blkIf hm (i := 20) (by decide) fun _ _ ys w1 =>
    UpIf.step (yp ys w1) (fun v p hp hP => ?_) fun _ _ _ g6 => UpIf.ofUp (Up.pure' ⟨g1, g2, g3, g4, g5, g6⟩)
  rw [← Except.ok.inj hp] at hP
  exact hP

include hm in
theorem delayed : Up (fun p p' : BDD × DLWH => p.1 ≼ p'.1 ∧ p.2 ≼ p'.2) (CE.readDelayed d)
    (CE.readDelayed d') := by
  unfold CE.readDelayed
  refine Up.bind (cnt hm 8) fun n _ => ?_
  refine blk hm (i := 25) (by decide) fun w _ ys w1 =>
    Up.step (gives ys (f := fun w => BDD.ofRange w n) w1 (Longer.bdd w ys n)) fun _ _ _ _ g1 => ?_
  exact prs hm (i := 26) (by decide) fun _ _ ys l => Up.step (dlwhNone l n) fun _ _ _ _ g2 =>
      Up.pure' ⟨g1, g2⟩


include hm in
/-- The table of the blocks of `d`, with the arrays of the other one, gives what the other one gives. -/
theorem blocks (zaid : List Char) :
    UpIf (fun t : CE => t.ptype = none ∧ (∀ b, t.yp = some b → b.xss ≠ []) ∧ (∀ b, t.unr = some b → b.xss ≠ []))
      (fun t t' => t'.data = d' ∧ ({ t with data := d' } : CE) ≼ t')
      (CE.generateBlocks zaid d) (CE.generateBlocks zaid d') := by
  intro t ht hP
  unfold CE.generateBlocks at ht
  obtain ⟨p, e1, ht⟩ := bind_eq_ok.mp ht
  obtain ⟨n6, e2, ht⟩ := bind_eq_ok.mp ht
  obtain ⟨ph, e3, ht⟩ := bind_eq_ok.mp ht
  obtain ⟨j23, e4, ht⟩ := bind_eq_ok.mp ht
  obtain ⟨unr, e5, ht⟩ := bind_eq_ok.mp ht
  obtain ⟨j24, e6, ht⟩ := bind_eq_ok.mp ht
  obtain ⟨dnu, e7, ht⟩ := bind_eq_ok.mp ht
  obtain ⟨n8, e8, ht⟩ := bind_eq_ok.mp ht
  obtain ⟨del, e9, ht⟩ := bind_eq_ok.mp ht
  obtain ⟨n7, e10, ht⟩ := bind_eq_ok.mp ht
  obtain ⟨s, e11, ht⟩ := bind_eq_ok.mp ht
  have ht := Except.ok.inj ht
  subst ht
  obtain ⟨q0, q1, q2⟩ := hP
  obtain ⟨_, f10, rfl⟩ := cnt hm 7 n7 e10
  have h7 : ¬ n7 > 0 := by
    intro h
    rw [decide_eq_true h] at e11
    obtain ⟨s', _, e⟩ := bind_eq_ok.mp e11
    rw [← Except.ok.inj e] at q0
    cases q0
  rw [decide_eq_false h7] at e11
  obtain rfl := Except.ok.inj e11
  obtain ⟨p', f1, g1⟩ := principal hm p e1
  obtain ⟨_, f2, rfl⟩ := cnt hm 6 n6 e2
  obtain ⟨ph', f3, g3⟩ := UpIf.onlyIfR (decide (n6 > 0)) (photons hm) ph e3
    (fun b hb => q1 b.yp (by rw [hb]; rfl))
  obtain ⟨j23', f4, h23⟩ := pres hm (i := 23) (by decide) j23 e4
  rw [h23] at e5
  obtain ⟨unr', f5, g5⟩ := UpIf.onlyIf (decide (j23' > 0)) (blkIf hm (i := 23) (by decide) fun _ _ ys w1 =>
    Padded.unr ys w1) unr e5 q2
  obtain ⟨j24', f6, h24⟩ := pres hm (i := 24) (by decide) j24 e6
  rw [h24] at e7
  obtain ⟨dnu', f7, g7⟩ := onlyIf (decide (j24' > 0)) (blk hm (i := 24) (by decide) fun w _ ys w1 =>
    gives ys (f := NU.ofRange) w1 (Longer.nu w ys)) dnu e7
  obtain ⟨_, f8, rfl⟩ := cnt hm 8 n8 e8
  obtain ⟨del', f9, g9⟩ := UpIf.onlyIfR (decide (n8 > 0)) (UpIf.ofUp (P := fun _ => True) (delayed hm))
    del e9 (fun _ _ => trivial)
  refine ⟨_, by
    unfold CE.generateBlocks
    rw [f1, ok_bind, f2, ok_bind, f3, ok_bind, f4, ok_bind, f5, ok_bind, f6, ok_bind, f7, ok_bind, f8, ok_bind,
      f9, ok_bind, f10, ok_bind, decide_eq_false h7]
    rfl, rfl, ?_⟩
  obtain ⟨a1, a2, a3, a4, a5, a6, a7, a8⟩ := g1
  have b1 : Both (ph.map (·.gpd)) (ph'.map (·.gpd)) ∧ Both (ph.map (·.mtrp)) (ph'.map (·.mtrp)) ∧
      Both (ph.map (·.sigp)) (ph'.map (·.sigp)) ∧ Both (ph.map (·.andp)) (ph'.map (·.andp)) ∧
      Both (ph.map (·.dlwp)) (ph'.map (·.dlwp)) ∧ Both (ph.map (·.yp)) (ph'.map (·.yp)) := by
    rcases ph with _ | ph <;> rcases ph' with _ | ph'
    · exact ⟨trivial, trivial, trivial, trivial, trivial, trivial⟩
    · exact g3.elim
    · exact g3.elim
    · exact g3
  have b2 : Both (del.map (·.1)) (del'.map (·.1)) ∧ Both (del.map (·.2)) (del'.map (·.2)) := by
    rcases del with _ | del <;> rcases del' with _ | del'
    · exact ⟨trivial, trivial⟩
    · exact g9.elim
    · exact g9.elim
    · exact g9
  exact ⟨rfl, ⟨rfl, rfl, rfl, rfl⟩, a1, a2, a3, a4, a5, a6, a7, a8, b1.1, b1.2.1, b1.2.2.1, b1.2.2.2.1,
    b1.2.2.2.2.1, b1.2.2.2.2.2, g5, g7, b2.1, b2.2, trivial, trivial, trivial, .nil⟩

theorem block_nxs {i : Nat} (hi : i ≠ 32) (d : TableData) (n : List Int) :
    CE.block { d with nxs := n } i = CE.block d i := by
  unfold CE.block CE.blockEnd
  simp only [if_neg hi]
  rfl

include hm in
theorem setSZA (zaid : List Char) :
    Up (fun v v' => CE.MovedInOrder v v') (d.setSZA zaid) (d'.setSZA zaid) := by
  have set (n : List Int) (i : Nat) (x : Int) : Up (fun v v' => ∃ m, v = { d with nxs := m } ∧ v' = { d' with nxs := m })
      (({ d with nxs := n } : TableData).setNXS i x) (({ d' with nxs := n } : TableData).setNXS i x) := by
    unfold TableData.setNXS
    exact Up.bind (Up.same _) fun _ _ => Up.pure' ⟨_, rfl, rfl⟩
  have e (n : List Int) : CE.MovedInOrder { d with nxs := n } { d' with nxs := n } :=
    ⟨⟨rfl, hm.inside, hm.last, hm.size, hm.present,
      fun i hi r ws h1 h2 => hm.single i hi r ws
        (by rw [← block_nxs (by rintro rfl; exact absurd hi (by decide)) d n]; exact h1) h2,
      fun i hi r s p h1 h2 h3 => hm.pair i hi r s p
        (by rw [← block_nxs (by rintro rfl; exact absurd hi (by decide)) d n]; exact h1)
        (by rw [← block_nxs (by rintro e; exact absurd (show i = 31 by omega) (by rintro rfl; exact absurd hi (by decide))) d n]
            exact h2) h3⟩,
      fun r s p start gpd h1 h2 h3 => hm.photons r s p start gpd h1 h2 h3⟩
  have main : Up (fun v v' => ∃ m, v = { d with nxs := m } ∧ v' = { d' with nxs := m }) (d.setSZA zaid) (d'.setSZA zaid) := by
    have en : ∀ i, d'.NXS i = d.NXS i := fun i => by unfold TableData.NXS; rw [hm.nxs]
    have ed : d' = { d' with nxs := d.nxs } := by rw [← hm.nxs]
    unfold TableData.setSZA
    rw [en, en, en]
    refine Up.bind (Up.same (d.NXS 9)) fun _ _ => Up.bind (Up.same (d.NXS 10)) fun _ _ =>
      Up.bind (Up.same (d.NXS 11)) fun _ _ => Up.ite ?_ (Up.pure' ⟨d.nxs, rfl, ed⟩)
    refine Up.bind (Up.same _) fun _ _ => Up.step (by rw [ed]; exact set d.nxs _ _) fun v v' _ _ e => ?_
    obtain ⟨m, rfl, rfl⟩ := e
    refine Up.step (set m _ _) fun w w' _ _ e => ?_
    obtain ⟨m, rfl, rfl⟩ := e
    exact set m _ _
  exact main.mono fun v v' ⟨m, h1, h2⟩ => by rw [h1, h2]; exact e m

include hm in
theorem continuous (zaid : List Char) :
    UpIf (fun t : CE => t.ptype = none ∧ (∀ b, t.yp = some b → b.xss ≠ []) ∧ (∀ b, t.unr = some b → b.xss ≠ []))
      (fun t t' => t'.data.nxs = t.data.nxs ∧ ({ t with data := t'.data } : CE) ≼ t')
      (CE.ofTable zaid d) (CE.ofTable zaid d') := by
  refine UpIf.bind (Up.same _) fun _ _ => UpIf.up (setSZA hm zaid) fun v v' _ e => ?_
  intro t ht hP
  obtain ⟨t', h1, h2, h3⟩ := blocks e zaid t ht hP
  have hd : t.data = v := by
    unfold CE.generateBlocks at ht
    obtain ⟨_, _, ht⟩ := bind_eq_ok.mp ht
    obtain ⟨_, _, ht⟩ := bind_eq_ok.mp ht
    obtain ⟨_, _, ht⟩ := bind_eq_ok.mp ht
    obtain ⟨_, _, ht⟩ := bind_eq_ok.mp ht
    obtain ⟨_, _, ht⟩ := bind_eq_ok.mp ht
    obtain ⟨_, _, ht⟩ := bind_eq_ok.mp ht
    obtain ⟨_, _, ht⟩ := bind_eq_ok.mp ht
    obtain ⟨_, _, ht⟩ := bind_eq_ok.mp ht
    obtain ⟨_, _, ht⟩ := bind_eq_ok.mp ht
    obtain ⟨_, _, ht⟩ := bind_eq_ok.mp ht
    obtain ⟨_, _, ht⟩ := bind_eq_ok.mp ht
    rw [← Except.ok.inj ht]
  exact ⟨t', h1, by rw [h2, hd, e.nxs], by rw [h2]; exact h3⟩

end

/-! ### Dosimetry -/

theorem offset_of {d : TableData} {i start : Nat} (h : d.JXS i = .ok (start : Int)) (h0 : start ≠ 0)
    (h1 : start ≤ d.xss.length + 1) : d.offset i = .ok (start - 1) := by
  unfold TableData.offset
  rw [h, ok_bind, if_neg (by omega)]
  rfl

theorem has_sub {d : TableData} {start stop : Nat} {ws : Words} (hw : d.Has start ws) (h1 : start - 1 + ws.length ≤ stop)
    (h2 : stop ≤ d.xss.length) : ∃ zs, sub d.xss (start - 1) stop = .ok (ws ++ zs) := by
  obtain ⟨_, _, zs, hz⟩ := hw
  refine ⟨zs.take (stop - (start - 1) - ws.length), ?_⟩
  unfold sub
  rw [if_pos ⟨by omega, h2⟩, ← hz, List.take_append, List.take_of_length_le (by omega)]

theorem dosimetry {d d' : TableData} (hm : Dosimetry.MovedInOrder d d') (zaid : List Char) :
    Up (fun t t' => t'.data.nxs = t.data.nxs ∧ ({ t with data := t'.data } : Dosimetry) ≼ t')
      (Dosimetry.ofTable zaid d) (Dosimetry.ofTable zaid d') := by
  refine Up.bind (Up.same _) fun _ _ => ?_
  intro t ht
  unfold Dosimetry.generateBlocks at ht ⊢
  obtain ⟨m, em, ht⟩ := bind_eq_ok.mp ht
  obtain ⟨l, el, ht⟩ := bind_eq_ok.mp ht
  obtain ⟨s, es, ht⟩ := bind_eq_ok.mp ht
  obtain ⟨n, en, ht⟩ := bind_eq_ok.mp ht
  obtain ⟨ws, ew, ht⟩ := bind_eq_ok.mp ht
  obtain ⟨b, eb, ht⟩ := bind_eq_ok.mp ht
  obtain ⟨p, ep, ht⟩ := bind_eq_ok.mp ht
  obtain ⟨x, ex, ht⟩ := bind_eq_ok.mp ht
  obtain ⟨p', he, hp⟩ := bind_eq_ok.mp ep
  obtain rfl := Except.ok.inj ht
  obtain rfl := Except.ok.inj hp
  have hw : p' = d.xss.drop l := by
    dsimp only at he
    unfold sub at he
    split at he
    · rw [← Except.ok.inj he]
      exact List.take_of_length_le (by rw [List.length_drop]; exact Nat.le_refl _)
    · cases he
  subst hw
  obtain ⟨a, ja, ha⟩ := hm.mtr m l ws em el ew
  obtain ⟨c, jc, jc', hc⟩ := hm.sigd l s el es
  have hb := hm.before m l ws _ _ em el ew ja jc
  have hord := hm.order l s el es
  have hla := ha.2.1
  have hlc := hc.2.1
  have hsl : s ≤ d.xss.length := by
    unfold TableData.offset at es
    obtain ⟨j, _, es⟩ := bind_eq_ok.mp es
    split at es
    · cases es
    · rw [← Except.ok.inj es]; omega
  rw [List.length_drop] at hlc
  have ha0 := ha.1
  have hc0 := hc.1
  have ea := offset_of ja ha.1 (by omega)
  have ec := offset_of jc hc.1 (by omega)
  have ec' := offset_of jc' (by omega) (by omega)
  obtain ⟨zs, hz⟩ := has_sub (stop := c - 1) ha (by omega) (by omega)
  obtain ⟨ys, hy⟩ := has_sub (stop := d'.xss.length) hc (by rw [List.length_drop]; omega) (Nat.le_refl _)
  have en' : d'.count 4 = .ok n := by
    rw [← en]; unfold TableData.count TableData.NXS; rw [hm.nxs]
  obtain ⟨b', eb', hb'⟩ := Longer.array ws zs n 1 b eb
  obtain ⟨x', ex', hx'⟩ := Longer.locBlock (d.xss.drop l) ys
    (fun _ ws => Longer.tabulated ws ys) (s - l) n true x ex
  refine ⟨⟨zaid, d', b', x'⟩, ?_, hm.nxs, rfl, ⟨rfl, rfl, rfl, rfl⟩, hb', hx'⟩
  rw [ea, ok_bind, ec, ok_bind, ec', ok_bind, en', ok_bind, hz, ok_bind]
  show (MTR.ofRange (ws ++ zs) n >>= fun m' => _) = _
  rw [show MTR.ofRange (ws ++ zs) n = .ok b' from eb', ok_bind]
  have e : CE.located d' (c - 1, c + (s - l) - 1) (c + (s - l) - 1, d'.xss.length) =
      .ok (d.xss.drop l ++ ys, s - l) := by
    unfold CE.located
    dsimp only
    rw [hy, ok_bind, pure_eq_ok, show c + (s - l) - 1 - (c - 1) = s - l by omega]
  rw [e, ok_bind]
  show (SIGD.ofRange (d.xss.drop l ++ ys) (s - l) n >>= fun x => _) = _
  rw [show SIGD.ofRange (d.xss.drop l ++ ys) (s - l) n = .ok x' from ex', ok_bind]
  rfl

/-! ### Thermal scattering -/

section

open Padded

variable {d d' : TableData} (hm : TS.Moved d d')

theorem tsBlock {index : Nat} {ws : Words} (hI : Inside d) (hS : d.xss.length < 2147483648)
    (h : TS.Placed d index ws) :
    ∃ r zs, TS.block d index = .ok r ∧ d.words r = .ok (ws ++ zs) := by
  obtain ⟨start, hj, hw, hc⟩ := h
  have h0 := hw.1
  have h1 := hw.2.1
  have es : sizeOfInt (start : Int) = start := by
    have := size_nat (v := (start : Int)) (n := d.xss.length + 1) (by omega) (by omega) (by omega)
    omega
  have hstop : ∃ stop, TS.block d index = d.range start stop ∧ Stop d start ws.length stop := by
    unfold TS.block
    rw [locator_of hj, ok_bind, es, if_neg h0]
    cases hfind : (d.jxs.drop (TS.scanFrom index)).find? (fun value => decide (start ≤ sizeOfInt value)) with
    | none => exact ⟨0, rfl, .inl rfl, by omega⟩
    | some v =>
        have hv := List.find?_some hfind
        have hm := List.mem_of_find?_eq_some hfind
        obtain ⟨j, hj1, _, hj2⟩ := jxs_drop hI hm
        have hb := hI.2 v (List.mem_of_mem_drop hm)
        have hvv := size_nat (n := d.xss.length + 1) hb.1 (by omega) (by omega)
        simp only [decide_eq_true_eq] at hv
        have hge : index ≤ TS.scanFrom index := by unfold TS.scanFrom; split <;> omega
        have := hc j (by omega) (by
          rintro ⟨e, hi⟩
          unfold TS.scanFrom at hj1
          rw [if_pos (by simpa using hi)] at hj1
          omega) v hj2 (by omega)
        exact ⟨_, rfl, .inr (by omega), by omega⟩
  obtain ⟨stop, e, hs⟩ := hstop
  obtain ⟨r, zs, hr, _, hz, _⟩ := words_of hw hs
  exact ⟨r, zs, by rw [e, hr], hz⟩

include hm in
theorem tsIf {β : Type} {P : β → Prop} {R : β → β → Prop} {i : Nat} (hi : i ∈ [1, 3, 4, 6, 7, 9]) {k k' : Words → Res β}
    (hk : ∀ w w' ys, Ext ys w w' → UpIf P R (k w) (k' w')) :
    UpIf P R (TS.block d i >>= fun r => d.words r >>= k) (TS.block d' i >>= fun r => d'.words r >>= k') := by
  intro v hv hP
  obtain ⟨r, h1, hv⟩ := bind_eq_ok.mp hv
  obtain ⟨ws, h2, hv⟩ := bind_eq_ok.mp hv
  obtain ⟨r', zs, e1, e2⟩ := tsBlock hm.inside hm.size (hm.single i hi r ws h1 h2)
  obtain ⟨v', e3, hR⟩ := hk ws (ws ++ zs) zs (.inr rfl) v hv hP
  exact ⟨v', by rw [e1, ok_bind, e2, ok_bind, e3], hR⟩

include hm in
theorem tsUp {β : Type} {R : β → β → Prop} {i : Nat} (hi : i ∈ [1, 3, 4, 6, 7, 9]) {k k' : Words → Res β}
    (hk : ∀ w w' ys, Ext ys w w' → Up R (k w) (k' w')) :
    Up R (TS.block d i >>= fun r => d.words r >>= k) (TS.block d' i >>= fun r => d'.words r >>= k') :=
  (tsIf hm hi fun w w' ys h => UpIf.ofUp (hk w w' ys h)).toUp

include hm in
theorem tsCount (i : Nat) : d'.count i = d.count i := by
  unfold TableData.count TableData.NXS
  rw [hm.nxs]

include hm in
theorem tsSigned (i : Nat) : d'.signed i = d.signed i := by
  unfold TableData.signed TableData.NXS
  rw [hm.nxs]

theorem itxe_locb (ifeng m n ne locb locb' : Nat) (w : Words) (h : ifeng < 2) (v : ITXE)
    (hv : ITXE.ofRange ifeng m n ne locb w = .ok v) :
    ITXE.ofRange ifeng m n ne locb' w = .ok { v with locb := locb' } := by
  have e : ITXE.generateBlocks w ifeng n (some m) ne locb = ITXE.generateBlocks w ifeng n (some m) ne locb' := by
    unfold ITXE.generateBlocks
    simp only [if_pos h]
  unfold ITXE.ofRange at hv ⊢
  simp only [if_pos h] at hv ⊢
  obtain ⟨_, h1, hv⟩ := bind_eq_ok.mp hv
  obtain ⟨_, h2, hv⟩ := bind_eq_ok.mp hv
  rw [h1, ok_bind, ← e, h2, ok_bind, ← Except.ok.inj hv]
  rfl

include hm in
theorem readITIE (present : Bool) : UpIf (fun b : ITIE => b.xss ≠ [] ∨ present = false) Gives.rel
    (TS.readITIE d present) (TS.readITIE d' present) := by
  unfold TS.readITIE
  cases present with
  | false => exact UpIf.ofUp (Up.refl GivesSelf.self _)
  | true => exact tsIf hm (by decide) fun w w' ys hw b hb hP => itie ys hw b hb (hP.resolve_right (by simp))

include hm in
theorem readITXE (present : Bool) {b b' : ITIE} (h : b ≼ b') :
    TS.readITXE d present b ≼ TS.readITXE d' present b' := by
  unfold TS.readITXE
  cases present with
  | false => exact Up.refl GivesSelf.self _
  | true =>
      intro v hv
      obtain ⟨r, e1, hv⟩ := bind_eq_ok.mp hv
      obtain ⟨ifeng, e2, hv⟩ := bind_eq_ok.mp hv
      obtain ⟨nil, e3, hv⟩ := bind_eq_ok.mp hv
      obtain ⟨nieb, e4, hv⟩ := bind_eq_ok.mp hv
      obtain ⟨ne, e5, hv⟩ := bind_eq_ok.mp hv
      obtain ⟨locb, e6, hv⟩ := bind_eq_ok.mp hv
      obtain ⟨w, e7, hv⟩ := bind_eq_ok.mp hv
      obtain ⟨start, hj, hw⟩ := hm.single 3 (by decide) r w e1 e7
      have el := locator_of hj
      obtain ⟨r', zs, f1, f2⟩ := tsBlock hm.inside hm.size ⟨start, hj, hw⟩
      obtain ⟨ne', f5, rfl⟩ := h.2.1 ne e5
      generalize hm' : (if ifeng < 2 then nieb else 0) = m at hv
      generalize hn' : (if ifeng < 2 then (nil + 1) % 4294967296 else (nil + 4294967295) % 4294967296) = n at hv
      obtain ⟨v1, g1, g2⟩ := Longer.itxe w zs ifeng m n ne locb v hv
      have fin : ∃ v', ITXE.ofRange ifeng m n ne (sizeOfInt (start : Int)) (w ++ zs) = .ok v' ∧ v ≼ v' := by
        rcases hm.locators ifeng e2 with hlt | heq
        · exact ⟨_, itxe_locb ifeng m n ne locb _ (w ++ zs) hlt v1 g1, g2⟩
        · rw [el, e6] at heq
          rw [Except.ok.inj heq]
          exact ⟨v1, g1, g2⟩
      obtain ⟨v', g3, g4⟩ := fin
      refine ⟨v', ?_, g4⟩
      rw [f1, ok_bind, tsCount hm, e2, ok_bind, tsCount hm, e3, ok_bind, tsCount hm, e4, ok_bind, show b'.NE = .ok ne from f5, ok_bind, el, ok_bind,
        f2, ok_bind, hm', hn', g3]
      rfl

include hm in
theorem readCoherent : UpIf (fun p : ITIE × Option ITCA => p.1.xss ≠ [])
    (fun p p' => p.1 ≼ p'.1 ∧ Both p.2 p'.2) (TS.readCoherent d) (TS.readCoherent d') := by
  unfold TS.readCoherent
  refine tsIf hm (by decide) fun w w' ys hw =>
    UpIf.step (itie ys hw) (fun v p hp hP => ?_) fun b b' _ hb =>
      UpIf.bind (Up.ofEq (tsSigned hm 6).symm) fun ncl _ => UpIf.ofUp (Up.ite ?_ ?_)
  · obtain ⟨ncl, _, h2⟩ := bind_eq_ok.mp hp
    split at h2
    · obtain ⟨_, _, h3⟩ := bind_eq_ok.mp h2
      obtain ⟨_, _, h4⟩ := bind_eq_ok.mp h3
      obtain ⟨_, _, h5⟩ := bind_eq_ok.mp h4
      obtain ⟨_, _, h6⟩ := bind_eq_ok.mp h5
      rw [← Except.ok.inj h6] at hP
      exact hP
    · rw [← Except.ok.inj h2] at hP
      exact hP
  · exact tsUp hm (by decide) fun w w' ys hw =>
      Up.bind hb.2.1 fun ne _ => Up.step (array ys hw _ _) fun a a' _ _ ha => Up.pure' ⟨hb, ha⟩
  · exact Up.pure' ⟨hb, trivial⟩

include hm in
theorem readIncoherent (idpnc : Nat) : UpIf (fun p : ITIE × ITCA => p.1.xss ≠ [])
    (fun p p' => p.1 ≼ p'.1 ∧ p.2 ≼ p'.2) (TS.readIncoherent d idpnc) (TS.readIncoherent d' idpnc) := by
  unfold TS.readIncoherent
  refine tsIf hm (by split <;> decide) fun w w' ys hw =>
    UpIf.step (itie ys hw) (fun v p hp hP => ?_) fun b b' _ hb =>
      UpIf.bind (Up.ofEq (tsSigned hm _).symm) fun ncl _ => UpIf.ofUp ?_
  · obtain ⟨_, _, h2⟩ := bind_eq_ok.mp hp
    obtain ⟨_, _, h3⟩ := bind_eq_ok.mp h2
    obtain ⟨_, _, h4⟩ := bind_eq_ok.mp h3
    obtain ⟨_, _, h5⟩ := bind_eq_ok.mp h4
    obtain ⟨_, _, h6⟩ := bind_eq_ok.mp h5
    rw [← Except.ok.inj h6] at hP
    exact hP
  · exact tsUp hm (by split <;> decide) fun w w' ys hw =>
      Up.bind hb.2.1 fun ne _ => Up.step (array ys hw _ _) fun a a' _ _ ha => Up.pure' ⟨hb, ha⟩

include hm in
theorem thermal (zaid : List Char) : UpIf (fun t : TS =>
      (t.itie.xss ≠ [] ∨ ∃ j, d.JXS 1 = .ok j ∧ j ≤ 0) ∧ (∀ b, t.itce = some b → b.xss ≠ []) ∧
      (∀ b, t.itcei = some b → b.xss ≠ []))
    (fun t t' => t'.data.nxs = t.data.nxs ∧ ({ t with data := t'.data } : TS) ≼ t')
    (TS.ofTable zaid d) (TS.ofTable zaid d') := by
  refine UpIf.bind (Up.same _) fun _ _ => ?_
  unfold TS.generateBlocks
  intro t ht hP
  obtain ⟨j, h1, ht⟩ := bind_eq_ok.mp ht
  obtain ⟨itie, h2, ht⟩ := bind_eq_ok.mp ht
  obtain ⟨itxe, h3, ht⟩ := bind_eq_ok.mp ht
  obtain ⟨idpnc, h4, ht⟩ := bind_eq_ok.mp ht
  obtain ⟨c, h5, ht⟩ := bind_eq_ok.mp ht
  obtain ⟨i, h6, ht⟩ := bind_eq_ok.mp ht
  have ht := Except.ok.inj ht
  subst ht
  obtain ⟨p1, p2, p3⟩ := hP
  obtain ⟨k, k', k1, k2, k3⟩ := hm.present
  obtain rfl := Except.ok.inj (k1.symm.trans h1)
  obtain ⟨itie', e2, g2⟩ := readITIE hm _ itie h2 (p1.imp_right fun ⟨k, hk, hk0⟩ => by
    rw [h1] at hk
    rw [Except.ok.inj hk]
    exact decide_eq_false (by omega))
  obtain ⟨itxe', e3, g3⟩ := readITXE hm _ g2 itxe h3
  obtain ⟨c', e5, g5⟩ := UpIf.onlyIfR (decide (idpnc > 3)) (readCoherent hm) c h5 (fun b hb => by
    subst hb; exact p2 _ rfl)
  obtain ⟨i', e6, g6⟩ := UpIf.onlyIfR (decide (idpnc = 3 ∨ idpnc = 5)) (readIncoherent hm idpnc) i h6
    (fun b hb => by subst hb; exact p3 _ rfl)
  have hk : decide (k > 0) = decide (k' > 0) := by rw [decide_eq_decide]; exact k3
  refine ⟨_, by
    rw [k2, ok_bind]
    dsimp only
    rw [← hk, e2, ok_bind, e3, ok_bind, tsCount hm, h4, ok_bind, e5, ok_bind, e6, ok_bind]; rfl, ?_⟩
  refine ⟨hm.nxs, rfl, ⟨rfl, rfl, rfl, rfl⟩, g2, g3, ?_, ?_, ?_, ?_⟩
  all_goals
    rcases c with _ | c <;> rcases c' with _ | c' <;> rcases i with _ | i <;> rcases i' with _ | i' <;>
      first
        | exact g5.elim
        | exact g6.elim
        | exact trivial
        | exact g5.1
        | exact g5.2
        | exact g6.1
        | exact g6.2

end

end Moved

end ACE

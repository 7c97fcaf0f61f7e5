import Verif.Lemmas.Moved
import Verif.Lemmas.AgreePhoto

/-!
# Photoatomic and photonuclear tables with their blocks at other places

Model: `Verif.Model.Photoatomic`, `Verif.Model.Photonuclear`. Property: C72.
-/

namespace ACE
namespace Moved

open Padded

section
variable {d : TableData} (hI : Inside d) (hS : d.xss.length < 2147483648)

theorem jxs_at {j : Nat} {v : Int} (hj : d.JXS j = .ok v) : 1 ≤ j ∧ j ≤ d.jxs.length ∧ d.jxs[j - 1]? = some v := by
  obtain ⟨_, e, h⟩ := bind_eq_ok.mp hj
  unfold TableData.verifyIndex at e
  split at e
  · cases e
  · split at h
    · rename_i w hw
      rw [← Except.ok.inj h]
      exact ⟨by omega, by omega, hw⟩
    · cases h

include hI hS in
/-- Where the words of a block end. -/
theorem paStop {index start len : Nat} (hj : d.JXS index = .ok (start : Int)) (h0 : start ≠ 0)
    (h1 : start + len ≤ d.xss.length + 1) (hc : PA.Clear d index start len) :
    ∃ stop, PA.block d index = d.range start stop ∧ Stop d start len stop := by
  have es : sizeOfInt (start : Int) = start := by
    have := size_nat (v := (start : Int)) (n := d.xss.length + 1) (by omega) (by omega) (by omega)
    omega
  unfold PA.block
  rw [locator_of hj, ok_bind, es, if_neg h0]
  cases hfind : (d.jxs.drop index).find? (fun value => decide (start ≤ sizeOfInt value)) with
  | none => exact ⟨0, rfl, .inl rfl, by omega⟩
  | some v =>
      have hv := List.find?_some hfind
      have hm := List.mem_of_find?_eq_some hfind
      obtain ⟨j, hj1, _, hj2⟩ := jxs_drop hI hm
      have hb := hI.2 v (List.mem_of_mem_drop hm)
      have hvv := size_nat (n := d.xss.length + 1) hb.1 (by omega) (by omega)
      simp only [decide_eq_true_eq] at hv
      have := hc j (by omega) v hj2 (by omega)
      exact ⟨_, rfl, .inr (by omega), by omega⟩

include hI hS in
theorem paBlock {index : Nat} {ws : Words} (h : PA.Placed d index ws) :
    ∃ r zs, PA.block d index = .ok r ∧ d.words r = .ok (ws ++ zs) := by
  obtain ⟨start, hj, hw, hc⟩ := h
  have h0 := hw.1
  have h1 := hw.2.1
  obtain ⟨stop, e, hs⟩ := paStop hI hS hj h0 (by omega) hc
  obtain ⟨r, zs, hr, _, hz, _⟩ := words_of hw hs
  exact ⟨r, zs, by rw [e, hr], hz⟩

include hI hS in
/-- A block that ends where the next locator points. -/
theorem paWhole {index start : Nat} {ws : Words} (hj : d.JXS index = .ok (start : Int)) (hw : d.Has start ws)
    (h : ∃ j, index < j ∧ d.JXS j = .ok ((start : Int) + ws.length) ∧
      ∀ k, index < k → k < j → ∀ v, d.JXS k = .ok v → v < start) :
    PA.block d index = .ok (start - 1, start + ws.length - 1) ∧
      d.words (start - 1, start + ws.length - 1) = .ok ws := by
  have h0 := hw.1
  have h1 := hw.2.1
  have es : sizeOfInt (start : Int) = start := by
    have := size_nat (v := (start : Int)) (n := d.xss.length + 1) (by omega) (by omega) (by omega)
    omega
  obtain ⟨j, hij, hje, hk⟩ := h
  obtain ⟨hj1, hj32, hjg⟩ := jxs_at hje
  have ev : sizeOfInt ((start : Int) + ws.length) = start + ws.length := by
    have := size_nat (v := (start : Int) + ws.length) (n := d.xss.length + 1) (by omega) (by omega) (by omega)
    omega
  have hlen := hI.1
  have hfind : (d.jxs.drop index).find? (fun value => decide (start ≤ sizeOfInt value)) =
      some ((start : Int) + ws.length) := by
    rw [List.find?_eq_some_iff_getElem]
    refine ⟨by rw [ev]; simp, j - 1 - index, by rw [List.length_drop]; omega, ?_, fun k hk' => ?_⟩
    · rw [List.getElem_drop]
      have := List.getElem?_eq_some_iff.mp hjg
      obtain ⟨_, this⟩ := this
      simp only [show index + (j - 1 - index) = j - 1 by omega]
      exact this
    · have hlt : index + k < d.jxs.length := by omega
      obtain ⟨v, hv, hvm⟩ := jxs_get hI (j := index + k + 1) (by omega) (by omega)
      have := hk (index + k + 1) (by omega) (by omega) v hv
      have hb := hI.2 v hvm
      have hvv := size_nat (n := d.xss.length + 1) hb.1 (by omega) (by omega)
      have hg := (jxs_at hv).2.2
      rw [List.getElem_drop]
      have : d.jxs[index + k] = v := (List.getElem?_eq_some_iff.mp hg).2
      rw [this]
      simp only [Bool.not_eq_eq_eq_not, Bool.not_true, decide_eq_false_iff_not]
      omega
  have hb : PA.block d index = d.range start (start + ws.length) := by
    unfold PA.block
    rw [locator_of hj, ok_bind, es, if_neg h0, hfind, ← ev]
  obtain ⟨h0, hlen, zs, hz⟩ := hw
  refine ⟨?_, ?_⟩
  · rw [hb]
    unfold TableData.range
    rw [if_neg (by omega), if_neg (by omega), if_neg (by omega)]
  · unfold TableData.words sub
    rw [if_pos (by dsimp only; omega), ← hz]
    dsimp only
    rw [show start + ws.length - 1 - (start - 1) = ws.length by omega, List.take_left]

include hI hS in
theorem paPair {index other first : Nat} {ws : Words} (h : PA.PlacedPair d index other ws first) :
    ∃ r s zs, PA.block d index = .ok r ∧ PA.block d other = .ok s ∧ s.1 - r.1 = first ∧
      sub d.xss r.1 s.2 = .ok (ws ++ zs) := by
  obtain ⟨start, hj, hj', hw, hf, hc⟩ := h
  have h0 := hw.1
  have hlen := hw.2.1
  obtain ⟨stop, hb, hs⟩ := paStop hI hS (len := 0) hj h0 (by omega) (fun j _ v _ h => by omega)
  obtain ⟨stop', hb', hs'⟩ := paStop hI hS hj' (by omega) (by omega) hc
  obtain ⟨r, _, hr, hr1, _⟩ := words_of (ws := []) ⟨h0, by simp; omega, List.nil_prefix⟩ hs
  obtain ⟨s, _, hs1, hs2, _⟩ := words_of (ws := []) ⟨by omega, by simp; omega, List.nil_prefix⟩
    (⟨hs'.ends.imp_right fun h => by simp; omega, hs'.inside⟩ : Stop d (start + first) _ stop')
  obtain ⟨r', zs, hr', hr1', hz, _⟩ := words_of hw (⟨hs'.ends.imp_right fun h => by omega, hs'.inside⟩ : Stop d start _ stop')
  have e : r'.2 = s.2 := by
    unfold TableData.range at hs1 hr'
    split at hs1
    · cases hs1
    split at hr'
    · cases hr'
    split at hs1
    · rename_i hz
      rw [if_pos hz] at hr'
      rw [← Except.ok.inj hs1, ← Except.ok.inj hr']
    · rename_i hz
      rw [if_neg hz] at hr'
      split at hs1
      · cases hs1
      split at hr'
      · cases hr'
      rw [← Except.ok.inj hs1, ← Except.ok.inj hr']
  refine ⟨r, s, zs, by rw [hb, hr], by rw [hb', hs1], by omega, ?_⟩
  unfold TableData.words at hz
  rw [← e, hr1, ← hr1']
  exact hz

include hI hS in
theorem paPairWhole {index other first start : Nat} {ws : Words} (h : PA.PlacedPair d index other ws first)
    (hs : d.JXS index = .ok (start : Int))
    (hn : ∃ j, other < j ∧ d.JXS j = .ok ((start : Int) + ws.length) ∧
      ∀ k, other < k → k < j → ∀ v, d.JXS k = .ok v → v < (start : Int) + first) :
    ∃ r s, PA.block d index = .ok r ∧ PA.block d other = .ok s ∧ s.1 - r.1 = first ∧ sub d.xss r.1 s.2 = .ok ws := by
  obtain ⟨start', hj, hj', hw, hf, _⟩ := h
  obtain rfl : start = start' := by have := Except.ok.inj (hs.symm.trans hj); omega
  have h0 := hw.1
  have hlen := hw.2.1
  obtain ⟨stop, hb, hs⟩ := paStop hI hS (len := 0) hj h0 (by omega) (fun j _ v _ h => by omega)
  obtain ⟨r, _, hr, hr1, _⟩ := words_of (ws := []) ⟨h0, by simp; omega, List.nil_prefix⟩ hs
  have hw' : d.Has (start + first) (ws.drop first) := by
    refine ⟨by omega, by rw [List.length_drop]; omega, ?_⟩
    obtain ⟨zs, hz⟩ := hw.2.2
    refine ⟨zs, ?_⟩
    rw [show start + first - 1 = start - 1 + first by omega, ← List.drop_drop, ← hz,
      List.drop_append_of_le_length hf]
  obtain ⟨e1, _⟩ := paWhole hI hS hj' hw' (by
    obtain ⟨j, h1, h2, h3⟩ := hn
    refine ⟨j, h1, ?_, fun k hk hk' v hv => ?_⟩
    · rw [h2, List.length_drop]
      congr 1
      omega
    · have := h3 k hk hk' v hv
      omega)
  refine ⟨r, _, by rw [hb, hr], e1, by dsimp only; omega, ?_⟩
  obtain ⟨zs, hz⟩ := hw.2.2
  rw [hr1, List.length_drop]
  unfold sub
  rw [if_pos (by dsimp only; omega), ← hz]
  dsimp only
  rw [show start + first + (ws.length - first) - 1 - (start - 1) = ws.length by omega, List.take_left]

end

section
variable {d d' : TableData} (hm : PA.MovedInOrder d d')

include hm in
theorem paCount (i : Nat) : d'.count i = d.count i := by
  unfold TableData.count TableData.NXS
  rw [hm.nxs]

include hm in
theorem paUp {β : Type} {R : β → β → Prop} {i : Nat} (hi : i ∈ [1, 4, 5, 16, 19, 20, 26, 27]) {k k' : Words → Res β}
    (hk : ∀ w w' ys, Ext ys w w' → Up R (k w) (k' w')) :
    Up R (PA.block d i >>= fun r => d.words r >>= k) (PA.block d' i >>= fun r => d'.words r >>= k') := by
  intro v hv
  obtain ⟨r, h1, hv⟩ := bind_eq_ok.mp hv
  obtain ⟨ws, h2, hv⟩ := bind_eq_ok.mp hv
  obtain ⟨r', zs, e1, e2⟩ := paBlock hm.inside hm.size (hm.single i hi r ws h1 h2)
  obtain ⟨v', e3, hR⟩ := hk ws (ws ++ zs) zs (.inr rfl) v hv
  exact ⟨v', by rw [e1, ok_bind, e2, ok_bind, e3], hR⟩

include hm in
theorem paEq {β : Type} {R : β → β → Prop} {i : Nat} (hi : i ∈ [2, 3]) {k k' : Words → Res β}
    (hk : ∀ w, Up R (k w) (k' w)) :
    Up R (PA.block d i >>= fun r => d.words r >>= k) (PA.block d' i >>= fun r => d'.words r >>= k') := by
  intro v hv
  obtain ⟨r, h1, hv⟩ := bind_eq_ok.mp hv
  obtain ⟨ws, h2, hv⟩ := bind_eq_ok.mp hv
  obtain ⟨start, hj, hw, _⟩ := hm.whole i hi r ws h1 h2
  obtain ⟨e1, e2⟩ := paWhole hm.inside hm.size hj hw (hm.next i hi r ws _ h1 h2 hj)
  obtain ⟨v', e3, hR⟩ := hk ws v hv
  exact ⟨v', by rw [e1, ok_bind, e2, ok_bind, e3], hR⟩

include hm in
theorem paShells (nsh : Nat) : Up (fun p p' : EPS × SWD => p.1 ≼ p'.1 ∧ p.2 ≼ p'.2)
    (PA.readShells d nsh) (PA.readShells d' nsh) := by
  unfold PA.readShells
  intro v hv
  obtain ⟨l6, h6, hv⟩ := bind_eq_ok.mp hv
  obtain ⟨l8, h8, hv⟩ := bind_eq_ok.mp hv
  obtain ⟨ws, hw, hv⟩ := bind_eq_ok.mp hv
  obtain ⟨eps, he, hv⟩ := bind_eq_ok.mp hv
  obtain ⟨l9, h9, hv⟩ := bind_eq_ok.mp hv
  obtain ⟨l10, h10, hv⟩ := bind_eq_ok.mp hv
  obtain ⟨p, hp, hv⟩ := bind_eq_ok.mp hv
  obtain ⟨swd, hs, hv⟩ := bind_eq_ok.mp hv
  rw [← Except.ok.inj hv]
  obtain ⟨r, s, zs, e6, e8, _, ew⟩ := paPair hm.inside hm.size (hm.shells l6 l8 ws h6 h8 hw)
  obtain ⟨r2, s2, ys, e9, e10, e11, ep⟩ := paPair hm.inside hm.size (hm.profiles l9 l10 p h9 h10 hp)
  obtain ⟨eps', f1, g1⟩ := array zs (.inr rfl : Ext zs ws (ws ++ zs)) nsh 3 eps he
  obtain ⟨swd', f2, g2⟩ := Longer.locBlock p.1 ys (fun _ ws => Longer.prob ws ys) p.2 nsh true swd hs
  refine ⟨(eps', swd'), ?_, g1, g2⟩
  have el : CE.located d' r2 s2 = .ok (p.1 ++ ys, p.2) := by
    unfold CE.located
    rw [ep, ok_bind, e11]
    rfl
  have f1 : EPS.ofRange (ws ++ zs) nsh = .ok eps' := f1
  have f2 : SWD.ofRange (p.1 ++ ys) p.2 nsh = .ok swd' := f2
  rw [e6, ok_bind, e8, ok_bind, ew, ok_bind, f1, ok_bind, e9, ok_bind, e10, ok_bind, el, ok_bind]
  dsimp only
  rw [f2]
  rfl

include hm in
theorem paEION (nssh index : Nat) (hn : d.count 7 = .ok nssh) (h1 : 1 ≤ index) (h2 : index ≤ nssh) :
    PA.readEION d nssh index ≼ PA.readEION d' nssh index := by
  intro v hv
  unfold PA.readEION at hv ⊢
  obtain ⟨offset, e1, hv⟩ := bind_eq_ok.mp hv
  obtain ⟨x, e2, hv⟩ := bind_eq_ok.mp hv
  obtain ⟨n, e3, hv⟩ := bind_eq_ok.mp hv
  obtain ⟨start, e4, hv⟩ := bind_eq_ok.mp hv
  have hd : d.xss[offset + index - 1]? = some x := by
    unfold deref at e2
    split at e2
    · rename_i y hy
      rw [← Except.ok.inj e2]; exact hy
    · cases e2
  have hs : ∃ stop ws, PA.subshellEnd d offset nssh index = .ok stop ∧ sub d.xss start stop = .ok ws ∧
      ElectronBlock.ofRange ws n = .ok v := by
    unfold PA.subshellEnd
    dsimp only at hv
    split at hv
    · rename_i h
      rw [if_pos h]
      obtain ⟨stop, e5, hv⟩ := bind_eq_ok.mp hv
      obtain ⟨ws, e6, hv⟩ := bind_eq_ok.mp hv
      exact ⟨stop, ws, e5, e6, hv⟩
    · rename_i h
      rw [if_neg h]
      obtain ⟨stop, e5, hv⟩ := bind_eq_ok.mp hv
      obtain ⟨ws, e6, hv⟩ := bind_eq_ok.mp hv
      exact ⟨stop, ws, e5, e6, hv⟩
  obtain ⟨stop, ws, e5, e6, e7⟩ := hs
  obtain ⟨offset', f1, h⟩ := hm.ionisation nssh offset hn e1
  obtain ⟨f2, start', stop', f3, hw, f4, f5, f6⟩ := h index h1 h2 x start stop ws hd e4 e5 e6
  obtain ⟨zs, hz⟩ := has_sub (stop := stop') hw (by omega) f6
  obtain ⟨v', g1, g2⟩ := gives zs (f := fun v => ElectronBlock.ofRange v n) (.inr rfl : Ext zs ws (ws ++ zs))
    (Longer.electronBlock ws zs n) v e7
  have g1 : ElectronBlock.ofRange (ws ++ zs) n = .ok v' := g1
  refine ⟨v', ?_, g2⟩
  have hd' : deref d'.xss (offset' + index - 1) = .ok x := by unfold deref; rw [f2]
  rw [f1, ok_bind, hd', ok_bind, e3, ok_bind, f3, ok_bind]
  unfold PA.subshellEnd at f4
  dsimp only
  split at f4
  · rename_i h
    rw [if_pos h, f4, ok_bind, show start' = start' + 1 - 1 by omega, hz, ok_bind, g1]
  · rename_i h
    rw [if_neg h, f4, ok_bind, show start' = start' + 1 - 1 by omega, hz, ok_bind, g1]

theorem mapM_up {α β : Type} {R : β → β → Prop} {f f' : α → Res β} : ∀ (l : List α),
    (∀ x ∈ l, Up R (f x) (f' x)) → Up (List.Forall₂ R) (l.mapM f) (l.mapM f')
  | [], _ => by rw [List.mapM_nil, List.mapM_nil]; exact Up.pure' .nil
  | x :: xs, h => by
      rw [List.mapM_cons, List.mapM_cons]
      exact Up.step (h x (.head _)) fun _ _ _ _ g => Up.step (mapM_up xs fun y hy => h y (.tail _ hy))
        fun _ _ _ _ g' => Up.pure' (.cons g g')

include hm in
theorem paElectron {β : Type} {R : β → β → Prop} {i : Nat} (hi : i ∈ [21, 24]) {k k' : Words → Res β}
    (hk : ∀ w w' ys, Ext ys w w' → Up R (k w) (k' w')) :
    Up R (PA.block d i >>= fun r => PA.block d (i + 1) >>= fun s => sub d.xss r.1 s.2 >>= k)
      (PA.block d' i >>= fun r => PA.block d' (i + 1) >>= fun s => sub d'.xss r.1 s.2 >>= k') := by
  intro v hv
  obtain ⟨r, h1, hv⟩ := bind_eq_ok.mp hv
  obtain ⟨s, h2, hv⟩ := bind_eq_ok.mp hv
  obtain ⟨ws, h3, hv⟩ := bind_eq_ok.mp hv
  obtain ⟨r', s', zs, e1, e2, _, e3⟩ := paPair hm.inside hm.size (hm.electrons i hi r s ws h1 h2 h3)
  obtain ⟨v', e4, hR⟩ := hk ws (ws ++ zs) zs (.inr rfl) v hv
  exact ⟨v', by rw [e1, ok_bind, e2, ok_bind, e3, ok_bind, e4], hR⟩

include hm in
theorem paSubshells {β γ : Type} {R : β → β → Prop} {S : γ → γ → Prop} {f : Words → Res γ} {k k' : γ → Words → Res β}
    (hf : ∀ w w' ys, Ext ys w w' → Up S (f w) (f w'))
    (hk : ∀ b b' w w' ys, S b b' → Ext ys w w' → Up R (k b w) (k' b' w')) :
    Up R (PA.block d 11 >>= fun r => PA.block d 16 >>= fun s => sub d.xss r.1 s.1 >>= fun w => f w >>= fun b =>
        d.words s >>= k b)
      (PA.block d' 11 >>= fun r => PA.block d' 16 >>= fun s => sub d'.xss r.1 s.1 >>= fun w => f w >>= fun b =>
        d'.words s >>= k' b) := by
  intro v hv
  obtain ⟨l11, h1, hv⟩ := bind_eq_ok.mp hv
  obtain ⟨l16, h2, hv⟩ := bind_eq_ok.mp hv
  obtain ⟨ws, h3, hv⟩ := bind_eq_ok.mp hv
  obtain ⟨b, h4, hv⟩ := bind_eq_ok.mp hv
  obtain ⟨w16, h5, hv⟩ := bind_eq_ok.mp hv
  obtain ⟨start, hj, hw⟩ := hm.subshells l11 l16 ws h1 h2 h3
  have h0 := hw.1
  have hlen := hw.2.1
  obtain ⟨st1, f1, hs1⟩ := paStop hm.inside hm.size (len := 0) hj h0 (by omega) (fun j _ v _ h => by omega)
  obtain ⟨r1, _, hr1, hr1', _⟩ := words_of (ws := []) ⟨h0, by simp; omega, List.nil_prefix⟩ hs1
  obtain ⟨n6, hj6, hw6, hc6⟩ := hm.single 16 (by decide) l16 w16 h2 h5
  have hb := hm.before l11 l16 ws _ _ h1 h2 h3 hj hj6
  have h06 := hw6.1
  have hlen6 := hw6.2.1
  obtain ⟨st6, f6, hs6⟩ := paStop hm.inside hm.size hj6 h06 (by omega) hc6
  obtain ⟨r6, z6, hr6, hr6', hz6, _⟩ := words_of hw6 hs6
  obtain ⟨z1, hz1⟩ := has_sub (stop := n6 - 1) hw (by omega) (by omega)
  obtain ⟨b', g1, g2⟩ := hf ws (ws ++ z1) z1 (.inr rfl) b h4
  obtain ⟨v', g3, g4⟩ := hk b b' w16 (w16 ++ z6) z6 g2 (.inr rfl) v hv
  refine ⟨v', ?_, g4⟩
  rw [f1, hr1, ok_bind, f6, hr6, ok_bind, hr1', hr6', hz1, ok_bind, g1, ok_bind, hz6, ok_bind, g3]

include hm in
theorem paTransitions {β : Type} {R : β → β → Prop} {k k' : Words × Nat → Res β}
    (hk : ∀ p, Up R (k p) (k' p)) :
    Up R (PA.block d 17 >>= fun r => PA.block d 18 >>= fun s => CE.located d r s >>= k)
      (PA.block d' 17 >>= fun r => PA.block d' 18 >>= fun s => CE.located d' r s >>= k') := by
  intro v hv
  obtain ⟨r, h1, hv⟩ := bind_eq_ok.mp hv
  obtain ⟨s, h2, hv⟩ := bind_eq_ok.mp hv
  obtain ⟨p, h3, hv⟩ := bind_eq_ok.mp hv
  have hp := hm.transitions r s p h1 h2 h3
  obtain ⟨start, hj, _⟩ := id hp
  obtain ⟨r', s', e1, e2, e3, e4⟩ := paPairWhole hm.inside hm.size hp hj (hm.behind r s p _ h1 h2 h3 hj)
  obtain ⟨v', e5, hR⟩ := hk p v hv
  have el : CE.located d' r' s' = .ok p := by
    unfold CE.located
    rw [e4, ok_bind, e3]
    rfl
  exact ⟨v', by rw [e1, ok_bind, e2, ok_bind, el, ok_bind, e5], hR⟩

include hm in
theorem paElectrons (nepr : Nat) : Up Electron (PA.readElectrons d nepr) (PA.readElectrons d' nepr) := by
  have ele {ys v v' : Words} (h : Ext ys v v') (n : Nat) :
      ElectronBlock.ofRange v n ≼ ElectronBlock.ofRange v' n :=
    gives ys (f := fun v => ElectronBlock.ofRange v n) h (Longer.electronBlock v ys n)
  unfold PA.readElectrons
  refine Up.bind (Up.ofEq (paCount hm 7).symm) fun nssh hn => Up.bind (Up.ofEq (paCount hm 8).symm) fun ne _ => ?_
  refine paSubshells hm (fun _ _ ys w1 => array ys w1 nssh 5) fun _ _ _ _ ys g1 w1 => ?_
  refine Up.bind (Up.ofEq (paCount hm 3).symm) fun nes _ => Up.step (array ys w1 nes nssh) fun _ _ _ _ g2 => ?_
  refine paTransitions hm fun lx => Up.bind (Up.same (XPROB.ofRange lx.1 lx.2 nssh)) fun xprob _ => ?_
  refine paUp hm (by decide) fun _ _ ys w1 => Up.step (array ys w1 ne (6 + nssh)) fun _ _ _ _ g3 => ?_
  refine paUp hm (by decide) fun _ _ ys w1 => Up.bind (Up.ofEq (paCount hm 9).symm) fun nxl _ =>
    Up.step (array ys w1 nxl 2) fun _ _ _ _ g4 => ?_
  refine paElectron hm (i := 21) (by decide) fun _ _ ys w1 => Up.bind (Up.ofEq (paCount hm 10).symm) fun na _ =>
    Up.step (ele w1 na) fun _ _ _ _ g5 => ?_
  refine Up.step (mapM_up _ fun i hi => paEION hm nssh i hn (by rw [List.mem_range'_1] at hi; omega)
    (by rw [List.mem_range'_1] at hi; omega)) fun _ _ _ _ g6 => ?_
  refine paElectron hm (i := 24) (by decide) fun _ _ ys w1 => Up.bind (Up.ofEq (paCount hm 11).symm) fun nb _ =>
    Up.step (ele w1 nb) fun _ _ _ _ g7 => ?_
  refine paUp hm (by decide) fun _ _ ys w1 => Up.bind (Up.ofEq (paCount hm 12).symm) fun nbl _ =>
    Up.step (array ys w1 nbl 2) fun _ _ _ _ g8 => ?_
  refine Up.step (onlyIf (decide (nepr = 3)) (paUp hm (by decide) fun _ _ ys w1 => array ys w1 ne 2))
    fun _ _ _ _ g9 => ?_
  exact Up.pure' ⟨g1, g2, rfl, g3, g4, g5, g6, g7, g8, g9⟩

include hm in
theorem photoatomic (zaid : List Char) :
    Up (fun t t' => t'.data.nxs = t.data.nxs ∧ ({ t with data := t'.data } : PA) ≼ t')
      (PA.ofTable zaid d) (PA.ofTable zaid d') := by
  refine Up.bind (Up.same _) fun _ _ => ?_
  unfold PA.generateBlocks
  refine Up.bind (Up.ofEq (paCount hm 3).symm) fun nes _ => paUp hm (by decide) fun _ _ ys w1 =>
    Up.step (array ys w1 nes 5) fun _ _ _ _ g1 => ?_
  refine paEq hm (by decide) fun w => Up.bind (Up.same _) fun jinc _ => ?_
  refine paEq hm (by decide) fun w => Up.bind (Up.same _) fun jcoh _ => ?_
  refine Up.bind (Up.ofEq (paCount hm 4).symm) fun nflo _ => Up.step (onlyIf (decide (nflo > 0))
    (paUp hm (by decide) fun _ _ ys w1 => array ys w1 nflo 4)) fun _ _ _ _ g2 => ?_
  refine paUp hm (by decide) fun _ _ ys w1 =>
    Up.step (array ys w1 nes 1) fun _ _ _ _ g3 => ?_
  refine Up.bind (Up.ofEq (paCount hm 5).symm) fun nsh _ => ?_
  refine Up.step (A := UpIf.BothBy _) (fun v hv => UpIf.onlyIfR (P := fun _ => True)
    (decide (nsh > 0)) (UpIf.ofUp (paShells hm nsh)) v hv fun _ _ => trivial) fun s s' _ _ g4 => ?_
  refine Up.bind (Up.ofEq (paCount hm 6).symm) fun nepr hn => ?_
  have he : Up (UpIf.BothBy Electron) (CE.onlyIf (decide (nepr > 0)) (PA.readElectrons d nepr))
      (CE.onlyIf (decide (nepr > 0)) (PA.readElectrons d' nepr)) :=
    fun v hv => UpIf.onlyIfR (P := fun _ => True) (decide (nepr > 0))
        (UpIf.ofUp (paElectrons hm nepr)) v hv fun _ _ => trivial
  refine Up.step he fun e e' _ _ g5 => ?_
  have b1 : Both (s.map (·.1)) (s'.map (·.1)) ∧ Both (s.map (·.2)) (s'.map (·.2)) := by
    rcases s with _ | s <;> rcases s' with _ | s'
    · exact ⟨trivial, trivial⟩
    · exact g4.elim
    · exact g4.elim
    · exact g4
  have b2 : Both (e.map (·.subsh)) (e'.map (·.subsh)) ∧ Both (e.map (·.sphel)) (e'.map (·.sphel)) ∧
      e.map (·.xprob) = e'.map (·.xprob) ∧ Both (e.map (·.esze)) (e'.map (·.esze)) ∧
      Both (e.map (·.excit)) (e'.map (·.excit)) ∧ Both (e.map (·.elas)) (e'.map (·.elas)) ∧
      Both (e.map (·.breme)) (e'.map (·.breme)) ∧ Both (e.map (·.breml)) (e'.map (·.breml)) ∧
      Both (e.bind (·.selas)) (e'.bind (·.selas)) := by
    rcases e with _ | e <;> rcases e' with _ | e'
    · exact ⟨trivial, trivial, rfl, trivial, trivial, trivial, trivial, trivial, trivial⟩
    · exact g5.elim
    · exact g5.elim
    · exact ⟨g5.1, g5.2.1, congrArg some g5.2.2.1, g5.2.2.2.1, g5.2.2.2.2.1, g5.2.2.2.2.2.1,
        g5.2.2.2.2.2.2.2.1, g5.2.2.2.2.2.2.2.2.1, g5.2.2.2.2.2.2.2.2.2⟩
  refine Up.pure' ⟨hm.nxs, rfl, ⟨rfl, rfl, rfl, rfl⟩, g1, rfl, rfl, g2, g3, b1.1, b1.2, b2.1, b2.2.1, b2.2.2.1,
    b2.2.2.2.1, b2.2.2.2.2.1, b2.2.2.2.2.2.1, ?_, b2.2.2.2.2.2.2.1, b2.2.2.2.2.2.2.2.1,
    b2.2.2.2.2.2.2.2.2⟩
  rcases e with _ | e <;> rcases e' with _ | e'
  · exact .nil
  · exact g5.elim
  · exact g5.elim
  · exact g5.2.2.2.2.2.2.1

end

/-! ### Photonuclear -/

section
variable {d d' : TableData} (hm : PN.MovedInOrder d d')

include hm in
theorem pnSZA (zaid : List Char) :
    Up (fun v v' => PN.MovedInOrder v v') (d.setSZA zaid) (d'.setSZA zaid) := by
  have set (n : List Int) (i : Nat) (x : Int) : Up (fun v v' => ∃ m, v = { d with nxs := m } ∧ v' = { d' with nxs := m })
      (({ d with nxs := n } : TableData).setNXS i x) (({ d' with nxs := n } : TableData).setNXS i x) := by
    unfold TableData.setNXS
    exact Up.bind (Up.same _) fun _ _ => Up.pure' ⟨_, rfl, rfl⟩
  have e (n : List Int) : PN.MovedInOrder { d with nxs := n } { d' with nxs := n } :=
    ⟨⟨rfl, hm.inside, hm.size, hm.present, hm.principal, hm.single, hm.sections⟩, hm.before⟩
  have en : ∀ i, d'.NXS i = d.NXS i := fun i => by unfold TableData.NXS; rw [hm.nxs]
  have ed : d' = { d' with nxs := d.nxs } := by rw [← hm.nxs]
  have main : Up (fun v v' => ∃ m, v = { d with nxs := m } ∧ v' = { d' with nxs := m }) (d.setSZA zaid) (d'.setSZA zaid) := by
    unfold TableData.setSZA
    rw [en, en, en]
    refine Up.bind (Up.same (d.NXS 9)) fun _ _ => Up.bind (Up.same (d.NXS 10)) fun _ _ =>
      Up.bind (Up.same (d.NXS 11)) fun _ _ => Up.ite ?_ (Up.pure' ⟨d.nxs, rfl, ed⟩)
    refine Up.bind (Up.same _) fun _ _ => Up.step (by rw [ed]; exact set d.nxs _ _) fun v v' _ _ e => ?_
    obtain ⟨m, rfl, rfl⟩ := e
    refine Up.step (set m _ _) fun w w' _ _ e => ?_
    obtain ⟨m, rfl, rfl⟩ := e
    exact set m _ _
  exact main.mono fun v v' ⟨m, h1, h2⟩ => by rw [h1, h2]; exact e m

include hm in
theorem pnBlocks (zaid : List Char) : UpIf (fun t : PN => t.ixsu = none)
    (fun t t' => t'.data = d' ∧ t.data = d ∧ ({ t with data := t'.data } : PN) ≼ t')
    (PN.generateBlocks zaid d) (PN.generateBlocks zaid d') := by
  have count (i : Nat) : d'.count i = d.count i := by
    unfold TableData.count TableData.NXS
    rw [hm.nxs]
  intro t ht hP
  unfold PN.generateBlocks at ht ⊢
  obtain ⟨j, e0, ht⟩ := bind_eq_ok.mp ht
  obtain ⟨b1, e1, ht⟩ := bind_eq_ok.mp ht
  obtain ⟨b6, e2, ht⟩ := bind_eq_ok.mp ht
  obtain ⟨ws, e3, ht⟩ := bind_eq_ok.mp ht
  obtain ⟨nes, e4, ht⟩ := bind_eq_ok.mp ht
  obtain ⟨eszu, e5, ht⟩ := bind_eq_ok.mp ht
  obtain ⟨ntr, e6, ht⟩ := bind_eq_ok.mp ht
  obtain ⟨w6, e7, ht⟩ := bind_eq_ok.mp ht
  obtain ⟨mtr, e8, ht⟩ := bind_eq_ok.mp ht
  obtain ⟨b7, e9, ht⟩ := bind_eq_ok.mp ht
  obtain ⟨w7, e10, ht⟩ := bind_eq_ok.mp ht
  obtain ⟨lqr, e11, ht⟩ := bind_eq_ok.mp ht
  obtain ⟨b8, e12, ht⟩ := bind_eq_ok.mp ht
  obtain ⟨b9, e13, ht⟩ := bind_eq_ok.mp ht
  obtain ⟨p, e14, ht⟩ := bind_eq_ok.mp ht
  obtain ⟨sg, e15, ht⟩ := bind_eq_ok.mp ht
  obtain ⟨ntype, e16, ht⟩ := bind_eq_ok.mp ht
  obtain ⟨s, e17, ht⟩ := bind_eq_ok.mp ht
  have ht := Except.ok.inj ht
  subst ht
  have hs : s = none := by
    rcases s with _ | s
    · rfl
    · cases hP
  subst hs
  have hn : decide (ntype > 0) = false := by
    cases h : decide (ntype > 0)
    · rfl
    · rw [h] at e17
      unfold CE.onlyIf at e17
      obtain ⟨_, _, h⟩ := bind_eq_ok.mp e17
      cases h
  obtain ⟨v, v', k1, k2, k3⟩ := hm.present
  obtain rfl := Except.ok.inj (k1.symm.trans e0)
  have ea : PN.arraysOf v' = PN.arraysOf v := by
    unfold PN.arraysOf
    by_cases h : v ≠ 0
    · rw [if_pos h, if_pos (k3.mp h)]
    · rw [if_neg h, if_neg (fun h' => h (k3.mpr h'))]
  obtain ⟨start, hj, hw⟩ := hm.principal b1 b6 ws e1 e2 e3
  have hm6 := hm.single 6 (by decide) b6 w6 e2 e7
  have hm7 := hm.single 7 (by decide) b7 w7 e9 e10
  have hp := hm.sections b8 b9 p e12 e13 e14
  have h0 := hw.1
  have hlen := hw.2.1
  obtain ⟨st1, f1, hs1⟩ := paStop hm.inside hm.size (len := 0) hj h0 (by omega) (fun j _ v _ h => by omega)
  obtain ⟨r1, _, hr1, hr1', _⟩ := words_of (ws := []) ⟨h0, by simp; omega, List.nil_prefix⟩ hs1
  obtain ⟨n6, hj6, hw6, hc6⟩ := hm6
  have hb := hm.before b1 b6 ws _ _ e1 e2 e3 hj hj6
  have h06 := hw6.1
  have hlen6 := hw6.2.1
  obtain ⟨st6, f6, hs6⟩ := paStop hm.inside hm.size hj6 h06 (by omega) hc6
  obtain ⟨r6, z6, hr6, hr6', hz6, _⟩ := words_of hw6 hs6
  obtain ⟨z1, hz1⟩ := has_sub (stop := n6 - 1) hw (by omega) (by omega)
  obtain ⟨r7, z7, g7, g7'⟩ := paBlock hm.inside hm.size hm7
  obtain ⟨r8, r9, z8, g8, g9, g10, g11⟩ := paPair hm.inside hm.size hp
  obtain ⟨eszu', a1, b1'⟩ := array z1 (.inr rfl : Ext z1 ws (ws ++ z1)) nes (PN.arraysOf v) eszu e5
  obtain ⟨mtr', a2, b2'⟩ := array z6 (.inr rfl : Ext z6 w6 (w6 ++ z6)) ntr 1 mtr e8
  obtain ⟨lqr', a3, b3'⟩ := array z7 (.inr rfl : Ext z7 w7 (w7 ++ z7)) ntr 1 lqr e11
  obtain ⟨sg', a4, b4'⟩ := sig (ys := z8) (p := p) (p' := (p.1 ++ z8, p.2)) ⟨rfl, .inr rfl⟩ ntr sg e15
  have el : CE.located d' r8 r9 = .ok (p.1 ++ z8, p.2) := by
    unfold CE.located
    rw [g11, ok_bind, g10]
    rfl
  have a1 : ESZU.ofRange (ws ++ z1) nes (PN.arraysOf v) = .ok eszu' := a1
  have a2 : MTR.ofRange (w6 ++ z6) ntr = .ok mtr' := a2
  have a3 : LQR.ofRange (w7 ++ z7) ntr = .ok lqr' := a3
  have c1 : PN.block d' 1 = .ok r1 := by unfold PN.block; rw [f1, hr1]
  have c6 : PN.block d' 6 = .ok r6 := by unfold PN.block; rw [f6, hr6]
  have c7 : PN.block d' 7 = .ok r7 := g7
  have c8 : PN.block d' 8 = .ok r8 := g8
  have c9 : PN.block d' 9 = .ok r9 := g9
  refine ⟨⟨zaid, d', eszu', mtr', lqr', sg', none, []⟩, ?_, rfl, rfl, rfl, ⟨rfl, rfl, rfl, rfl⟩, b1', b2', b3', b4',
    trivial, .nil⟩
  rw [k2, ok_bind, c1, ok_bind, c6, ok_bind, ea, hr1', hr6', hz1, ok_bind, count, e4, ok_bind, a1, ok_bind, count, e6,
    ok_bind, hz6, ok_bind, a2, ok_bind, c7, ok_bind, g7', ok_bind, a3, ok_bind, c8, ok_bind, c9, ok_bind, el, ok_bind]
  dsimp only
  rw [a4, ok_bind, count, e16, ok_bind, hn]
  rfl

include hm in
theorem photonuclear (zaid : List Char) : UpIf (fun t : PN => t.ixsu = none)
    (fun t t' => t'.data.nxs = t.data.nxs ∧ ({ t with data := t'.data } : PN) ≼ t')
    (PN.ofTable zaid d) (PN.ofTable zaid d') := by
  refine UpIf.bind (Up.same _) fun _ _ => UpIf.up (pnSZA hm zaid) fun v v' _ e => ?_
  intro t ht hP
  obtain ⟨t', h1, h2, h3, h4⟩ := pnBlocks e zaid t ht hP
  exact ⟨t', h1, by rw [h2, h3, e.nxs], h4⟩

end

end Moved
end ACE

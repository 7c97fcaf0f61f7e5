import Verif.Model.FormatBlocks
import Verif.Lemmas.Arrays

/-!
# C47: principal electron cross sections are summed consistently

The addition of doubles is the parameter `add`; the specification says, energy by energy,
which numbers are added.
-/

namespace ACE.Props
open ACE ArrayData

/-- Specification: the sum, at energy number `i`, of a first array and more arrays, in the
order in which the code adds them. -/
def SumAt (add : Dbl → Dbl → Dbl) (i : Nat) : Words → List Words → Option Dbl
  | s, [] => s[i]?
  | s, x :: xs =>
      match x[i]?, s[i]? with
      | some b, some a => SumAtVal add i (add b a) xs
      | _, _ => none
where
  /-- continue from an intermediate value -/
  SumAtVal (add : Dbl → Dbl → Dbl) (i : Nat) (v : Dbl) : List Words → Option Dbl
    | [] => some v
    | x :: xs =>
        match x[i]? with
        | some b => SumAtVal add i (add b v) xs
        | none => none

theorem addInto_length {add : Dbl → Dbl → Dbl} {x a : Words} {n : Nat} (hx : x.length = n)
    (ha : a.length = n) : (ESZE.addInto add x a).length = n := by
  simp [ESZE.addInto, hx, ha]

theorem foldl_length {add : Dbl → Dbl → Dbl} (ss : List Words) (s : Words) (n : Nat)
    (hs : s.length = n) (hss : ∀ x ∈ ss, x.length = n) :
    (ss.foldl (fun acc x => ESZE.addInto add x acc) s).length = n := by
  induction ss generalizing s with
  | nil => exact hs
  | cons x xs ih =>
    exact ih _ (addInto_length (hss x (by simp)) hs) (fun y hy => hss y (by simp [hy]))

theorem foldl_val {add : Dbl → Dbl → Dbl} (ss : List Words) (s : Words) (n i : Nat) (v : Dbl)
    (hi : i < n) (hs : s[i]? = some v) (hss : ∀ x ∈ ss, x.length = n) :
    (ss.foldl (fun acc x => ESZE.addInto add x acc) s)[i]? = SumAt.SumAtVal add i v ss := by
  induction ss generalizing s v with
  | nil => exact hs
  | cons x xs ih =>
    have hx : i < x.length := by rw [hss x (by simp)]; exact hi
    simp only [List.foldl_cons, SumAt.SumAtVal, List.getElem?_eq_getElem hx]
    apply ih
    · simp [ESZE.addInto, List.getElem?_zipWith, List.getElem?_eq_getElem hx, hs]
    · exact fun y hy => hss y (by simp [hy])

theorem sumSubshells_at {add : Dbl → Dbl → Dbl} (s : Words) (ss : List Words) (n i : Nat)
    (hi : i < n) (hs : s.length = n) (hss : ∀ x ∈ ss, x.length = n) :
    (ESZE.sumSubshells add (s :: ss))[i]? = SumAt add i s ss := by
  have his : i < s.length := by omega
  cases ss with
  | nil => rfl
  | cons x xs =>
    have hx : i < x.length := by rw [hss x (by simp)]; exact hi
    simp only [ESZE.sumSubshells, SumAt, List.getElem?_eq_getElem hx, List.getElem?_eq_getElem his,
      List.foldl_cons]
    refine foldl_val xs _ n i _ hi ?_ (fun y hy => hss y (by simp [hy]))
    simp [ESZE.addInto, List.getElem?_zipWith, List.getElem?_eq_getElem hx,
      List.getElem?_eq_getElem his]

/-- An ESZE block exists exactly for at least one subshell and equal lengths. -/
theorem C47_accepts (add : Dbl → Dbl → Dbl) (en el br ex : Words) (subs : List Words) :
    ((∃ d, ESZE.mk' add en el br ex subs = .ok d) ↔
      subs ≠ [] ∧ el.length = en.length ∧ br.length = en.length ∧ ex.length = en.length ∧
      ∀ s ∈ subs, s.length = en.length) ∧
    ((¬ ∃ d, ESZE.mk' add en el br ex subs = .ok d) →
      ESZE.mk' add en el br ex subs = .error .thrown) := by
  by_cases h : subs ≠ [] ∧ el.length = en.length ∧ br.length = en.length ∧ ex.length = en.length ∧
      ∀ s ∈ subs, s.length = en.length
  · have hg : ∃ d, ESZE.mk' add en el br ex subs = .ok d := by
      obtain ⟨hne, h1, h2, h3, h4⟩ := h
      have hsub : (!(subs.length == 0)) = true := by
        simp [hne]
      have hall : (!(el.length != en.length || br.length != en.length || ex.length != en.length ||
        subs.any (fun values => values.length != en.length))) = true := by
        simp [h1, h2, h3]; exact h4
      have hion : (ESZE.sumSubshells add subs).length = en.length := by
        cases subs with
        | nil => exact absurd rfl hne
        | cons s ss => exact foldl_length ss s _ (h4 s (by simp)) (fun x hx => h4 x (by simp [hx]))
      have htot := addInto_length (add := add) hion
        (addInto_length (add := add) h3 (addInto_length (add := add) h2 h1))
      unfold ESZE.mk' ESZE.generateArrays
      simp only [hsub, hall, guardThrow_true, ok_bind, pure_eq_ok]
      refine ⟨_, ofArrays_ok _ en.length ?_ (by simp)⟩
      intro x hx
      simp at hx
      rcases hx with rfl | rfl | rfl | rfl | rfl | rfl | hx
      · rfl
      · exact htot
      · exact h1
      · exact h2
      · exact h3
      · exact hion
      · exact h4 x hx
    exact ⟨⟨fun _ => h, fun _ => hg⟩, fun hno => absurd hg hno⟩
  · have hg : ESZE.mk' add en el br ex subs = .error .thrown := by
      unfold ESZE.mk' ESZE.generateArrays
      by_cases hne : subs = []
      · subst hne; rfl
      · have hsub : (!(subs.length == 0)) = true := by simp [hne]
        have hall : (!(el.length != en.length || br.length != en.length || ex.length != en.length ||
          subs.any (fun values => values.length != en.length))) = false := by
          rw [Bool.eq_false_iff]
          intro hh
          apply h
          simp at hh
          exact ⟨hne, hh.1.1.1, hh.1.1.2, hh.1.2, hh.2⟩
        simp only [hsub, hall, guardThrow_true, guardThrow_false, ok_bind, error_bind]
    refine ⟨⟨fun ⟨d, hd⟩ => ?_, fun hh => absurd hh h⟩, fun _ => hg⟩
    rw [hg] at hd; cases hd

/-- The block returns every component unchanged, the total electroionisation is at every
energy the sum over the subshells, and the total is at every energy the sum of elastic,
bremsstrahlung, excitation and total electroionisation. -/
theorem C47_sums (add : Dbl → Dbl → Dbl) (en el br ex : Words) (s : Words) (ss : List Words)
    (d : ESZE) (h : ESZE.mk' add en el br ex (s :: ss) = .ok d) :
    ESZE.energies d = .ok en ∧ ESZE.elastic d = .ok el ∧ ESZE.bremsstrahlung d = .ok br ∧
    ESZE.excitation d = .ok ex ∧ ESZE.NSSH d = ss.length + 1 ∧
    (∀ (k : Nat) (hk : k < (s :: ss).length), ESZE.electroionisation d (k + 1) = .ok (s :: ss)[k]) ∧
    ∃ tion tot, ESZE.totalElectroionisation d = .ok tion ∧ ESZE.total d = .ok tot ∧
      tion.length = en.length ∧ tot.length = en.length ∧
      ∀ i, i < en.length → tion[i]? = SumAt add i s ss ∧ tot[i]? = SumAt add i el [br, ex, tion] := by
  have hacc := (C47_accepts add en el br ex (s :: ss)).1.mp ⟨d, h⟩
  obtain ⟨hne, h1, h2, h3, h4⟩ := hacc
  have hsub : (!((s :: ss).length == 0)) = true := by simp
  have hall : (!(el.length != en.length || br.length != en.length || ex.length != en.length ||
    (s :: ss).any (fun values => values.length != en.length))) = true := by
    simp only [Bool.not_eq_true', Bool.or_eq_false_iff, bne_eq_false_iff_eq]
    refine ⟨⟨⟨h1, h2⟩, h3⟩, ?_⟩
    rw [List.any_eq_false]
    intro x hx; simp [h4 x hx]
  have hion : (ESZE.sumSubshells add (s :: ss)).length = en.length :=
    foldl_length ss s _ (h4 s (by simp)) (fun x hx => h4 x (by simp [hx]))
  have htot := addInto_length (add := add) hion
    (addInto_length (add := add) h3 (addInto_length (add := add) h2 h1))
  unfold ESZE.mk' ESZE.generateArrays at h
  simp only [hsub, hall, guardThrow_true, ok_bind, pure_eq_ok] at h
  have hh := (ofArrays_holds h).1
  refine ⟨hh.darray 0 (by simp), hh.darray 2 (by simp), hh.darray 3 (by simp),
    hh.darray 4 (by simp), ?_, ?_, ESZE.sumSubshells add (s :: ss),
    ESZE.addInto add (ESZE.sumSubshells add (s :: ss)) (ESZE.addInto add ex (ESZE.addInto add br el)),
    hh.darray 5 (by simp), hh.darray 1 (by simp), hion, htot, ?_⟩
  · unfold ESZE.NSSH; rw [hh.hm]; simp
  · intro k hk
    have hm : d.m = 7 + ss.length := by rw [hh.hm]; simp; omega
    have hk' : k < ss.length + 1 := by simpa using hk
    unfold ESZE.electroionisation ESZE.NSSH
    rw [if_neg (by omega)]
    have := hh.darray (k + 6) (by simp; omega)
    rw [show 6 + (k + 1) = k + 6 + 1 by omega, this]
    congr 1
  · intro i hi
    refine ⟨sumSubshells_at s ss en.length i hi (h4 s (by simp)) (fun x hx => h4 x (by simp [hx])), ?_⟩
    have a1 : i < el.length := by omega
    have a2 : i < br.length := by omega
    have a3 : i < ex.length := by omega
    have a4 : i < (ESZE.sumSubshells add (s :: ss)).length := by omega
    generalize ESZE.sumSubshells add (s :: ss) = t at a4
    simp [SumAt, SumAt.SumAtVal, ESZE.addInto, List.getElem?_zipWith, List.getElem?_eq_getElem a1,
      List.getElem?_eq_getElem a2, List.getElem?_eq_getElem a3, List.getElem?_eq_getElem a4]

/-- A reader over the words, followed by anything, returns the same arrays. -/
theorem C47_read (add : Dbl → Dbl → Dbl) (en el br ex : Words) (subs : List Words)
    (d : ESZE) (h : ESZE.mk' add en el br ex subs = .ok d) (rest : Words) :
    ∃ d', ESZE.ofRange (d.xss ++ rest) subs.length en.length = .ok d' ∧
      ∀ k, 1 ≤ k → k ≤ 6 + subs.length → ArrayData.darray d' k = ArrayData.darray d k := by
  obtain ⟨hne, h1, h2, h3, h4⟩ := (C47_accepts add en el br ex subs).1.mp ⟨d, h⟩
  unfold ESZE.mk' at h
  rw [bind_eq_ok] at h
  obtain ⟨arrays, ha, hd⟩ := h
  have hh := ofArrays_holds hd
  have hlen : arrays.length = 6 + subs.length := by
    unfold ESZE.generateArrays at ha
    rw [bind_eq_ok] at ha; obtain ⟨_, _, ha⟩ := ha
    rw [bind_eq_ok] at ha; obtain ⟨_, _, ha⟩ := ha
    injection ha with ha; subst ha; simp; omega
  have hn : d.n = en.length := by
    unfold ESZE.generateArrays at ha
    rw [bind_eq_ok] at ha; obtain ⟨_, _, ha⟩ := ha
    rw [bind_eq_ok] at ha; obtain ⟨_, _, ha⟩ := ha
    injection ha with ha; subst ha
    exact (hh.1.hn en (by simp)).symm
  obtain ⟨d', e1, e2, _⟩ := ofRange_holds arrays en.length rest (fun x hx => by rw [← hn]; exact hh.1.hn x hx)
  refine ⟨d', ?_, ?_⟩
  · unfold ESZE.ofRange; rw [hh.2, ← hlen]; exact e1
  · intro k hk1 hk2
    obtain ⟨j, rfl⟩ : ∃ j, k = j + 1 := ⟨k - 1, by omega⟩
    rw [e2.darray j (by omega), hh.1.darray j (by omega)]

/-- Two energies, two subshells, with a concrete addition of integers. -/
example :
    let add : Dbl → Dbl → Dbl := fun a b =>
      match a.round?, b.round? with
      | some x, some y => .ofInt (x + y)
      | _, _ => .nan
    let w : List Int → Words := fun l => l.map .ofInt
    (ESZE.mk' add (w [1, 2]) (w [10, 20]) (w [100, 200]) (w [1000, 2000])
        [w [3, 4], w [5, 6]]).map (fun d => d.xss)
      = .ok (w [1, 2, 1118, 2230, 10, 20, 100, 200, 1000, 2000, 8, 10, 3, 4, 5, 6]) := by
  decide

example := C47_sums (fun a _ => a) [Dbl.ofNat 1] [Dbl.ofNat 2] [Dbl.ofNat 3] [Dbl.ofNat 4] [Dbl.ofNat 5] [[Dbl.ofNat 6]] _ rfl
example := C47_read (fun a _ => a) [Dbl.ofNat 1] [Dbl.ofNat 2] [Dbl.ofNat 3] [Dbl.ofNat 4] [[Dbl.ofNat 5], [Dbl.ofNat 6]] _ rfl

end ACE.Props

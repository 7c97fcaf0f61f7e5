import Verif.Props.C60Case
import Verif.Props.C60Photonuclear
import Verif.Lemmas.AgreePhoto

/-!
# C71: words behind the last word of a table

An ACE file may have more words in its XSS array than the blocks of the table need: the last line is
filled up, or a code that made the file left words there. The claim: a table with more words at the
end of its XSS array is read as the same table. When a table of a class can be made from a generic
table, it can be made from the generic table with any words appended to its XSS array, and whatever
a member function of the first returns, the member function of the second returns.

The claim is `X.ofTable zaid d ≼ X.ofTable zaid (d.padded ys)`, with `≼` for tables as defined in
`Verif.Props.TableSpec`: the same identification, the same arrays but XSS, the same optional blocks,
and every block gives what the other one gives.

It holds for dosimetry tables without any hypothesis. It does not hold

* for the photonuclear tables whose block of locators is not ended by the JXS array
  (`C71_photonuclear_false`): its last words are looked for in the whole rest of the XSS array;
* for the photoatomic tables whose scattering function, form factors or subshell probabilities are
  the last block (`C71_photoatomic_false`): the number of their values is taken from the number of
  words;
* for a block without any words at the end of the XSS array, which is read as a block with no values
  (`C71_thermal_false`, `C71_continuous_false`).
-/

namespace ACE.Props
open ACE

variable (d : TableData) (ys : Words) (zaid : List Char)

/-- Dosimetry tables. -/
theorem C71_dosimetry : Dosimetry.ofTable zaid d ≼ Dosimetry.ofTable zaid (d.padded ys) :=
  Padded.dosimetry d ys zaid

/-- Thermal scattering tables, when no block of cross sections is empty. -/
theorem C71_thermal_partial (t : TS) (h : TS.ofTable zaid d = .ok t)
    (h1 : t.itie.xss ≠ [] ∨ ∃ j, d.JXS 1 = .ok j ∧ j ≤ 0)
    (h2 : ∀ b, t.itce = some b → b.xss ≠ []) (h3 : ∀ b, t.itcei = some b → b.xss ≠ []) :
    ∃ t', TS.ofTable zaid (d.padded ys) = .ok t' ∧ t ≼ t' :=
  Padded.thermal d ys zaid t h ⟨h1, h2, h3⟩

/-- Continuous energy tables, when no block of photon production or particle production reaction
numbers and no block of probability tables is empty. -/
theorem C71_continuous_partial (t : CE) (h : CE.ofTable zaid d = .ok t)
    (h1 : ∀ b, t.yp = some b → b.xss ≠ []) (h2 : ∀ b, t.unr = some b → b.xss ≠ [])
    (h3 : ∀ p ∈ t.particles, p.yh.xss ≠ []) :
    ∃ t', CE.ofTable zaid (d.padded ys) = .ok t' ∧ t ≼ t' :=
  Padded.continuous d ys zaid t h ⟨h1, h2, h3⟩

/-- Photonuclear tables, when the words appended are less than one, or when the JXS array has a
locator behind that of the locators of the secondary particles, JXS(10), which is not less. -/
theorem C71_photonuclear_partial (h : (∀ y ∈ ys, y.geNat 1 = false) ∨ d.EndedByJXS 10) :
    PN.ofTable zaid d ≼ PN.ofTable zaid (d.padded ys) := Padded.photonuclear d h zaid

/-- Photoatomic tables, when the incoherent scattering function, the coherent form factors and, with
electron data, the probabilities of the subshells are not the last block of the table. -/
theorem C71_photoatomic_partial (h2 : d.EndedByJXS 2) (h3 : d.EndedByJXS 3)
    (h18 : ∀ nepr, d.count 6 = .ok nepr → nepr > 0 → d.EndedByJXS 18) :
    PA.ofTable zaid d ≼ PA.ofTable zaid (d.padded ys) := Padded.photoatomic d ys zaid h2 h3 h18

/-! ## Where the words behind the end do matter -/

namespace C71
open ACE.Props.C60

/-- The photonuclear table of C60 with a JXS array that ends at JXS(10). -/
def nuclear : TableData := { exNuclear with jxs := exNuclear.jxs.set 10 0 }
/-- The photoatomic table of C60 with its incoherent scattering function at the end. -/
def photoatomic : TableData :=
  { exPA with jxs := exPA.jxs.set 1 (exPA.xss.length + 1 : Nat), xss := exPA.xss ++ made (sub exPA.xss 10 16) }
/-- The thermal scattering table of C60, the coherent elastic cross sections of which are an empty
block at the end. -/
def thermal : TableData :=
  { exTS with jxs := exTS.jxs.set 3 (exTS.xss.length + 1 : Nat), nxs := exTS.nxs.set 5 (-1) }
/-- The continuous energy table of C60, the photon production reaction numbers of which are an empty
block at the end. -/
def continuous : TableData := { exCE with jxs := exCE.jxs.set 19 (exCE.xss.length + 1 : Nat) }

end C71

open C71 C60

/-- A table with two secondary particles: the word 1000 behind its end is taken for the locator that
ends the last block of the second particle, which reaches behind the end of the XSS array. -/
theorem C71_photonuclear_false : (PN.ofTable "92235.00u".toList nuclear).isOk ∧
    PN.ofTable "92235.00u".toList (nuclear.padded [Dbl.ofNat 1000]) = .error .ub := by decide +kernel

/-- The scattering function has as many values as there are words: with two more words it has one
more value, with one more word the table is refused. -/
theorem C71_photoatomic_false :
    (do return (← PA.ofTable "92000.00p".toList C71.photoatomic).jinc.NM) = .ok 3 ∧
    (do return (← PA.ofTable "92000.00p".toList
      (C71.photoatomic.padded [Dbl.ofNat 5, Dbl.ofNat 1])).jinc.NM) = .ok 4 ∧
    PA.ofTable "92000.00p".toList (C71.photoatomic.padded [Dbl.ofNat 5]) = .error .thrown := by
  decide +kernel

/-- An empty block is read as no values; with a word behind it, that word is the number of values. -/
theorem C71_thermal_false : (TS.ofTable "lwtr.00t".toList C71.thermal).isOk ∧
    TS.ofTable "lwtr.00t".toList (C71.thermal.padded [Dbl.ofNat 1]) = .error .thrown := by decide +kernel

/-- The same for the reaction numbers of photon production. -/
theorem C71_continuous_false : (CE.ofTable "92235.00c".toList C71.continuous).isOk ∧
    CE.ofTable "92235.00c".toList (C71.continuous.padded [Dbl.ofNat 1]) = .error .thrown := by
  decide +kernel

/-! The tables of C60 meet the hypotheses of the theorems. -/

theorem C71.ended_of {d : TableData} {i : Nat} (h : (match d.locator i with
    | .ok start => (d.jxs.drop i).any fun v => decide (start ≤ sizeOfInt v)
    | .error _ => false) = true) : d.EndedByJXS i := by
  unfold TableData.EndedByJXS
  cases hl : d.locator i with
  | error _ => rw [hl] at h; cases h
  | ok start =>
      rw [hl] at h
      obtain ⟨v, hv, hs⟩ := List.any_eq_true.mp h
      exact ⟨v, hv, fun s e => by rw [← Except.ok.inj e]; exact of_decide_eq_true hs⟩

example : (Dosimetry.ofTable "26056.00y".toList exDos).isOk := by decide +kernel
theorem C71.isOk {T : Type} [Gives T] {r r' : Res T} (h : r ≼ r') (hr : r.isOk) : r'.isOk := by
  cases r with
  | error _ => cases hr
  | ok t => obtain ⟨t', e, _⟩ := h t rfl; rw [e]; rfl

example : (Dosimetry.ofTable "26056.00y".toList (exDos.padded [Dbl.ofNat 1000])).isOk :=
  C71.isOk (C71_dosimetry exDos [Dbl.ofNat 1000] _) (by decide +kernel)

/-- For every table made from the generic table. -/
def C71.All {T : Type} (r : Res T) (P : T → Prop) : Prop := ∃ t, r = .ok t ∧ P t

theorem C71.all_of {T : Type} {r : Res T} {P : T → Prop} [DecidablePred P]
    (h : (match r with | .ok t => decide (P t) | .error _ => false) = true) : C71.All r P := by
  cases r with
  | ok t => exact ⟨t, rfl, of_decide_eq_true h⟩
  | error _ => cases h

example : C71.All (TS.ofTable "lwtr.00t".toList exTS) fun t => t.itie.xss ≠ [] ∧
    (∀ b ∈ t.itce, b.xss ≠ []) ∧ t.itce ≠ none ∧ (∀ b ∈ t.itcei, b.xss ≠ []) ∧ t.itcei ≠ none :=
  C71.all_of (by decide +kernel)
example : C71.All (CE.ofTable "92235.00c".toList exCE) fun t => (∀ b ∈ t.yp, b.xss ≠ []) ∧ t.yp ≠ none ∧
    (∀ b ∈ t.unr, b.xss ≠ []) ∧ t.unr ≠ none ∧ (∀ p ∈ t.particles, p.yh.xss ≠ []) ∧ t.particles.length = 2 :=
  C71.all_of (by decide +kernel)
example : (PN.ofTable "92235.00u".toList exNuclear).isOk := by decide +kernel
example : exNuclear.EndedByJXS 10 := ended_of (by decide +kernel)
example : PN.ofTable "92235.00u".toList C71.nuclear ≼ PN.ofTable "92235.00u".toList (C71.nuclear.padded [Dbl.ofNat 0]) :=
  C71_photonuclear_partial _ _ _ (.inl (by decide +kernel))
example : (PA.ofTable "92000.00p".toList exElectrons).isOk := by decide +kernel
example : exElectrons.count 6 = .ok 3 ∧ exElectrons.EndedByJXS 2 ∧ exElectrons.EndedByJXS 3 ∧
    exElectrons.EndedByJXS 18 :=
  ⟨by decide +kernel, ended_of (by decide +kernel), ended_of (by decide +kernel), ended_of (by decide +kernel)⟩

end ACE.Props

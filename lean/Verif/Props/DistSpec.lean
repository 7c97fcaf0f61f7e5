import Verif.Props.C18
import Verif.Props.C13
import Verif.Lemmas.EnergyBlock

/-!
# One distribution of an energy distribution block

`DistSpec` is a distribution as the user gives it: one energy law, or several with probabilities.
`s.Gives locator e` says that the data `e` found in a block at `locator` give back the values of `s`.
-/

namespace ACE.Props
open ACE

/-- A distribution: one law, or several laws built for a base locator. -/
inductive DistSpec where
  | one (s : LawSpec)
  | several (m : MultiSpec) (locb : Nat)

namespace DistSpec

/-- The calls of the constructors. -/
def build (sort : StdSort EquiEnergy.incident) : DistSpec → Res EnergyData
  | one s => do return .law (← s.build sort)
  | several m locb => do return .multi (← m.build sort locb)

/-- The values are in range; law 67 alone (C13) and laws 61 and 67 among several (C18) are excluded;
`several` means at least two laws. -/
def Ok : DistSpec → Prop
  | one s => s.Ok ∧ s.Nonempty ∧ s.number ≠ 67
  | several m _ => m.Ok ∧ 2 ≤ m.length

/-- The sizes of the distribution as the user built it fit. -/
def Fits (sort : StdSort EquiEnergy.incident) : DistSpec → Prop
  | one s => ∀ d, s.build sort = .ok d → FitsN (s.locator + d.words.length + 1)
  | several m locb => ∃ ps ds, m.Fits sort locb ps ds

/-- The data found in a block at `locator` give back the law with its number, incident energy range
and values, or the laws with their probabilities. -/
def Gives (sort : StdSort EquiEnergy.incident) (locator : Nat) : DistSpec → EnergyData → Prop
  | one s, .law d => d.LAW = s.number ∧
      ∃ emin emax, s.Range emin emax ∧ s.Gives (locator + 9) emin emax d
  | several m _, .multi d => ∃ ps ds, m.mapM (fun a => a.1.build) = .ok ps ∧
      m.mapM (fun a => a.2.build sort) = .ok ds ∧ MultiGives m (idatOf locator ps ds) d
  | _, _ => False

end DistSpec

/-- The number of words of a distribution in a block. -/
def distLen : EnergyData → Nat
  | .law d => 9 + d.words.length
  | .multi d => d.xss.length
  | .undefined => 0

theorem gives_LAW (s : LawSpec) (idat : Nat) (a b : Dbl) (d : LawData) (h : s.Gives idat a b d)
    (hn : s.number ≠ 67) : d.LAW = s.number := by
  cases s <;> cases d <;> first | rfl | exact absurd h id | exact absurd rfl hn

theorem multi_head {ps : List TabulatedData} {ds : List LawData} {locb : Nat} {d : MultiData}
    (h : MultiData.mk' ps ds locb = .ok d) (h2 : 2 ≤ ds.length) :
    ∃ n t, d.xss = Dbl.ofNat n :: t ∧ 0 < n ∧ n ≤ locb + d.xss.length := by
  unfold MultiData.mk' at h
  obtain ⟨xs, hx, h⟩ := bind_eq_ok.mp h
  have hd : d.xss = xs := by
    unfold MultiData.generateBlocks at h
    obtain ⟨_, _, h⟩ := bind_eq_ok.mp h
    injection h with h; rw [← h]
  rw [hd]
  unfold MultiData.generateXSS at hx
  obtain ⟨_, hg, hx⟩ := bind_eq_ok.mp hx
  have hl : ds.length = ps.length := by simpa using guardThrow_eq_ok.mp hg
  obtain ⟨e, e', ds', rfl⟩ : ∃ e e' ds', ds = e :: e' :: ds' := by
    cases ds with
    | nil => simp at h2
    | cons e ds => cases ds with
      | nil => simp at h2
      | cons e' ds => exact ⟨_, _, _, rfl⟩
  obtain ⟨p, p', ps', rfl⟩ : ∃ p p' ps', ps = p :: p' :: ps' := by
    cases ps with
    | nil => simp at hl
    | cons e ds => cases ds with
      | nil => simp at hl
      | cons e' ds => exact ⟨_, _, _, rfl⟩
  simp only [List.zip_cons_cons] at hx
  unfold MultiData.loop at hx
  obtain ⟨ws, hw, hx⟩ := bind_eq_ok.mp hx
  rw [loop_eq] at hx
  obtain ⟨tl, ht, hx⟩ := bind_eq_ok.mp hx
  injection hx with hx
  have e0 : (((p', e') :: ps'.zip ds').isEmpty) = false := rfl
  simp only [e0, Bool.false_eq_true, if_false, List.nil_append, List.length_nil, Nat.zero_add] at hx
  refine ⟨3 + p.xss.length + ws.length + locb, _, hx.symm, by omega, ?_⟩
  rw [← hx]
  simp
  omega

/-- A distribution can be placed at every locator, always with the same number of words, and is read
there with the values of the user. -/
theorem dist_placed (sort : StdSort EquiEnergy.incident) (s : DistSpec) (e : EnergyData)
    (hb : s.build sort = .ok e) (hok : s.Ok) (hfit : s.Fits sort) (locator : Nat)
    (hf : FitsN (locator + distLen e + 1)) :
    ∃ ws, e.placed locator = .ok ws ∧ ws.length = distLen e ∧ 0 < ws.length ∧
      ∀ rest, ∃ e', EnergyData.read locator (ws ++ rest) = .ok e' ∧ s.Gives sort locator e' := by
  cases s with
  | one s =>
    obtain ⟨d, hd, hb⟩ := bind_eq_ok.mp hb
    injection hb with hb; subst hb
    obtain ⟨h1, h2, h3⟩ := hok
    have F := law_facts sort s d hd h1 (hfit d hd)
    obtain ⟨emin, emax, h4, h5⟩ := F.nonempty h2
    obtain ⟨hr, hg⟩ := F.range _ _ h4 h5
    have hl : distLen (.law d) = 9 + d.words.length := rfl
    obtain ⟨ws, w1, w2, w3⟩ := F.place (locator + 9) (by omega)
    have hLAW : d.LAW = s.number := gives_LAW s _ _ _ d hg h3
    refine ⟨[Dbl.ofNat 0, Dbl.ofInt d.LAW, Dbl.ofNat (locator + 9), Dbl.ofNat 0, Dbl.ofNat 2, emin, emax,
        Dbl.ofNat 1, Dbl.ofNat 1] ++ ws, ?_, ?_, by simp, ?_⟩
    · show (do
        let emin ← d.emin
        let emax ← d.emax
        let ws ← d.placed (locator + 3 + 1 + 5)
        return [Dbl.ofNat 0, Dbl.ofInt d.LAW, Dbl.ofNat (locator + 3 + 1 + 5), Dbl.ofNat 0, Dbl.ofNat 2,
          emin, emax, Dbl.ofNat 1, Dbl.ofNat 1] ++ ws : Res Words) = _
      have e9 : locator + 3 + 1 + 5 = locator + 9 := by omega
      rw [e9, h4, h5, ok_bind, ok_bind, w1]
      rfl
    · rw [hl, ← w2]; simp; omega
    · intro rest
      obtain ⟨d', r1, r2⟩ := w3 emin emax rest
      refine ⟨.law d', ?_, gives_LAW s _ _ _ d' r2 h3, emin, emax, hr, r2⟩
      unfold EnergyData.read
      have d0 : ∀ (a : Words) (x : Dbl) (c : Words), deref (a ++ x :: c) a.length = .ok x :=
        fun a x c => deref_of_eq rfl rfl
      generalize hxs : [Dbl.ofNat 0, Dbl.ofInt d.LAW, Dbl.ofNat (locator + 9), Dbl.ofNat 0, Dbl.ofNat 2,
        emin, emax, Dbl.ofNat 1, Dbl.ofNat 1] ++ ws ++ rest = xs
      have x0 : deref xs 0 = .ok (Dbl.ofNat 0) := by rw [← hxs]; rfl
      have x1 : deref xs 1 = .ok (Dbl.ofInt d.LAW) := by rw [← hxs]; rfl
      have x2 : deref xs 2 = .ok (Dbl.ofNat (locator + 9)) := by rw [← hxs]; rfl
      have x3 : deref xs 3 = .ok (Dbl.ofNat 0) := by rw [← hxs]; rfl
      have x4 : deref xs 4 = .ok (Dbl.ofNat 2) := by rw [← hxs]; rfl
      have x5 : deref xs 5 = .ok emin := by rw [← hxs]; rfl
      have x6 : deref xs 6 = .ok emax := by rw [← hxs]; rfl
      have t0 : toU32 (some ((0 : Nat) : Int)) = .ok 0 := rfl
      rw [x0, ok_bind, Dbl.round?_ofNat, t0, ok_bind, if_pos rfl]
      unfold EnergyData.readLaw
      have tL : toShort (some d.LAW) = .ok s.number := by
        rw [hLAW]
        have : -32768 ≤ s.number ∧ s.number ≤ 32767 := by
          cases s <;> simp [LawSpec.number]
        show (if _ then _ else _) = _
        rw [if_pos this]
      have ti : toSize (some ((locator + 9 : Nat) : Int)) = .ok (locator + 9) :=
        toSize_natCast (by omega)
      have tz : toSize (some ((0 : Nat) : Int)) = .ok 0 := rfl
      have tt : toSize (some ((2 : Nat) : Int)) = .ok 2 := rfl
      have hsub : sub xs (locator + 9 - locator) xs.length = .ok (ws ++ rest) := by
        refine sub_of_eq (a := [Dbl.ofNat 0, Dbl.ofInt d.LAW, Dbl.ofNat (locator + 9), Dbl.ofNat 0,
          Dbl.ofNat 2, emin, emax, Dbl.ofNat 1, Dbl.ofNat 1]) (c := []) ?_ ?_ ?_
        · rw [← hxs]; simp
        · simp
        · rw [← hxs]; simp; omega
      have hlt : ¬ (locator + 9 < locator) := by omega
      simp only [x1, x2, x3, x4, x5, x6, ok_bind, Dbl.round?_ofNat, Dbl.round?_ofInt, tL, ti, tz, tt,
        hlt, if_false, hsub, r1, Nat.mul_zero, Nat.add_zero, Nat.reduceAdd]
      rfl
  | several m locb =>
    obtain ⟨d, hd, hb⟩ := bind_eq_ok.mp hb
    injection hb with hb; subst hb
    obtain ⟨h1, h2⟩ := hok
    obtain ⟨ps, ds, hF⟩ := hfit
    obtain ⟨d1, g1, g2, _, g3, _, _, g7, _⟩ := multi_full sort m h1 locb ps ds hF
    rw [hd] at g1; injection g1 with g1; subst g1
    have hl : distLen (.multi d) = d.xss.length := rfl
    rw [hl, g2] at hf
    obtain ⟨d', k1, k2, k3, k4⟩ := multi_again sort m h1 locb ps ds hF d hd locator hf
    obtain ⟨n, t, n1, n2, n3⟩ := multi_head k1 (by omega)
    refine ⟨d'.xss, ?_, by rw [hl, g2, k2], by rw [n1]; simp, fun rest => ?_⟩
    · show (do return (← MultiData.mk' d.probabilities d.distributions locator).xss : Res Words) = _
      rw [k1]; rfl
    · obtain ⟨r, r1, r2⟩ := k4 rest
      refine ⟨.multi r, ?_, ps, ds, hF.1, hF.2.1, r2⟩
      unfold EnergyData.read
      have x0 : deref (d'.xss ++ rest) 0 = .ok (Dbl.ofNat n) := by rw [n1]; rfl
      have tn : toU32 (some (n : Int)) = .ok n := by
        unfold FitsN at hf
        have e : toU32 (some (n : Int)) = if 0 ≤ (n : Int) ∧ (n : Int) < 4294967296
            then .ok (n : Int).toNat else .error .ub := rfl
        rw [e, if_pos (by omega), Int.toNat_natCast]
      rw [x0, ok_bind, Dbl.round?_ofNat, tn, ok_bind, if_neg (by omega), r1]
      rfl

end ACE.Props

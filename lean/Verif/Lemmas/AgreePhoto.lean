import Verif.Lemmas.AgreeContinuous

/-!
# Words behind the last word of a photonuclear or a photoatomic table
-/

namespace ACE

namespace Padded

variable (d : TableData) (ys : Words)

theorem paBlock (index : Nat) : Up (Ends d ys) (PA.block d index) (PA.block (d.padded ys) index) := by
  unfold PA.block
  refine Up.bind (Up.same (d.locator index)) fun start _ => Up.ite (Up.error _ _) ?_
  show Up _ (match (d.jxs.drop index).find? (fun value => decide (start ≤ sizeOfInt value)) with
    | none => d.range start 0
    | some value => d.range start (sizeOfInt value)) (match (d.jxs.drop index).find?
      (fun value => decide (start ≤ sizeOfInt value)) with
    | none => (d.padded ys).range start 0
    | some value => (d.padded ys).range start (sizeOfInt value))
  cases (d.jxs.drop index).find? (fun value => decide (start ≤ sizeOfInt value)) with
  | none => exact range d ys _ _
  | some value => exact range d ys _ _

theorem ended {index : Nat} (h : d.EndedByJXS index) :
    Up Eq (PA.block d index) (PA.block (d.padded ys) index) := by
  unfold PA.block
  obtain ⟨v, hv, hs⟩ := h
  refine Up.bind (Up.same (d.locator index)) fun start e => Up.dite' (fun _ => Up.error _ _) fun h0 => ?_
  show Up _ (match (d.jxs.drop index).find? (fun value => decide (start ≤ sizeOfInt value)) with
    | none => d.range start 0
    | some value => d.range start (sizeOfInt value)) (match (d.jxs.drop index).find?
      (fun value => decide (start ≤ sizeOfInt value)) with
    | none => (d.padded ys).range start 0
    | some value => (d.padded ys).range start (sizeOfInt value))
  cases hf : (d.jxs.drop index).find? (fun value => decide (start ≤ sizeOfInt value)) with
  | none => exact absurd (hs start e) (by simpa using List.find?_eq_none.mp hf v hv)
  | some value =>
      have := List.find?_some hf
      exact rangeStop d ys _ _ (by simp at this; omega)

/-! ### Photonuclear -/

theorem geNat_one {y : Dbl} {n : Nat} (h : y.geNat 1 = false) (hn : n ≠ 0) : y.geNat n = false := by
  cases y with
  | nan => rfl
  | inf s => cases s <;> simp_all [Dbl.geNat]
  | fin s m e =>
      cases s with
      | true => simp [Dbl.geNat, hn]
      | false =>
          simp only [Dbl.geNat] at h ⊢
          split at h
          · rename_i he
            rw [if_pos he]
            simp only [decide_eq_false_iff_not] at h ⊢
            omega
          · rename_i he
            rw [if_neg he]
            simp only [decide_eq_false_iff_not] at h ⊢
            have : 1 * 2 ^ (-e).toNat ≤ n * 2 ^ (-e).toNat := Nat.mul_le_mul_right _ (by omega)
            omega

/-- The locators of the particles: the same, or with the appended words behind them. -/
def Locators (i i' : IXSU) : Prop := i'.ntype = i.ntype ∧
  (i'.xss = i.xss ∨ (i'.xss = i.xss ++ ys ∧ ∀ y ∈ ys, y.geNat 1 = false))

variable {ys} in
theorem locators_gives {i i' : IXSU} (h : Locators ys i i') : i ≼ i' := by
  obtain ⟨xs, n⟩ := i
  obtain ⟨xs', n'⟩ := i'
  obtain ⟨h1, h2⟩ := h
  dsimp only at h1 h2
  subst h1
  rcases h2 with h2 | ⟨h2, _⟩
  · subst h2; exact GivesSelf.self _
  · subst h2
    have l : IXSU.LLOC ⟨xs, n'⟩ ≼ IXSU.LLOC ⟨xs ++ ys, n'⟩ := fun _ _ =>
      Up.bind (Longer.IXSS xs ys _) fun _ _ => Up.same _
    exact ⟨rfl, l, fun p => Up.bind (l p 1) fun _ _ => Up.same _,
      fun p => Up.bind (l p 2) fun _ _ => Up.same _,
      fun t => Up.bind (Longer.ixsuSearch xs ys n' t n' 1) fun _ _ => Up.same _,
      fun t => Up.bind (Longer.ixsuSearch xs ys n' t n' 1) fun _ _ => Up.same _⟩

variable {ys} in
theorem locators (hy : (∀ y ∈ ys, y.geNat 1 = false) ∨ d.EndedByJXS 10) (n : Nat) :
    Up (Locators ys) (do IXSU.ofRange (← d.words (← PA.block d 10)) n)
      (do IXSU.ofRange (← (d.padded ys).words (← PA.block (d.padded ys) 10)) n) := by
  rcases hy with hy | hy
  · refine Up.step (paBlock d ys 10) fun _ _ _ _ h1 => Up.step (words d ys h1) fun v v' _ _ h => ?_
    rcases h with h | h
    · subst h; exact Up.refl (fun i => ⟨rfl, .inl rfl⟩) _
    · subst h
      exact Up.bind (Longer.size v ys _) fun _ _ => Up.pure' ⟨rfl, .inr ⟨rfl, hy⟩⟩
  · exact Up.bind (ended d ys hy) fun r _ => Up.bind (Longer.sub d.xss ys r.1 r.2) fun v _ =>
      Up.refl (fun i => ⟨rfl, .inl rfl⟩) _

variable {ys} in
theorem pnParticle {ixs ixs' : IXSU} (h : Locators ys ixs ixs')
    (particle index : Nat) : Up (Ends d ys) (PN.particleBlock d ixs particle index)
      (PN.particleBlock (d.padded ys) ixs' particle index) := by
  unfold PN.particleBlock
  refine Up.bind ((locators_gives h).2.1 particle index) fun start _ => ?_
  by_cases h0 : start = 0
  · subst h0
    intro r hr
    obtain ⟨_, _, h2⟩ := bind_eq_ok.mp hr
    unfold TableData.range at h2
    rw [if_pos (Or.inl rfl)] at h2
    cases h2
  refine Up.bind ?_ fun stop _ => range d ys start stop
  unfold PN.particleEnd
  rcases h.2 with e | ⟨e, hy⟩
  · rw [e]; exact Up.same _
  rw [e]
  refine Up.step (Longer.rest ixs.xss ys _) fun w w' _ _ e => ?_
  have hf : w'.find? (fun value => value.geNat start) = w.find? (fun value => value.geNat start) := by
    rw [e, List.find?_append]
    have : ys.find? (fun value => value.geNat start) = none :=
      List.find?_eq_none.mpr fun y hm => by rw [geNat_one (hy y hm) h0]; exact Bool.false_ne_true
    rw [this, Option.or_none]
  rw [hf]
  exact Up.same _

variable {ys} in
theorem pnRead {ixs ixs' : IXSU} (h : Locators ys ixs ixs')
    (index : Nat) : Up Gives.rel (PN.readParticle d ixs index)
      (PN.readParticle (d.padded ys) ixs' index) := by
  have b := pnParticle d h index
  unfold PN.readParticle
  refine Up.step (b 3) fun _ _ _ _ h1 => Up.step (words d ys h1) fun w _ _ _ w1 =>
    Up.step (gives ys (f := CrossSectionData.ofRange) w1 (Longer.crossSection w ys)) fun _ _ _ _ g1 => ?_
  refine Up.step (b 4) fun _ _ _ _ h1 => Up.step (words d ys h1) fun w _ _ _ w1 =>
    Up.step (gives ys (f := CrossSectionData.ofRange) w1 (Longer.crossSection w ys)) fun _ _ _ _ g2 => ?_
  refine Up.bind ((locators_gives h).2.2.2.1 index) fun n _ => ?_
  refine Up.step (b 5) fun _ _ _ _ h1 => Up.step (words d ys h1) fun _ _ _ _ w1 =>
    Up.step (array ys w1 n 1) fun _ _ _ _ g3 => ?_
  refine Up.step (b 6) fun _ _ _ _ h1 => Up.step (words d ys h1) fun _ _ _ _ w1 =>
    Up.step (tyr ys w1 n) fun _ _ _ _ g4 => ?_
  refine Up.step (b 7) fun _ _ _ _ h1 => Up.step (b 8) fun _ _ _ _ h2 =>
    Up.step (located d ys h1 h2) fun _ _ _ _ l => Up.step (sigh l n) fun _ _ _ _ g5 => ?_
  refine Up.step (b 9) fun _ _ _ _ h1 => Up.step (b 10) fun _ _ _ _ h2 =>
    Up.step (located d ys h1 h2) fun _ _ _ _ l => Up.step (angular l n false) fun _ _ _ _ g6 => ?_
  refine Up.step (b 11) fun _ _ _ _ h1 => Up.step (b 12) fun _ _ _ _ h2 =>
    Up.step (located d ys h1 h2) fun p p' _ _ l => ?_
  rw [l.1]
  exact Up.step (dlwh ys l.2 p.2 g4 n) fun _ _ _ _ g7 =>
    Up.pure' ⟨g1, g2, g3, tyr_gives g4, g5, g6, g7⟩

variable {ys} in
theorem photonuclearBlocks (hy : (∀ y ∈ ys, y.geNat 1 = false) ∨ d.EndedByJXS 10) (zaid : List Char) :
    PN.generateBlocks zaid d ≼ PN.generateBlocks zaid (d.padded ys) := by
  unfold PN.generateBlocks
  refine Up.bind (Up.same (d.JXS 4)) fun j _ => Up.step (paBlock d ys 1) fun r1 r1' _ _ b1 =>
    Up.step (paBlock d ys 6) fun r6 r6' _ _ b6 => ?_
  rw [b1.1, b6.1]
  refine Up.step (subs d ys r1.1 r6.1 r6.1 (.inl rfl)) fun _ _ _ _ w1 =>
    Up.bind (Up.same (d.count 3)) fun nes _ => Up.step (array ys w1 nes _) fun _ _ _ _ g1 =>
    Up.bind (Up.same (d.count 4)) fun n _ => ?_
  refine Up.step (words d ys b6) fun _ _ _ _ w1 => Up.step (array ys w1 n 1) fun _ _ _ _ g2 => ?_
  refine Up.step (paBlock d ys 7) fun _ _ _ _ h1 => Up.step (words d ys h1) fun _ _ _ _ w1 =>
    Up.step (array ys w1 n 1) fun _ _ _ _ g3 => ?_
  refine Up.step (paBlock d ys 8) fun _ _ _ _ h1 => Up.step (paBlock d ys 9) fun _ _ _ _ h2 =>
    Up.step (located d ys h1 h2) fun _ _ _ _ l => Up.step (sig l n) fun _ _ _ _ g4 => ?_
  refine Up.bind (Up.same (d.count 5)) fun ntype _ => ?_
  have s : Up (fun s s' : IXSU × List PN.Particle => s.1 ≼ s'.1 ∧ List.Forall₂ (· ≼ ·) s.2 s'.2)
      (PN.readSecondaries d ntype) (PN.readSecondaries (d.padded ys) ntype) := by
    unfold PN.readSecondaries
    have k {r r' : Res IXSU} (f : IXSU → Res (IXSU × List PN.Particle)) (f' : IXSU → Res (IXSU × List PN.Particle))
        (hr : Up (Locators ys) r r')
        (hf : ∀ i i', Locators ys i i' → Up (fun s s' : IXSU × List PN.Particle =>
          s.1 ≼ s'.1 ∧ List.Forall₂ (· ≼ ·) s.2 s'.2) (f i) (f' i')) :
        Up (fun s s' : IXSU × List PN.Particle => s.1 ≼ s'.1 ∧ List.Forall₂ (· ≼ ·) s.2 s'.2)
          (r >>= f) (r' >>= f') := Up.step hr fun i i' _ _ h => hf i i' h
    have := k (fun ixs => do return (ixs, ← (List.range' 1 ntype).mapM (PN.readParticle d ixs)))
      (fun ixs => do return (ixs, ← (List.range' 1 ntype).mapM (PN.readParticle (d.padded ys) ixs)))
      (locators d hy ntype) fun i i' hl => Up.step (Up.mapM _ fun i _ => pnRead d hl i)
        fun _ _ _ _ g => Up.pure' ⟨locators_gives hl, g⟩
    simpa only [bind_assoc, PN.block] using this
  refine Up.step (A := UpIf.BothBy _) (fun v hv => UpIf.onlyIfR (P := fun _ => True)
    (decide (ntype > 0)) (UpIf.ofUp s) v hv fun _ _ => trivial) fun s s' _ _ g5 => ?_
  have b3 : Both (s.map (·.1)) (s'.map (·.1)) := by
    rcases s with _ | s <;> rcases s' with _ | s'
    · exact trivial
    · exact g5.elim
    · exact g5.elim
    · exact g5.1
  refine Up.pure' ⟨rfl, ⟨rfl, rfl, rfl, rfl⟩, g1, g2, g3, g4, b3, ?_⟩
  rcases s with _ | s <;> rcases s' with _ | s'
  · exact .nil
  · exact g5.elim
  · exact g5.elim
  · exact g5.2

variable {ys} in
theorem photonuclear (hy : (∀ y ∈ ys, y.geNat 1 = false) ∨ d.EndedByJXS 10) (zaid : List Char) :
    PN.ofTable zaid d ≼ PN.ofTable zaid (d.padded ys) := by
  refine Up.bind (Up.same _) fun _ _ => Up.step (setSZA d ys zaid) fun v v' e1 _ e => ?_
  subst e
  refine photonuclearBlocks v (hy.imp_right fun h => ?_) zaid
  have hj := setSZA_jxs d zaid e1
  unfold TableData.EndedByJXS TableData.locator TableData.JXS at h ⊢
  rw [hj]
  exact h

/-! ### Photoatomic -/

theorem eion (nssh index : Nat) : PA.readEION d nssh index ≼ PA.readEION (d.padded ys) nssh index := by
  have w (i : Nat) : Up Eq (PA.wordOffset d i) (PA.wordOffset (d.padded ys) i) :=
    Up.bind (Longer.deref d.xss ys i) fun _ _ => Up.same _
  unfold PA.readEION
  refine Up.bind (offset d ys 23) fun j _ => Up.bind (Longer.deref d.xss ys _) fun x _ =>
    Up.bind (Up.same _) fun n _ => Up.bind (w _) fun start _ => ?_
  have rest (stop : Nat) : Up Gives.rel (sub d.xss start stop >>= fun v => ElectronBlock.ofRange v n)
      (sub (d.padded ys).xss start stop >>= fun v => ElectronBlock.ofRange v n) :=
    Up.bind (Longer.sub d.xss ys _ _) fun v _ => Up.refl (fun b => GivesSelf.self b) _
  dsimp only
  split
  · exact Up.bind (w _) fun stop _ => rest stop
  · exact Up.bind (offset d ys 24) fun stop _ => rest stop

theorem shells (nsh : Nat) : Up (fun p p' : EPS × SWD => p.1 ≼ p'.1 ∧ p.2 ≼ p'.2)
    (PA.readShells d nsh) (PA.readShells (d.padded ys) nsh) := by
  unfold PA.readShells
  refine Up.step (paBlock d ys 6) fun l6 l6' _ _ h6 => Up.step (paBlock d ys 8) fun l8 l8' _ _ h8 => ?_
  rw [h6.1]
  refine Up.step (subs d ys _ _ _ h8.snd) fun _ _ _ _ w1 => Up.step (array ys w1 nsh 3)
    fun _ _ _ _ g1 => ?_
  refine Up.step (paBlock d ys 9) fun _ _ _ _ h1 => Up.step (paBlock d ys 10) fun _ _ _ _ h2 =>
    Up.step (located d ys h1 h2) fun p p' _ _ l => ?_
  rw [l.1]
  exact Up.step (gives ys (f := fun v => SWD.ofRange v p.2 nsh) l.2
    (Longer.locBlock p.1 ys (fun _ ws => Longer.prob ws ys) p.2 nsh true)) fun _ _ _ _ g2 =>
    Up.pure' ⟨g1, g2⟩

def Electron (e e' : PA.Electrons) : Prop :=
  e.subsh ≼ e'.subsh ∧ e.sphel ≼ e'.sphel ∧ e.xprob = e'.xprob ∧ e.esze ≼ e'.esze ∧
  e.excit ≼ e'.excit ∧ e.elas ≼ e'.elas ∧ List.Forall₂ (· ≼ ·) e.eion e'.eion ∧
  e.breme ≼ e'.breme ∧ e.breml ≼ e'.breml ∧ Both e.selas e'.selas

theorem electrons (nepr : Nat) (hx : d.EndedByJXS 18) :
    Up Electron (PA.readElectrons d nepr) (PA.readElectrons (d.padded ys) nepr) := by
  have block := paBlock d ys
  have ele {v v' : Words} (h : Ext ys v v') (n : Nat) :
      ElectronBlock.ofRange v n ≼ ElectronBlock.ofRange v' n :=
    gives ys (f := fun v => ElectronBlock.ofRange v n) h (Longer.electronBlock v ys n)
  unfold PA.readElectrons
  refine Up.bind (Up.same (d.count 7)) fun nssh _ => Up.bind (Up.same (d.count 8)) fun ne _ =>
    Up.step (block 11) fun s11 s11' _ _ h11 => Up.step (block 16) fun s16 s16' _ _ h16 => ?_
  rw [h11.1, h16.1]
  refine Up.step (subs d ys s11.1 s16.1 s16.1 (.inl rfl)) fun _ _ _ _ w1 =>
    Up.step (array ys w1 nssh 5) fun _ _ _ _ g1 => ?_
  refine Up.step (words d ys h16) fun _ _ _ _ w1 => Up.bind (Up.same (d.count 3)) fun nes _ =>
    Up.step (array ys w1 nes nssh) fun _ _ _ _ g2 => ?_
  refine Up.step (block 17) fun l17 l17' _ _ h17 => Up.bind (ended d ys hx) fun l18 _ => ?_
  have hl : Up Eq (CE.located d l17 l18) (CE.located (d.padded ys) l17' l18) := by
    unfold CE.located
    rw [h17.1]
    exact Up.bind (Longer.sub d.xss ys _ _) fun _ _ => Up.same _
  refine Up.bind hl fun lx _ => Up.bind (Up.same (XPROB.ofRange lx.1 lx.2 nssh)) fun xprob _ => ?_
  refine Up.step (block 19) fun _ _ _ _ h1 => Up.step (words d ys h1) fun _ _ _ _ w1 =>
    Up.step (array ys w1 ne (6 + nssh)) fun _ _ _ _ g3 => ?_
  refine Up.step (block 20) fun _ _ _ _ h1 => Up.step (words d ys h1) fun _ _ _ _ w1 =>
    Up.bind (Up.same (d.count 9)) fun nxl _ => Up.step (array ys w1 nxl 2) fun _ _ _ _ g4 => ?_
  refine Up.step (block 21) fun s21 s21' _ _ h21 => Up.step (block 22) fun s22 s22' _ _ h22 => ?_
  rw [h21.1]
  refine Up.step (subs d ys _ _ _ h22.snd) fun _ _ _ _ w1 => Up.bind (Up.same (d.count 10)) fun na _ =>
    Up.step (ele w1 na) fun _ _ _ _ g5 => ?_
  refine Up.step (Up.mapM _ fun i _ => eion d ys nssh i) fun _ _ _ _ g6 => ?_
  refine Up.step (block 24) fun s24 s24' _ _ h24 => Up.step (block 25) fun s25 s25' _ _ h25 => ?_
  rw [h24.1]
  refine Up.step (subs d ys _ _ _ h25.snd) fun _ _ _ _ w1 => Up.bind (Up.same (d.count 11)) fun nb _ =>
    Up.step (ele w1 nb) fun _ _ _ _ g7 => ?_
  refine Up.step (block 26) fun _ _ _ _ h1 => Up.step (words d ys h1) fun _ _ _ _ w1 =>
    Up.bind (Up.same (d.count 12)) fun nbl _ => Up.step (array ys w1 nbl 2) fun _ _ _ _ g8 => ?_
  refine Up.step (onlyIf (decide (nepr = 3)) (Up.step (block 27) fun _ _ _ _ h1 =>
    Up.step (words d ys h1) fun _ _ _ _ w1 => array ys w1 ne 2)) fun _ _ _ _ g9 => ?_
  exact Up.pure' ⟨g1, g2, rfl, g3, g4, g5, g6, g7, g8, g9⟩

theorem photoatomic (zaid : List Char) (h2 : d.EndedByJXS 2) (h3 : d.EndedByJXS 3)
    (hx : ∀ n, d.count 6 = .ok n → n > 0 → d.EndedByJXS 18) :
    PA.ofTable zaid d ≼ PA.ofTable zaid (d.padded ys) := by
  refine Up.bind (Up.same _) fun _ _ => ?_
  unfold PA.generateBlocks
  refine Up.bind (Up.same (d.count 3)) fun nes _ => Up.step (paBlock d ys 1) fun _ _ _ _ h1 =>
    Up.step (words d ys h1) fun _ _ _ _ w1 => Up.step (array ys w1 nes 5) fun _ _ _ _ g1 => ?_
  have sub (r : Nat × Nat) : Up Eq (d.words r) ((d.padded ys).words r) := Longer.sub d.xss ys r.1 r.2
  refine Up.bind (ended d ys h2) fun r _ => Up.bind (sub r) fun v _ => Up.bind (Up.same (JINC.ofRange v))
    fun jinc _ => ?_
  refine Up.bind (ended d ys h3) fun r _ => Up.bind (sub r) fun v _ => Up.bind (Up.same (JCOH.ofRange v))
    fun jcoh _ => ?_
  refine Up.bind (Up.same (d.count 4)) fun nflo _ => Up.step (onlyIf (decide (nflo > 0))
    (Up.step (paBlock d ys 4) fun _ _ _ _ h1 => Up.step (words d ys h1) fun _ _ _ _ w1 =>
      array ys w1 nflo 4)) fun _ _ _ _ g2 => ?_
  refine Up.step (paBlock d ys 5) fun _ _ _ _ h1 => Up.step (words d ys h1) fun _ _ _ _ w1 =>
    Up.step (array ys w1 nes 1) fun _ _ _ _ g3 => ?_
  refine Up.bind (Up.same (d.count 5)) fun nsh _ => ?_
  refine Up.step (A := UpIf.BothBy _) (fun v hv => UpIf.onlyIfR (P := fun _ => True)
    (decide (nsh > 0)) (UpIf.ofUp (shells d ys nsh)) v hv fun _ _ => trivial) fun s s' _ _ g4 => ?_
  refine Up.bind (Up.same (d.count 6)) fun nepr hn => ?_
  have he : Up (UpIf.BothBy Electron) (CE.onlyIf (decide (nepr > 0)) (PA.readElectrons d nepr))
      (CE.onlyIf (decide (nepr > 0)) (PA.readElectrons (d.padded ys) nepr)) := by
    by_cases h : nepr > 0
    · exact fun v hv => UpIf.onlyIfR (P := fun _ => True) (decide (nepr > 0))
        (UpIf.ofUp (electrons d ys nepr (hx nepr hn h))) v hv fun _ _ => trivial
    · rw [decide_eq_false h]
      exact Up.ok trivial
  refine Up.step he fun e e' _ _ g5 => ?_
  have b1 : Both (s.map (·.1)) (s'.map (·.1)) ∧ Both (s.map (·.2)) (s'.map (·.2)) := by
    rcases s with _ | s <;> rcases s' with _ | s'
    · exact ⟨trivial, trivial⟩
    · exact g4.elim
    · exact g4.elim
    · exact g4
  have b2 : Both (e.map (·.subsh)) (e'.map (·.subsh)) ∧ Both (e.map (·.sphel)) (e'.map (·.sphel)) ∧
      e.map (·.xprob) = e'.map (·.xprob) ∧ Both (e.map (·.esze)) (e'.map (·.esze)) ∧
      Both (e.map (·.excit)) (e'.map (·.excit)) ∧ Both (e.map (·.elas)) (e'.map (·.elas)) ∧
      Both (e.map (·.breme)) (e'.map (·.breme)) ∧ Both (e.map (·.breml)) (e'.map (·.breml)) ∧
      Both (e.bind (·.selas)) (e'.bind (·.selas)) := by
    rcases e with _ | e <;> rcases e' with _ | e'
    · exact ⟨trivial, trivial, rfl, trivial, trivial, trivial, trivial, trivial, trivial⟩
    · exact g5.elim
    · exact g5.elim
    · exact ⟨g5.1, g5.2.1, congrArg some g5.2.2.1, g5.2.2.2.1, g5.2.2.2.2.1, g5.2.2.2.2.2.1,
        g5.2.2.2.2.2.2.2.1, g5.2.2.2.2.2.2.2.2.1, g5.2.2.2.2.2.2.2.2.2⟩
  refine Up.pure' ⟨rfl, ⟨rfl, rfl, rfl, rfl⟩, g1, rfl, rfl, g2, g3, b1.1, b1.2, b2.1, b2.2.1, b2.2.2.1,
    b2.2.2.2.1, b2.2.2.2.2.1, b2.2.2.2.2.2.1, ?_, b2.2.2.2.2.2.2.1, b2.2.2.2.2.2.2.2.1,
    b2.2.2.2.2.2.2.2.2⟩
  rcases e with _ | e <;> rcases e' with _ | e'
  · exact .nil
  · exact g5.elim
  · exact g5.elim
  · exact g5.2.2.2.2.2.2.1

end Padded

end ACE

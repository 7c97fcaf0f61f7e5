import Verif.Lemmas.AgreeTables

/-!
# Words behind the last word of a continuous energy table
-/

namespace ACE

namespace Padded

variable (d : TableData) (ys : Words)

theorem ceBlock (index : Nat) : Up (Ends d ys) (CE.block d index) (CE.block (d.padded ys) index) :=
  Up.bind (Up.same (d.locator index)) fun start _ => Up.bind (Up.same (CE.blockEnd d index start))
    fun stop _ => range d ys start stop

theorem ceWords (index : Nat) : Up (Ext ys) (do d.words (← CE.block d index))
    (do (d.padded ys).words (← CE.block (d.padded ys) index)) :=
  Up.step (ceBlock d ys index) fun _ _ _ _ h => words d ys h

theorem ceLocators {n : Nat} (hn : d.count 7 = .ok n) (h : n ≠ 0) :
    Up Eq (CE.block d 32) (CE.block (d.padded ys) 32) := by
  refine Up.bind (Up.same (d.locator 32)) fun start _ => ?_
  have e : CE.blockEnd d 32 start = .ok (start + n * 10 + 1) := by
    unfold CE.blockEnd
    rw [if_pos rfl, hn, ok_bind, if_pos h]
    rfl
  have e' : CE.blockEnd (d.padded ys) 32 start = .ok (start + n * 10 + 1) := e
  rw [e, e', ok_bind, ok_bind]
  exact rangeStop d ys _ _ (by omega)

theorem ceParticle (ixs : IXS) (particle index : Nat) :
    Up (Ends d ys) (CE.particleBlock d ixs particle index)
      (CE.particleBlock (d.padded ys) ixs particle index) :=
  Up.bind (Up.same (ixs.LLOC particle index)) fun start _ =>
    Up.bind (Up.same (CE.particleEnd ixs particle index start)) fun stop _ => range d ys start stop

variable {ys} in
theorem sig {p p' : Words × Nat} (h : p'.2 = p.2 ∧ Ext ys p.1 p'.1) (n : Nat) :
    SIG.ofRange p.1 p.2 n ≼ SIG.ofRange p'.1 p'.2 n := by
  rw [h.1]
  exact gives ys (f := fun v => SIG.ofRange v p.2 n) h.2
    (Longer.locBlock p.1 ys (fun _ ws => Longer.crossSection ws ys) p.2 n true)

variable {ys} in
theorem sigp {p p' : Words × Nat} (h : p'.2 = p.2 ∧ Ext ys p.1 p'.1) (n : Nat) :
    SIGP.ofRange p.1 p.2 n ≼ SIGP.ofRange p'.1 p'.2 n := by
  rw [h.1]
  exact gives ys (f := fun v => SIGP.ofRange v p.2 n) h.2
    (Longer.locBlock p.1 ys (fun loc ws => Longer.photonData ws ys loc) p.2 n true)

variable {ys} in
theorem sigh {p p' : Words × Nat} (h : p'.2 = p.2 ∧ Ext ys p.1 p'.1) (n : Nat) :
    SIGH.ofRange p.1 p.2 n ≼ SIGH.ofRange p'.1 p'.2 n := by
  rw [h.1]
  exact gives ys (f := fun v => SIGH.ofRange v p.2 n) h.2
    (Longer.locBlock p.1 ys (fun _ ws => Longer.tabMult ws ys) p.2 n true)

variable {ys} in
theorem angular {p p' : Words × Nat} (h : p'.2 = p.2 ∧ Ext ys p.1 p'.1) (n : Nat) (zero : Bool) :
    AngularBlock.ofRange p.1 p.2 n zero ≼ AngularBlock.ofRange p'.1 p'.2 n zero := by
  rw [h.1]
  exact gives ys (f := fun v => AngularBlock.ofRange v p.2 n zero) h.2
    (Longer.angularBlock p.1 ys p.2 n zero)

variable {ys} in
theorem dlwhNone {p p' : Words × Nat} (h : p'.2 = p.2 ∧ Ext ys p.1 p'.1) (n : Nat) :
    DLWH.ofRange p.1 p.2 none n ≼ DLWH.ofRange p'.1 p'.2 none n := by
  rw [h.1]
  exact gives ys (f := fun v => DLWH.ofRange v p.2 none n) h.2 (Longer.dlwh p.1 ys p.2 none n)

/-- The parts of the table side by side. -/
def Principals (p p' : CE.Principal) : Prop :=
  p.esz ≼ p'.esz ∧ Both p.nu p'.nu ∧ p.mtr ≼ p'.mtr ∧ p.lqr ≼ p'.lqr ∧ p.tyr ≼ p'.tyr ∧
  p.sig ≼ p'.sig ∧ p.ang ≼ p'.ang ∧ p.dlw ≼ p'.dlw

theorem onlyIf {α : Type} [Gives α] {r r' : Res α} (present : Bool) (h : r ≼ r') :
    Up Both (CE.onlyIf present r) (CE.onlyIf present r') := by
  unfold CE.onlyIf
  split
  · exact Up.step h fun _ _ _ _ hv => Up.pure' hv
  · exact Up.ok trivial

theorem principal : Up Principals (CE.readPrincipal d) (CE.readPrincipal (d.padded ys)) := by
  unfold CE.readPrincipal
  refine Up.bind (Up.same (d.count 4)) fun ntr _ => Up.bind (Up.same (d.count 5)) fun nr _ => ?_
  refine Up.step (ceBlock d ys 1) fun _ _ _ _ h1 => Up.step (words d ys h1) fun _ _ _ _ w1 =>
    Up.bind (Up.same (d.count 3)) fun nes _ => Up.step (array ys w1 nes 5) fun esz esz' _ _ g1 => ?_
  refine Up.bind (Up.same (d.JXS 2)) fun j _ => Up.step (onlyIf (decide (j > 0)) ?_) fun nu nu' _ _ g2 => ?_
  · exact Up.step (ceBlock d ys 2) fun _ _ _ _ h1 => Up.step (words d ys h1) fun w _ _ _ w1 =>
      gives ys (f := NU.ofRange) w1 (Longer.nu w ys)
  refine Up.step (ceBlock d ys 3) fun _ _ _ _ h1 => Up.step (words d ys h1) fun _ _ _ _ w1 =>
    Up.step (array ys w1 ntr 1) fun mtr mtr' _ _ g3 => ?_
  refine Up.step (ceBlock d ys 4) fun _ _ _ _ h1 => Up.step (words d ys h1) fun _ _ _ _ w1 =>
    Up.step (array ys w1 ntr 1) fun lqr lqr' _ _ g4 => ?_
  refine Up.step (ceBlock d ys 5) fun _ _ _ _ h1 => Up.step (words d ys h1) fun _ _ _ _ w1 =>
    Up.step (tyr ys w1 ntr) fun tyr tyr' _ _ g5 => ?_
  refine Up.step (ceBlock d ys 6) fun _ _ _ _ h1 => Up.step (ceBlock d ys 7) fun _ _ _ _ h2 =>
    Up.step (located d ys h1 h2) fun _ _ _ _ l => Up.step (sig l ntr) fun _ _ _ _ g6 => ?_
  refine Up.step (ceBlock d ys 8) fun _ _ _ _ h1 => Up.step (ceBlock d ys 9) fun _ _ _ _ h2 =>
    Up.step (located d ys h1 h2) fun _ _ _ _ l => Up.step (angular l nr true) fun _ _ _ _ g7 => ?_
  refine Up.step (ceBlock d ys 10) fun _ _ _ _ h1 => Up.step (ceBlock d ys 11) fun _ _ _ _ h2 =>
    Up.step (located d ys h1 h2) fun p p' _ _ l => ?_
  rw [l.1]
  exact Up.step (dlw ys l.2 p.2 g5 nr) fun _ _ _ _ g8 =>
    Up.pure' ⟨g1, g2, g3, g4, tyr_gives g5, g6, g7, g8⟩

def Photons (p p' : CE.Photons) : Prop :=
  p.gpd ≼ p'.gpd ∧ p.mtrp ≼ p'.mtrp ∧ p.sigp ≼ p'.sigp ∧ p.andp ≼ p'.andp ∧ p.dlwp ≼ p'.dlwp ∧
  p.yp ≼ p'.yp

theorem photons : UpIf (fun p : CE.Photons => p.yp.xss ≠ []) Photons (CE.readPhotons d)
    (CE.readPhotons (d.padded ys)) := by
  unfold CE.readPhotons
  refine UpIf.bind (Up.same (d.count 3)) fun nes _ => UpIf.bind (Up.same (d.count 6)) fun n _ => ?_
  refine UpIf.up (ceBlock d ys 12) fun _ _ _ h1 => UpIf.up (words d ys h1) fun _ _ _ w1 =>
    UpIf.up (array ys w1 nes 1) fun _ _ _ g1 => ?_
  refine UpIf.up (ceBlock d ys 13) fun _ _ _ h1 => UpIf.up (words d ys h1) fun _ _ _ w1 =>
    UpIf.up (array ys w1 n 1) fun _ _ _ g2 => ?_
  refine UpIf.up (ceBlock d ys 14) fun _ _ _ h1 => UpIf.up (ceBlock d ys 15) fun _ _ _ h2 =>
    UpIf.up (located d ys h1 h2) fun _ _ _ l => UpIf.up (sigp l n) fun _ _ _ g3 => ?_
  refine UpIf.up (ceBlock d ys 16) fun _ _ _ h1 => UpIf.up (ceBlock d ys 17) fun _ _ _ h2 =>
    UpIf.up (located d ys h1 h2) fun _ _ _ l => UpIf.up (angular l n false) fun _ _ _ g4 => ?_
  refine UpIf.up (ceBlock d ys 18) fun _ _ _ h1 => UpIf.up (ceBlock d ys 19) fun _ _ _ h2 =>
    UpIf.up (located d ys h1 h2) fun _ _ _ l => UpIf.up (dlwhNone l n) fun _ _ _ g5 => ?_
  refine UpIf.up (ceBlock d ys 20) fun _ _ _ h1 => UpIf.up (words d ys h1) fun _ _ _ w1 =>
    UpIf.step (yp ys w1) (fun v p hp hP => ?_) fun _ _ _ g6 => UpIf.ofUp (Up.pure' ⟨g1, g2, g3, g4, g5, g6⟩)
  rw [← Except.ok.inj hp] at hP
  exact hP

theorem delayed : Up (fun p p' : BDD × DLWH => p.1 ≼ p'.1 ∧ p.2 ≼ p'.2) (CE.readDelayed d)
    (CE.readDelayed (d.padded ys)) := by
  unfold CE.readDelayed
  refine Up.bind (Up.same (d.count 8)) fun n _ => ?_
  refine Up.step (ceBlock d ys 25) fun _ _ _ _ h1 => Up.step (words d ys h1) fun w _ _ _ w1 =>
    Up.step (gives ys (f := fun w => BDD.ofRange w n) w1 (Longer.bdd w ys n)) fun _ _ _ _ g1 => ?_
  exact Up.step (ceBlock d ys 26) fun _ _ _ _ h1 => Up.step (ceBlock d ys 27) fun _ _ _ _ h2 =>
    Up.step (located d ys h1 h2) fun _ _ _ _ l => Up.step (dlwhNone l n) fun _ _ _ _ g2 =>
      Up.pure' ⟨g1, g2⟩

theorem particle {ntro ntro' : NTRO} (h : ntro ≼ ntro') (ixs : IXS) (index : Nat) :
    UpIf (fun p : Particle => p.yh.xss ≠ []) Gives.rel (CE.readParticle d ntro ixs index)
      (CE.readParticle (d.padded ys) ntro' ixs index) := by
  unfold CE.readParticle
  refine UpIf.up (ceParticle d ys ixs index 1) fun _ _ _ h1 => UpIf.up (words d ys h1) fun w _ _ w1 =>
    UpIf.up (gives ys (f := HPD.ofRange) w1 (Longer.hpd w ys)) fun _ _ _ g1 => ?_
  refine UpIf.bind (h.2.1 index) fun n _ => ?_
  refine UpIf.up (ceParticle d ys ixs index 2) fun _ _ _ h1 => UpIf.up (words d ys h1) fun _ _ _ w1 =>
    UpIf.up (array ys w1 n 1) fun _ _ _ g2 => ?_
  refine UpIf.up (ceParticle d ys ixs index 3) fun _ _ _ h1 => UpIf.up (words d ys h1) fun _ _ _ w1 =>
    UpIf.up (tyr ys w1 n) fun _ _ _ g3 => ?_
  refine UpIf.up (ceParticle d ys ixs index 4) fun _ _ _ h1 =>
    UpIf.up (ceParticle d ys ixs index 5) fun _ _ _ h2 =>
    UpIf.up (located d ys h1 h2) fun _ _ _ l => UpIf.up (sigh l n) fun _ _ _ g4 => ?_
  refine UpIf.up (ceParticle d ys ixs index 6) fun _ _ _ h1 =>
    UpIf.up (ceParticle d ys ixs index 7) fun _ _ _ h2 =>
    UpIf.up (located d ys h1 h2) fun _ _ _ l => UpIf.up (angular l n false) fun _ _ _ g5 => ?_
  refine UpIf.up (ceParticle d ys ixs index 8) fun _ _ _ h1 =>
    UpIf.up (ceParticle d ys ixs index 9) fun _ _ _ h2 =>
    UpIf.up (located d ys h1 h2) fun p p' _ l => ?_
  rw [l.1]
  refine UpIf.up (dlwh ys l.2 p.2 g3 n) fun _ _ _ g6 => ?_
  refine UpIf.up (ceParticle d ys ixs index 10) fun _ _ _ h1 => UpIf.up (words d ys h1) fun _ _ _ w1 =>
    UpIf.step (yp ys w1) (fun v p hp hP => ?_) fun _ _ _ g7 =>
      UpIf.ofUp (Up.pure' ⟨g1, g2, tyr_gives g3, g4, g5, g6, g7⟩)
  rw [← Except.ok.inj hp] at hP
  exact hP

def Secondaries (s s' : CE.Secondaries) : Prop :=
  s.ptype ≼ s'.ptype ∧ s.ntro ≼ s'.ntro ∧ s.ixs ≼ s'.ixs ∧
  List.Forall₂ (· ≼ ·) s.particles s'.particles

theorem secondaries (h : ∀ n, d.count 7 = .ok n → n ≠ 0) :
    UpIf (fun s : CE.Secondaries => ∀ p ∈ s.particles, p.yh.xss ≠ []) Secondaries
      (CE.readSecondaries d) (CE.readSecondaries (d.padded ys)) := by
  unfold CE.readSecondaries
  refine UpIf.bind (Up.same (d.count 7)) fun n hn => ?_
  refine UpIf.up (ceBlock d ys 30) fun _ _ _ h1 => UpIf.up (words d ys h1) fun _ _ _ w1 =>
    UpIf.up (array ys w1 n 1) fun _ _ _ g1 => ?_
  refine UpIf.up (ceBlock d ys 31) fun _ _ _ h1 => UpIf.up (words d ys h1) fun w _ _ w1 =>
    UpIf.up (gives ys (f := fun w => NTRO.ofRange w n) w1 (Longer.ntro w ys n)) fun ntro ntro' _ g2 => ?_
  refine UpIf.bind (ceLocators d ys hn (h n hn)) fun r _ =>
    UpIf.bind (Longer.sub d.xss ys r.1 r.2) fun w _ =>
    UpIf.bind (Up.same (IXS.ofRange w n)) fun ixs _ => ?_
  refine UpIf.step (UpIf.mapM _ fun i _ => particle d ys g2 ixs i) (fun v p hp hP => ?_) fun _ _ _ g3 =>
    UpIf.ofUp (Up.pure' ⟨g1, g2, GivesSelf.self ixs, g3⟩)
  rw [← Except.ok.inj hp] at hP
  exact hP

theorem continuousBlocks (zaid : List Char) : UpIf (fun t : CE => (∀ b, t.yp = some b → b.xss ≠ []) ∧
      (∀ b, t.unr = some b → b.xss ≠ []) ∧ ∀ p ∈ t.particles, p.yh.xss ≠ []) Gives.rel
    (CE.generateBlocks zaid d) (CE.generateBlocks zaid (d.padded ys)) := by
  intro t ht hP
  unfold CE.generateBlocks at ht
  obtain ⟨p, e1, ht⟩ := bind_eq_ok.mp ht
  obtain ⟨n6, e2, ht⟩ := bind_eq_ok.mp ht
  obtain ⟨ph, e3, ht⟩ := bind_eq_ok.mp ht
  obtain ⟨j23, e4, ht⟩ := bind_eq_ok.mp ht
  obtain ⟨unr, e5, ht⟩ := bind_eq_ok.mp ht
  obtain ⟨j24, e6, ht⟩ := bind_eq_ok.mp ht
  obtain ⟨dnu, e7, ht⟩ := bind_eq_ok.mp ht
  obtain ⟨n8, e8, ht⟩ := bind_eq_ok.mp ht
  obtain ⟨del, e9, ht⟩ := bind_eq_ok.mp ht
  obtain ⟨n7, e10, ht⟩ := bind_eq_ok.mp ht
  obtain ⟨s, e11, ht⟩ := bind_eq_ok.mp ht
  have ht := Except.ok.inj ht
  subst ht
  obtain ⟨q1, q2, q3⟩ := hP
  obtain ⟨p', f1, g1⟩ := principal d ys p e1
  obtain ⟨ph', f3, g3⟩ := UpIf.onlyIfR (decide (n6 > 0)) (photons d ys) ph e3
    (fun b hb => q1 b.yp (by rw [hb]; rfl))
  obtain ⟨unr', f5, g5⟩ := UpIf.onlyIf (decide (j23 > 0)) (UpIf.up (ceBlock d ys 23) fun _ _ _ h1 =>
    UpIf.up (words d ys h1) fun _ _ _ w1 => Padded.unr ys w1) unr e5 q2
  obtain ⟨dnu', f7, g7⟩ := onlyIf (decide (j24 > 0)) (Up.step (ceBlock d ys 24) fun _ _ _ _ h1 =>
    Up.step (words d ys h1) fun w _ _ _ w1 => gives ys (f := NU.ofRange) w1 (Longer.nu w ys)) dnu e7
  obtain ⟨del', f9, g9⟩ := UpIf.onlyIfR (decide (n8 > 0)) (UpIf.ofUp (P := fun _ => True) (delayed d ys))
    del e9 (fun _ _ => trivial)
  obtain ⟨s', f11, g11⟩ : ∃ s', CE.onlyIf (decide (n7 > 0)) (CE.readSecondaries (d.padded ys)) = .ok s' ∧
      UpIf.BothBy Secondaries s s' := by
    by_cases hn : n7 > 0
    · exact UpIf.onlyIfR (decide (n7 > 0)) (secondaries d ys fun n h => by
        rw [e10] at h
        have := Except.ok.inj h
        omega) s e11 (fun b hb => by subst hb; exact q3)
    · rw [decide_eq_false hn] at e11 ⊢
      exact ⟨none, rfl, by rw [← Except.ok.inj e11]; trivial⟩
  refine ⟨_, by
    unfold CE.generateBlocks
    rw [f1, ok_bind, show (d.padded ys).count 6 = .ok n6 from e2, ok_bind, f3, ok_bind,
      show (d.padded ys).JXS 23 = .ok j23 from e4, ok_bind, f5, ok_bind,
      show (d.padded ys).JXS 24 = .ok j24 from e6, ok_bind, f7, ok_bind,
      show (d.padded ys).count 8 = .ok n8 from e8, ok_bind, f9, ok_bind,
      show (d.padded ys).count 7 = .ok n7 from e10, ok_bind, f11, ok_bind]
    rfl, ?_⟩
  obtain ⟨a1, a2, a3, a4, a5, a6, a7, a8⟩ := g1
  have b1 : Both (ph.map (·.gpd)) (ph'.map (·.gpd)) ∧ Both (ph.map (·.mtrp)) (ph'.map (·.mtrp)) ∧
      Both (ph.map (·.sigp)) (ph'.map (·.sigp)) ∧ Both (ph.map (·.andp)) (ph'.map (·.andp)) ∧
      Both (ph.map (·.dlwp)) (ph'.map (·.dlwp)) ∧ Both (ph.map (·.yp)) (ph'.map (·.yp)) := by
    rcases ph with _ | ph <;> rcases ph' with _ | ph'
    · exact ⟨trivial, trivial, trivial, trivial, trivial, trivial⟩
    · exact g3.elim
    · exact g3.elim
    · exact g3
  have b2 : Both (del.map (·.1)) (del'.map (·.1)) ∧ Both (del.map (·.2)) (del'.map (·.2)) := by
    rcases del with _ | del <;> rcases del' with _ | del'
    · exact ⟨trivial, trivial⟩
    · exact g9.elim
    · exact g9.elim
    · exact g9
  have b3 : Both (s.map (·.ptype)) (s'.map (·.ptype)) ∧ Both (s.map (·.ntro)) (s'.map (·.ntro)) ∧
      Both (s.map (·.ixs)) (s'.map (·.ixs)) := by
    rcases s with _ | s <;> rcases s' with _ | s'
    · exact ⟨trivial, trivial, trivial⟩
    · exact g11.elim
    · exact g11.elim
    · exact ⟨g11.1, g11.2.1, g11.2.2.1⟩
  refine ⟨rfl, ⟨rfl, rfl, rfl, rfl⟩, a1, a2, a3, a4, a5, a6, a7, a8, b1.1, b1.2.1, b1.2.2.1, b1.2.2.2.1,
    b1.2.2.2.2.1, b1.2.2.2.2.2, g5, g7, b2.1, b2.2, b3.1, b3.2.1, b3.2.2, ?_⟩
  rcases s with _ | s <;> rcases s' with _ | s'
  · exact .nil
  · exact g11.elim
  · exact g11.elim
  · exact g11.2.2.2

theorem continuous (zaid : List Char) : UpIf (fun t : CE => (∀ b, t.yp = some b → b.xss ≠ []) ∧
      (∀ b, t.unr = some b → b.xss ≠ []) ∧ ∀ p ∈ t.particles, p.yh.xss ≠ []) Gives.rel
    (CE.ofTable zaid d) (CE.ofTable zaid (d.padded ys)) := by
  refine UpIf.bind (Up.same _) fun _ _ => UpIf.up (setSZA d ys zaid) fun v v' _ e => ?_
  subst e
  exact continuousBlocks v ys zaid

end Padded

end ACE

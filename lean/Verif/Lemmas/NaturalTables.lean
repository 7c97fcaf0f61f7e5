import Verif.Lemmas.NaturalBlocks

/-! # Reading commutes with replacing words: the five tables -/

set_option linter.unusedSectionVars false

namespace ACE

section
variable {r : Dbl → Dbl} [Keeps r]

@[natural] theorem DLWH.ofRange_mapw_none (xs : Words) (i n : Nat) :
    DLWH.ofRange (xs.map r) i none n = Except.map (DLWH.mapw r) (DLWH.ofRange xs i none n) :=
  DLWH.ofRange_mapw xs i none n
@[natural] theorem DLWH.ofRange_mapw_some (xs : Words) (i : Nat) (t : TYR) (n : Nat) :
    DLWH.ofRange (xs.map r) i (some (t.mapw r)) n =
      Except.map (DLWH.mapw r) (DLWH.ofRange xs i (some t) n) :=
  DLWH.ofRange_mapw xs i (some t) n

@[natural] theorem TableData.NXS_mapw (d : TableData) (i : Nat) : (d.mapw r).NXS i = d.NXS i := rfl
@[natural] theorem TableData.JXS_mapw (d : TableData) (i : Nat) : (d.mapw r).JXS i = d.JXS i := rfl
@[natural] theorem TableData.count_mapw (d : TableData) (i : Nat) : (d.mapw r).count i = d.count i :=
  rfl
@[natural] theorem TableData.signed_mapw (d : TableData) (i : Nat) :
    (d.mapw r).signed i = d.signed i := rfl
@[natural] theorem TableData.locator_mapw (d : TableData) (i : Nat) :
    (d.mapw r).locator i = d.locator i := rfl
@[natural] theorem TableData.jxs_mapw (d : TableData) : (d.mapw r).jxs = d.jxs := rfl
@[natural] theorem TableData.xss_mapw (d : TableData) : (d.mapw r).xss = d.xss.map r := rfl
@[natural] theorem TableData.range_mapw (d : TableData) (a b : Nat) :
    (d.mapw r).range a b = d.range a b := by
  simp only [TableData.range, natural]
@[natural] theorem TableData.words_mapw (d : TableData) (p : Nat × Nat) :
    (d.mapw r).words p = Except.map (List.map r) (d.words p) := by
  simp only [TableData.words, natural]
@[natural] theorem TableData.offset_mapw (d : TableData) (i : Nat) :
    (d.mapw r).offset i = d.offset i := by
  simp only [TableData.offset, natural]

namespace CE

@[natural] theorem block_mapw (d : TableData) (i : Nat) : block (d.mapw r) i = block d i := by
  simp only [block, natural]; rfl
theorem find_mapw (n : Nat) (ws : Words) :
    (ws.map r).find? (fun v => v.geNat n) = (ws.find? (fun v => v.geNat n)).map r := by
  induction ws with
  | nil => rfl
  | cons w ws ih =>
      rw [List.map_cons, List.find?_cons, List.find?_cons, Keeps.ge, ih]
      split <;> rfl
@[natural] theorem particleEnd_mapw (x : IXS) (p i s : Nat) :
    particleEnd (x.mapw r) p i s = particleEnd x p i s := by
  simp only [particleEnd, IXS.mapw, natural]
  refine congrArg _ (funext fun ws => ?_)
  rw [find_mapw]
  cases ws.find? (fun v => v.geNat s) <;> simp only [Option.map_some, Option.map_none, Keeps.trunc]
@[natural] theorem particleBlock_mapw (d : TableData) (x : IXS) (p i : Nat) :
    particleBlock (d.mapw r) (x.mapw r) p i = particleBlock d x p i := by
  simp only [particleBlock, natural]
@[natural] theorem located_mapw (d : TableData) (a b : Nat × Nat) :
    located (d.mapw r) a b = Except.map (fun p => (p.1.map r, p.2)) (located d a b) := by
  simp only [located, natural]
@[natural] theorem onlyIf_mapw {α : Type} (f : α → α) (b : Bool) (x : Res α) :
    onlyIf b (Except.map f x) = Except.map (Option.map f) (onlyIf b x) := by
  cases b
  · rfl
  · simp only [onlyIf, natural, if_true, Option.map_some]

@[natural] theorem onlyIf_bind_mapw {α β γ : Type} (f : γ → γ) (b : Bool) (x : Res α)
    (y : α → Res β) (g : α → β → Res γ) :
    onlyIf b (x >>= fun a => y a >>= fun w => Except.map f (g a w)) =
      Except.map (Option.map f) (onlyIf b (x >>= fun a => y a >>= fun w => g a w)) := by
  rw [← onlyIf_mapw]
  simp only [emap_bind]

/-- Every word replaced. -/
def Photons.mapw (r : Dbl → Dbl) (p : Photons) : Photons :=
  { gpd := ArrayData.mapw r p.gpd, mtrp := ArrayData.mapw r p.mtrp
    sigp := LocBlock.mapw (PhotonData.mapw r) r p.sigp, andp := p.andp.mapw r
    dlwp := p.dlwp.mapw r, yp := p.yp.mapw r }
/-- Every word replaced. -/
def Secondaries.mapw (r : Dbl → Dbl) (p : Secondaries) : Secondaries :=
  { ptype := ArrayData.mapw r p.ptype, ntro := p.ntro.mapw r, ixs := p.ixs.mapw r
    particles := p.particles.map (Particle.mapw r) }
/-- Every word replaced. -/
def Principal.mapw (r : Dbl → Dbl) (t : Principal) : Principal :=
  { esz := ArrayData.mapw r t.esz, nu := t.nu.map (NU.mapw r), mtr := ArrayData.mapw r t.mtr
    lqr := ArrayData.mapw r t.lqr, tyr := t.tyr.mapw r
    sig := LocBlock.mapw (CrossSectionData.mapw r) r t.sig, ang := t.ang.mapw r
    dlw := t.dlw.mapw r }

@[natural] theorem readPhotons_mapw (d : TableData) :
    readPhotons (d.mapw r) = Except.map (Photons.mapw r) (readPhotons d) := by
  simp only [readPhotons, GPD.ofRange, MTR.ofRange, natural, Photons.mapw]
@[natural] theorem readDelayed_mapw (d : TableData) :
    readDelayed (d.mapw r) = Except.map (fun p => (p.1.mapw r, p.2.mapw r)) (readDelayed d) := by
  simp only [readDelayed, natural]
@[natural] theorem readParticle_mapw (d : TableData) (n : NTRO) (x : IXS) (i : Nat) :
    readParticle (d.mapw r) (n.mapw r) (x.mapw r) i =
      Except.map (Particle.mapw r) (readParticle d n x i) := by
  simp only [readParticle, MTR.ofRange, natural, Particle.mapw]
@[natural] theorem readSecondaries_mapw (d : TableData) :
    readSecondaries (d.mapw r) = Except.map (Secondaries.mapw r) (readSecondaries d) := by
  have h : ∀ n x, readParticle (d.mapw r) (n.mapw r) (x.mapw r) =
      fun i => Except.map (Particle.mapw r) (readParticle d n x i) :=
    fun n x => funext fun i => readParticle_mapw d n x i
  simp only [readSecondaries, PTYPE.ofRange, natural, h, Secondaries.mapw]
@[natural] theorem readPrincipal_mapw (d : TableData) :
    readPrincipal (d.mapw r) = Except.map (Principal.mapw r) (readPrincipal d) := by
  simp only [readPrincipal, ESZ.ofRange, MTR.ofRange, LQR.ofRange, natural, Principal.mapw]

theorem generateBlocks_mapw (z : List Char) (d : TableData) :
    generateBlocks z (d.mapw r) = Except.map (CE.mapw r) (generateBlocks z d) := by
  simp only [generateBlocks, natural, CE.mapw]
  refine congrArg _ (funext fun p => congrArg _ (funext fun n => congrArg _ (funext fun ph =>
    congrArg _ (funext fun a => congrArg _ (funext fun b => congrArg _ (funext fun c =>
    congrArg _ (funext fun e => congrArg _ (funext fun f => congrArg _ (funext fun g =>
    congrArg _ (funext fun h => congrArg _ (funext fun s => ?_)))))))))))
  cases ph <;> cases g <;> cases s <;> rfl

end CE
end
end ACE

import Verif.Lemmas.AgreeEnergy

/-!
# Words behind the last word: energy distribution blocks, fission, thermal scattering
-/

namespace ACE

namespace Longer

variable (xs ys : Words)

theorem mapEq {β γ : Type} {f f' : γ → Res β} (l : List γ) (h : ∀ i ∈ l, Up Eq (f i) (f' i)) :
    Up Eq (l.mapM f) (l.mapM f') :=
  (Up.mapM l h).mono fun _ _ e => by rwa [List.forall₂_eq_eq_eq] at e

theorem tyr (ntr : Nat) : TYR.ofRange xs ntr ≼ TYR.ofRange (xs ++ ys) ntr := by
  refine Up.bind (size xs ys _) fun _ _ => ?_
  unfold TYR.generateBlocks
  refine Up.bind (mapEq _ fun i _ => ?_) fun l _ => Up.pure' ⟨rfl, fun _ => Up.same _, fun _ => Up.same _⟩
  unfold TYR.generateBlock
  longer

theorem dlwRight (nr : Nat) (tyr : TYR) (index : Nat) (h : index ≠ nr) :
    Up Eq (DLW.rightOf xs nr tyr index) (DLW.rightOf (xs ++ ys) nr tyr index) := by
  unfold DLW.rightOf DLW.LDLWof
  rw [if_neg h, if_neg h]
  longer

theorem dlwMult (nr : Nat) (tyr : TYR) (index left : Nat) :
    Up Eq (DLW.multOf xs nr tyr index left) (DLW.multOf (xs ++ ys) nr tyr index left) := by
  unfold DLW.multOf
  longer

theorem dlwPart (nr : Nat) (tyr : TYR) (i : Nat) :
    Up (fun p p' => p.1 ≼ p'.1 ∧ p.2 ≼ p'.2) (DLW.generateBlock xs nr tyr i)
      (DLW.generateBlock (xs ++ ys) nr tyr i) := by
  unfold DLW.generateBlock
  refine Up.bind (Up.ite (Up.error _ _) (IXSS xs ys _)) fun locator _ =>
    Up.bind (Up.same _) fun _ _ => Up.bind (iterator xs ys _) fun left _ => ?_
  have last (d d' : EnergyData) (h : d ≼ d') :
      Up (fun p p' => p.1 ≼ p'.1 ∧ p.2 ≼ p'.2)
        (do let m ← DLW.multOf xs nr tyr (i + 1) left; pure (d, m))
        (do let m ← DLW.multOf (xs ++ ys) nr tyr (i + 1) left; pure (d', m)) :=
    Up.bind (dlwMult xs ys _ _ _ _) fun m _ => Up.pure' ⟨h, GivesSelf.self m⟩
  by_cases hi : i + 1 = nr
  · refine Up.step (A := fun a b => a = xs.length ∧ b = (xs ++ ys).length) ?_ fun a b _ _ e => ?_
    · unfold DLW.rightOf
      rw [if_pos hi, if_pos hi]
      exact Up.ok ⟨rfl, rfl⟩
    · rw [e.1, e.2]
      exact Up.step (rest xs ys left) fun v v' _ _ e => e ▸ Up.step (energyData v ys _)
        fun d d' _ _ h => last d d' h
  · exact Up.bind (dlwRight xs ys nr tyr _ hi) fun _ _ => Up.bind (sub xs ys _ _) fun _ _ =>
      Up.bind (Up.same _) fun d _ => last d d (GivesSelf.self d)

theorem pick {D : Type} {R : D → D → Prop} {l l' : List D} (h : List.Forall₂ R l l') (nr i : Nat) :
    Up R (DLW.pick nr l i) (DLW.pick nr l' i) :=
  Up.ite (Up.error _ _) (element h (i - 1) (by cases l[i - 1]? <;> rfl) (by cases l'[i - 1]? <;> rfl))

theorem dlw (data : Nat) (tyr : TYR) (nr : Nat) :
    DLW.ofRange xs data tyr nr ≼ DLW.ofRange (xs ++ ys) data tyr nr := by
  refine Up.bind (Up.same _) fun _ _ => ?_
  unfold DLW.generateBlocks
  refine Up.step (Up.mapM _ fun i _ => dlwPart xs ys nr tyr i) fun l l' _ _ h =>
    Up.bind (Up.same _) fun fs _ => Up.pure' ⟨rfl, fun _ => Up.ite (Up.error _ _) (IXSS xs ys _),
      fun i => pick ?_ nr i, fun i => pick ?_ nr i, fun _ => Up.same _⟩
  · exact List.rel_map (R := fun p p' => p.1 ≼ p'.1 ∧ p.2 ≼ p'.2) (fun _ _ h => h.1) h
  · exact List.rel_map (R := fun p p' => p.1 ≼ p'.1 ∧ p.2 ≼ p'.2) (fun _ _ h => h.2) h

theorem dlwh (iter : Nat) (tyrh : Option TYR) (nr : Nat) :
    DLWH.ofRange xs iter tyrh nr ≼ DLWH.ofRange (xs ++ ys) iter tyrh nr :=
  Up.step (locBlock xs ys (fun l ws => secondaryData ws ys l) iter nr true) fun b b' _ _ h =>
    Up.bind (Up.same _) fun fs _ => Up.pure' ⟨h.1, h.2.1, h.2.2, fun i => by
      show Up _ (DLW.pick b.n fs i) (DLW.pick b'.n fs i)
      rw [h.1]
      exact Up.same _⟩

/-! ## Fission -/

theorem polyNu : PolyNu.ofRange xs ≼ PolyNu.ofRange (xs ++ ys) :=
  have n : PolyNu.NC ⟨xs⟩ ≼ PolyNu.NC ⟨xs ++ ys⟩ := Up.bind (IXSS xs ys 2) fun _ _ => Up.same _
  have l : PolyNu.LNU ⟨xs⟩ ≼ PolyNu.LNU ⟨xs ++ ys⟩ := Up.bind (IXSS xs ys 1) fun _ _ => Up.same _
  Up.bind n fun _ _ => Up.bind (size xs ys _) fun _ _ => Up.bind l fun _ _ =>
    Up.bind (Up.same _) fun _ _ => Up.pure' ⟨l, n, Up.bind n fun _ _ => XSSr xs ys _ _⟩

theorem tabNu : TabNu.ofRange xs ≼ TabNu.ofRange (xs ++ ys) :=
  Up.step (rest xs ys 1) fun v _ _ _ e => e ▸ Up.step (tabulated v ys) fun _ _ _ _ h =>
    Up.pure' ⟨Up.bind (IXSS xs ys 1) fun _ _ => Up.same _,
      h.1, h.2.1, h.2.2.1, h.2.2.2.1, h.2.2.2.2.1, h.2.2.2.2.2⟩

theorem nuData : NuData.generateData xs ≼ NuData.generateData (xs ++ ys) :=
  Up.bind (deref xs ys 0) fun _ _ => Up.bind (Up.same _) fun _ _ =>
    Up.ite (Up.step (polyNu xs ys) fun _ _ _ _ h => Up.pure' h)
      (Up.ite (Up.step (tabNu xs ys) fun _ _ _ _ h => Up.pure' h) (Up.error _ _))

theorem nu : NU.ofRange xs ≼ NU.ofRange (xs ++ ys) := by
  unfold NU.ofRange NU.generateBlocks
  refine Up.bind ?_ fun _ _ => Up.bind (XSS xs ys 1) fun _ _ => Up.ite ?_ ?_
  · intro v hv
    refine ⟨v, ?_, rfl⟩
    have h := guardThrow_eq_ok.mp hv
    refine guardThrow_ok ?_
    simp only [decide_eq_true_eq, List.length_append] at h ⊢
    omega
  · unfold NU.generateBoth
    exact Up.bind (deref xs ys 0) fun _ _ => Up.bind (Up.same _) fun _ _ =>
      Up.bind (sub xs ys _ _) fun _ _ => Up.bind (Up.same _) fun p _ =>
      Up.step (rest xs ys _) fun v _ _ _ e => e ▸ Up.step (nuData v ys) fun _ _ _ _ h =>
        Up.pure' ⟨rfl, GivesSelf.self p, h⟩
  · exact Up.step (nuData xs ys) fun _ _ _ _ h => Up.pure' ⟨rfl, h, trivial⟩

theorem precursor (n : Nat) : Precursor.ofRange xs n ≼ Precursor.ofRange (xs ++ ys) n :=
  Up.step (rest xs ys 1) fun v _ _ _ e => e ▸ Up.step (tabulated v ys) fun _ _ _ _ h =>
    Up.pure' ⟨rfl, XSS xs ys 1, h.1, h.2.1, h.2.2.1, h.2.2.2.1, h.2.2.2.2.1, h.2.2.2.2.2⟩

theorem groups : ∀ todo index left : Nat,
    Up Eq (BDD.groups xs todo index left) (BDD.groups (xs ++ ys) todo index left)
  | 0, _, _ => Up.same _
  | todo + 1, index, left => by
      unfold BDD.groups
      exact Up.bind (IXSS xs ys _) fun _ _ => Up.bind (IXSS xs ys _) fun _ _ =>
        Up.bind (sub xs ys _ _) fun _ _ => Up.bind (Up.same _) fun _ _ =>
        Up.bind (groups todo _ _) fun _ _ => Up.same _

theorem bdd (n : Nat) : BDD.ofRange xs n ≼ BDD.ofRange (xs ++ ys) n :=
  Up.bind (groups xs ys n 1 0) fun _ _ => Up.pure' ⟨rfl, fun _ => GivesSelf.self (α := Res Precursor) _⟩

theorem tables (m : Nat) : ∀ todo index left : Nat,
    Up Eq (UNR.tables xs m todo index left) (UNR.tables (xs ++ ys) m todo index left)
  | 0, _, _ => Up.same _
  | todo + 1, index, left => by
      unfold UNR.tables
      exact Up.bind (sub xs ys _ _) fun _ _ => Up.bind (XSS xs ys _) fun _ _ =>
        Up.bind (Up.same _) fun _ _ => Up.bind (tables m todo _ _) fun _ _ => Up.same _

variable {xs} in
theorem unr (h : xs ≠ []) : UNR.ofRange xs ≼ UNR.ofRange (xs ++ ys) :=
  have f (i : Nat) : Up Eq (UNR.flag xs i) (UNR.flag (xs ++ ys) i) := by
    unfold UNR.flag
    rw [if_neg h, if_neg (by simp [h])]
    exact IXSS xs ys i
  have n : Up Eq (UNR.N xs) (UNR.N (xs ++ ys)) := Up.bind (f 1) fun _ _ => Up.same _
  have m : Up Eq (UNR.M xs) (UNR.M (xs ++ ys)) := Up.bind (f 2) fun _ _ => Up.same _
  Up.bind m fun _ _ => Up.bind n fun _ _ => Up.bind (tables xs ys _ _ _ _) fun _ _ =>
    Up.pure' ⟨n, m, Up.bind (f 3) fun _ _ => Up.same _, f 4, f 5, Up.bind (f 6) fun _ _ => Up.same _,
      Up.bind n fun _ _ => XSSr xs ys _ _, fun _ => Up.bind n fun _ _ =>
        GivesSelf.self (α := Res ProbabilityTable) _⟩

/-! ## Thermal scattering -/

theorem dcos (nc : Nat) : DCos.ofRange nc xs ≼ DCos.ofRange nc (xs ++ ys) :=
  Up.bind (size xs ys _) fun _ _ => Up.pure' ⟨XSS xs ys 1, rfl, XSSr xs ys _ _⟩

theorem pcos (nc : Nat) : PCos.ofRange nc xs ≼ PCos.ofRange nc (xs ++ ys) :=
  Up.bind (size xs ys _) fun _ _ => Up.pure' ⟨XSS xs ys 1, XSS xs ys 2, XSS xs ys 3, rfl,
    XSSr xs ys _ _⟩

theorem plainLoop (nc : Nat) : ∀ todo cur : Nat,
    Up Eq (ITXE.plainLoop xs nc todo cur) (ITXE.plainLoop (xs ++ ys) nc todo cur)
  | 0, _ => Up.same _
  | todo + 1, cur => by
      unfold ITXE.plainLoop
      exact Up.bind (sub xs ys _ _) fun _ _ => Up.bind (Up.same _) fun _ _ =>
        Up.bind (plainLoop nc todo _) fun _ _ => Up.same _

theorem plainBlocks (nc nieb : Nat) : ∀ todo cur : Nat,
    Up Eq (ITXE.plainBlocks xs nc nieb todo cur) (ITXE.plainBlocks (xs ++ ys) nc nieb todo cur)
  | 0, _ => Up.same _
  | todo + 1, cur => by
      unfold ITXE.plainBlocks
      exact Up.bind (plainLoop xs ys nc nieb cur) fun _ _ => Up.bind (plainBlocks nc nieb todo _)
        fun _ _ => Up.same _

theorem probLoop (nc next : Nat) : ∀ todo cur : Nat,
    Up Eq (ITXE.probLoop xs nc next todo cur) (ITXE.probLoop (xs ++ ys) nc next todo cur)
  | 0, _ => Up.same _
  | todo + 1, cur => by
      unfold ITXE.probLoop
      exact Up.bind (sub xs ys _ _) fun _ _ => Up.bind (Up.same _) fun _ _ =>
        Up.bind (probLoop nc next todo _) fun _ _ => Up.same _

/-- The last incident energy. -/
theorem probLast (nc : Nat) : ∀ todo cur : Nat,
    Up (fun r r' => List.Forall₂ Gives.rel r.1 r'.1) (ITXE.probLoop xs nc xs.length todo cur)
      (ITXE.probLoop (xs ++ ys) nc (xs ++ ys).length todo cur)
  | 0, _ => Up.pure' .nil
  | 1, cur => by
      unfold ITXE.probLoop ITXE.probLoop
      simp only [if_true]
      exact Up.step (rest xs ys cur) fun v _ _ _ e => e ▸ Up.step (pcos v ys nc) fun _ _ _ _ h =>
        Up.pure' (.cons h .nil)
  | todo + 2, cur => by
      have ih := probLast nc (todo + 1)
      unfold ITXE.probLoop
      rw [if_neg (by omega), if_neg (by omega)]
      exact Up.bind (sub xs ys _ _) fun _ _ => Up.bind (Up.same _) fun d _ =>
        Up.step (ih _) fun _ _ _ _ h => Up.pure' (.cons (GivesSelf.self (α := PCos) d) h)

theorem nieb (o : Option Nat) (ne i : Nat) :
    Up Eq (ITXE.NIEBof xs o ne i) (ITXE.NIEBof (xs ++ ys) o ne i) := by
  unfold ITXE.NIEBof
  cases o with
  | some n => exact Up.same _
  | none =>
      dsimp only
      split
      · exact Up.error .range _
      · exact Up.bind (IXSS xs ys _) fun _ _ => Up.same _

theorem probBlocks (nc ne locb : Nat) : ∀ todo incident cur : Nat, todo + incident = ne + 1 →
    Up (List.Forall₂ (List.Forall₂ Gives.rel)) (ITXE.probBlocks xs nc ne locb todo incident cur)
      (ITXE.probBlocks (xs ++ ys) nc ne locb todo incident cur)
  | 0, _, _, _ => Up.pure' .nil
  | todo + 1, incident, cur, hs => by
      have ih := probBlocks nc ne locb todo (incident + 1)
      unfold ITXE.probBlocks
      refine Up.bind (Up.bind (IXSS xs ys _) fun _ _ => Up.same _) fun locator _ =>
        Up.bind (nieb xs ys _ _ _) fun n _ => ?_
      by_cases h : incident = ne
      · refine Up.step (A := fun a b => a = xs.length ∧ b = (xs ++ ys).length) ?_ fun a b _ _ e => ?_
        · unfold ITXE.nextOf
          rw [if_pos h, if_pos h]
          exact Up.ok ⟨rfl, rfl⟩
        · rw [e.1, e.2]
          refine Up.step (probLast xs ys nc n cur) fun r r' _ _ h => ?_
          have ht : todo = 0 := by omega
          subst ht
          exact Up.pure' (.cons h .nil)
      · refine Up.bind ?_ fun next _ => ?_
        · unfold ITXE.nextOf
          rw [if_neg h, if_neg h]
          exact iterator xs ys _
        · refine Up.bind (probLoop xs ys nc next n cur) fun r _ => ?_
          exact Up.step (ih _ (by omega)) fun _ _ _ _ h =>
            Up.pure' (.cons (forall₂_refl (R := Gives.rel) GivesSelf.self _) h)

theorem itxeBlocks (ifeng nc : Nat) (o : Option Nat) (ne locb : Nat) :
    Up (List.Forall₂ (List.Forall₂ Gives.rel)) (ITXE.generateBlocks xs ifeng nc o ne locb)
      (ITXE.generateBlocks (xs ++ ys) ifeng nc o ne locb) := by
  unfold ITXE.generateBlocks
  refine Up.ite ?_ ?_
  · have hp (n : Nat) : Up (List.Forall₂ (List.Forall₂ Gives.rel)) (ITXE.plainBlocks xs nc n ne 0)
        (ITXE.plainBlocks (xs ++ ys) nc n ne 0) :=
      (plainBlocks xs ys nc n ne 0).mono fun _ _ e => e ▸ forall₂_refl (forall₂_refl GivesSelf.self) _
    dsimp only
    exact Up.ite (Up.bind (Up.same _) fun n _ => hp n) (Up.bind (nieb xs ys _ _ _) fun n _ => hp n)
  · exact Up.bind (Up.bind (IXSS xs ys _) fun _ _ => Up.same _) fun _ _ =>
      Up.bind (iterator xs ys _) fun _ _ => probBlocks xs ys nc ne locb ne 1 _ (by omega)

theorem itxe (ifeng nieb' nc ne locb : Nat) :
    ITXE.ofRange ifeng nieb' nc ne locb xs ≼ ITXE.ofRange ifeng nieb' nc ne locb (xs ++ ys) := by
  unfold ITXE.ofRange
  refine Up.bind ?_ fun _ _ => Up.step (itxeBlocks xs ys _ _ _ _ _) fun l l' _ _ h => Up.pure' ?_
  · unfold ITXE.verifySize
    exact Up.ite (size xs ys _) (Up.same _)
  · have hn := nieb xs ys (if ifeng < 2 then some nieb' else none) ne
    refine ⟨rfl, rfl, rfl, rfl, hn, fun i j => ?_⟩
    unfold ITXE.get
    refine Up.bind ?_ fun _ _ => ?_
    · unfold ITXE.verifyIndices
      dsimp only
      split
      · exact Up.error .range _
      · exact Up.bind (hn i) fun _ _ => Up.same _
    · dsimp only
      intro v hv
      cases hl : l[i - 1]? with
      | none => rw [hl] at hv; cases hv
      | some x =>
          rw [hl] at hv
          obtain ⟨hi, e⟩ := List.getElem?_eq_some_iff.mp hl
          have hi' : i - 1 < l'.length := h.length_eq ▸ hi
          have hx := h.get hi hi'
          rw [List.getElem?_eq_getElem hi']
          have : x = l.get ⟨i - 1, hi⟩ := e.symm
          subst this
          dsimp only at hv ⊢
          generalize hm : l.get ⟨i - 1, hi⟩ = m at hv hx
          generalize hm' : l'.get ⟨i - 1, hi'⟩ = m' at hx
          have hm'' : l'[i - 1] = m' := hm'
          rw [hm'']
          exact element hx (j - 1) (f := _) (f' := _) (by cases m[j - 1]? <;> rfl)
            (by cases m'[j - 1]? <;> rfl) v hv

end Longer

end ACE

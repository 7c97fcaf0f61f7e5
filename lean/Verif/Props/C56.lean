import Verif.Props.C55
import Verif.Model.Fission
import Verif.Model.EnergyBlock
import Verif.Model.Thermal
import Verif.Model.FormatBlocks
import Verif.Model.Secondary

/-!
# C56: reading a block from any words ends with the block or with an exception

The words and the counts are arbitrary: what a truncated or corrupted table contains. Blocks whose size is
known from the arguments are read or refused with an exception in every build (`C56_arrays`). Blocks that
take counts or locators from their words are read or refused when index checks are compiled in and the
words are of moderate size.
-/

namespace ACE.Props
open ACE

/-- A call returns, or throws an exception when index checks are compiled in. -/
def EndsChecked {α : Type} (r : Res α) : Prop := (∃ a, r = .ok a) ∨ r = .error .thrown ∨ r = .error .range

namespace EndsChecked
variable {α β : Type}

theorem ok (a : α) : EndsChecked (Except.ok a : Res α) := .inl ⟨a, rfl⟩
theorem thrown : EndsChecked (Except.error .thrown : Res α) := .inr (.inl rfl)
theorem range : EndsChecked (Except.error .range : Res α) := .inr (.inr rfl)
theorem of_ends {r : Res α} (h : Ends r) : EndsChecked r := h.imp_right .inl

theorem bind {x : Res α} {f : α → Res β} (h : EndsChecked x) (hf : ∀ a, x = .ok a → EndsChecked (f a)) :
    EndsChecked (x >>= f) := by
  rcases h with ⟨a, rfl⟩ | rfl | rfl
  · exact hf a rfl
  · exact thrown
  · exact range

theorem guard (c : Bool) : EndsChecked (guardThrow c) := of_ends (Ends.guard c)

theorem mapM {f : α → Res β} : ∀ l : List α, (∀ a ∈ l, EndsChecked (f a)) → EndsChecked (l.mapM f)
  | [], _ => ok []
  | a :: l, h => by
    rw [List.mapM_cons]
    exact bind (h a (List.mem_cons_self ..)) fun _ _ =>
      bind (mapM l fun b hb => h b (List.mem_cons_of_mem _ hb)) fun _ _ => ok _

theorem not_ub {r : Res α} (h : EndsChecked r) : r ≠ .error .ub ∧ r ≠ .error .endless := by
  rcases h with ⟨a, rfl⟩ | rfl | rfl <;> exact ⟨(nomatch ·), (nomatch ·)⟩

end EndsChecked

/-- Words whose nearest integers are below 2^30 in magnitude, and less than 2^30 of them. -/
structure Moderate (xs : Words) : Prop where
  length : xs.length < 1073741824
  words : ∀ x ∈ xs, ∃ i : Int, x.round? = some i ∧ -1073741824 < i ∧ i < 1073741824

/-- Moderate words that begin with tabulated data whose two counts, when they are there, are not negative. -/
structure Counted (xs : Words) : Prop where
  moderate : Moderate xs
  boundaries : ∀ v, Base.IXSS xs 1 = .ok v → 0 ≤ v
  points : ∀ nr : Nat, Base.IXSS xs 1 = .ok (nr : Int) → ∀ v, Base.IXSS xs (2 + 2 * nr) = .ok v → 0 ≤ v

namespace C56

theorem sub_mem {xs ws : Words} {l r : Nat} (h : sub xs l r = .ok ws) :
    ws.length = r - l ∧ ws.length ≤ xs.length ∧ ∀ x ∈ ws, x ∈ xs := by
  unfold sub at h
  split at h
  · rename_i hb
    injection h with h
    subst h
    refine ⟨by simp; omega, by simp; omega, fun x hx => List.mem_of_mem_drop (List.mem_of_mem_take hx)⟩
  · cases h

theorem Moderate.sub {xs ws : Words} {l r : Nat} (hp : Moderate xs) (h : ACE.sub xs l r = .ok ws) : Moderate ws := by
  obtain ⟨_, h2, h3⟩ := sub_mem h
  exact ⟨Nat.lt_of_le_of_lt h2 hp.length, fun x hx => hp.words x (h3 x hx)⟩

theorem sub_ok {xs : Words} {l r : Nat} (h : l ≤ r) (h' : r ≤ xs.length) :
    ∃ ws, sub xs l r = .ok ws := ⟨_, if_pos ⟨h, h'⟩⟩

theorem verifyIndex_checked (i a b : Nat) : EndsChecked (Base.verifyIndex i a b) := by
  unfold Base.verifyIndex
  split
  · exact .range
  · exact .ok _

theorem verifyIndex_ok {i a b : Nat} {u} (h : Base.verifyIndex i a b = .ok u) : a ≤ i ∧ i ≤ b := by
  unfold Base.verifyIndex at h
  split at h
  · cases h
  · omega

theorem iterator_checked (xs : Words) (i : Nat) : EndsChecked (Base.iterator xs i) :=
  (verifyIndex_checked _ _ _).bind fun _ _ => .ok _

theorem iterator_ok {xs : Words} {i k : Nat} (h : Base.iterator xs i = .ok k) :
    1 ≤ i ∧ k = i - 1 ∧ k ≤ xs.length := by
  unfold Base.iterator at h
  obtain ⟨_, h1, h⟩ := bind_eq_ok.mp h
  have := verifyIndex_ok h1
  injection h with h
  omega

theorem deref_ok {xs : Words} {i : Nat} (h : i < xs.length) : deref xs i = .ok xs[i] := by
  unfold deref
  rw [List.getElem?_eq_getElem h]

theorem XSS_checked (xs : Words) (i : Nat) : EndsChecked (Base.XSS xs i) := by
  unfold Base.XSS
  refine (verifyIndex_checked _ _ _).bind fun _ h => ?_
  have := verifyIndex_ok h
  rw [deref_ok (by omega)]
  exact .ok _

theorem XSS_mem {xs : Words} {i : Nat} {x : Dbl} (h : Base.XSS xs i = .ok x) : 1 ≤ i ∧ i ≤ xs.length ∧ x ∈ xs := by
  unfold Base.XSS at h
  obtain ⟨_, h1, h⟩ := bind_eq_ok.mp h
  have h1 := verifyIndex_ok h1
  rw [deref_ok (by omega)] at h
  injection h with h
  subst h
  exact ⟨h1.1, h1.2, List.getElem_mem _⟩

theorem IXSS_checked {xs : Words} (hm : Moderate xs) (i : Nat) : EndsChecked (Base.IXSS xs i) := by
  unfold Base.IXSS
  refine (XSS_checked xs i).bind fun x hx => ?_
  obtain ⟨v, h1, h2, h3⟩ := hm.words x (XSS_mem hx).2.2
  simp only [h1, toInt32]
  rw [if_pos (by omega)]
  exact .ok _

theorem IXSS_round {xs : Words} {i : Nat} {v : Int} (h : Base.IXSS xs i = .ok v) :
    ∃ x, Base.XSS xs i = .ok x ∧ x.round? = some v := by
  unfold Base.IXSS at h
  obtain ⟨x, h1, h⟩ := bind_eq_ok.mp h
  refine ⟨x, h1, ?_⟩
  unfold toInt32 at h
  split at h
  · split at h
    · injection h with h
      subst h
      assumption
    · cases h
  · cases h

theorem IXSS_moderate {xs : Words} (hm : Moderate xs) {i : Nat} {v : Int} (h : Base.IXSS xs i = .ok v) :
    1 ≤ i ∧ i ≤ xs.length ∧ -1073741824 < v ∧ v < 1073741824 := by
  obtain ⟨x, h1, h2⟩ := IXSS_round h
  obtain ⟨h3, h4, h5⟩ := XSS_mem h1
  obtain ⟨w, h6, h7⟩ := hm.words x h5
  rw [h2] at h6
  injection h6 with h6
  subst h6
  exact ⟨h3, h4, h7⟩

theorem array (xs : Words) (n m : Nat) : Ends (ArrayData.ofRange xs n m) :=
  (Ends.guard _).bind fun _ _ => Ends.ok _

end C56

/-! ## Blocks whose size is known from the arguments -/

/-- All the array blocks, and the data of fixed size, are read or refused in every build. -/
theorem C56_arrays (xs : Words) :
    (∀ n, Ends (ESZ.ofRange xs n) ∧ Ends (LQR.ofRange xs n) ∧ Ends (GPD.ofRange xs n) ∧ Ends (MTR.ofRange xs n) ∧
      Ends (ESZG.ofRange xs n) ∧ Ends (LHNM.ofRange xs n) ∧ Ends (JFLO.ofRange xs n) ∧ Ends (EPS.ofRange xs n) ∧
      Ends (SUBSH.ofRange xs n) ∧ Ends (EXCIT.ofRange xs n) ∧ Ends (BREML.ofRange xs n) ∧ Ends (SELAS.ofRange xs n) ∧
      Ends (PTYPE.ofRange xs n) ∧ Ends (IXS.ofRange xs n) ∧ Ends (IXSU.ofRange xs n) ∧ Ends (NTRO.ofRange xs n)) ∧
    (∀ n m, Ends (ESZU.ofRange xs n m) ∧ Ends (SPHEL.ofRange xs n m) ∧ Ends (ITCA.ofRange xs n m) ∧
      Ends (ESZE.ofRange xs n m)) ∧
    (Ends (JINC.ofRange xs) ∧ Ends (JCOH.ofRange xs) ∧ Ends (TRAN.ofRange xs)) ∧
    (∀ e n, Ends (ProbabilityTable.ofRange xs e n) ∧ Ends (ElectronDist.ofRange e xs n) ∧
      Ends (EquiAngular.mk' e xs)) ∧
    (∀ a b, Ends (TwoParam.ofRange xs a b) ∧ Ends (NBody.ofRange xs a b)) ∧
    (∀ n, Ends (DCos.ofRange n xs) ∧ Ends (PCos.ofRange n xs)) := by
  have g : ∀ (c : Bool) {α : Type} (a : α), Ends (guardThrow c >>= fun _ => (pure a : Res α)) :=
    fun c _ a => (Ends.guard c).bind fun _ _ => Ends.ok a
  refine ⟨fun n => ⟨C56.array .., C56.array .., C56.array .., C56.array .., C56.array .., C56.array .., C56.array ..,
    C56.array .., C56.array .., C56.array .., C56.array .., C56.array .., C56.array .., g .., g .., g ..⟩,
    fun n m => ⟨C56.array .., C56.array .., C56.array .., C56.array ..⟩, ⟨?_, ?_, ?_⟩,
    fun e n => ⟨(C56.array ..).bind fun _ _ => Ends.ok _, (C56.array ..).bind fun _ _ => Ends.ok _, g ..⟩,
    fun a b => ⟨g .., g ..⟩, fun n => ⟨g .., g ..⟩⟩
  · unfold JINC.ofRange
    refine Ends.bind ?_ fun _ _ => (C56.array ..).bind fun _ _ => Ends.ok _
    unfold JINC.numberElements
    split
    · exact Ends.ok _
    · exact g ..
  · unfold JCOH.ofRange
    refine Ends.bind ?_ fun _ _ => (C56.array ..).bind fun _ _ => Ends.ok _
    unfold JCOH.numberElements
    split
    · exact Ends.ok _
    · exact g ..
  · exact (Ends.guard _).bind fun _ _ => C56.array ..

/-! ## Blocks that begin with a count -/

/-- Data with one count, for moderate words. -/
theorem C56_counted_partial (xs : Words) (hm : Moderate xs) :
    EndsChecked (CrossSectionData.ofRange xs) ∧ EndsChecked (TabProb.ofRange xs) ∧
    (∀ v, EndsChecked (TabDist.ofRange v xs)) ∧ EndsChecked (YP.ofRange xs) ∧
    EndsChecked (PolyNu.ofRange xs) ∧ ∀ ntr, EndsChecked (TYR.ofRange xs ntr) := by
  have ix := fun i => C56.IXSS_checked hm i
  have tab : EndsChecked (TabProb.ofRange xs) := by
    unfold TabProb.ofRange TabProb.numberValues
    exact ((ix 2).bind fun _ _ => .ok _).bind fun _ _ => (EndsChecked.guard _).bind fun _ _ => .ok _
  refine ⟨?_, tab, fun v => tab.bind fun _ _ => .ok _, ?_, ?_, ?_⟩
  · unfold CrossSectionData.ofRange CrossSectionData.numberValues
    exact ((ix 2).bind fun _ _ => .ok _).bind fun _ _ => (EndsChecked.guard _).bind fun _ _ => .ok _
  · unfold YP.ofRange YP.NYP
    refine EndsChecked.bind ?_ fun _ _ => (EndsChecked.guard _).bind fun _ _ => .ok _
    split
    · exact .ok _
    · exact (ix 1).bind fun _ _ => .ok _
  · unfold PolyNu.ofRange PolyNu.NC PolyNu.LNU
    exact ((ix 2).bind fun _ _ => .ok _).bind fun _ _ => (EndsChecked.guard _).bind fun _ _ =>
      ((ix 1).bind fun _ _ => .ok _).bind fun _ _ => (EndsChecked.guard _).bind fun _ _ => .ok _
  · intro ntr
    unfold TYR.ofRange TYR.generateBlocks
    refine (EndsChecked.guard _).bind fun _ _ => (EndsChecked.mapM _ fun i _ => ?_).bind fun _ _ => .ok _
    unfold TYR.generateBlock
    refine (C56.XSS_checked _ _).bind fun _ _ => (ix _).bind fun v hv => ?_
    have := C56.IXSS_moderate hm hv
    rw [if_neg (by omega)]
    exact .ok _

/-- A word that is a `std::size_t` when its fraction is cut off. -/
def IsSize (x : Dbl) : Prop := ∃ i : Int, x.trunc? = some i ∧ 0 ≤ i ∧ i < 18446744073709551616

/-- Column data are read or refused exactly when there are no words or the first word is a size. -/
theorem C56_columns (xs : Words) (nc : Nat) :
    Ends (ColumnData.ofRange xs nc) ↔ ∀ x, xs.head? = some x → IsSize x := by
  constructor
  · intro h x hx
    cases xs with
    | nil => cases hx
    | cons a l =>
      injection hx with hx
      subst hx
      unfold ColumnData.ofRange at h
      simp only at h
      unfold IsSize
      cases ht : a.trunc? with
      | none =>
        rw [ht] at h
        exact absurd rfl h.not_ub
      | some i =>
        refine ⟨i, rfl, ?_⟩
        rw [ht] at h
        refine Decidable.byContradiction fun hn => ?_
        refine h.not_ub ?_
        unfold toSize
        simp only
        rw [if_neg hn]
        rfl
  · intro h
    cases xs with
    | nil =>
      show Ends (ColumnData.verifySize 0 0 nc >>= fun _ => (pure ⟨[], nc⟩ : Res ColumnData))
      exact (Ends.guard _).bind fun _ _ => Ends.ok _
    | cons a l =>
      obtain ⟨i, h1, h2⟩ := h a rfl
      have e : toSize a.trunc? = Except.ok i.toNat := by
        simp only [h1, toSize]
        rw [if_pos h2]
      show Ends (toSize a.trunc? >>= fun ne => ColumnData.verifySize (a :: l).length ne nc >>= fun _ =>
        (pure ⟨a :: l, nc⟩ : Res ColumnData))
      rw [e]
      exact (Ends.guard _).bind fun _ _ => Ends.ok _

/-! ## Tabulated data and what contains them -/

namespace C56

theorem column_xss {ws : Words} {nc : Nat} {d : ColumnData} (h : ColumnData.ofRange ws nc = .ok d) : d.xss = ws := by
  cases ws with
  | nil =>
    have h : (ColumnData.verifySize 0 0 nc >>= fun _ => (pure ⟨[], nc⟩ : Res ColumnData)) = .ok d := h
    obtain ⟨_, _, h⟩ := bind_eq_ok.mp h
    injection h with h
    subst h
    rfl
  | cons a l =>
    have h : (toSize a.trunc? >>= fun ne => ColumnData.verifySize (a :: l).length ne nc >>= fun _ =>
      (pure ⟨a :: l, nc⟩ : Res ColumnData)) = .ok d := h
    obtain ⟨_, _, h⟩ := bind_eq_ok.mp h
    obtain ⟨_, _, h⟩ := bind_eq_ok.mp h
    injection h with h
    subst h
    rfl

theorem column_nc {ws : Words} {nc : Nat} {d : ColumnData} (h : ColumnData.ofRange ws nc = .ok d) : d.nc = nc := by
  cases ws with
  | nil =>
    have h : (ColumnData.verifySize 0 0 nc >>= fun _ => (pure ⟨[], nc⟩ : Res ColumnData)) = .ok d := h
    obtain ⟨_, _, h⟩ := bind_eq_ok.mp h
    injection h with h
    subst h
    rfl
  | cons a l =>
    have h : (toSize a.trunc? >>= fun ne => ColumnData.verifySize (a :: l).length ne nc >>= fun _ =>
      (pure ⟨a :: l, nc⟩ : Res ColumnData)) = .ok d := h
    obtain ⟨_, _, h⟩ := bind_eq_ok.mp h
    obtain ⟨_, _, h⟩ := bind_eq_ok.mp h
    injection h with h
    subst h
    rfl

theorem truncMag_le (m : Nat) (e : Int) : Dbl.truncMag m e ≤ Dbl.roundMag m e := by
  unfold Dbl.truncMag Dbl.roundMag
  split
  · exact Nat.le_refl _
  · rw [Nat.pow_succ, Nat.mul_comm _ 2, ← Nat.div_div_eq_div_mul]
    exact Nat.div_le_div_right ((Nat.le_div_iff_mul_le (by decide)).mpr (by rw [Nat.mul_comm]; exact Nat.le_add_right ..))

theorem trunc_of_round {x : Dbl} {i : Int} (h : x.round? = some i) :
    ∃ j, x.trunc? = some j ∧ j.natAbs ≤ i.natAbs ∧ (0 ≤ i → 0 ≤ j) := by
  cases x with
  | inf s => cases h
  | nan => cases h
  | fin s m e =>
    have hl := truncMag_le m e
    injection h with h
    subst h
    refine ⟨_, rfl, ?_, ?_⟩
    · unfold Dbl.signed; split <;> omega
    · unfold Dbl.signed; split <;> omega

theorem column (xs : Words) (nc : Nat) (hm : Moderate xs) (h0 : ∀ v, Base.IXSS xs 1 = .ok v → 0 ≤ v) :
    Ends (ColumnData.ofRange xs nc) := by
  refine (C56_columns xs nc).mpr fun x hx => ?_
  cases xs with
  | nil => cases hx
  | cons a l =>
    injection hx with hx
    subst hx
    obtain ⟨i, h1, h2, h3⟩ := hm.words a (List.mem_cons_self ..)
    have hi : Base.IXSS (a :: l) 1 = .ok i := by
      show toInt32 a.round? = _
      rw [h1]
      exact if_pos (by omega)
    obtain ⟨j, j1, j2, j3⟩ := trunc_of_round h1
    have := h0 i hi
    exact ⟨j, j1, j3 this, by omega⟩

/-- The first words of a part are those of the whole. -/
theorem IXSS_prefix {xs ws : Words} {r i : Nat} {v : Int} (h : sub xs 0 r = .ok ws) (hv : Base.IXSS ws i = .ok v) :
    Base.IXSS xs i = .ok v := by
  obtain ⟨x, h1, h2⟩ := IXSS_round hv
  unfold sub at h
  split at h
  · rename_i hb
    injection h with h
    obtain ⟨h3, h4, _⟩ := XSS_mem h1
    subst h
    unfold Base.IXSS
    rw [show Base.XSS xs i = .ok x from ?_]
    · unfold Base.IXSS at hv
      rw [h1] at hv
      exact hv
    · unfold Base.XSS Base.verifyIndex at h1 ⊢
      simp only [List.drop_zero, Nat.sub_zero, List.length_take] at h1 h4
      rw [if_neg (by omega)] at h1 ⊢
      have h1 : deref (xs.take r) (i - 1) = .ok x := h1
      show deref xs (i - 1) = .ok x
      unfold deref at h1 ⊢
      rw [List.getElem?_take_of_lt (by omega)] at h1
      exact h1
  · cases h

theorem toSize_checked {xs : Words} (hm : Moderate xs) (i : Nat) (h0 : ∀ v, Base.IXSS xs i = .ok v → 0 ≤ v)
    {x : Dbl} (hx : Base.XSS xs i = .ok x) :
    ∃ n : Nat, toSize x.round? = .ok n ∧ Base.IXSS xs i = .ok (n : Int) ∧ n < 1073741824 := by
  obtain ⟨v, h1, h2, h3⟩ := hm.words x (XSS_mem hx).2.2
  have hi : Base.IXSS xs i = .ok v := by
    unfold Base.IXSS
    rw [hx]
    show toInt32 x.round? = _
    rw [h1]
    exact if_pos (by omega)
  have hv := h0 v hi
  refine ⟨v.toNat, ?_, by rw [hi, Int.toNat_of_nonneg hv], by omega⟩
  rw [h1]
  exact if_pos (by omega)

theorem size_nat {n : Nat} (h : n < 1073741824) : sizeOfInt (n : Int) = n := by
  unfold sizeOfInt
  omega

/-- The counts at the beginning of tabulated data. -/
theorem counts {α : Type} {xs : Words} (hc : Counted xs) (f : Nat → Nat → Res α)
    (hf : ∀ nr ne : Nat, Base.IXSS xs 1 = .ok (nr : Int) → Base.IXSS xs (1 + 2 * nr + 1) = .ok (ne : Int) →
      2 + 2 * nr ≤ xs.length → ne < 1073741824 → EndsChecked (f nr ne)) :
    EndsChecked (do
      let nr ← toSize (← Base.XSS xs 1).round?
      let ne ← toSize (← Base.XSS xs (1 + 2 * nr + 1)).round?
      f nr ne) := by
  refine (XSS_checked xs 1).bind fun x hx => ?_
  obtain ⟨nr, h1, h2, h3⟩ := toSize_checked hc.moderate 1 hc.boundaries hx
  rw [h1]
  show EndsChecked (Base.XSS xs (1 + 2 * nr + 1) >>= _)
  refine (XSS_checked xs _).bind fun y hy => ?_
  have e : 1 + 2 * nr + 1 = 2 + 2 * nr := by omega
  obtain ⟨ne, h4, h5, h6⟩ := toSize_checked hc.moderate (1 + 2 * nr + 1)
    (fun v hv => hc.points nr h2 v (e ▸ hv)) hy
  rw [h4]
  have := XSS_mem hy
  exact hf nr ne h2 h5 (by omega) h6

theorem Counted.prefix {xs ws : Words} (hc : Counted xs) {r : Nat} (h : ACE.sub xs 0 r = .ok ws) : Counted ws :=
  ⟨Moderate.sub hc.moderate h, fun v hv => hc.boundaries v (IXSS_prefix h hv),
    fun nr h1 v hv => hc.points nr (IXSS_prefix h h1) v (IXSS_prefix h hv)⟩

theorem sub_word {xs ws : Words} {l r i : Nat} (h : sub xs l r = .ok ws) (hi : 1 ≤ i) (hr : i ≤ r - l) :
    Base.XSS ws i = Base.XSS xs (l + i) := by
  unfold sub at h
  split at h
  · rename_i hb
    injection h with h
    subst h
    unfold Base.XSS Base.verifyIndex
    simp only [List.length_take, List.length_drop]
    rw [if_neg (by omega), if_neg (by omega)]
    show deref _ (i - 1) = deref _ (l + i - 1)
    unfold deref
    rw [List.getElem?_take_of_lt (by omega), List.getElem?_drop, show l + (i - 1) = l + i - 1 by omega]
  · cases h

theorem sub_int {xs ws : Words} {l r i : Nat} (h : sub xs l r = .ok ws) (hi : 1 ≤ i) (hr : i ≤ r - l) :
    Base.IXSS ws i = Base.IXSS xs (l + i) := by
  unfold Base.IXSS
  rw [sub_word h hi hr]

theorem tabulated {xs : Words} (hc : Counted xs) : EndsChecked (TabulatedData.ofRange xs) := by
  unfold TabulatedData.ofRange TabulatedData.verifySize
  refine counts hc _ fun nr ne h1 h2 h3 h4 => ?_
  refine (EndsChecked.guard _).bind fun _ hg => ?_
  have hl := hc.moderate.length
  have hlen : 2 + 2 * nr + 2 * ne ≤ xs.length := by
    have := guardThrow_eq_ok.mp hg
    simp only [Bool.not_eq_true', decide_eq_false_iff_not, Nat.not_lt] at this
    omega
  unfold TabulatedData.generateBlocks
  rw [h1]
  show EndsChecked (Base.IXSS xs (1 + 2 * sizeOfInt (nr : Int) + 1) >>= _)
  rw [size_nat (by omega), h2]
  show EndsChecked (ACE.sub xs 0 (2 * nr + 1) >>= fun ws => InterpolationData.ofRange ws >>= fun _ =>
    ACE.sub xs (2 * nr + 1) (2 * nr + 1 + 2 * sizeOfInt (ne : Int) + 1) >>= _)
  rw [size_nat h4]
  obtain ⟨a, ha⟩ := sub_ok (xs := xs) (l := 0) (r := 2 * nr + 1) (by omega) (by omega)
  obtain ⟨b, hb⟩ := sub_ok (xs := xs) (l := 2 * nr + 1) (r := 2 * nr + 1 + 2 * ne + 1) (by omega) (by omega)
  rw [ha, hb]
  have ca := Counted.prefix hc ha
  refine (EndsChecked.of_ends (column a 2 ca.moderate ca.boundaries)).bind fun _ _ => ?_
  refine (EndsChecked.of_ends (column b 2 (Moderate.sub hc.moderate hb) fun v hv => ?_)).bind fun _ _ => .ok _
  rw [sub_int hb (by omega) (by omega), show 2 * nr + 1 + 1 = 1 + 2 * nr + 1 by omega, h2] at hv
  injection hv with hv
  omega

theorem guard_length {a b : Nat} {u : Unit} (h : guardThrow (!decide (a < b)) = .ok u) : b ≤ a := by
  have := guardThrow_eq_ok.mp h
  simpa using this

end C56

/-- Tabulated data whose counts are not negative are read or refused, and so are the data that contain them:
evaporation spectra, multiplicities and precursor data. -/
theorem C56_tabulated_partial (xs : Words) :
    (Counted xs → EndsChecked (TabulatedData.ofRange xs) ∧ EndsChecked (Evaporation.ofRange xs)) ∧
    (1 ≤ xs.length → Counted (xs.drop 1) → EndsChecked (TabNu.ofRange xs) ∧
      ∀ number, EndsChecked (Precursor.ofRange xs number)) ∧
    (2 ≤ xs.length → Counted (xs.drop 2) → EndsChecked (TabMult.ofRange xs)) := by
  refine ⟨fun hc => ⟨C56.tabulated hc, ?_⟩, fun hl hc => ?_, fun hl hc => ?_⟩
  · unfold Evaporation.ofRange
    refine C56.counts hc _ fun nr ne h1 h2 h3 h4 => (EndsChecked.guard _).bind fun _ hg => ?_
    have hl := hc.moderate.length
    have := C56.guard_length hg
    unfold Evaporation.generateBlocks
    rw [h1]
    show EndsChecked (Base.IXSS xs (1 + 2 * sizeOfInt (nr : Int) + 1) >>= _)
    rw [C56.size_nat (by omega), h2]
    show EndsChecked (ACE.sub xs 0 (2 * nr + 2 * sizeOfInt (ne : Int) + 2) >>= _)
    rw [C56.size_nat h4]
    obtain ⟨a, ha⟩ := C56.sub_ok (xs := xs) (l := 0) (r := 2 * nr + 2 * ne + 2) (by omega) (by omega)
    rw [ha]
    exact (C56.tabulated (C56.Counted.prefix hc ha)).bind fun _ _ => .ok _
  · have e : sub xs 1 xs.length = .ok (xs.drop 1) := by
      unfold sub
      rw [if_pos ⟨hl, Nat.le_refl _⟩, List.take_of_length_le (by simp)]
    unfold TabNu.ofRange TabNu.generateBlocks Precursor.ofRange
    rw [e]
    exact ⟨(C56.tabulated hc).bind fun _ _ => .ok _, fun _ => (C56.tabulated hc).bind fun _ _ => .ok _⟩
  · have e : sub xs 2 xs.length = .ok (xs.drop 2) := by
      unfold sub
      rw [if_pos ⟨hl, Nat.le_refl _⟩, List.take_of_length_le (by simp)]
    unfold TabMult.ofRange TabMult.generateBlocks
    rw [e]
    exact (C56.tabulated hc).bind fun _ _ => .ok _

/-! ## Data with locators -/

namespace C56

theorem values_N {values : ColumnData} (hm : Moderate values.xss) : EndsChecked values.N := by
  unfold ColumnData.N
  split
  · exact .ok _
  · exact (IXSS_checked hm 1).bind fun _ _ => .ok _

theorem value_checked {values : ColumnData} (hm : Moderate values.xss) (c i : Nat) :
    EndsChecked (values.value c i) :=
  (values_N hm).bind fun _ _ => XSS_checked ..

theorem value_mem {values : ColumnData} {c i : Nat} {x : Dbl} (h : values.value c i = .ok x) : x ∈ values.xss := by
  obtain ⟨_, _, h⟩ := bind_eq_ok.mp h
  exact (XSS_mem h).2.2

theorem verify_checked {values : ColumnData} (hm : Moderate values.xss) (i : Nat) :
    EndsChecked (Dist.verifyValueIndex values i) := by
  unfold Dist.verifyValueIndex
  refine (values_N hm).bind fun n _ => ?_
  split
  · exact .range
  · exact .ok _

theorem dvalue_checked {values : ColumnData} (hm : Moderate values.xss) (c i : Nat) :
    EndsChecked (Dist.value values c i) :=
  (verify_checked hm i).bind fun _ _ => value_checked hm ..

theorem dvalue_mem {values : ColumnData} {c i : Nat} {x : Dbl} (h : Dist.value values c i = .ok x) : x ∈ values.xss := by
  obtain ⟨_, _, h⟩ := bind_eq_ok.mp h
  exact value_mem h

theorem int_of {x : Dbl} {v : Int} (h : x.round? = some v) (h1 : -1073741824 < v) (h2 : v < 1073741824) :
    toInt32 x.round? = .ok v := by
  rw [h]
  exact if_pos (by omega)

theorem LOCC_checked {values : ColumnData} (hm : Moderate values.xss) (i : Nat) :
    EndsChecked (Dist.LOCC values i) := by
  refine (dvalue_checked hm _ _).bind fun x hx => ?_
  obtain ⟨v, h1, h2, h3⟩ := hm.words x (dvalue_mem hx)
  rw [int_of h1 h2 h3]
  exact .ok _

theorem relInt_checked {values : ColumnData} (hm : Moderate values.xss) (locb i : Nat) :
    EndsChecked (Dist.relInt values locb i) :=
  (LOCC_checked hm i).bind fun _ _ => .ok _

theorem findNext_checked {rel : Nat → Res Int} (hr : ∀ i, EndsChecked (rel i)) (v : Int) :
    ∀ l, EndsChecked (Dist.findNext rel v l)
  | [] => .ok _
  | j :: l => by
    unfold Dist.findNext
    refine (hr j).bind fun n _ => ?_
    split
    · exact .ok _
    · exact findNext_checked hr v l

theorem findNext_gt {rel : Nat → Res Int} {v : Int} : ∀ {l : List Nat} {n : Int},
    Dist.findNext rel v l = .ok (some n) → v < n ∧ ∃ j ∈ l, rel j = .ok n
  | [], n, h => by cases h
  | j :: l, n, h => by
    unfold Dist.findNext at h
    obtain ⟨m, hj, h⟩ := bind_eq_ok.mp h
    split at h
    · injection h with h
      injection h with h
      subst h
      exact ⟨by omega, j, List.mem_cons_self .., hj⟩
    · obtain ⟨h1, k, hk, h2⟩ := findNext_gt h
      exact ⟨h1, k, List.mem_cons_of_mem _ hk, h2⟩

theorem generateBlock_checked {D : Type} {gen : Dbl → Nat → Words → Res D} {rel : Nat → Res Int} {xs : Words}
    {values : ColumnData} {n i : Nat} (hx : Moderate xs) (hm : Moderate values.xss) (hr : ∀ i, EndsChecked (rel i))
    (hb : ∀ i v, rel i = .ok v → -9000000000000000000 ≤ v ∧ v < 18446744073709551616)
    (hg : ∀ v locc loc right ws, Dist.LOCC values (i + 1) = .ok locc → rel (i + 1) = .ok loc →
      (right = xs.length ∨ ∃ k next, i + 1 < k ∧ k ≤ n ∧ rel k = .ok next ∧ loc < next ∧ right = sizeOfInt next - 1) →
      ACE.sub xs (sizeOfInt loc - 1) right = .ok ws → EndsChecked (gen v (sizeOfInt locc) ws)) :
    EndsChecked (Dist.generateBlock gen rel xs values n i) := by
  unfold Dist.generateBlock
  refine (dvalue_checked hm _ _).bind fun v _ => (LOCC_checked hm _).bind fun locb hlocc => (hr _).bind fun loc hl =>
    (iterator_checked xs _).bind fun left hleft => (findNext_checked hr _ _).bind fun o ho => ?_
  have hb0 := hb _ _ hl
  have hlen := hx.length
  have h1 := iterator_ok hleft
  have hloc : loc = (sizeOfInt loc : Int) ∧ 1 ≤ sizeOfInt loc := by
    unfold sizeOfInt at h1 ⊢
    omega
  have hgo : ∀ right, left ≤ right → right ≤ xs.length →
      (right = xs.length ∨ ∃ k next, i + 1 < k ∧ k ≤ n ∧ rel k = .ok next ∧ loc < next ∧ right = sizeOfInt next - 1) →
      EndsChecked (ACE.sub xs left right >>= fun ws => gen v (sizeOfInt locb) ws) := by
    intro right h2 h3 h4
    obtain ⟨ws, hw⟩ := sub_ok h2 h3
    rw [hw]
    rw [h1.2.1] at hw
    exact hg _ _ _ _ _ hlocc hl h4 hw
  cases o with
  | none => exact hgo _ h1.2.2 (Nat.le_refl _) (.inl rfl)
  | some next =>
    refine (iterator_checked xs _).bind fun right hright => ?_
    have h2 := iterator_ok hright
    obtain ⟨h3, j, hmem, hj⟩ := findNext_gt ho
    have hb1 := hb _ _ hj
    have hmem := List.mem_range'.mp hmem
    refine hgo right ?_ h2.2.2 (.inr ⟨j, next, by omega, by omega, hj, h3, h2.2.1⟩)
    have : sizeOfInt loc ≤ sizeOfInt next := by
      unfold sizeOfInt at h2 hloc ⊢
      omega
    omega

theorem DistData_checked {D : Type} {gen : Dbl → Nat → Words → Res D} {xs : Words} (hc : Counted xs)
    {locb : Nat} (hg : ∀ v (nr ne j : Nat) locc right ws, Base.IXSS xs 1 = .ok (nr : Int) →
      Base.IXSS xs (2 + 2 * nr) = .ok (ne : Int) → 1 ≤ j → j ≤ ne → Base.IXSS xs (2 + 2 * nr + ne + j) = .ok locc →
      (right = xs.length ∨ ∃ k next, j < k ∧ k ≤ ne ∧ Base.IXSS xs (2 + 2 * nr + ne + k) = .ok next ∧
        wrap32 (locc - locb + 1) < wrap32 (next - locb + 1) ∧ right = sizeOfInt (wrap32 (next - locb + 1)) - 1) →
      ACE.sub xs (sizeOfInt (wrap32 (locc - locb + 1)) - 1) right = .ok ws → EndsChecked (gen v (sizeOfInt locc) ws)) :
    EndsChecked (DistData.ofRange gen locb xs) := by
  unfold DistData.ofRange
  refine counts hc _ fun nr ne h1 h2 h3 h4 => (EndsChecked.guard _).bind fun _ hg' => ?_
  have hl := hc.moderate.length
  have := guard_length hg'
  unfold DistData.generateBlocks
  have e : 2 + 2 * nr = 1 + 2 * nr + 1 := by omega
  rw [h1]
  show EndsChecked (Base.IXSS xs (2 + 2 * sizeOfInt (nr : Int)) >>= fun w =>
    Base.iterator xs (2 + 2 * sizeOfInt (nr : Int)) >>= fun data =>
      Base.iterator xs (2 + 2 * sizeOfInt (nr : Int) + 2 * sizeOfInt w + 1) >>= _)
  rw [size_nat (by omega), e, h2]
  show EndsChecked (Base.iterator xs _ >>= fun data => Base.iterator xs (_ + 2 * sizeOfInt (ne : Int) + 1) >>= _)
  rw [size_nat h4]
  refine (iterator_checked xs _).bind fun data hd => (iterator_checked xs _).bind fun fin hf => ?_
  have d1 := iterator_ok hd
  have d2 := iterator_ok hf
  obtain ⟨a, ha⟩ := sub_ok (xs := xs) (l := 0) (r := data) (by omega) (by omega)
  obtain ⟨b, hb⟩ := sub_ok (xs := xs) (l := data) (r := fin) (by omega) (by omega)
  rw [ha]
  have ca := Counted.prefix hc ha
  refine (EndsChecked.of_ends (column a 2 ca.moderate ca.boundaries)).bind fun _ _ => ?_
  rw [hb]
  have mb := Moderate.sub hc.moderate hb
  refine (EndsChecked.of_ends (column b 2 mb fun v hv => ?_)).bind fun values hv => ?_
  · rw [sub_int hb (by omega) (by omega), show data + 1 = 1 + 2 * nr + 1 by omega, h2] at hv
    injection hv with hv
    omega
  · have mv : Moderate values.xss := by
      rw [C56.column_xss hv]
      exact mb
    have hx := C56.column_xss hv
    have hn : values.N = .ok ne := by
      have : b.length = fin - data := (sub_mem hb).1
      unfold ColumnData.N
      rw [hx, if_neg (by rw [List.isEmpty_iff]; rintro rfl; simp at this; omega), sub_int hb (by omega) (by omega),
        show data + 1 = 1 + 2 * nr + 1 by omega, h2, ok_bind, size_nat h4]
      rfl
    have hlocc : ∀ i v, Dist.LOCC values i = .ok v → 1 ≤ i ∧ i ≤ ne ∧ Base.IXSS xs (2 + 2 * nr + ne + i) = .ok v := by
      intro i v h5
      unfold Dist.LOCC Dist.value Dist.verifyValueIndex at h5
      rw [hn] at h5
      simp only [ok_bind] at h5
      by_cases hi : i < 1 ∨ i > ne
      · rw [if_pos hi] at h5
        cases h5
      · rw [if_neg hi, ok_bind] at h5
        have hc2 : values.nc = 2 := column_nc hv
        unfold ColumnData.value at h5
        rw [hn, ok_bind, position_pos (by omega), hx, hc2, sub_word hb (by omega) (by omega)] at h5
        refine ⟨by omega, by omega, ?_⟩
        unfold Base.IXSS
        rw [← h5]
        congr 2
        omega
    have hrel : ∀ i v, Dist.relInt values locb i = .ok v → ∃ w, Dist.LOCC values i = .ok w ∧ v = wrap32 (w - locb + 1) := by
      intro i v h
      obtain ⟨w, hw, h⟩ := bind_eq_ok.mp h
      injection h with h
      exact ⟨w, hw, h.symm⟩
    rw [hn, ok_bind]
    refine (EndsChecked.mapM _ fun i _ => ?_).bind fun _ _ => .ok _
    refine generateBlock_checked hc.moderate mv (relInt_checked mv locb) (fun i v h => ?_) ?_
    · obtain ⟨w, _, rfl⟩ := hrel i v h
      unfold wrap32
      split <;> omega
    · intro v locc loc right ws h5 h6 hright h7
      obtain ⟨i1, i2, i3⟩ := hlocc _ _ h5
      obtain ⟨w, hw, rfl⟩ := hrel _ _ h6
      obtain rfl := Except.ok.inj (h5.symm.trans hw)
      refine hg v nr ne (i + 1) locc right ws h1 (e ▸ h2) i1 i2 i3 (hright.imp_right ?_) h7
      rintro ⟨k, next, k1, k2, k3, k4, k5⟩
      obtain ⟨w, hw, rfl⟩ := hrel _ _ k3
      exact ⟨k, w, k1, k2, (hlocc _ _ hw).2.2, k4, k5⟩

end C56

/-- Energy distributions given for incident energies, laws 4 and 44, are read or refused, whatever their locators
are, when the two counts are not negative. -/
theorem C56_distributions_partial (xs : Words) (hc : Counted xs) (locb : Nat) :
    EndsChecked (Law4.ofRange locb xs) :=
  C56.DistData_checked hc fun v _ _ _ _ _ ws _ _ _ _ _ _ h =>
    (C56_counted_partial ws (C56.Moderate.sub hc.moderate h)).2.2.1 v

/-! ## Angular distributions -/

namespace C56

theorem averify_checked {values : ColumnData} (hm : Moderate values.xss) (i : Nat) :
    EndsChecked (AngularData.verifyIndexOf values i) := by
  unfold AngularData.verifyIndexOf
  refine (values_N hm).bind fun n _ => ?_
  split
  · exact .range
  · exact .ok _

theorem ALOCC_checked {values : ColumnData} (hm : Moderate values.xss) (i : Nat) :
    EndsChecked (AngularData.LOCCof values i) ∧
      ∀ v, AngularData.LOCCof values i = .ok v → -1073741824 < v ∧ v < 1073741824 := by
  constructor
  · refine (averify_checked hm i).bind fun _ _ => (value_checked hm _ _).bind fun x hx => ?_
    obtain ⟨v, h1, h2, h3⟩ := hm.words x (value_mem hx)
    obtain ⟨j, j1, j2, _⟩ := trunc_of_round h1
    rw [j1]
    unfold toInt32
    simp only
    rw [if_pos (by omega)]
    exact .ok _
  · intro v h
    obtain ⟨_, _, h⟩ := bind_eq_ok.mp h
    obtain ⟨x, hx, h⟩ := bind_eq_ok.mp h
    obtain ⟨w, h1, h2, h3⟩ := hm.words x (value_mem hx)
    obtain ⟨j, j1, j2, _⟩ := trunc_of_round h1
    rw [j1] at h
    unfold toInt32 at h
    simp only at h
    rw [if_pos (by omega)] at h
    injection h with h
    omega

theorem relative_checked {values : ColumnData} (hm : Moderate values.xss) (locb i : Nat) :
    EndsChecked (AngularData.relativeOf values locb i) := by
  unfold AngularData.relativeOf
  refine (ALOCC_checked hm i).1.bind fun v hv => ?_
  have := (ALOCC_checked hm i).2 v hv
  split
  · exact .ok _
  · rw [if_neg (by omega)]
    exact .ok _

theorem rangeEnd_checked (xs : Words) (o : Option Int) : EndsChecked (rangeEnd xs o) := by
  cases o with
  | none => exact .ok _
  | some n => exact iterator_checked ..

/-- From a position to the next greater one, or to the end. -/
theorem between {xs : Words} {rel : Nat → Res Int} {locator left right : Nat} {l : List Nat} {o : Option Int}
    (h1 : Base.iterator xs locator = .ok left) (h2 : Dist.findNext rel (locator : Int) l = .ok o)
    (h3 : rangeEnd xs o = .ok right) : ∃ ws, ACE.sub xs left right = .ok ws := by
  have h1 := iterator_ok h1
  cases o with
  | none =>
    injection h3 with h3
    exact sub_ok (by omega) (by omega)
  | some n =>
    have h3 := iterator_ok h3
    have := (findNext_gt h2).1
    exact sub_ok (by omega) (by omega)

theorem angularBlock_checked {xs : Words} {values : ColumnData} (hx : Moderate xs) (hm : Moderate values.xss)
    (locb n i : Nat) : EndsChecked (AngularData.generateBlock xs values locb n i) := by
  unfold AngularData.generateBlock AngularData.typeOf AngularData.incidentEnergyOf
  refine ((ALOCC_checked hm _).1.bind fun _ _ => .ok _).bind fun type _ =>
    ((averify_checked hm _).bind fun _ _ => value_checked hm _ _).bind fun incident _ => ?_
  split
  · exact .ok _
  · refine (relative_checked hm locb _).bind fun locator _ => (iterator_checked xs _).bind fun left hl =>
      (findNext_checked (fun i => (relative_checked hm locb i).bind fun _ _ => .ok _) _ _).bind fun o ho =>
      (rangeEnd_checked xs o).bind fun right hr => ?_
    obtain ⟨ws, hw⟩ := between hl ho hr
    rw [hw]
    split
    · exact ((C56_counted_partial ws (Moderate.sub hx hw)).2.2.1 incident).bind fun _ _ => .ok _
    · exact (EndsChecked.of_ends ((C56_arrays ws).2.2.2.1 incident 0).2.2).bind fun _ _ => .ok _

end C56

/-- Angular distribution data of moderate words are read or refused. -/
theorem C56_angular_partial (xs : Words) (hm : Moderate xs) (locb : Nat) :
    EndsChecked (AngularData.ofRange locb xs) := by
  unfold AngularData.ofRange AngularData.generateBlocks
  have key : ∀ ne, Base.IXSS xs 1 = .ok ne → ∀ fin, Base.iterator xs (2 * sizeOfInt ne + 2) = .ok fin →
      ∀ ws, sub xs 0 fin = .ok ws → Ends (ColumnData.ofRange ws 2) := by
    intro ne hne fin hf ws hw
    have h1 := C56.iterator_ok hf
    have h2 := C56.IXSS_moderate hm hne
    have hl := hm.length
    refine C56.column ws 2 (C56.Moderate.sub hm hw) fun v hv => ?_
    rw [C56.sub_int hw (by omega) (by omega), hne] at hv
    injection hv with hv
    subst hv
    unfold sizeOfInt at h1
    omega
  have part : ∀ fin ws values, sub xs 0 fin = .ok ws → ColumnData.ofRange ws 2 = .ok values →
      Moderate values.xss := by
    intro fin ws values h1 h2
    rw [C56.column_xss h2]
    exact C56.Moderate.sub hm h1
  refine EndsChecked.bind ?_ fun d hd => ?_
  · refine (C56.IXSS_checked hm 1).bind fun ne hne => (C56.iterator_checked xs _).bind fun fin hf => ?_
    have h1 := C56.iterator_ok hf
    obtain ⟨ws, hw⟩ := C56.sub_ok (xs := xs) (l := 0) (r := fin) (by omega) (by omega)
    rw [hw]
    refine (EndsChecked.of_ends (key ne hne fin hf ws hw)).bind fun values hv => ?_
    have mv := part fin ws values hw hv
    exact (C56.values_N mv).bind fun n _ =>
      (EndsChecked.mapM _ fun i _ => C56.angularBlock_checked hm mv locb n i).bind fun _ _ => .ok _
  · obtain ⟨ne, _, hd⟩ := bind_eq_ok.mp hd
    obtain ⟨fin, _, hd⟩ := bind_eq_ok.mp hd
    obtain ⟨ws, h1, hd⟩ := bind_eq_ok.mp hd
    obtain ⟨values, h2, hd⟩ := bind_eq_ok.mp hd
    obtain ⟨n, _, hd⟩ := bind_eq_ok.mp hd
    obtain ⟨_, _, hd⟩ := bind_eq_ok.mp hd
    injection hd with hd
    subst hd
    exact (C56.values_N (part fin ws values h1 h2)).bind fun _ _ => (EndsChecked.guard _).bind fun _ _ => .ok _

/-- Angular distribution blocks of moderate words are read or refused, whatever the locators are. -/
theorem C56_angular_block_partial (xs : Words) (hm : Moderate xs) (iter nr : Nat) (zero : Bool) :
    EndsChecked (AngularBlock.ofRange xs iter nr zero) := by
  unfold AngularBlock.ofRange AngularBlock.generateBlocks
  have land : ∀ i, EndsChecked (AngularBlock.LANDof xs nr zero i) := by
    intro i
    unfold AngularBlock.LANDof
    generalize (if zero = true then 0 else 1) = a
    split
    · exact .range
    · exact C56.IXSS_checked hm _
  refine (EndsChecked.guard _).bind fun _ _ => (EndsChecked.mapM _ fun i _ => ?_).bind fun _ _ => .ok _
  unfold AngularBlock.generateBlock
  refine (land i).bind fun v hv => ?_
  split
  · split
    · exact .ok _
    · refine (C56.iterator_checked xs _).bind fun left hl =>
        (C56.findNext_checked (fun j => (land j).bind fun _ _ => .ok _) _ _).bind fun o ho =>
        (C56.rangeEnd_checked xs o).bind fun right hr => ?_
      obtain ⟨ws, hw⟩ := C56.between hl ho hr
      rw [hw]
      exact (C56_angular_partial ws (C56.Moderate.sub hm hw) _).bind fun _ _ => .ok _
  · exact .ok _

/-! ## Blocks with locators -/

/-- No locator of a block is greater than the following one. -/
def LocatorsInOrder (xs : Words) (n : Nat) (locator : Bool) : Prop :=
  ∀ i a b, i + 1 ≤ n → LocBlock.LLOCof xs n locator i = .ok a → LocBlock.LLOCof xs n locator (i + 1) = .ok b → a ≤ b

namespace C56

theorem LocBlock_checked {D : Type} {gen : Nat → Words → Res D} {xs : Words} (hm : Moderate xs) {iter n : Nat}
    {locator : Bool} (ho : LocatorsInOrder xs n locator)
    (hg : ∀ i l right ws, i < n → LocBlock.LLOCof xs n locator (i + 1) = .ok l →
      ((i + 1 = n ∧ right = xs.length) ∨ ∃ next, LocBlock.LLOCof xs n locator (i + 2) = .ok next ∧ right = iter + next - 1) →
      ACE.sub xs (iter + l - 1) right = .ok ws → EndsChecked (gen l ws)) :
    EndsChecked (LocBlock.ofRange gen xs iter n locator) := by
  unfold LocBlock.ofRange LocBlock.generateBlocks
  have hloc : ∀ i, EndsChecked (LocBlock.LLOCof xs n locator i) := by
    intro i
    unfold LocBlock.LLOCof LocBlock.verifyDataIndex
    refine EndsChecked.bind ?_ fun _ _ => ?_
    · split
      · exact .range
      · exact .ok _
    · split <;> exact (IXSS_checked hm i).bind fun _ _ => .ok _
  refine (EndsChecked.guard _).bind fun _ _ => (EndsChecked.mapM _ fun i hi => ?_).bind fun _ _ => .ok _
  unfold LocBlock.generateBlock
  refine (hloc _).bind fun loc hl => (iterator_checked xs _).bind fun left hleft => ?_
  have h1 := iterator_ok hleft
  have hi := List.mem_range.mp hi
  have hleft' : left = iter + loc - 1 := by omega
  have hgo : ∀ right, left ≤ right → right ≤ xs.length →
      ((i + 1 = n ∧ right = xs.length) ∨ ∃ next, LocBlock.LLOCof xs n locator (i + 2) = .ok next ∧ right = iter + next - 1) →
      EndsChecked (ACE.sub xs left right >>= gen loc) := by
    intro right h2 h3 h4
    obtain ⟨ws, hw⟩ := sub_ok h2 h3
    rw [hw]
    rw [hleft'] at hw
    exact hg _ _ _ _ hi hl h4 hw
  by_cases hn : i + 1 = n
  · simp only [hn, if_true]
    exact hgo _ h1.2.2 (Nat.le_refl _) (.inl ⟨hn, rfl⟩)
  · simp only [hn, if_false]
    refine (hloc _).bind fun next hnext => (iterator_checked xs _).bind fun right hr => ?_
    have h2 := iterator_ok hr
    have h3 := ho (i + 1) loc next (by omega) hl hnext
    exact hgo right (by omega) h2.2.2 (.inr ⟨next, hnext, by omega⟩)

end C56

/-- SIG, SWD and XPROB blocks with locators in order are read or refused. -/
theorem C56_blocks_partial (xs : Words) (hm : Moderate xs) (iter n : Nat) :
    (LocatorsInOrder xs n true → EndsChecked (SIG.ofRange xs iter n) ∧ EndsChecked (SWD.ofRange xs iter n)) ∧
    (LocatorsInOrder xs n false → EndsChecked (XPROB.ofRange xs iter n)) :=
  ⟨fun ho => ⟨C56.LocBlock_checked hm ho fun _ _ _ ws _ _ _ hw => (C56_counted_partial ws (C56.Moderate.sub hm hw)).1,
    C56.LocBlock_checked hm ho fun _ _ _ ws _ _ _ hw => (C56_counted_partial ws (C56.Moderate.sub hm hw)).2.1⟩,
    fun ho => C56.LocBlock_checked hm ho fun _ _ _ ws _ _ _ _ => .of_ends (C56_arrays ws).2.2.1.2.2⟩

/-! ## What happens otherwise -/

/-- The full statement, for tabulated data. -/
def C56Statement : Prop := ∀ xs : Words, EndsChecked (TabulatedData.ofRange xs)

/-- The number of points is 2147483647: the sum of the size check is zero modulo 2^32. -/
def wrapping : Words := Dbl.ofNat 0 :: Dbl.ofNat 2147483647 :: List.replicate 4 (Dbl.ofNat 0)

/-- A negative count, and one that makes the sum of the size check wrap around, leave the words undefined. -/
theorem C56_false : ¬ C56Statement ∧
    TabulatedData.ofRange [Dbl.ofInt (-1), Dbl.ofNat 0] = .error .ub ∧
    TabulatedData.ofRange wrapping = .error .ub := by
  have h1 : TabulatedData.ofRange [Dbl.ofInt (-1), Dbl.ofNat 0] = .error .ub := by decide +kernel
  have h2 : TabulatedData.ofRange wrapping = .error .ub := by decide +kernel
  exact ⟨fun h => (h _).not_ub.1 h1, h1, h2⟩

/-- Blocks that are read without
any check: probability tables, fission multiplicities, delayed neutron data and elastic electron data that are
shorter than their counts say. -/
theorem C56_truncated :
    UNR.ofRange [Dbl.ofNat 1, Dbl.ofNat 20, Dbl.ofNat 2, Dbl.ofNat 0, Dbl.ofNat 0, Dbl.ofNat 0, Dbl.ofNat 1] = .error .ub ∧
    NU.ofRange [Dbl.ofInt (-20), Dbl.ofNat 1, Dbl.ofNat 1, Dbl.ofNat 2] = .error .ub ∧
    BDD.ofRange [Dbl.ofNat 1, Dbl.ofNat 0, Dbl.ofNat 2, Dbl.ofNat 1] 1 = .error .ub ∧
    ElectronBlock.ofRange [Dbl.ofNat 1, Dbl.ofNat 16] 1 = .error .ub ∧
    TabNu.ofRange [] = .error .ub := by
  refine ⟨?_, ?_, ?_, ?_, ?_⟩ <;> decide +kernel

/-! ## The hypotheses can be met -/

/-- Words of tabulated data that end too early: refused. -/
def shortTable : Words := [Dbl.ofNat 0, Dbl.ofNat 3, Dbl.ofNat 1, Dbl.ofNat 2]

theorem C56.moderate_of {xs : Words} (h : decide (xs.length < 1073741824) = true)
    (hw : xs.all (fun x => x.round?.any fun i => decide (-1073741824 < i ∧ i < 1073741824)) = true) : Moderate xs := by
  refine ⟨of_decide_eq_true h, fun x hx => ?_⟩
  have := List.all_eq_true.mp hw x hx
  obtain ⟨i, h1, h2⟩ := (Option.any_eq_true _ _).mp this
  have := of_decide_eq_true h2
  exact ⟨i, h1, this.1, this.2⟩

theorem shortTable_counted : Counted shortTable := by
  refine ⟨C56.moderate_of (by decide +kernel) (by decide +kernel), fun v h => ?_, fun nr h v h' => ?_⟩
  · have e : Base.IXSS shortTable 1 = .ok 0 := by decide +kernel
    have := Except.ok.inj (e.symm.trans h)
    omega
  · have e : Base.IXSS shortTable 1 = .ok 0 := by decide +kernel
    have := Except.ok.inj (e.symm.trans h)
    obtain rfl : nr = 0 := by omega
    have e : Base.IXSS shortTable 2 = .ok 3 := by decide +kernel
    have := Except.ok.inj (e.symm.trans h')
    omega

example : TabulatedData.ofRange shortTable = .error .thrown ∧ EndsChecked (TabulatedData.ofRange shortTable) :=
  ⟨by decide +kernel, ((C56_tabulated_partial _).1 shortTable_counted).1⟩

example : EndsChecked (Law4.ofRange 1 shortTable) := C56_distributions_partial _ shortTable_counted 1

/-- An angular block whose locator leaves its words: refused. -/
def farLocator : Words := [Dbl.ofNat 7, Dbl.ofNat 1, Dbl.ofNat 2]

example : AngularBlock.ofRange farLocator 1 1 false = .error .range ∧
    EndsChecked (AngularBlock.ofRange farLocator 1 1 false) :=
  ⟨by decide +kernel,
    C56_angular_block_partial _ (C56.moderate_of (by decide +kernel) (by decide +kernel)) ..⟩

/-- Two cross sections whose locators are in order, the second one being shorter than it says. -/
def shortSig : Words := [Dbl.ofNat 1, Dbl.ofNat 4, Dbl.ofNat 1, Dbl.ofNat 1, Dbl.ofNat 5, Dbl.ofNat 1, Dbl.ofNat 3]

example : SIG.ofRange shortSig 2 2 = .error .thrown ∧ EndsChecked (SIG.ofRange shortSig 2 2) := by
  refine ⟨by decide +kernel, ((C56_blocks_partial _ (C56.moderate_of (by decide +kernel) (by decide +kernel)) 2 2).1
    fun i a b hi ha hb => ?_).1⟩
  have e1 : LocBlock.LLOCof shortSig 2 true 1 = .ok 1 := by decide +kernel
  have e2 : LocBlock.LLOCof shortSig 2 true 2 = .ok 4 := by decide +kernel
  have e0 : LocBlock.LLOCof shortSig 2 true 0 = .error .range := by decide +kernel
  match i, hi with
  | 0, _ => rw [e0] at ha; cases ha
  | 1, _ =>
    have := Except.ok.inj (e1.symm.trans ha)
    have := Except.ok.inj (e2.symm.trans hb)
    omega

example := C56_counted_partial farLocator (C56.moderate_of (by decide +kernel) (by decide +kernel))
example := C56_angular_partial farLocator (C56.moderate_of (by decide +kernel) (by decide +kernel)) 1

end ACE.Props

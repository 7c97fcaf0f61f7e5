import Verif.Props.AgreeSpec
import Verif.Lemmas.Core
import Mathlib.Data.List.Forall2

/-!
# Words behind the last word: the reading primitives
-/

namespace ACE

namespace Up

variable {α β : Type}

theorem refl {R : α → α → Prop} (h : ∀ v, R v v) (r : Res α) : Up R r r := fun v hv => ⟨v, hv, h v⟩

theorem same (r : Res α) : Up Eq r r := refl (fun _ => rfl) r

theorem ofEq {r r' : Res α} (h : r = r') : Up Eq r r' := h ▸ same r

theorem ok {R : α → α → Prop} {v v' : α} (h : R v v') : Up R (.ok v) (.ok v') :=
  fun _ hw => ⟨v', rfl, Except.ok.inj hw ▸ h⟩

theorem pure' {R : α → α → Prop} {v v' : α} (h : R v v') : Up R (pure v) (pure v') := ok h

theorem error {R : α → α → Prop} (e : Err) (r : Res α) : Up R (.error e) r := fun _ hw => nomatch hw

/-- A step whose result may be larger. -/
theorem step {A : α → α → Prop} {R : β → β → Prop} {r r' : Res α} {k k' : α → Res β}
    (h : Up A r r') (hk : ∀ v v', r = .ok v → r' = .ok v' → A v v' → Up R (k v) (k' v')) :
    Up R (r >>= k) (r' >>= k') := by
  intro w hw
  obtain ⟨v, hv, hv'⟩ := bind_eq_ok.mp hw
  obtain ⟨v', h1, h2⟩ := h v hv
  obtain ⟨w', h3, h4⟩ := hk v v' hv h1 h2 w hv'
  exact ⟨w', by rw [h1]; exact h3, h4⟩

/-- A step with the same result. -/
theorem bind {R : β → β → Prop} {r r' : Res α} {k k' : α → Res β}
    (h : Up Eq r r') (hk : ∀ v, r = .ok v → Up R (k v) (k' v)) : Up R (r >>= k) (r' >>= k') :=
  step h fun v v' hv _ e => e ▸ hk v hv

theorem ite {R : β → β → Prop} {c : Prop} [Decidable c] {a b a' b' : Res β}
    (h1 : Up R a a') (h2 : Up R b b') : Up R (if c then a else b) (if c then a' else b') := by
  split
  · exact h1
  · exact h2

/-- The branches under what they are chosen by. -/
theorem dite' {R : β → β → Prop} {c : Prop} [Decidable c] {a b a' b' : Res β}
    (h1 : c → Up R a a') (h2 : ¬ c → Up R b b') :
    Up R (if c then a else b) (if c then a' else b') := by
  split
  · exact h1 ‹_›
  · exact h2 ‹_›

/-- An element of two lists. -/
theorem get {R : α → α → Prop} {l l' : List α} (h : List.Forall₂ R l l') (i : Nat) {f : Option α → Res α}
    (hf : ∀ x, f (some x) = .ok x) (hn : ∀ x, f none ≠ .ok x) : Up R (f l[i]?) (f l'[i]?) := by
  intro v hv
  cases hl : l[i]? with
  | none => rw [hl] at hv; exact absurd hv (hn v)
  | some x =>
      rw [hl, hf] at hv
      obtain ⟨hi, e⟩ := List.getElem?_eq_some_iff.mp hl
      have hi' : i < l'.length := h.length_eq ▸ hi
      refine ⟨l'[i], ?_, ?_⟩
      · rw [List.getElem?_eq_getElem hi', hf]
      · rw [← Except.ok.inj hv, ← e]; exact h.get hi hi'

theorem mapM {γ : Type} {R : β → β → Prop} {f f' : γ → Res β} (l : List γ)
    (h : ∀ i ∈ l, Up R (f i) (f' i)) : Up (List.Forall₂ R) (l.mapM f) (l.mapM f') := by
  induction l with
  | nil => exact pure' .nil
  | cons i l ih =>
      rw [List.mapM_cons, List.mapM_cons]
      exact step (h i (by simp)) fun v v' _ _ hv =>
        step (ih fun j hj => h j (by simp [hj])) fun vs vs' _ _ hvs => pure' (.cons hv hvs)

/-- The relation of two computations, spelled out. -/
theorem gives [Gives α] {r r' : Res α} (h : Up Gives.rel r r') : r ≼ r' := h

theorem mono {R S : α → α → Prop} {r r' : Res α} (h : Up R r r') (hRS : ∀ v v', R v v' → S v v') :
    Up S r r' := fun v hv => let ⟨v', h1, h2⟩ := h v hv; ⟨v', h1, hRS _ _ h2⟩

end Up

theorem forall₂_refl {α : Type} {R : α → α → Prop} (h : ∀ x, R x x) : (l : List α) → List.Forall₂ R l l
  | [] => .nil
  | x :: l => .cons (h x) (forall₂_refl h l)

namespace Longer

variable (xs ys : Words)

theorem verifyIndex (i min max max' : Nat) (h : max ≤ max') :
    Up Eq (Base.verifyIndex i min max) (Base.verifyIndex i min max') := by
  intro v hv
  refine ⟨v, ?_, rfl⟩
  unfold Base.verifyIndex at hv ⊢
  split at hv
  · cases hv
  · rw [if_neg (by omega)]

theorem deref (i : Nat) : Up Eq (ACE.deref xs i) (ACE.deref (xs ++ ys) i) := by
  intro v hv
  refine ⟨v, ?_, rfl⟩
  unfold ACE.deref at hv ⊢
  cases h : xs[i]? with
  | none => rw [h] at hv; cases hv
  | some x =>
      rw [h] at hv
      rw [List.getElem?_append_left (List.getElem?_eq_some_iff.mp h).1, h]
      exact hv

theorem iterator (i : Nat) : Up Eq (Base.iterator xs i) (Base.iterator (xs ++ ys) i) :=
  Up.bind (verifyIndex _ _ _ _ (by simp)) fun _ _ => Up.same _

theorem XSS (i : Nat) : Up Eq (Base.XSS xs i) (Base.XSS (xs ++ ys) i) :=
  Up.bind (verifyIndex _ _ _ _ (by simp)) fun _ _ => deref xs ys _

theorem IXSS (i : Nat) : Up Eq (Base.IXSS xs i) (Base.IXSS (xs ++ ys) i) :=
  Up.bind (XSS xs ys i) fun _ _ => Up.same _

/-- A part of the words. -/
theorem sub (l r : Nat) : Up Eq (ACE.sub xs l r) (ACE.sub (xs ++ ys) l r) := by
  intro v hv
  refine ⟨v, ?_, rfl⟩
  unfold ACE.sub at hv ⊢
  split at hv
  · rename_i h
    rw [if_pos (by rw [List.length_append]; omega), List.drop_append_of_le_length (by omega),
      List.take_append_of_le_length (by rw [List.length_drop]; omega)]
    exact hv
  · cases hv

/-- Everything from a position on. -/
theorem rest (l : Nat) : Up (fun v v' => v' = v ++ ys) (ACE.sub xs l xs.length)
    (ACE.sub (xs ++ ys) l (xs ++ ys).length) := by
  intro v hv
  unfold ACE.sub at hv ⊢
  split at hv
  · rename_i h
    refine ⟨_, if_pos (by rw [List.length_append]; omega), ?_⟩
    rw [← Except.ok.inj hv, List.drop_append_of_le_length (by omega),
      List.take_of_length_le (by rw [List.length_drop]; exact Nat.le_refl _),
      List.take_of_length_le (by simp only [List.length_append, List.length_drop]; omega)]
  · cases hv

theorem XSSr (i n : Nat) : Up Eq (Base.XSSr xs i n) (Base.XSSr (xs ++ ys) i n) := by
  unfold Base.XSSr
  refine Up.bind (iterator xs ys i) fun _ _ => ?_
  dsimp only
  by_cases h : n > 0
  · rw [if_pos h, if_pos h]
    exact Up.bind (Up.bind (iterator xs ys _) fun _ _ => Up.same _) fun _ _ => sub xs ys _ _
  · rw [if_neg h, if_neg h]
    exact Up.bind (Up.same _) fun _ _ => sub xs ys _ _

theorem IXSSr (i n : Nat) : Up Eq (Base.IXSSr xs i n) (Base.IXSSr (xs ++ ys) i n) :=
  Up.bind (XSSr xs ys i n) fun _ _ => Up.same _

/-- A check that the range is long enough. -/
theorem size (n : Nat) : Up Eq (guardThrow (!decide (xs.length < n)))
    (guardThrow (!decide ((xs ++ ys).length < n))) := by
  intro v hv
  refine ⟨v, ?_, rfl⟩
  have h := guardThrow_eq_ok.mp hv
  refine guardThrow_ok ?_
  simp only [Bool.not_eq_true', decide_eq_false_iff_not, List.length_append] at h ⊢
  omega

end Longer

/-- Steps that only read words. -/
syntax "longer" : tactic
macro_rules
  | `(tactic| longer) => `(tactic| repeat' first
      | with_reducible exact Up.same _
      | with_reducible exact Longer.XSS _ _ _
      | with_reducible exact Longer.IXSS _ _ _
      | with_reducible exact Longer.XSSr _ _ _ _
      | with_reducible exact Longer.IXSSr _ _ _ _
      | with_reducible exact Longer.iterator _ _ _
      | with_reducible exact Longer.deref _ _ _
      | with_reducible exact Longer.sub _ _ _ _
      | with_reducible exact Longer.size _ _ _
      | with_reducible exact Up.error _ _
      | with_reducible refine Up.bind ?_ fun _ _ => ?_
      | with_reducible refine Up.ite ?_ ?_
      | with_reducible refine Up.pure' ?_
      | with_reducible refine Up.gives ?_
      | dsimp only)

end ACE

import Verif.Lemmas.Memory
import Verif.Props.C01

/-!
# C59: tables that are edited in place

The mutable accessors of a table change words in place. The specification is again an interpreter over plain
values: the value of an object is the words it holds and the words its blocks were delimited from (those it held
when it was made or copied). Editing changes the words of one object only; a copy delimits its blocks anew.
-/

namespace ACE.Props.C59
open ACE ACE.Memory

/-- What a user thinks an object is. -/
inductive Spec where
  /-- a table or block of class `cls` with contents `ws`, whose blocks were delimited when it held `made` -/
  | value (cls : Nat) (made ws : Words)
  /-- an object that was moved from -/
  | moved
  /-- a view of some other object -/
  | view
deriving DecidableEq, Repr

/-- The value of a copy: its blocks are delimited from the present words. -/
def Spec.fresh : Spec → Spec
  | .value cls _ ws => .value cls ws ws
  | s => s

/-- The value after the word at `pos` is replaced. -/
def Spec.edit (pos : Nat) (v : Dbl) : Spec → Spec
  | .value cls made ws => .value cls made (ws.set pos v)
  | s => s

/-- The effect of one operation on the values the user has in mind. -/
def specStep (s : Nat → Option Spec) : Op → (Nat → Option Spec)
  | .make i cls ws => fun k => if k = i then some (.value cls ws ws) else s k
  | .copyCtor i j => fun k => if k = i then (s j).map Spec.fresh else s k
  | .copyAssign i j => fun k => if i = j then s k else if k = i then (s j).map Spec.fresh else s k
  | .moveCtor i j => fun k => if k = i then (s j).map Spec.fresh else if k = j then some .moved else s k
  | .moveAssign i j => fun k =>
      if i = j then s k else if k = i then (s j).map Spec.fresh else if k = j then some .moved else s k
  | .destroy i => fun k => if k = i then none else s k
  | .view i _ _ _ => fun k => if k = i then some .view else s k

/-- The same for a history with edits. -/
def specStepW (s : Nat → Option Spec) : OpW → (Nat → Option Spec)
  | .plain op => specStep s op
  | .write j pos v => fun k => if k = j then (s j).map (Spec.edit pos v) else s k

/-- The values after a history. -/
def spec (s : Nat → Option Spec) : List OpW → (Nat → Option Spec)
  | [] => s
  | op :: ops => spec (specStepW s op) ops

/-- What reading all words and all blocks gives for an object that holds `ws` and whose blocks were delimited when it
held `made`. -/
def expected (L : Layout) (cls : Nat) (made ws : Words) : Res (List Words) :=
  ((0, made.length) :: L cls made).mapM (fun p => sub ws p.1 (p.1 + p.2))

/-- The words an object held and holds have the same number. -/
def SameSize (ws0 ws : Words) : Prop := ws0.length = ws.length
instance : Since SameSize := ⟨fun _ => rfl⟩

theorem fresh_value {s : Option Spec} {cls : Nat} {w0 ws : Words}
    (h : s.map Spec.fresh = some (.value cls w0 ws)) : ∃ u, s = some (.value cls u w0) ∧ w0 = ws := by
  rcases s with _ | (⟨c, a, b⟩ | _ | _)
  · cases h
  · simp only [Option.map_some, Spec.fresh, Option.some.injEq, Spec.value.injEq] at h
    obtain ⟨rfl, rfl, rfl⟩ := h
    exact ⟨a, rfl, rfl⟩
  · cases h
  · cases h

theorem fresh_view {s : Option Spec} (h : s.map Spec.fresh = some .view) : s = some .view := by
  rcases s with _ | (⟨c, a, b⟩ | _ | _)
  · cases h
  · cases h
  · cases h
  · rfl

/-- Simulation relation between a state and the specification. -/
structure Agree (L : Layout) (s : Nat → Option Spec) (m : Mem) : Prop where
  val : ∀ i cls w0 ws, s i = some (.value cls w0 ws) →
    ∃ o b, m.objs i = some o ∧ (o.cls = cls ∧ o.ranges = ownRanges L cls b w0) ∧ o.own = some (some b) ∧
      m.heap b = some ws
  vw : ∀ i, s i = some .view → ∃ o, m.objs i = some o ∧ o.own = none

theorem agree_copy {L : Layout} {m m' : Mem} (hI : InvR SameSize L m) {s : Nat → Option Spec} (h : Agree L s m)
    {i j : Nat} {o : Obj} (hj : m.objs j = some o) (hi : m.objs i = none)
    (hm : copyInto L m i o = some m') :
    Agree L (fun k => if k = i then (s j).map Spec.fresh else s k) m' := by
  have hij : j ≠ i := by rintro rfl; rw [hj] at hi; cases hi
  unfold copyInto at hm
  rcases hown : o.own with _ | _ | b
  · rw [hown] at hm; injection hm with hm; subst hm
    constructor
    · intro k cls w0 ws hk
      by_cases hki : k = i
      · rw [if_pos hki] at hk
        obtain ⟨u, hk', rfl⟩ := fresh_value hk
        obtain ⟨o', b, ho', _, hb, _⟩ := h.val j cls u w0 hk'
        rw [hj] at ho'; injection ho' with ho'; subst ho'; rw [hown] at hb; cases hb
      · rw [if_neg hki] at hk
        obtain ⟨o', b, ho', h1, h2, h3⟩ := h.val k cls w0 ws hk
        exact ⟨o', b, (upd_ne _ _ hki).trans ho', h1, h2, h3⟩
    · intro k hk
      by_cases hki : k = i
      · subst hki; exact ⟨_, upd_same _ _ _, rfl⟩
      · rw [if_neg hki] at hk
        obtain ⟨o', ho', h1⟩ := h.vw k hk
        exact ⟨o', (upd_ne _ _ hki).trans ho', h1⟩
  · rw [hown] at hm; cases hm
  · rw [hown] at hm
    simp only [] at hm
    cases hb : m.heap b with
    | none => rw [hb] at hm; cases hm
    | some w =>
      rw [hb] at hm; injection hm with hm; subst hm
      constructor
      · intro k cls w0 ws hk
        by_cases hki : k = i
        · rw [if_pos hki] at hk
          obtain ⟨u, hk', rfl⟩ := fresh_value hk
          obtain ⟨o', b', ho', h1, h2, h3⟩ := h.val j cls u w0 hk'
          rw [hj] at ho'; injection ho' with ho'; subst ho'
          rw [hown] at h2; injection h2 with h2; injection h2 with h2; subst h2
          rw [hb] at h3; injection h3 with h3; subst h3
          subst hki
          exact ⟨_, m.next, upd_same _ _ _, ⟨h1.1, by simp only [generate]; rw [h1.1]⟩, rfl, upd_same _ _ _⟩
        · rw [if_neg hki] at hk
          obtain ⟨o', b', ho', h1, h2, h3⟩ := h.val k cls w0 ws hk
          have := hI.own_lt ⟨o', ho', h2⟩
          exact ⟨o', b', (upd_ne _ _ hki).trans ho', h1, h2,
            (upd_ne _ _ (show b' ≠ m.next by omega)).trans h3⟩
      · intro k hk
        by_cases hki : k = i
        · rw [if_pos hki] at hk
          replace hk := fresh_view hk
          obtain ⟨o', ho', h1⟩ := h.vw j hk
          rw [hj] at ho'; injection ho' with ho'; subst ho'; rw [hown] at h1; cases h1
        · rw [if_neg hki] at hk
          obtain ⟨o', ho', h1⟩ := h.vw k hk
          exact ⟨o', (upd_ne _ _ hki).trans ho', h1⟩

theorem agree_move {L : Layout} {m m' : Mem} {s : Nat → Option Spec} (h : Agree L s m)
    {i j : Nat} {o : Obj} (hj : m.objs j = some o) (hij : i ≠ j)
    (hm : moveInto L m i j o = some m') :
    Agree L (fun k => if k = i then (s j).map Spec.fresh else if k = j then some .moved else s k) m' := by
  unfold moveInto at hm
  rcases hown : o.own with _ | _ | b
  · rw [hown] at hm; injection hm with hm; subst hm
    constructor
    · intro k cls w0 ws hk
      by_cases hki : k = i
      · rw [if_pos hki] at hk
        obtain ⟨u, hk', rfl⟩ := fresh_value hk
        obtain ⟨o', b, ho', _, hb, _⟩ := h.val j cls u w0 hk'
        rw [hj] at ho'; injection ho' with ho'; subst ho'; rw [hown] at hb; cases hb
      · rw [if_neg hki] at hk
        by_cases hkj : k = j
        · rw [if_pos hkj] at hk; cases hk
        · rw [if_neg hkj] at hk
          obtain ⟨o', b, ho', h1, h2, h3⟩ := h.val k cls w0 ws hk
          exact ⟨o', b, (upd_ne _ _ hki).trans ((upd_ne _ _ hkj).trans ho'), h1, h2, h3⟩
    · intro k hk
      by_cases hki : k = i
      · subst hki; exact ⟨_, upd_same _ _ _, rfl⟩
      · rw [if_neg hki] at hk
        by_cases hkj : k = j
        · rw [if_pos hkj] at hk; cases hk
        · rw [if_neg hkj] at hk
          obtain ⟨o', ho', h1⟩ := h.vw k hk
          exact ⟨o', (upd_ne _ _ hki).trans ((upd_ne _ _ hkj).trans ho'), h1⟩
  · rw [hown] at hm; cases hm
  · rw [hown] at hm
    simp only [] at hm
    cases hb : m.heap b with
    | none => rw [hb] at hm; cases hm
    | some w =>
      rw [hb] at hm; injection hm with hm; subst hm
      constructor
      · intro k cls w0 ws hk
        by_cases hki : k = i
        · rw [if_pos hki] at hk
          obtain ⟨u, hk', rfl⟩ := fresh_value hk
          obtain ⟨o', b', ho', h1, h2, h3⟩ := h.val j cls u w0 hk'
          rw [hj] at ho'; injection ho' with ho'; subst ho'
          rw [hown] at h2; injection h2 with h2; injection h2 with h2; subst h2
          subst hki
          rw [hb] at h3; injection h3 with h3; subst h3
          exact ⟨_, b, upd_same _ _ _, ⟨h1.1, by simp only [generate]; rw [h1.1]⟩, rfl, hb⟩
        · rw [if_neg hki] at hk
          by_cases hkj : k = j
          · rw [if_pos hkj] at hk; cases hk
          · rw [if_neg hkj] at hk
            obtain ⟨o', b', ho', h1, h2, h3⟩ := h.val k cls w0 ws hk
            exact ⟨o', b', (upd_ne _ _ hki).trans ((upd_ne _ _ hkj).trans ho'), h1, h2, h3⟩
      · intro k hk
        by_cases hki : k = i
        · rw [if_pos hki] at hk
          replace hk := fresh_view hk
          obtain ⟨o', ho', h1⟩ := h.vw j hk
          rw [hj] at ho'; injection ho' with ho'; subst ho'; rw [hown] at h1; cases h1
        · rw [if_neg hki] at hk
          by_cases hkj : k = j
          · rw [if_pos hkj] at hk; cases hk
          · rw [if_neg hkj] at hk
            obtain ⟨o', ho', h1⟩ := h.vw k hk
            exact ⟨o', (upd_ne _ _ hki).trans ((upd_ne _ _ hkj).trans ho'), h1⟩

theorem agree_drop {L : Layout} {m : Mem} (hI : InvR SameSize L m) {s : Nat → Option Spec} (h : Agree L s m)
    {i : Nat} {t : Obj} (hi : m.objs i = some t) :
    Agree L (fun k => if k = i then none else s k) (m.drop i t) := by
  constructor
  · intro k cls w0 ws hk
    by_cases hki : k = i
    · rw [if_pos hki] at hk; cases hk
    · rw [if_neg hki] at hk
      obtain ⟨o, b, ho, h1, h2, h3⟩ := h.val k cls w0 ws hk
      refine ⟨o, b, (upd_ne _ _ hki).trans ho, h1, h2, (freeOwn_ne _ _ _ ?_).trans h3⟩
      exact fun hh => hki (hI.unique k i b ⟨o, ho, h2⟩ ⟨t, hi, hh⟩)
  · intro k hk
    by_cases hki : k = i
    · rw [if_pos hki] at hk; cases hk
    · rw [if_neg hki] at hk
      obtain ⟨o, ho, h1⟩ := h.vw k hk
      exact ⟨o, (upd_ne _ _ hki).trans ho, h1⟩

theorem agree_step {L : Layout} {m m' : Mem} (hI : InvR SameSize L m) {s : Nat → Option Spec}
    (h : Agree L s m) (op : Op) (hs : step L m op = some m') : Agree L (specStep s op) m' := by
  cases op with
  | make i cls ws =>
    simp only [step] at hs
    cases hi : m.objs i with
    | some _ => rw [hi] at hs; cases hs
    | none =>
      rw [hi] at hs; injection hs with hs; subst hs
      constructor
      · intro k c w0 w hk
        simp only [specStep] at hk
        by_cases hki : k = i
        · rw [if_pos hki] at hk; injection hk with hk; injection hk with h1 h2 h3
          subst h1; subst h2; subst h3; subst hki
          exact ⟨_, m.next, upd_same _ _ _, ⟨rfl, rfl⟩, rfl, upd_same _ _ _⟩
        · rw [if_neg hki] at hk
          obtain ⟨o', b', ho', h1, h2, h3⟩ := h.val k c w0 w hk
          have := hI.own_lt ⟨o', ho', h2⟩
          exact ⟨o', b', (upd_ne _ _ hki).trans ho', h1, h2,
            (upd_ne _ _ (show b' ≠ m.next by omega)).trans h3⟩
      · intro k hk
        simp only [specStep] at hk
        by_cases hki : k = i
        · rw [if_pos hki] at hk; cases hk
        · rw [if_neg hki] at hk
          obtain ⟨o', ho', h1⟩ := h.vw k hk
          exact ⟨o', (upd_ne _ _ hki).trans ho', h1⟩
  | copyCtor i j =>
    simp only [step] at hs
    cases hi : m.objs i with
    | some _ => rw [hi] at hs; cases hs
    | none =>
      cases hj : m.objs j with
      | none => rw [hi, hj] at hs; cases hs
      | some o => rw [hi, hj] at hs; exact agree_copy hI h hj hi hs
  | moveCtor i j =>
    simp only [step] at hs
    cases hi : m.objs i with
    | some _ => rw [hi] at hs; cases hs
    | none =>
      cases hj : m.objs j with
      | none => rw [hi, hj] at hs; cases hs
      | some o =>
        rw [hi, hj] at hs
        exact agree_move h hj (by rintro rfl; rw [hj] at hi; cases hi) hs
  | copyAssign i j =>
    simp only [step] at hs
    cases hi : m.objs i with
    | none => rw [hi] at hs; cases hs
    | some t =>
      cases hj : m.objs j with
      | none => rw [hi, hj] at hs; cases hs
      | some o =>
        rw [hi, hj] at hs
        simp only [] at hs
        by_cases hij : i = j
        · rw [if_pos hij] at hs; injection hs with hs; subst hs
          have : specStep s (.copyAssign i j) = s := by
            funext k; simp only [specStep, if_pos hij]
          rw [this]; exact h
        · rw [if_neg hij] at hs
          by_cases hc : t.cls = o.cls
          · rw [if_pos hc] at hs
            cases hm : copyInto L m i o with
            | none => rw [hm] at hs; cases hs
            | some m1 =>
              rw [hm] at hs
              injection hs with hs; subst hs
              have h1 := agree_copy (hI.drop hi) (agree_drop hI h hi)
                ((upd_ne _ _ (Ne.symm hij)).trans hj) (upd_same _ _ _)
                (copyAssign_drop hI hi hj hij hm)
              have e : (fun k => if k = i then (if j = i then none else s j).map Spec.fresh
                  else if k = i then none else s k) = specStep s (.copyAssign i j) := by
                funext k; simp only [specStep, if_neg (Ne.symm hij), if_neg hij]
                by_cases hk : k = i
                · rw [if_pos hk, if_pos hk]
                · rw [if_neg hk, if_neg hk, if_neg hk]
              rw [← e]; exact h1
          · rw [if_neg hc] at hs; cases hs
  | moveAssign i j =>
    simp only [step] at hs
    cases hi : m.objs i with
    | none => rw [hi] at hs; cases hs
    | some t =>
      cases hj : m.objs j with
      | none => rw [hi, hj] at hs; cases hs
      | some o =>
        rw [hi, hj] at hs
        simp only [] at hs
        by_cases hij : i = j
        · rw [if_pos hij] at hs; injection hs with hs; subst hs
          have : specStep s (.moveAssign i j) = s := by
            funext k; simp only [specStep, if_pos hij]
          rw [this]; exact h
        · rw [if_neg hij] at hs
          by_cases hc : t.cls = o.cls
          · rw [if_pos hc] at hs
            cases hm : moveInto L m i j o with
            | none => rw [hm] at hs; cases hs
            | some m1 =>
              rw [hm] at hs
              injection hs with hs; subst hs
              have h1 := agree_move (agree_drop hI h hi)
                ((upd_ne _ _ (Ne.symm hij)).trans hj) hij
                (moveAssign_drop hI hi hj hij hm)
              have e : (fun k => if k = i then (if j = i then none else s j).map Spec.fresh
                  else if k = j then some Spec.moved else if k = i then none else s k)
                  = specStep s (.moveAssign i j) := by
                funext k; simp only [specStep, if_neg (Ne.symm hij), if_neg hij]
                by_cases hk : k = i
                · rw [if_pos hk, if_pos hk]
                · rw [if_neg hk, if_neg hk, if_neg hk]
              rw [← e]; exact h1
          · rw [if_neg hc] at hs; cases hs
  | destroy i =>
    simp only [step] at hs
    cases hi : m.objs i with
    | none => rw [hi] at hs; cases hs
    | some o =>
      rw [hi] at hs; injection hs with hs; subst hs
      exact agree_drop hI h hi
  | view i j cls rs =>
    simp only [step] at hs
    cases hi : m.objs i with
    | some _ => rw [hi] at hs; cases hs
    | none =>
      cases hj : m.objs j with
      | none => rw [hi, hj] at hs; cases hs
      | some o =>
        rw [hi, hj] at hs
        simp only [] at hs
        by_cases hrs : (rs.all fun r => o.ranges.any fun r0 => r.inside r0) = true
        · rw [if_pos hrs] at hs; injection hs with hs; subst hs
          constructor
          · intro k c w0 w hk
            simp only [specStep] at hk
            by_cases hki : k = i
            · rw [if_pos hki] at hk; cases hk
            · rw [if_neg hki] at hk
              obtain ⟨o', b', ho', h1, h2, h3⟩ := h.val k c w0 w hk
              exact ⟨o', b', (upd_ne _ _ hki).trans ho', h1, h2, h3⟩
          · intro k hk
            simp only [specStep] at hk
            by_cases hki : k = i
            · subst hki; exact ⟨_, upd_same _ _ _, rfl⟩
            · rw [if_neg hki] at hk
              obtain ⟨o', ho', h1⟩ := h.vw k hk
              exact ⟨o', (upd_ne _ _ hki).trans ho', h1⟩
        · rw [if_neg hrs] at hs; cases hs

theorem InvR_write {L : Layout} {m m' : Mem} (hI : InvR SameSize L m) {j pos : Nat} {v : Dbl}
    (hs : writeWord m j pos v = some m') : InvR SameSize L m' ∧ m'.objs = m.objs ∧
      ∃ o b ws, m.objs j = some o ∧ o.own = some (some b) ∧ m.heap b = some ws ∧ pos < ws.length ∧
        m'.heap = upd m.heap b (some (ws.set pos v)) := by
  unfold writeWord at hs
  rcases hj : m.objs j with _ | o
  · rw [hj] at hs; cases hs
  rw [hj] at hs
  simp only [] at hs
  rcases hown : o.own with _ | _ | b
  · rw [hown] at hs; cases hs
  · rw [hown] at hs; cases hs
  rw [hown] at hs
  simp only [] at hs
  rcases hb : m.heap b with _ | ws
  · rw [hb] at hs; cases hs
  rw [hb] at hs
  simp only [] at hs
  by_cases hp : pos < ws.length
  · rw [if_pos hp] at hs; injection hs with hs; subst hs
    refine ⟨⟨hI.unique, ?_, ?_, ?_, hI.old⟩, rfl, o, b, ws, rfl, hown, hb, hp, rfl⟩
    · intro k o' b' ho' hb'
      obtain ⟨w, w0, hw, hr, hl⟩ := hI.backed k o' b' ho' hb'
      by_cases he : b' = b
      · subst he
        rw [hb] at hw; injection hw with hw; subst hw
        exact ⟨_, w0, upd_same _ _ _, hr, by unfold SameSize at hl ⊢; rw [List.length_set]; exact hl⟩
      · exact ⟨w, w0, (upd_ne _ _ he).trans hw, hr, hl⟩
    · intro b' w hw
      by_cases he : b' = b
      · subst he; exact hI.owned b' ws hb
      · exact hI.owned b' w ((upd_ne _ _ he).symm.trans hw)
    · intro b' hb'
      have : b' ≠ b := by
        rintro rfl; exact absurd (hI.own_lt ⟨o, hj, hown⟩) (Nat.not_lt.mpr hb')
      exact (upd_ne _ _ this).trans (hI.fresh b' hb')
  · rw [if_neg hp] at hs; cases hs

theorem agree_write {L : Layout} {m m' : Mem} (hI : InvR SameSize L m) {s : Nat → Option Spec}
    (h : Agree L s m) {j pos : Nat} {v : Dbl} (hs : writeWord m j pos v = some m') :
    Agree L (specStepW s (.write j pos v)) m' := by
  obtain ⟨_, hobj, o, b, ws, hj, hown, hb, _, hheap⟩ := InvR_write hI hs
  constructor
  · intro k cls w0 w hk
    simp only [specStepW] at hk
    by_cases hkj : k = j
    · rw [if_pos hkj] at hk
      rcases hsj : s j with _ | (⟨c, a, e⟩ | _ | _)
      · rw [hsj] at hk; cases hk
      · rw [hsj] at hk
        simp only [Option.map_some, Spec.edit, Option.some.injEq, Spec.value.injEq] at hk
        obtain ⟨rfl, rfl, rfl⟩ := hk
        obtain ⟨o', b', ho', h1, h2, h3⟩ := h.val j c a e hsj
        rw [hj] at ho'; injection ho' with ho'; subst ho'
        rw [hown] at h2; injection h2 with h2; injection h2 with h2; subst h2
        rw [hb] at h3; injection h3 with h3; subst h3
        exact ⟨o, b, by rw [hobj, hkj]; exact hj, h1, hown, by rw [hheap]; exact upd_same _ _ _⟩
      · rw [hsj] at hk; cases hk
      · rw [hsj] at hk; cases hk
    · rw [if_neg hkj] at hk
      obtain ⟨o', b', ho', h1, h2, h3⟩ := h.val k cls w0 w hk
      refine ⟨o', b', by rw [hobj]; exact ho', h1, h2, ?_⟩
      rw [hheap]
      refine (upd_ne _ _ ?_).trans h3
      rintro rfl
      exact hkj (hI.unique k j b' ⟨o', ho', h2⟩ ⟨o, hj, hown⟩)
  · intro k hk
    simp only [specStepW] at hk
    rw [hobj]
    by_cases hkj : k = j
    · rw [if_pos hkj] at hk
      rcases hsj : s j with _ | (⟨c, a, e⟩ | _ | _)
      · rw [hsj] at hk; cases hk
      · rw [hsj] at hk; cases hk
      · rw [hsj] at hk; cases hk
      · rw [hkj]; exact h.vw j hsj
    · rw [if_neg hkj] at hk; exact h.vw k hk

theorem InvR_runW {L : Layout} {m m' : Mem} (hI : InvR SameSize L m) (ops : List OpW)
    (hs : runW L m ops = some m') : InvR SameSize L m' := by
  induction ops generalizing m with
  | nil => injection hs with hs; subst hs; exact hI
  | cons op ops ih =>
    simp only [runW] at hs
    cases h1 : stepW L m op with
    | none => rw [h1] at hs; cases hs
    | some m1 =>
      rw [h1] at hs
      refine ih ?_ hs
      cases op with
      | plain op => exact hI.step op h1
      | write j pos v => exact (InvR_write hI h1).1

theorem agree_runW {L : Layout} {m m' : Mem} (hI : InvR SameSize L m) {s : Nat → Option Spec}
    (h : Agree L s m) (ops : List OpW) (hs : runW L m ops = some m') : Agree L (spec s ops) m' := by
  induction ops generalizing m s with
  | nil => injection hs with hs; subst hs; exact h
  | cons op ops ih =>
    simp only [runW] at hs
    cases h1 : stepW L m op with
    | none => rw [h1] at hs; cases hs
    | some m1 =>
      rw [h1] at hs
      cases op with
      | plain op => exact ih (hI.step op h1) (agree_step hI h op h1) hs
      | write j pos v => exact ih (InvR_write hI h1).1 (agree_write hI h h1) hs

theorem runW_append {L : Layout} {m : Mem} (a b : List OpW) :
    runW L m (a ++ b) = (runW L m a).bind (fun m' => runW L m' b) := by
  induction a generalizing m with
  | nil => rfl
  | cons op a ih =>
    simp only [List.cons_append, runW]
    cases stepW L m op with
    | none => rfl
    | some m1 => exact ih

theorem spec_append (s : Nat → Option Spec) (a b : List OpW) : spec s (a ++ b) = spec (spec s a) b := by
  induction a generalizing s with
  | nil => rfl
  | cons op a ih => exact ih _

theorem read_made {L : Layout} {m : Mem} {cls b : Nat} {w0 ws : Words}
    (hb : m.heap b = some ws) :
    (ownRanges L cls b w0).mapM m.read = expected L cls w0 ws := by
  have e : ownRanges L cls b w0
      = ((0, w0.length) :: L cls w0).map (fun p => (⟨b, p.1, p.2⟩ : Range)) := rfl
  rw [e, expected]
  induction ((0, w0.length) :: L cls w0) with
  | nil => rfl
  | cons p ps ih =>
    rw [List.map_cons, List.mapM_cons, List.mapM_cons, ih]
    have : m.read ⟨b, p.1, p.2⟩ = sub ws p.1 (p.1 + p.2) := by simp only [Mem.read, hb]
    rw [this]

end ACE.Props.C59

namespace ACE.Props
open ACE ACE.Memory ACE.Props.C59

/-- After every valid history in which tables are made, copied, moved, assigned, destroyed and edited word by word,
an object reads exactly the words the user put into it, within the blocks it had when it was made or copied. -/
theorem C59_value_semantics (L : Layout) (ops : List OpW) (m : Mem)
    (hrun : runW L Mem.init ops = some m) (i cls : Nat) (made ws : Words)
    (hspec : spec (fun _ => none) ops i = some (.value cls made ws)) :
    C01.observe m i = some (expected L cls made ws) := by
  have hA : Agree L (fun _ => none) Mem.init := ⟨fun _ _ _ _ h => (nomatch h), fun _ h => (nomatch h)⟩
  obtain ⟨o, b, ho, ⟨_, hr⟩, _, hb⟩ := (agree_runW (InvR.init _ L) hA ops hrun).val i cls made ws hspec
  rw [C01.observe, ho, Option.map_some, hr, read_made hb]

/-- The first thing an object reads are all its present words, and editing never changes their number. -/
theorem C59_all_words (L : Layout) (ops : List OpW) (m : Mem)
    (hrun : runW L Mem.init ops = some m) (i cls : Nat) (made ws : Words)
    (hspec : spec (fun _ => none) ops i = some (.value cls made ws)) :
    made.length = ws.length ∧ ∃ o r rs, m.objs i = some o ∧ o.ranges = r :: rs ∧ m.read r = .ok ws := by
  have hA : Agree L (fun _ => none) Mem.init := ⟨fun _ _ _ _ h => (nomatch h), fun _ h => (nomatch h)⟩
  obtain ⟨o, b, ho, ⟨hc, hr⟩, hown, hb⟩ := (agree_runW (InvR.init _ L) hA ops hrun).val i cls made ws hspec
  obtain ⟨w, w0, hw, hr0, hl⟩ := (InvR_runW (InvR.init SameSize L) ops hrun).backed i o b ho hown
  rw [hb] at hw; injection hw with hw; subst hw
  have hlen : made.length = ws.length := by
    have := hr.symm.trans hr0
    simp only [ownRanges, List.cons.injEq, Range.mk.injEq, true_and] at this
    exact this.1.trans hl
  refine ⟨hlen, o, _, _, ho, hr, ?_⟩
  simp only [Mem.read, hb, sub, Nat.zero_add, Nat.sub_zero, List.drop_zero, hlen, Nat.zero_le, Nat.le_refl, and_self,
    if_true, List.take_length]

/-- Editing word `pos` of object `j` after any history: the objects stay what they are, the word is replaced in
everything that reads the storage of `j` at that place (the table, its blocks and every view of them), and all that
anything else reads is unchanged. -/
theorem C59_write_seen (L : Layout) (ops : List OpW) (m m' : Mem) (j pos : Nat) (v : Dbl)
    (hrun : runW L Mem.init ops = some m) (hw : stepW L m (.write j pos v) = some m') :
    m'.objs = m.objs ∧ ∃ o b, m.objs j = some o ∧ o.own = some (some b) ∧ ∀ (r : Range) (old : Words),
      m.read r = .ok old → m'.read r = .ok (if r.buf = b ∧ r.off ≤ pos then old.set (pos - r.off) v else old) := by
  obtain ⟨_, hobj, o, b, ws, hj, hown, hb, hp, hheap⟩ :=
    InvR_write (InvR_runW (InvR.init SameSize L) ops hrun) hw
  refine ⟨hobj, o, b, hj, hown, fun r old hr => ?_⟩
  simp only [Mem.read, hheap] at hr ⊢
  by_cases hrb : r.buf = b
  · rw [hrb, upd_same]
    rw [hrb, hb] at hr
    simp only [sub, List.length_set] at hr ⊢
    by_cases hin : r.off ≤ r.off + r.len ∧ r.off + r.len ≤ ws.length
    · rw [if_pos hin] at hr ⊢
      injection hr with hr; subst hr
      congr 1
      by_cases hpo : r.off ≤ pos
      · rw [if_pos ⟨trivial, hpo⟩, List.drop_set, if_neg (by omega), List.take_set]
      · rw [if_neg (fun h => hpo h.2), List.drop_set, if_pos (by omega)]
    · rw [if_neg hin] at hr; cases hr
  · rw [upd_ne _ _ hrb, if_neg (fun h => hrb h.1)]; exact hr

/-- Editing an object leaves everything that the other objects built from values read as it was. -/
theorem C59_others_unchanged (L : Layout) (ops : List OpW) (m m' : Mem) (j pos : Nat) (v : Dbl)
    (hrun : runW L Mem.init ops = some m) (hw : stepW L m (.write j pos v) = some m')
    (i cls : Nat) (made ws : Words) (hij : i ≠ j)
    (hspec : spec (fun _ => none) ops i = some (.value cls made ws)) :
    C01.observe m' i = C01.observe m i := by
  have h' : runW L Mem.init (ops ++ [.write j pos v]) = some m' := by
    rw [runW_append, hrun]; simp only [Option.bind_some, runW, hw]
  rw [C59_value_semantics L ops m hrun i cls made ws hspec,
    C59_value_semantics L _ m' h' i cls made ws (by
      rw [spec_append]; simp only [spec, specStepW, if_neg hij]; exact hspec)]

/-- A copy made after edits reads as an object freshly made from the edited words, whatever the original reads. -/
theorem C59_copy_is_fresh (L : Layout) (ops : List OpW) (m m' : Mem) (i j cls : Nat) (made ws : Words)
    (hrun : runW L Mem.init ops = some m) (hspec : spec (fun _ => none) ops j = some (.value cls made ws))
    (hc : stepW L m (.plain (.copyCtor i j)) = some m') :
    C01.observe m' i = some (C01.expected L cls ws) := by
  have h' : runW L Mem.init (ops ++ [.plain (.copyCtor i j)]) = some m' := by
    rw [runW_append, hrun]; simp only [Option.bind_some, runW, hc]
  rw [C59_value_semantics L _ m' h' i cls ws ws (by
    rw [spec_append]; simp only [spec, specStepW, specStep, if_true, hspec, Option.map_some, Spec.fresh])]
  rfl

/-- So no later edit of the original reaches a copy, nor the other way round: here both are edited, the copy
after the original, and each reads its own words (the count in front, then the counted words). -/
example :
    let L : Layout := fun _ ws => [(1, ((ws.headD (.ofInt 0)).trunc?.getD 0).toNat)]
    let ops : List OpW := [.plain (.make 0 3 [.ofInt 2, .ofInt 8, .ofInt 9]), .write 0 2 (.ofInt 7),
      .plain (.copyCtor 1 0), .write 1 1 (.ofInt 5), .write 0 1 (.ofInt 4)]
    spec (fun _ => none) ops 0 = some (.value 3 [.ofInt 2, .ofInt 8, .ofInt 9] [.ofInt 2, .ofInt 4, .ofInt 7]) ∧
    ((runW L Mem.init ops).bind (fun m => C01.observe m 0))
      = some (.ok [[.ofInt 2, .ofInt 4, .ofInt 7], [.ofInt 4, .ofInt 7]]) ∧
    ((runW L Mem.init ops).bind (fun m => C01.observe m 1))
      = some (.ok [[.ofInt 2, .ofInt 5, .ofInt 7], [.ofInt 5, .ofInt 7]]) := by
  decide

/-- Blocks are not delimited again by an edit: a table whose count is edited from 2 to 1 still returns two words,
while its copy returns one, so the copy does not read what the original reads. -/
theorem C59_blocks_stay : ∃ (L : Layout) (ops : List OpW) (m : Mem) (ws : Words),
    runW L Mem.init ops = some m ∧
    spec (fun _ => none) ops 0 = some (.value 3 [.ofInt 2, .ofInt 8, .ofInt 9] ws) ∧
    C01.observe m 0 = some (.ok [ws, [.ofInt 8, .ofInt 9]]) ∧
    C01.observe m 1 = some (.ok [ws, [.ofInt 8]]) := by
  let L : Layout := fun _ ws => [(1, ((ws.headD (.ofInt 0)).trunc?.getD 0).toNat)]
  let ops : List OpW := [.plain (.make 0 3 [.ofInt 2, .ofInt 8, .ofInt 9]), .write 0 0 (.ofInt 1),
    .plain (.copyCtor 1 0)]
  refine ⟨L, ops, (runW L Mem.init ops).getD Mem.init, [.ofInt 1, .ofInt 8, .ofInt 9], ?_, ?_, ?_, ?_⟩
  · rfl
  · rfl
  · decide
  · decide

end ACE.Props

import Verif.Model.Memory
import Verif.Lemmas.Core

namespace ACE.Memory
open ACE

@[simp] theorem upd_same {α : Type} (f : Nat → Option α) (i : Nat) (v : Option α) :
    upd f i v i = v := by simp [upd]
theorem upd_ne {α : Type} (f : Nat → Option α) {i k : Nat} (v : Option α) (h : k ≠ i) :
    upd f i v k = f k := by simp [upd, h]

/-- Object `i` owns buffer `b`. -/
def Owns (m : Mem) (i b : Nat) : Prop := ∃ o, m.objs i = some o ∧ o.own = some (some b)

/-- A reflexive relation between the words sub ranges were made from and the present words. -/
class Since (R : Words → Words → Prop) : Prop where
  refl : ∀ ws, R ws ws
instance : Since (· = ·) := ⟨fun _ => rfl⟩

/-- The invariant of every reachable state: the sub ranges of an owner were made from words `ws0` which are
related to its present words. -/
structure InvR (R : Words → Words → Prop) (L : Layout) (m : Mem) : Prop where
  unique : ∀ i i' b, Owns m i b → Owns m i' b → i = i'
  backed : ∀ i o b, m.objs i = some o → o.own = some (some b) →
    ∃ ws ws0, m.heap b = some ws ∧ o.ranges = ownRanges L o.cls b ws0 ∧ R ws0 ws
  owned : ∀ b ws, m.heap b = some ws → ∃ i, Owns m i b
  fresh : ∀ b, m.next ≤ b → m.heap b = none
  old : ∀ i o r, m.objs i = some o → r ∈ o.ranges → r.buf < m.next

/-- The invariant of a history without writes: the sub ranges are those of the present words. -/
abbrev Inv (L : Layout) (m : Mem) : Prop := InvR (· = ·) L m

theorem InvR.init (R : Words → Words → Prop) (L : Layout) : InvR R L Mem.init := by
  constructor
  · rintro i i' b ⟨o, h, _⟩; cases h
  · intro i o b h; cases h
  · intro b ws h; cases h
  · intro b _; rfl
  · intro i o r h; cases h

theorem InvR.own_lt {R : Words → Words → Prop} [Since R] {L : Layout} {m : Mem} (h : InvR R L m) {i b : Nat} (ho : Owns m i b) :
    b < m.next := by
  obtain ⟨o, h1, h2⟩ := ho
  obtain ⟨ws, _, hw, _⟩ := h.backed i o b h1 h2
  rcases Nat.lt_or_ge b m.next with hlt | hge
  · exact hlt
  · rw [h.fresh b hge] at hw; cases hw

theorem Inv.init (L : Layout) : Inv L Mem.init := InvR.init _ L

/-- Adding a fresh owner under a free name. -/
theorem InvR.addOwner {R : Words → Words → Prop} [Since R] {L : Layout} {m : Mem} (h : InvR R L m) (i cls : Nat) (ws : Words)
    (hi : m.objs i = none) :
    InvR R L { heap := upd m.heap m.next (some ws), next := m.next + 1,
               objs := upd m.objs i (some ⟨cls, some (some m.next), ownRanges L cls m.next ws⟩) } := by
  constructor
  · rintro a a' b ⟨o, ho, hb⟩ ⟨o', ho', hb'⟩
    simp only [upd] at ho ho'
    by_cases ha : a = i <;> by_cases ha' : a' = i
    · rw [ha, ha']
    · rw [if_pos ha] at ho; rw [if_neg ha'] at ho'
      injection ho with ho; subst ho
      injection hb with hb; injection hb with hb; subst hb
      exact absurd (h.own_lt ⟨o', ho', hb'⟩) (by omega)
    · rw [if_neg ha] at ho; rw [if_pos ha'] at ho'
      injection ho' with ho'; subst ho'
      injection hb' with hb'; injection hb' with hb'; subst hb'
      exact absurd (h.own_lt ⟨o, ho, hb⟩) (by omega)
    · rw [if_neg ha] at ho; rw [if_neg ha'] at ho'
      exact h.unique a a' b ⟨o, ho, hb⟩ ⟨o', ho', hb'⟩
  · intro a o b ho hb
    simp only [upd] at ho
    by_cases ha : a = i
    · rw [if_pos ha] at ho
      injection ho with ho; subst ho
      injection hb with hb; injection hb with hb; subst hb
      exact ⟨ws, ws, by simp, rfl, Since.refl ws⟩
    · rw [if_neg ha] at ho
      obtain ⟨w, w0, hw, hr⟩ := h.backed a o b ho hb
      have := h.own_lt ⟨o, ho, hb⟩
      exact ⟨w, w0, (upd_ne _ _ (show b ≠ m.next by omega)).trans hw, hr⟩
  · intro b w hw
    simp only [upd] at hw
    by_cases hb : b = m.next
    · exact ⟨i, ⟨cls, some (some m.next), ownRanges L cls m.next ws⟩, by simp, by rw [hb]⟩
    · rw [if_neg hb] at hw
      obtain ⟨a, o, ho, hb'⟩ := h.owned b w hw
      refine ⟨a, o, (upd_ne _ _ ?_).trans ho, hb'⟩
      intro hai; rw [hai, hi] at ho; cases ho
  · intro b hb
    have hb' : m.next + 1 ≤ b := hb
    show upd m.heap m.next (some ws) b = none
    rw [upd_ne _ _ (show b ≠ m.next by omega)]
    exact h.fresh b (by omega)
  · intro a o r ho hr
    simp only [upd] at ho
    by_cases ha : a = i
    · rw [if_pos ha] at ho
      injection ho with ho; subst ho
      have : r.buf = m.next := by
        simp only [ownRanges, List.mem_cons, List.mem_map] at hr
        rcases hr with rfl | ⟨p, _, rfl⟩ <;> rfl
      simp only []; omega
    · rw [if_neg ha] at ho
      have := h.old a o r ho hr
      simp only []; omega

/-- Replacing any non-owner (or free name) by a view whose ranges are old. -/
theorem InvR.addView {R : Words → Words → Prop} [Since R] {L : Layout} {m : Mem} (h : InvR R L m) (i cls : Nat) (rs : List Range)
    (hi : ∀ b, ¬ Owns m i b) (hrs : ∀ r ∈ rs, r.buf < m.next) :
    InvR R L { m with objs := upd m.objs i (some ⟨cls, none, rs⟩) } := by
  constructor
  · rintro a a' b ⟨o, ho, hb⟩ ⟨o', ho', hb'⟩
    simp only [upd] at ho ho'
    by_cases ha : a = i
    · rw [if_pos ha] at ho; injection ho with ho; subst ho; cases hb
    · by_cases ha' : a' = i
      · rw [if_pos ha'] at ho'; injection ho' with ho'; subst ho'; cases hb'
      · rw [if_neg ha] at ho; rw [if_neg ha'] at ho'
        exact h.unique a a' b ⟨o, ho, hb⟩ ⟨o', ho', hb'⟩
  · intro a o b ho hb
    simp only [upd] at ho
    by_cases ha : a = i
    · rw [if_pos ha] at ho; injection ho with ho; subst ho; cases hb
    · rw [if_neg ha] at ho; exact h.backed a o b ho hb
  · intro b w hw
    obtain ⟨a, o, ho, hb⟩ := h.owned b w hw
    refine ⟨a, o, ?_, hb⟩
    have : a ≠ i := fun hai => hi b (hai ▸ ⟨o, ho, hb⟩)
    simp only [upd_ne _ _ this]; exact ho
  · exact h.fresh
  · intro a o r ho hr
    simp only [upd] at ho
    by_cases ha : a = i
    · rw [if_pos ha] at ho; injection ho with ho; subst ho; exact hrs r hr
    · rw [if_neg ha] at ho; exact h.old a o r ho hr

/-- The vector of an object is freed and the object loses it. -/
theorem InvR.release {R : Words → Words → Prop} [Since R] {L : Layout} {m : Mem} (h : InvR R L m) (i : Nat) (o : Obj)
    (ho : m.objs i = some o) (v : Option Obj)
    (hv : ∀ o', v = some o' → (∀ b, o'.own ≠ some (some b)) ∧ ∀ r ∈ o'.ranges, r.buf < m.next) :
    InvR R L { m with heap := freeOwn m.heap o.own, objs := upd m.objs i v } := by
  have hheap : ∀ b, ¬ Owns m i b → freeOwn m.heap o.own b = m.heap b := by
    intro b hb
    rcases hown : o.own with _ | _ | b'
    · rfl
    · rfl
    · apply upd_ne
      intro hbb; subst hbb; exact hb ⟨o, ho, hown⟩
  have hsome : ∀ b w, freeOwn m.heap o.own b = some w → m.heap b = some w ∧ ¬ Owns m i b := by
    intro b w hw
    rcases hown : o.own with _ | _ | b'
    · rw [hown] at hw
      refine ⟨hw, ?_⟩
      rintro ⟨o', ho', hown'⟩
      rw [ho] at ho'; injection ho' with ho'; subst ho'
      rw [hown] at hown'; cases hown'
    · rw [hown] at hw
      refine ⟨hw, ?_⟩
      rintro ⟨o', ho', hown'⟩
      rw [ho] at ho'; injection ho' with ho'; subst ho'
      rw [hown] at hown'; cases hown'
    · rw [hown] at hw
      have hw' : upd m.heap b' none b = some w := hw
      by_cases hb : b = b'
      · subst hb; simp at hw'
      · rw [upd_ne _ _ hb] at hw'
        refine ⟨hw', ?_⟩
        rintro ⟨o', ho', hown'⟩
        rw [ho] at ho'; injection ho' with ho'; subst ho'
        rw [hown] at hown'; injection hown' with h1; injection h1 with h1; exact hb h1.symm
  constructor
  · rintro a a' b ⟨p, hp, hb⟩ ⟨p', hp', hb'⟩
    simp only [upd] at hp hp'
    by_cases ha : a = i
    · rw [if_pos ha] at hp; exact absurd hb ((hv p hp).1 b)
    · by_cases ha' : a' = i
      · rw [if_pos ha'] at hp'; exact absurd hb' ((hv p' hp').1 b)
      · rw [if_neg ha] at hp; rw [if_neg ha'] at hp'
        exact h.unique a a' b ⟨p, hp, hb⟩ ⟨p', hp', hb'⟩
  · intro a p b hp hb
    simp only [upd] at hp
    by_cases ha : a = i
    · rw [if_pos ha] at hp; exact absurd hb ((hv p hp).1 b)
    · rw [if_neg ha] at hp
      obtain ⟨ws, ws0, hw, hr⟩ := h.backed a p b hp hb
      refine ⟨ws, ws0, ?_, hr⟩
      simp only []
      rw [hheap b (fun hi => ha (h.unique a i b ⟨p, hp, hb⟩ hi))]
      exact hw
  · intro b w hw
    obtain ⟨hw', hno⟩ := hsome b w hw
    obtain ⟨a, p, hp, hb⟩ := h.owned b w hw'
    refine ⟨a, p, ?_, hb⟩
    have : a ≠ i := fun hai => hno (hai ▸ ⟨p, hp, hb⟩)
    simp only [upd_ne _ _ this]; exact hp
  · intro b hb
    simp only []
    cases hf : freeOwn m.heap o.own b with
    | none => rfl
    | some w =>
      have h1 := (hsome b w hf).1
      rw [h.fresh b hb] at h1; cases h1
  · intro a p r hp hr
    simp only [upd] at hp
    by_cases ha : a = i
    · rw [if_pos ha] at hp; exact (hv p hp).2 r hr
    · rw [if_neg ha] at hp; exact h.old a p r hp hr

theorem Obj.movedFrom_own (o : Obj) (b : Nat) : o.movedFrom.own ≠ some (some b) := by
  rcases h : o.own with _ | x <;> simp [Obj.movedFrom, h]

theorem Obj.movedFrom_ranges {o : Obj} {r : Range} (h : r ∈ o.movedFrom.ranges) : r ∈ o.ranges :=
  List.mem_of_mem_take h

/-- Ownership moves from `j` to a name that owns nothing. -/
theorem InvR.transfer {R : Words → Words → Prop} [Since R] {L : Layout} {m : Mem} (h : InvR R L m) (i j : Nat) (o : Obj) (b : Nat)
    (ws : Words) (hj : m.objs j = some o) (hb : o.own = some (some b)) (hw : m.heap b = some ws)
    (hij : i ≠ j) (hi : ∀ b, ¬ Owns m i b) :
    InvR R L { m with
      objs := upd (upd m.objs j (some o.movedFrom)) i
        (some ⟨o.cls, some (some b), ownRanges L o.cls b ws⟩) } := by
  have hlt := h.own_lt ⟨o, hj, hb⟩
  have key : ∀ a p, (upd (upd m.objs j (some o.movedFrom)) i
      (some ⟨o.cls, some (some b), ownRanges L o.cls b ws⟩)) a = some p →
      (a = i ∧ p = ⟨o.cls, some (some b), ownRanges L o.cls b ws⟩) ∨
      (a = j ∧ p = o.movedFrom) ∨ (a ≠ i ∧ a ≠ j ∧ m.objs a = some p) := by
    intro a p hp
    simp only [upd] at hp
    by_cases ha : a = i
    · rw [if_pos ha] at hp; injection hp with hp; exact .inl ⟨ha, hp.symm⟩
    · rw [if_neg ha] at hp
      by_cases ha' : a = j
      · rw [if_pos ha'] at hp; injection hp with hp; exact .inr (.inl ⟨ha', hp.symm⟩)
      · rw [if_neg ha'] at hp; exact .inr (.inr ⟨ha, ha', hp⟩)
  constructor
  · rintro a a' c ⟨p, hp, hc⟩ ⟨p', hp', hc'⟩
    rcases key a p hp with ⟨rfl, rfl⟩ | ⟨rfl, rfl⟩ | ⟨h1, h2, h3⟩ <;>
    rcases key a' p' hp' with ⟨rfl, rfl⟩ | ⟨rfl, rfl⟩ | ⟨h1', h2', h3'⟩
    · rfl
    · exact absurd hc' (Obj.movedFrom_own o c)
    · injection hc with hc; injection hc with hc; subst hc
      exact absurd (h.unique a' j b ⟨p', h3', hc'⟩ ⟨o, hj, hb⟩) h2'
    · exact absurd hc (Obj.movedFrom_own o c)
    · exact absurd hc (Obj.movedFrom_own o c)
    · exact absurd hc (Obj.movedFrom_own o c)
    · injection hc' with hc'; injection hc' with hc'; subst hc'
      exact absurd (h.unique a j b ⟨p, h3, hc⟩ ⟨o, hj, hb⟩) h2
    · exact absurd hc' (Obj.movedFrom_own o c)
    · exact h.unique a a' c ⟨p, h3, hc⟩ ⟨p', h3', hc'⟩
  · intro a p c hp hc
    rcases key a p hp with ⟨rfl, rfl⟩ | ⟨rfl, rfl⟩ | ⟨h1, h2, h3⟩
    · injection hc with hc; injection hc with hc; subst hc
      exact ⟨ws, ws, hw, rfl, Since.refl ws⟩
    · exact absurd hc (Obj.movedFrom_own o c)
    · exact h.backed a p c h3 hc
  · intro c w hc
    obtain ⟨a, p, hp, hb'⟩ := h.owned c w hc
    by_cases ha : a = j
    · subst ha
      rw [hj] at hp; injection hp with hp; subst hp
      rw [hb] at hb'; injection hb' with h1; injection h1 with h1; subst h1
      exact ⟨i, ⟨o.cls, some (some b), ownRanges L o.cls b ws⟩, by simp, rfl⟩
    · have ha' : a ≠ i := fun hai => hi c (hai ▸ ⟨p, hp, hb'⟩)
      refine ⟨a, p, ?_, hb'⟩
      simp only [upd_ne _ _ ha', upd_ne _ _ ha]; exact hp
  · exact h.fresh
  · intro a p r hp hr
    rcases key a p hp with ⟨rfl, rfl⟩ | ⟨rfl, rfl⟩ | ⟨h1, h2, h3⟩
    · have : r.buf = b := by
        simp only [ownRanges, List.mem_cons, List.mem_map] at hr
        rcases hr with rfl | ⟨p, _, rfl⟩ <;> rfl
      simp only []; omega
    · exact h.old a o r hj (Obj.movedFrom_ranges hr)
    · exact h.old a p r h3 hr


theorem upd_upd {α : Type} (f : Nat → Option α) (i : Nat) (v w : Option α) :
    upd (upd f i v) i w = upd f i w := by
  funext k; simp only [upd]; split <;> rfl

theorem upd_comm {α : Type} (f : Nat → Option α) {i j : Nat} (v w : Option α) (h : i ≠ j) :
    upd (upd f i v) j w = upd (upd f j w) i v := by
  funext k; simp only [upd]
  by_cases h1 : k = j
  · subst h1; rw [if_pos rfl, if_neg (fun hh => h hh.symm), if_pos rfl]
  · rw [if_neg h1, if_neg h1]

theorem freeOwn_upd (heap : Nat → Option Words) (own : Option (Option Nat)) (b : Nat)
    (v : Option Words) (h : own ≠ some (some b)) :
    freeOwn (upd heap b v) own = upd (freeOwn heap own) b v := by
  rcases own with _ | _ | c
  · rfl
  · rfl
  · exact (upd_comm heap v none (fun hh => h (by rw [hh])))

theorem freeOwn_ne (heap : Nat → Option Words) (own : Option (Option Nat)) (b : Nat)
    (h : own ≠ some (some b)) : freeOwn heap own b = heap b := by
  rcases own with _ | _ | c
  · rfl
  · rfl
  · exact upd_ne _ _ (fun hh => h (by rw [hh]))

/-- A non owning object (or a free name) becomes a moved from view's target. -/
theorem InvR.moveView {R : Words → Words → Prop} [Since R] {L : Layout} {m : Mem} (h : InvR R L m) (i j : Nat) (o : Obj)
    (hj : m.objs j = some o) (hb : o.own = none) (hij : i ≠ j) (hi : ∀ b, ¬ Owns m i b) :
    InvR R L { m with objs := upd (upd m.objs j (some o.movedFrom)) i
                                (some ⟨o.cls, none, o.ranges⟩) } := by
  have hjno : ∀ b, ¬ Owns m j b := by
    rintro b ⟨o', ho', hb'⟩
    rw [hj] at ho'; injection ho' with ho'; subst ho'; rw [hb] at hb'; cases hb'
  have e : o.movedFrom = ⟨o.cls, none, o.ranges.take 1⟩ := by simp [Obj.movedFrom, hb]
  have h1 := h.addView j o.cls (o.ranges.take 1) hjno
    (fun r hr => h.old j o r hj (List.mem_of_mem_take hr))
  rw [e]
  refine h1.addView i o.cls o.ranges ?_ (fun r hr => h.old j o r hj hr)
  rintro b ⟨o', ho', hb'⟩
  exact hi b ⟨o', (upd_ne _ _ hij).symm.trans ho', hb'⟩

theorem InvR.copyInto {R : Words → Words → Prop} [Since R] {L : Layout} {m m' : Mem} (h : InvR R L m) (i : Nat) (o : Obj)
    (hi : m.objs i = none) (hor : ∀ r ∈ o.ranges, r.buf < m.next)
    (hm : copyInto L m i o = some m') : InvR R L m' := by
  unfold Memory.copyInto at hm
  rcases hown : o.own with _ | _ | b
  · rw [hown] at hm; injection hm with hm; subst hm
    refine h.addView i o.cls o.ranges ?_ hor
    rintro b ⟨o', ho', _⟩; rw [hi] at ho'; cases ho'
  · rw [hown] at hm; cases hm
  · rw [hown] at hm
    simp only [] at hm
    cases hb : m.heap b with
    | none => rw [hb] at hm; cases hm
    | some ws =>
      rw [hb] at hm; injection hm with hm; subst hm
      exact h.addOwner i o.cls ws hi

theorem InvR.moveInto {R : Words → Words → Prop} [Since R] {L : Layout} {m m' : Mem} (h : InvR R L m) (i j : Nat) (o : Obj)
    (hi : ∀ b, ¬ Owns m i b) (hj : m.objs j = some o) (hij : i ≠ j)
    (hm : moveInto L m i j o = some m') : InvR R L m' := by
  unfold Memory.moveInto at hm
  rcases hown : o.own with _ | _ | b
  · rw [hown] at hm; injection hm with hm; subst hm
    exact h.moveView i j o hj hown hij hi
  · rw [hown] at hm; cases hm
  · rw [hown] at hm
    simp only [] at hm
    cases hb : m.heap b with
    | none => rw [hb] at hm; cases hm
    | some ws =>
      rw [hb] at hm; injection hm with hm; subst hm
      exact h.transfer i j o b ws hj hown hb hij hi

/-- The target of an assignment with its old vector released. -/
def Mem.drop (m : Mem) (i : Nat) (t : Obj) : Mem :=
  { m with heap := freeOwn m.heap t.own, objs := upd m.objs i none }

theorem copyAssign_drop {R : Words → Words → Prop} [Since R] {L : Layout} {m m' : Mem} (h : InvR R L m) {i j : Nat} {t o : Obj}
    (hi : m.objs i = some t) (hj : m.objs j = some o) (hij : i ≠ j)
    (hm : copyInto L m i o = some m') :
    copyInto L (m.drop i t) i o = some { m' with heap := freeOwn m'.heap t.own } := by
  unfold copyInto at hm ⊢
  rcases hown : o.own with _ | _ | b
  · rw [hown] at hm; injection hm with hm; subst hm
    simp only [Mem.drop, upd_upd]
  · rw [hown] at hm; cases hm
  · rw [hown] at hm
    have hne : t.own ≠ some (some b) := fun hh => hij (h.unique i j b ⟨t, hi, hh⟩ ⟨o, hj, hown⟩)
    have hnext : t.own ≠ some (some m.next) := fun hh =>
      absurd (h.own_lt ⟨t, hi, hh⟩) (by omega)
    simp only [Mem.drop, freeOwn_ne _ _ _ hne] at hm ⊢
    cases hb : m.heap b with
    | none => rw [hb] at hm; cases hm
    | some ws =>
      rw [hb] at hm; injection hm with hm; subst hm
      simp only [upd_upd, freeOwn_upd _ _ _ _ hnext]

theorem moveAssign_drop {R : Words → Words → Prop} [Since R] {L : Layout} {m m' : Mem} (h : InvR R L m) {i j : Nat} {t o : Obj}
    (hi : m.objs i = some t) (hj : m.objs j = some o) (hij : i ≠ j)
    (hm : moveInto L m i j o = some m') :
    moveInto L (m.drop i t) i j o = some { m' with heap := freeOwn m'.heap t.own } := by
  unfold moveInto at hm ⊢
  rcases hown : o.own with _ | _ | b
  · rw [hown] at hm; injection hm with hm; subst hm
    simp only [Mem.drop, upd_upd, upd_comm _ _ _ (Ne.symm hij)]
  · rw [hown] at hm; cases hm
  · rw [hown] at hm
    have hne : t.own ≠ some (some b) := fun hh => hij (h.unique i j b ⟨t, hi, hh⟩ ⟨o, hj, hown⟩)
    simp only [Mem.drop, freeOwn_ne _ _ _ hne] at hm ⊢
    cases hb : m.heap b with
    | none => rw [hb] at hm; cases hm
    | some ws =>
      rw [hb] at hm; injection hm with hm; subst hm
      simp only [upd_upd, upd_comm _ _ _ (Ne.symm hij)]

theorem InvR.drop {R : Words → Words → Prop} [Since R] {L : Layout} {m : Mem} (h : InvR R L m) {i : Nat} {t : Obj}
    (hi : m.objs i = some t) : InvR R L (m.drop i t) :=
  h.release i t hi none (by intro o' ho'; cases ho')

/-- Every operation of a valid history preserves the invariant. -/
theorem InvR.step {R : Words → Words → Prop} [Since R] {L : Layout} {m m' : Mem} (h : InvR R L m) (op : Op)
    (hs : step L m op = some m') : InvR R L m' := by
  cases op with
  | make i cls ws =>
    simp only [Memory.step] at hs
    cases hi : m.objs i with
    | some _ => rw [hi] at hs; cases hs
    | none =>
      rw [hi] at hs; injection hs with hs; subst hs
      exact h.addOwner i cls ws hi
  | copyCtor i j =>
    simp only [Memory.step] at hs
    cases hi : m.objs i with
    | some _ => rw [hi] at hs; cases hs
    | none =>
      cases hj : m.objs j with
      | none => rw [hi, hj] at hs; cases hs
      | some o =>
        rw [hi, hj] at hs
        exact h.copyInto i o hi (fun r hr => h.old j o r hj hr) hs
  | moveCtor i j =>
    simp only [Memory.step] at hs
    cases hi : m.objs i with
    | some _ => rw [hi] at hs; cases hs
    | none =>
      cases hj : m.objs j with
      | none => rw [hi, hj] at hs; cases hs
      | some o =>
        rw [hi, hj] at hs
        refine h.moveInto i j o ?_ hj ?_ hs
        · rintro b ⟨o', ho', _⟩; rw [hi] at ho'; cases ho'
        · intro hh; rw [hh, hj] at hi; cases hi
  | copyAssign i j =>
    simp only [Memory.step] at hs
    cases hi : m.objs i with
    | none => rw [hi] at hs; cases hs
    | some t =>
      cases hj : m.objs j with
      | none => rw [hi, hj] at hs; cases hs
      | some o =>
        rw [hi, hj] at hs
        simp only [] at hs
        by_cases hij : i = j
        · rw [if_pos hij] at hs; injection hs with hs; subst hs; exact h
        · rw [if_neg hij] at hs
          by_cases hc : t.cls = o.cls
          · rw [if_pos hc] at hs
            cases hm : Memory.copyInto L m i o with
            | none => rw [hm] at hs; cases hs
            | some m1 =>
              rw [hm] at hs
              injection hs with hs; subst hs
              exact (h.drop hi).copyInto i o (upd_same _ _ _)
                (fun r hr => h.old j o r hj hr) (copyAssign_drop h hi hj hij hm)
          · rw [if_neg hc] at hs; cases hs
  | moveAssign i j =>
    simp only [Memory.step] at hs
    cases hi : m.objs i with
    | none => rw [hi] at hs; cases hs
    | some t =>
      cases hj : m.objs j with
      | none => rw [hi, hj] at hs; cases hs
      | some o =>
        rw [hi, hj] at hs
        simp only [] at hs
        by_cases hij : i = j
        · rw [if_pos hij] at hs; injection hs with hs; subst hs; exact h
        · rw [if_neg hij] at hs
          by_cases hc : t.cls = o.cls
          · rw [if_pos hc] at hs
            cases hm : Memory.moveInto L m i j o with
            | none => rw [hm] at hs; cases hs
            | some m1 =>
              rw [hm] at hs
              injection hs with hs; subst hs
              refine (h.drop hi).moveInto i j o ?_ ?_ hij (moveAssign_drop h hi hj hij hm)
              · rintro b ⟨o', ho', _⟩
                rw [show (m.drop i t).objs i = none from upd_same _ _ _] at ho'; cases ho'
              · exact (upd_ne _ _ (Ne.symm hij)).trans hj
          · rw [if_neg hc] at hs; cases hs
  | destroy i =>
    simp only [Memory.step] at hs
    cases hi : m.objs i with
    | none => rw [hi] at hs; cases hs
    | some o =>
      rw [hi] at hs; injection hs with hs; subst hs
      exact h.drop hi
  | view i j cls rs =>
    simp only [Memory.step] at hs
    cases hi : m.objs i with
    | some _ => rw [hi] at hs; cases hs
    | none =>
      cases hj : m.objs j with
      | none => rw [hi, hj] at hs; cases hs
      | some o =>
        rw [hi, hj] at hs
        simp only [] at hs
        by_cases hrs : (rs.all fun r => o.ranges.any fun r0 => r.inside r0) = true
        · rw [if_pos hrs] at hs; injection hs with hs; subst hs
          refine h.addView i cls rs ?_ ?_
          · rintro b ⟨o', ho', _⟩; rw [hi] at ho'; cases ho'
          · intro r hr
            have := List.all_eq_true.mp hrs r hr
            obtain ⟨r0, hr0, hin⟩ := List.any_eq_true.mp this
            have hb : r.buf = r0.buf := by
              simp only [Range.inside, Bool.and_eq_true, beq_iff_eq] at hin
              exact hin.1.1
            rw [hb]; exact h.old j o r0 hj hr0
        · rw [if_neg hrs] at hs; cases hs

theorem InvR.run {R : Words → Words → Prop} [Since R] {L : Layout} {m m' : Mem} (h : InvR R L m) (ops : List Op)
    (hs : run L m ops = some m') : InvR R L m' := by
  induction ops generalizing m with
  | nil => injection hs with hs; subst hs; exact h
  | cons op ops ih =>
    simp only [Memory.run] at hs
    cases h1 : Memory.step L m op with
    | none => rw [h1] at hs; cases hs
    | some m1 => rw [h1] at hs; exact ih (h.step op h1) hs

end ACE.Memory

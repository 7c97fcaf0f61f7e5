import Verif.Lemmas.Memory

/-!
# C01: blocks built from values own their data through every history

The specification is an interpreter of histories over plain values: there are no
buffers, pointers or lifetimes in it. Copying copies the value, moving transfers it,
destroying removes it, and nothing else changes it. The theorem says that what the
real objects read through all of their iterators is what this interpreter computes.
-/

namespace ACE.Props.C01
open ACE ACE.Memory

/-- What a user thinks an object is. -/
inductive Spec where
  /-- a block of class `cls` with contents `ws`, built from values -/
  | value (cls : Nat) (ws : Words)
  /-- an object that was moved from -/
  | moved
  /-- a view of some other object -/
  | view
deriving DecidableEq, Repr

/-- The effect of one operation on the values the user has in mind. -/
def specStep (s : Nat → Option Spec) : Op → (Nat → Option Spec)
  | .make i cls ws => fun k => if k = i then some (.value cls ws) else s k
  | .copyCtor i j => fun k => if k = i then s j else s k
  | .copyAssign i j => fun k => if k = i then s j else s k
  | .moveCtor i j => fun k => if k = i then s j else if k = j then some .moved else s k
  | .moveAssign i j => fun k => if k = i then s j else if k = j then some .moved else s k
  | .destroy i => fun k => if k = i then none else s k
  | .view i _ _ _ => fun k => if k = i then some .view else s k

/-- The values after a history. -/
def spec (s : Nat → Option Spec) : List Op → (Nat → Option Spec)
  | [] => s
  | op :: ops => spec (specStep s op) ops

/-- What reading all words of object `i` and of each of its sub blocks gives. -/
def observe (m : Mem) (i : Nat) : Option (Res (List Words)) :=
  (m.objs i).map (fun o => o.ranges.mapM m.read)

/-- What it should give for contents `ws` of class `cls`: all the words, followed by the
words of each sub block. -/
def expected (L : Layout) (cls : Nat) (ws : Words) : Res (List Words) :=
  ((0, ws.length) :: L cls ws).mapM (fun p => sub ws p.1 (p.1 + p.2))

/-- Simulation relation between a state and the specification. -/
structure Agree (s : Nat → Option Spec) (m : Mem) : Prop where
  val : ∀ i cls ws, s i = some (.value cls ws) →
    ∃ o b, m.objs i = some o ∧ o.cls = cls ∧ o.own = some (some b) ∧ m.heap b = some ws
  vw : ∀ i, s i = some .view → ∃ o, m.objs i = some o ∧ o.own = none

theorem agree_copy {L : Layout} {m m' : Mem} (hI : Inv L m) {s : Nat → Option Spec} (h : Agree s m)
    {i j : Nat} {o : Obj} (hj : m.objs j = some o) (hi : m.objs i = none)
    (hm : copyInto L m i o = some m') :
    Agree (fun k => if k = i then s j else s k) m' := by
  have hij : j ≠ i := by rintro rfl; rw [hj] at hi; cases hi
  unfold copyInto at hm
  rcases hown : o.own with _ | _ | b
  · rw [hown] at hm; injection hm with hm; subst hm
    constructor
    · intro k cls ws hk
      by_cases hki : k = i
      · rw [if_pos hki] at hk
        obtain ⟨o', b, ho', _, hb, _⟩ := h.val j cls ws hk
        rw [hj] at ho'; injection ho' with ho'; subst ho'; rw [hown] at hb; cases hb
      · rw [if_neg hki] at hk
        obtain ⟨o', b, ho', h1, h2, h3⟩ := h.val k cls ws hk
        exact ⟨o', b, (upd_ne _ _ hki).trans ho', h1, h2, h3⟩
    · intro k hk
      by_cases hki : k = i
      · subst hki; exact ⟨_, upd_same _ _ _, rfl⟩
      · rw [if_neg hki] at hk
        obtain ⟨o', ho', h1⟩ := h.vw k hk
        exact ⟨o', (upd_ne _ _ hki).trans ho', h1⟩
  · rw [hown] at hm; cases hm
  · rw [hown] at hm
    simp only [] at hm
    cases hb : m.heap b with
    | none => rw [hb] at hm; cases hm
    | some w =>
      rw [hb] at hm; injection hm with hm; subst hm
      constructor
      · intro k cls ws hk
        by_cases hki : k = i
        · rw [if_pos hki] at hk
          obtain ⟨o', b', ho', h1, h2, h3⟩ := h.val j cls ws hk
          rw [hj] at ho'; injection ho' with ho'; subst ho'
          rw [hown] at h2; injection h2 with h2; injection h2 with h2; subst h2
          rw [hb] at h3; injection h3 with h3; subst h3
          subst hki
          exact ⟨_, m.next, upd_same _ _ _, h1, rfl, upd_same _ _ _⟩
        · rw [if_neg hki] at hk
          obtain ⟨o', b', ho', h1, h2, h3⟩ := h.val k cls ws hk
          have := hI.own_lt ⟨o', ho', h2⟩
          exact ⟨o', b', (upd_ne _ _ hki).trans ho', h1, h2,
            (upd_ne _ _ (show b' ≠ m.next by omega)).trans h3⟩
      · intro k hk
        by_cases hki : k = i
        · rw [if_pos hki] at hk
          obtain ⟨o', ho', h1⟩ := h.vw j hk
          rw [hj] at ho'; injection ho' with ho'; subst ho'; rw [hown] at h1; cases h1
        · rw [if_neg hki] at hk
          obtain ⟨o', ho', h1⟩ := h.vw k hk
          exact ⟨o', (upd_ne _ _ hki).trans ho', h1⟩

theorem agree_move {L : Layout} {m m' : Mem} {s : Nat → Option Spec} (h : Agree s m)
    {i j : Nat} {o : Obj} (hj : m.objs j = some o) (hij : i ≠ j)
    (hm : moveInto L m i j o = some m') :
    Agree (fun k => if k = i then s j else if k = j then some .moved else s k) m' := by
  unfold moveInto at hm
  rcases hown : o.own with _ | _ | b
  · rw [hown] at hm; injection hm with hm; subst hm
    constructor
    · intro k cls ws hk
      by_cases hki : k = i
      · rw [if_pos hki] at hk
        obtain ⟨o', b, ho', _, hb, _⟩ := h.val j cls ws hk
        rw [hj] at ho'; injection ho' with ho'; subst ho'; rw [hown] at hb; cases hb
      · rw [if_neg hki] at hk
        by_cases hkj : k = j
        · rw [if_pos hkj] at hk; cases hk
        · rw [if_neg hkj] at hk
          obtain ⟨o', b, ho', h1, h2, h3⟩ := h.val k cls ws hk
          exact ⟨o', b, (upd_ne _ _ hki).trans ((upd_ne _ _ hkj).trans ho'), h1, h2, h3⟩
    · intro k hk
      by_cases hki : k = i
      · subst hki; exact ⟨_, upd_same _ _ _, rfl⟩
      · rw [if_neg hki] at hk
        by_cases hkj : k = j
        · rw [if_pos hkj] at hk; cases hk
        · rw [if_neg hkj] at hk
          obtain ⟨o', ho', h1⟩ := h.vw k hk
          exact ⟨o', (upd_ne _ _ hki).trans ((upd_ne _ _ hkj).trans ho'), h1⟩
  · rw [hown] at hm; cases hm
  · rw [hown] at hm
    simp only [] at hm
    cases hb : m.heap b with
    | none => rw [hb] at hm; cases hm
    | some w =>
      rw [hb] at hm; injection hm with hm; subst hm
      constructor
      · intro k cls ws hk
        by_cases hki : k = i
        · rw [if_pos hki] at hk
          obtain ⟨o', b', ho', h1, h2, h3⟩ := h.val j cls ws hk
          rw [hj] at ho'; injection ho' with ho'; subst ho'
          rw [hown] at h2; injection h2 with h2; injection h2 with h2; subst h2
          subst hki
          exact ⟨_, b, upd_same _ _ _, h1, rfl, h3⟩
        · rw [if_neg hki] at hk
          by_cases hkj : k = j
          · rw [if_pos hkj] at hk; cases hk
          · rw [if_neg hkj] at hk
            obtain ⟨o', b', ho', h1, h2, h3⟩ := h.val k cls ws hk
            exact ⟨o', b', (upd_ne _ _ hki).trans ((upd_ne _ _ hkj).trans ho'), h1, h2, h3⟩
      · intro k hk
        by_cases hki : k = i
        · rw [if_pos hki] at hk
          obtain ⟨o', ho', h1⟩ := h.vw j hk
          rw [hj] at ho'; injection ho' with ho'; subst ho'; rw [hown] at h1; cases h1
        · rw [if_neg hki] at hk
          by_cases hkj : k = j
          · rw [if_pos hkj] at hk; cases hk
          · rw [if_neg hkj] at hk
            obtain ⟨o', ho', h1⟩ := h.vw k hk
            exact ⟨o', (upd_ne _ _ hki).trans ((upd_ne _ _ hkj).trans ho'), h1⟩

theorem agree_drop {L : Layout} {m : Mem} (hI : Inv L m) {s : Nat → Option Spec} (h : Agree s m)
    {i : Nat} {t : Obj} (hi : m.objs i = some t) :
    Agree (fun k => if k = i then none else s k) (m.drop i t) := by
  constructor
  · intro k cls ws hk
    by_cases hki : k = i
    · rw [if_pos hki] at hk; cases hk
    · rw [if_neg hki] at hk
      obtain ⟨o, b, ho, h1, h2, h3⟩ := h.val k cls ws hk
      refine ⟨o, b, (upd_ne _ _ hki).trans ho, h1, h2, (freeOwn_ne _ _ _ ?_).trans h3⟩
      exact fun hh => hki (hI.unique k i b ⟨o, ho, h2⟩ ⟨t, hi, hh⟩)
  · intro k hk
    by_cases hki : k = i
    · rw [if_pos hki] at hk; cases hk
    · rw [if_neg hki] at hk
      obtain ⟨o, ho, h1⟩ := h.vw k hk
      exact ⟨o, (upd_ne _ _ hki).trans ho, h1⟩

theorem agree_step {L : Layout} {m m' : Mem} (hI : Inv L m) {s : Nat → Option Spec}
    (h : Agree s m) (op : Op) (hs : step L m op = some m') : Agree (specStep s op) m' := by
  cases op with
  | make i cls ws =>
    simp only [step] at hs
    cases hi : m.objs i with
    | some _ => rw [hi] at hs; cases hs
    | none =>
      rw [hi] at hs; injection hs with hs; subst hs
      constructor
      · intro k c w hk
        simp only [specStep] at hk
        by_cases hki : k = i
        · rw [if_pos hki] at hk; injection hk with hk; injection hk with h1 h2
          subst h1; subst h2; subst hki
          exact ⟨_, m.next, upd_same _ _ _, rfl, rfl, upd_same _ _ _⟩
        · rw [if_neg hki] at hk
          obtain ⟨o', b', ho', h1, h2, h3⟩ := h.val k c w hk
          have := hI.own_lt ⟨o', ho', h2⟩
          exact ⟨o', b', (upd_ne _ _ hki).trans ho', h1, h2,
            (upd_ne _ _ (show b' ≠ m.next by omega)).trans h3⟩
      · intro k hk
        simp only [specStep] at hk
        by_cases hki : k = i
        · rw [if_pos hki] at hk; cases hk
        · rw [if_neg hki] at hk
          obtain ⟨o', ho', h1⟩ := h.vw k hk
          exact ⟨o', (upd_ne _ _ hki).trans ho', h1⟩
  | copyCtor i j =>
    simp only [step] at hs
    cases hi : m.objs i with
    | some _ => rw [hi] at hs; cases hs
    | none =>
      cases hj : m.objs j with
      | none => rw [hi, hj] at hs; cases hs
      | some o => rw [hi, hj] at hs; exact agree_copy hI h hj hi hs
  | moveCtor i j =>
    simp only [step] at hs
    cases hi : m.objs i with
    | some _ => rw [hi] at hs; cases hs
    | none =>
      cases hj : m.objs j with
      | none => rw [hi, hj] at hs; cases hs
      | some o =>
        rw [hi, hj] at hs
        exact agree_move h hj (by rintro rfl; rw [hj] at hi; cases hi) hs
  | copyAssign i j =>
    simp only [step] at hs
    cases hi : m.objs i with
    | none => rw [hi] at hs; cases hs
    | some t =>
      cases hj : m.objs j with
      | none => rw [hi, hj] at hs; cases hs
      | some o =>
        rw [hi, hj] at hs
        simp only [] at hs
        by_cases hij : i = j
        · rw [if_pos hij] at hs; injection hs with hs; subst hs
          have : specStep s (.copyAssign i j) = s := by
            funext k; simp only [specStep]; split
            · rename_i hk; rw [hk, hij]
            · rfl
          rw [this]; exact h
        · rw [if_neg hij] at hs
          by_cases hc : t.cls = o.cls
          · rw [if_pos hc] at hs
            cases hm : copyInto L m i o with
            | none => rw [hm] at hs; cases hs
            | some m1 =>
              rw [hm] at hs
              injection hs with hs; subst hs
              have h1 := agree_copy (hI.drop hi) (agree_drop hI h hi)
                ((upd_ne _ _ (Ne.symm hij)).trans hj) (upd_same _ _ _)
                (copyAssign_drop hI hi hj hij hm)
              have e : (fun k => if k = i then (if j = i then none else s j)
                  else if k = i then none else s k) = specStep s (.copyAssign i j) := by
                funext k; simp only [specStep, if_neg (Ne.symm hij)]
                by_cases hk : k = i
                · rw [if_pos hk, if_pos hk]
                · rw [if_neg hk, if_neg hk, if_neg hk]
              rw [← e]; exact h1
          · rw [if_neg hc] at hs; cases hs
  | moveAssign i j =>
    simp only [step] at hs
    cases hi : m.objs i with
    | none => rw [hi] at hs; cases hs
    | some t =>
      cases hj : m.objs j with
      | none => rw [hi, hj] at hs; cases hs
      | some o =>
        rw [hi, hj] at hs
        simp only [] at hs
        by_cases hij : i = j
        · rw [if_pos hij] at hs; injection hs with hs; subst hs
          constructor
          · intro k cls ws hk
            simp only [specStep] at hk
            by_cases hki : k = i
            · rw [if_pos hki, ← hij, ← hki] at hk; exact h.val k cls ws hk
            · rw [if_neg hki, if_neg (hij ▸ hki)] at hk; exact h.val k cls ws hk
          · intro k hk
            simp only [specStep] at hk
            by_cases hki : k = i
            · rw [if_pos hki, ← hij, ← hki] at hk; exact h.vw k hk
            · rw [if_neg hki, if_neg (hij ▸ hki)] at hk; exact h.vw k hk
        · rw [if_neg hij] at hs
          by_cases hc : t.cls = o.cls
          · rw [if_pos hc] at hs
            cases hm : moveInto L m i j o with
            | none => rw [hm] at hs; cases hs
            | some m1 =>
              rw [hm] at hs
              injection hs with hs; subst hs
              have h1 := agree_move (agree_drop hI h hi)
                ((upd_ne _ _ (Ne.symm hij)).trans hj) hij
                (moveAssign_drop hI hi hj hij hm)
              have e : (fun k => if k = i then (if j = i then none else s j)
                  else if k = j then some Spec.moved else if k = i then none else s k)
                  = specStep s (.moveAssign i j) := by
                funext k; simp only [specStep, if_neg (Ne.symm hij)]
                by_cases hk : k = i
                · rw [if_pos hk, if_pos hk]
                · rw [if_neg hk, if_neg hk, if_neg hk]
              rw [← e]; exact h1
          · rw [if_neg hc] at hs; cases hs
  | destroy i =>
    simp only [step] at hs
    cases hi : m.objs i with
    | none => rw [hi] at hs; cases hs
    | some o =>
      rw [hi] at hs; injection hs with hs; subst hs
      exact agree_drop hI h hi
  | view i j cls rs =>
    simp only [step] at hs
    cases hi : m.objs i with
    | some _ => rw [hi] at hs; cases hs
    | none =>
      cases hj : m.objs j with
      | none => rw [hi, hj] at hs; cases hs
      | some o =>
        rw [hi, hj] at hs
        simp only [] at hs
        by_cases hrs : (rs.all fun r => o.ranges.any fun r0 => r.inside r0) = true
        · rw [if_pos hrs] at hs; injection hs with hs; subst hs
          constructor
          · intro k c w hk
            simp only [specStep] at hk
            by_cases hki : k = i
            · rw [if_pos hki] at hk; cases hk
            · rw [if_neg hki] at hk
              obtain ⟨o', b', ho', h1, h2, h3⟩ := h.val k c w hk
              exact ⟨o', b', (upd_ne _ _ hki).trans ho', h1, h2, h3⟩
          · intro k hk
            simp only [specStep] at hk
            by_cases hki : k = i
            · subst hki; exact ⟨_, upd_same _ _ _, rfl⟩
            · rw [if_neg hki] at hk
              obtain ⟨o', ho', h1⟩ := h.vw k hk
              exact ⟨o', (upd_ne _ _ hki).trans ho', h1⟩
        · rw [if_neg hrs] at hs; cases hs

theorem agree_run {L : Layout} {m m' : Mem} (hI : Inv L m) {s : Nat → Option Spec}
    (h : Agree s m) (ops : List Op) (hs : run L m ops = some m') : Agree (spec s ops) m' := by
  induction ops generalizing m s with
  | nil => injection hs with hs; subst hs; exact h
  | cons op ops ih =>
    simp only [run] at hs
    cases h1 : step L m op with
    | none => rw [h1] at hs; cases hs
    | some m1 => rw [h1] at hs; exact ih (hI.step op h1) (agree_step hI h op h1) hs

end ACE.Props.C01

namespace ACE.Props
open ACE ACE.Memory ACE.Props.C01

theorem read_ownRanges {L : Layout} {m : Mem} {cls b : Nat} {ws : Words}
    (hb : m.heap b = some ws) :
    (ownRanges L cls b ws).mapM m.read = expected L cls ws := by
  have e : ownRanges L cls b ws
      = ((0, ws.length) :: L cls ws).map (fun p => (⟨b, p.1, p.2⟩ : Range)) := rfl
  rw [e, expected]
  induction ((0, ws.length) :: L cls ws) with
  | nil => rfl
  | cons p ps ih =>
    rw [List.map_cons, List.mapM_cons, List.mapM_cons, ih]
    have : m.read ⟨b, p.1, p.2⟩ = sub ws p.1 (p.1 + p.2) := by simp only [Mem.read, hb]
    rw [this]

/-- After every valid history, whatever copies, moves, assignments and destructions it
contains: an object that the user believes to hold value `ws` of class `cls` reads exactly
`ws` and the sub blocks of `ws`, as a freshly built object would. -/
theorem C01_value_semantics (L : Layout) (ops : List Op) (m : Mem)
    (hrun : run L Mem.init ops = some m) (i cls : Nat) (ws : Words)
    (hspec : spec (fun _ => none) ops i = some (.value cls ws)) :
    observe m i = some (expected L cls ws) := by
  have hA : Agree (fun _ => none) Mem.init := ⟨fun _ _ _ h => (nomatch h), fun _ h => (nomatch h)⟩
  obtain ⟨o, b, ho, hc, hown, hb⟩ := (agree_run (Inv.init L) hA ops hrun).val i cls ws hspec
  obtain ⟨w, _, hw, hr, rfl⟩ := ((Inv.init L).run ops hrun).backed i o b ho hown
  rw [hb] at hw; injection hw with hw; subst hw
  rw [observe, ho, Option.map_some, hr, hc, read_ownRanges hb]

/-- The storage such an object reads is its own: no other live object owns it. -/
theorem C01_exclusive_storage (L : Layout) (ops : List Op) (m : Mem)
    (hrun : run L Mem.init ops = some m) (i cls : Nat) (ws : Words)
    (hspec : spec (fun _ => none) ops i = some (.value cls ws)) :
    ∃ o b, m.objs i = some o ∧ o.own = some (some b) ∧ (∀ r ∈ o.ranges, r.buf = b) ∧
      ∀ k o', k ≠ i → m.objs k = some o' → o'.own ≠ some (some b) := by
  have hA : Agree (fun _ => none) Mem.init := ⟨fun _ _ _ h => (nomatch h), fun _ h => (nomatch h)⟩
  obtain ⟨o, b, ho, hc, hown, hb⟩ := (agree_run (Inv.init L) hA ops hrun).val i cls ws hspec
  have hI := (Inv.init L).run ops hrun
  obtain ⟨w, _, hw, hr, rfl⟩ := hI.backed i o b ho hown
  refine ⟨o, b, ho, hown, ?_, fun k o' hk ho' hb' => hk (hI.unique k i b ⟨o', ho', hb'⟩ ⟨o, ho, hown⟩)⟩
  intro r hmem
  rw [hr, ownRanges, List.mem_cons, List.mem_map] at hmem
  rcases hmem with rfl | ⟨p, _, rfl⟩ <;> rfl

/-- No storage leaks: every allocated buffer is owned by a live object. -/
theorem C01_no_leak (L : Layout) (ops : List Op) (m : Mem)
    (hrun : run L Mem.init ops = some m) (b : Nat) (ws : Words) (hb : m.heap b = some ws) :
    ∃ i o, m.objs i = some o ∧ o.own = some (some b) := by
  obtain ⟨i, o, h1, h2⟩ := ((Inv.init L).run ops hrun).owned b ws hb
  exact ⟨i, o, h1, h2⟩

/-- A history with a copy, a move, a self assignment, an assignment onto an owner and the
destruction of the sources; the survivor still reads its words and sub block. -/
example :
    let L : Layout := fun _ _ => [(1, 2)]
    let w : Words := [.ofInt 7, .ofInt 8, .ofInt 9]
    let ops : List Op := [.make 0 3 w, .copyCtor 1 0, .make 2 3 [.ofInt 1, .ofInt 2, .ofInt 4],
      .destroy 0, .copyAssign 1 1, .moveAssign 2 1, .destroy 1, .moveCtor 5 2]
    (run L Mem.init ops).isSome = true ∧
    spec (fun _ => none) ops 5 = some (.value 3 w) ∧
    ((run L Mem.init ops).bind (fun m => observe m 5)) = some (.ok [w, [.ofInt 8, .ofInt 9]]) := by
  decide

namespace C01

/-- A history with copies, moves and destructions, and the state after it. -/
def exLayout : Layout := fun _ _ => [(1, 2)]
def exWords : Words := [.ofInt 7, .ofInt 8, .ofInt 9]
def exOps : List Op := [.make 0 3 exWords, .copyCtor 1 0, .make 2 3 [.ofInt 1, .ofInt 2, .ofInt 4],
  .destroy 0, .copyAssign 1 1, .moveAssign 2 1, .destroy 1, .moveCtor 5 2]
def exMem : Mem := (run exLayout Mem.init exOps).getD Mem.init
theorem exRun : run exLayout Mem.init exOps = some exMem := rfl
theorem exSpec : spec (fun _ => none) exOps 5 = some (.value 3 exWords) := by decide

end C01

/-- The hypotheses of `C01_value_semantics`, `C01_exclusive_storage` and `C01_no_leak` hold after that history. -/
example : observe C01.exMem 5 = some (expected C01.exLayout 3 C01.exWords) :=
  C01_value_semantics _ _ _ C01.exRun 5 3 _ C01.exSpec
example := C01_exclusive_storage _ _ _ C01.exRun 5 3 _ C01.exSpec
example : ∃ i o, C01.exMem.objs i = some o ∧ o.own = some (some 1) :=
  C01_no_leak _ _ _ C01.exRun 1 C01.exWords (by decide)

end ACE.Props

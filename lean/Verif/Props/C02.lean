import Verif.Lemmas.Memory

/-!
# C02: a block taken out of a table is a view of that table and nothing else
-/

namespace ACE.Props.C02
open ACE ACE.Memory

/-- The objects an operation may change: its target, and the source of a move. -/
def touches : Op → Nat → Bool
  | .make i _ _, k => k == i
  | .copyCtor i _, k => k == i
  | .moveCtor i j, k => k == i || k == j
  | .copyAssign i _, k => k == i
  | .moveAssign i j, k => k == i || k == j
  | .destroy i, k => k == i
  | .view i _ _ _, k => k == i

theorem copyInto_objs {L : Layout} {m m' : Mem} {i : Nat} {o : Obj}
    (hm : copyInto L m i o = some m') {k : Nat} (hk : k ≠ i) : m'.objs k = m.objs k := by
  unfold copyInto at hm
  rcases hown : o.own with _ | _ | b
  · rw [hown] at hm; injection hm with hm; subst hm; exact upd_ne _ _ hk
  · rw [hown] at hm; cases hm
  · rw [hown] at hm
    cases hb : m.heap b with
    | none => simp only [hb] at hm; cases hm
    | some w => simp only [hb] at hm; injection hm with hm; subst hm; exact upd_ne _ _ hk

theorem moveInto_objs {L : Layout} {m m' : Mem} {i j : Nat} {o : Obj}
    (hm : moveInto L m i j o = some m') {k : Nat} (hk : k ≠ i) (hk' : k ≠ j) :
    m'.objs k = m.objs k := by
  unfold moveInto at hm
  rcases hown : o.own with _ | _ | b
  · rw [hown] at hm; injection hm with hm; subst hm
    exact (upd_ne _ _ hk).trans (upd_ne _ _ hk')
  · rw [hown] at hm; cases hm
  · rw [hown] at hm
    cases hb : m.heap b with
    | none => simp only [hb] at hm; cases hm
    | some w =>
      simp only [hb] at hm; injection hm with hm; subst hm
      exact (upd_ne _ _ hk).trans (upd_ne _ _ hk')

theorem step_objs {L : Layout} {m m' : Mem} {op : Op} (hs : step L m op = some m') {k : Nat}
    (hk : touches op k = false) : m'.objs k = m.objs k := by
  cases op with
  | make i cls ws =>
    simp only [touches, beq_eq_false_iff_ne] at hk
    simp only [step] at hs
    split at hs
    · cases hs
    · injection hs with hs; subst hs; exact upd_ne _ _ hk
  | copyCtor i j =>
    simp only [touches, beq_eq_false_iff_ne] at hk
    simp only [step] at hs
    split at hs
    · exact copyInto_objs hs hk
    · cases hs
  | moveCtor i j =>
    simp only [touches, Bool.or_eq_false_iff, beq_eq_false_iff_ne] at hk
    simp only [step] at hs
    split at hs
    · exact moveInto_objs hs hk.1 hk.2
    · cases hs
  | copyAssign i j =>
    simp only [touches, beq_eq_false_iff_ne] at hk
    simp only [step] at hs
    split at hs
    · rename_i t o hi hj
      by_cases hij : i = j
      · rw [if_pos hij] at hs; injection hs with hs; subst hs; rfl
      · rw [if_neg hij] at hs
        by_cases hc : t.cls = o.cls
        · rw [if_pos hc] at hs
          cases hm : copyInto L m i o with
          | none => rw [hm] at hs; cases hs
          | some m1 =>
            rw [hm] at hs
            injection hs with hs; subst hs
            exact copyInto_objs hm hk
        · rw [if_neg hc] at hs; cases hs
    · cases hs
  | moveAssign i j =>
    simp only [touches, Bool.or_eq_false_iff, beq_eq_false_iff_ne] at hk
    simp only [step] at hs
    split at hs
    · rename_i t o hi hj
      by_cases hij : i = j
      · rw [if_pos hij] at hs; injection hs with hs; subst hs; rfl
      · rw [if_neg hij] at hs
        by_cases hc : t.cls = o.cls
        · rw [if_pos hc] at hs
          cases hm : moveInto L m i j o with
          | none => rw [hm] at hs; cases hs
          | some m1 =>
            rw [hm] at hs
            injection hs with hs; subst hs
            exact moveInto_objs hm hk.1 hk.2
        · rw [if_neg hc] at hs; cases hs
    · cases hs
  | destroy i =>
    simp only [touches, beq_eq_false_iff_ne] at hk
    simp only [step] at hs
    split at hs
    · injection hs with hs; subst hs; exact upd_ne _ _ hk
    · cases hs
  | view i j cls rs =>
    simp only [touches, beq_eq_false_iff_ne] at hk
    simp only [step] at hs
    split at hs
    · split at hs
      · injection hs with hs; subst hs; exact upd_ne _ _ hk
      · cases hs
    · cases hs

/-- The heap only changes by allocation of fresh buffers and by freeing: words are never
written through a view or into a live vector. -/
def Frozen (m m' : Mem) : Prop :=
  m.next ≤ m'.next ∧ ∀ b, b < m.next → m'.heap b = m.heap b ∨ m'.heap b = none

theorem Frozen.refl (m : Mem) : Frozen m m := ⟨Nat.le_refl _, fun _ _ => .inl rfl⟩

theorem Frozen.trans {a b c : Mem} (h1 : Frozen a b) (h2 : Frozen b c) : Frozen a c := by
  refine ⟨Nat.le_trans h1.1 h2.1, fun k hk => ?_⟩
  rcases h2.2 k (Nat.lt_of_lt_of_le hk h1.1) with h | h
  · rw [h]; exact h1.2 k hk
  · exact .inr h

theorem freeOwn_cases (heap : Nat → Option Words) (own : Option (Option Nat)) (b : Nat) :
    freeOwn heap own b = heap b ∨ freeOwn heap own b = none := by
  rcases own with _ | _ | c
  · exact .inl rfl
  · exact .inl rfl
  · by_cases h : b = c
    · subst h; exact .inr (upd_same _ _ _)
    · exact .inl (upd_ne _ _ h)

theorem Frozen.free (m : Mem) (own : Option (Option Nat)) (objs : Nat → Option Obj) :
    Frozen m { m with heap := freeOwn m.heap own, objs := objs } :=
  ⟨Nat.le_refl _, fun b _ => freeOwn_cases _ _ b⟩

theorem Frozen.alloc (m : Mem) (ws : Words) (objs : Nat → Option Obj) :
    Frozen m { heap := upd m.heap m.next (some ws), next := m.next + 1, objs := objs } :=
  ⟨Nat.le_succ _, fun b hb => .inl (upd_ne _ _ (show b ≠ m.next by omega))⟩

theorem copyInto_frozen {L : Layout} {m m' : Mem} {i : Nat} {o : Obj}
    (hm : copyInto L m i o = some m') : Frozen m m' := by
  unfold copyInto at hm
  rcases hown : o.own with _ | _ | b
  · rw [hown] at hm; injection hm with hm; subst hm; exact ⟨Nat.le_refl _, fun _ _ => .inl rfl⟩
  · rw [hown] at hm; cases hm
  · rw [hown] at hm
    cases hb : m.heap b with
    | none => simp only [hb] at hm; cases hm
    | some w => simp only [hb] at hm; injection hm with hm; subst hm; exact Frozen.alloc _ _ _

theorem moveInto_frozen {L : Layout} {m m' : Mem} {i j : Nat} {o : Obj}
    (hm : moveInto L m i j o = some m') : Frozen m m' := by
  unfold moveInto at hm
  rcases hown : o.own with _ | _ | b
  · rw [hown] at hm; injection hm with hm; subst hm; exact ⟨Nat.le_refl _, fun _ _ => .inl rfl⟩
  · rw [hown] at hm; cases hm
  · rw [hown] at hm
    cases hb : m.heap b with
    | none => simp only [hb] at hm; cases hm
    | some w =>
      simp only [hb] at hm; injection hm with hm; subst hm
      exact ⟨Nat.le_refl _, fun _ _ => .inl rfl⟩

theorem step_frozen {L : Layout} {m m' : Mem} {op : Op} (hs : step L m op = some m') :
    Frozen m m' := by
  cases op with
  | make i cls ws =>
    simp only [step] at hs
    split at hs
    · cases hs
    · injection hs with hs; subst hs; exact Frozen.alloc _ _ _
  | copyCtor i j =>
    simp only [step] at hs
    split at hs
    · exact copyInto_frozen hs
    · cases hs
  | moveCtor i j =>
    simp only [step] at hs
    split at hs
    · exact moveInto_frozen hs
    · cases hs
  | copyAssign i j =>
    simp only [step] at hs
    split at hs
    · rename_i t o hi hj
      by_cases hij : i = j
      · rw [if_pos hij] at hs; injection hs with hs; subst hs; exact Frozen.refl _
      · rw [if_neg hij] at hs
        by_cases hc : t.cls = o.cls
        · rw [if_pos hc] at hs
          cases hm : copyInto L m i o with
          | none => rw [hm] at hs; cases hs
          | some m1 =>
            rw [hm] at hs
            injection hs with hs; subst hs
            exact (copyInto_frozen hm).trans (Frozen.free _ _ _)
        · rw [if_neg hc] at hs; cases hs
    · cases hs
  | moveAssign i j =>
    simp only [step] at hs
    split at hs
    · rename_i t o hi hj
      by_cases hij : i = j
      · rw [if_pos hij] at hs; injection hs with hs; subst hs; exact Frozen.refl _
      · rw [if_neg hij] at hs
        by_cases hc : t.cls = o.cls
        · rw [if_pos hc] at hs
          cases hm : moveInto L m i j o with
          | none => rw [hm] at hs; cases hs
          | some m1 =>
            rw [hm] at hs
            injection hs with hs; subst hs
            exact (moveInto_frozen hm).trans (Frozen.free _ _ _)
        · rw [if_neg hc] at hs; cases hs
    · cases hs
  | destroy i =>
    simp only [step] at hs
    split at hs
    · injection hs with hs; subst hs; exact Frozen.free _ _ _
    · cases hs
  | view i j cls rs =>
    simp only [step] at hs
    split at hs
    · split at hs
      · injection hs with hs; subst hs; exact ⟨Nat.le_refl _, fun _ _ => .inl rfl⟩
      · cases hs
    · cases hs

theorem run_objs_frozen {L : Layout} {m m' : Mem} {ops : List Op} (hs : run L m ops = some m') :
    Frozen m m' ∧ ∀ k, (∀ op ∈ ops, touches op k = false) → m'.objs k = m.objs k := by
  induction ops generalizing m with
  | nil => injection hs with hs; subst hs; exact ⟨Frozen.refl _, fun _ _ => rfl⟩
  | cons op ops ih =>
    simp only [run] at hs
    cases h1 : step L m op with
    | none => rw [h1] at hs; cases hs
    | some m1 =>
      rw [h1] at hs
      obtain ⟨hf, ho⟩ := ih hs
      refine ⟨(step_frozen h1).trans hf, fun k hk => ?_⟩
      rw [ho k (fun op' h' => hk op' (List.mem_cons_of_mem _ h')),
        step_objs h1 (hk op List.mem_cons_self)]

end ACE.Props.C02

namespace ACE.Props
open ACE ACE.Memory ACE.Props.C02

/-- A view is not changed by any later history that does not assign to it, destroy it or
move from it: it never acquires storage, keeps its ranges, and each of its ranges reads the
same words as before exactly as long as the array is alive (has an owner, whichever object
that is after moves of the table), and freed storage (undefined behaviour) afterwards. -/
theorem C02_view_reads_table (L : Layout) (pre ops : List Op) (m m' : Mem)
    (hpre : run L Mem.init pre = some m) (hrun : run L m ops = some m')
    (v cls : Nat) (rs : List Range) (hv : m.objs v = some ⟨cls, none, rs⟩)
    (hops : ∀ op ∈ ops, touches op v = false) :
    m'.objs v = some ⟨cls, none, rs⟩ ∧
    ∀ r ∈ rs,
      ((∃ i o, m'.objs i = some o ∧ o.own = some (some r.buf)) → m'.read r = m.read r) ∧
      ((¬ ∃ i o, m'.objs i = some o ∧ o.own = some (some r.buf)) → m'.read r = .error .ub) := by
  obtain ⟨hf, ho⟩ := run_objs_frozen hrun
  have hI := (Inv.init L).run pre hpre
  have hI' := hI.run ops hrun
  refine ⟨(ho v hops).trans hv, fun r hr => ⟨?_, ?_⟩⟩
  · rintro ⟨i, o, hi, hown⟩
    obtain ⟨ws, _, hw, _⟩ := hI'.backed i o r.buf hi hown
    rcases hf.2 r.buf (hI.old v _ r hv hr) with h | h
    · simp only [Mem.read, h]
    · rw [hw] at h; cases h
  · intro hno
    cases hb : m'.heap r.buf with
    | none => simp only [Mem.read, hb]
    | some ws =>
      obtain ⟨i, o, h1, h2⟩ := hI'.owned r.buf ws hb
      exact absurd ⟨i, o, h1, h2⟩ hno

/-- Copying a view, however often, gives a view of the same words which owns nothing. -/
theorem C02_copy_is_view (L : Layout) (m m' : Mem) (v k cls : Nat) (rs : List Range)
    (hv : m.objs v = some ⟨cls, none, rs⟩)
    (hs : step L m (.copyCtor k v) = some m' ∨ (step L m (.copyAssign k v) = some m' ∧ k ≠ v)) :
    m'.objs k = some ⟨cls, none, rs⟩ := by
  rcases hs with hs | ⟨hs, hkv⟩
  · simp only [step, hv] at hs
    split at hs
    · rename_i o _ h2; injection h2 with h2; subst h2
      injection hs with hs; subst hs; exact upd_same _ _ _
    · cases hs
  · simp only [step, hv] at hs
    split at hs
    · rename_i t o _ h2; injection h2 with h2; subst h2
      rw [if_neg hkv] at hs
      split at hs
      · injection hs with hs; subst hs; exact upd_same _ _ _
      · cases hs
    · cases hs

/-- Moving the table keeps its array alive: the moved-to table owns the same buffer, so all
views of the array still read the same words. -/
theorem C02_move_keeps_array (L : Layout) (m m' : Mem) (i j b : Nat) (o : Obj)
    (hj : m.objs j = some o) (hb : o.own = some (some b))
    (hs : step L m (.moveCtor i j) = some m') :
    (∃ o', m'.objs i = some o' ∧ o'.own = some (some b)) ∧ m'.heap = m.heap := by
  simp only [step, hj] at hs
  split at hs
  · rename_i o1 _ h2; injection h2 with h2; subst h2
    unfold moveInto at hs
    simp only [hb] at hs
    split at hs
    · cases hs
    · injection hs with hs; subst hs; exact ⟨⟨_, upd_same _ _ _, rfl⟩, rfl⟩
  · cases hs

/-- Destroying the table leaves every view of its array dangling. -/
theorem C02_destroy_dangles (L : Layout) (m m' : Mem) (j b : Nat) (o : Obj) (r : Range)
    (hj : m.objs j = some o) (hb : o.own = some (some b)) (hr : r.buf = b)
    (hs : step L m (.destroy j) = some m') : m'.read r = .error .ub := by
  simp only [step, hj] at hs
  injection hs with hs; subst hs
  simp only [Mem.read, hb, freeOwn, hr, upd_same]

/-- A table, a block of it, a copy of that block, the table moved: both blocks still read the
words; after the destruction of the table both read freed storage. -/
example :
    let L : Layout := fun _ _ => []
    let w : Words := [.ofInt 7, .ofInt 8, .ofInt 9]
    let ops : List Op := [.make 0 3 w, .view 1 0 4 [⟨0, 1, 2⟩], .copyCtor 2 1, .moveCtor 3 0]
    ((run L Mem.init ops).bind (fun m => m.objs 2)) = some ⟨4, none, [⟨0, 1, 2⟩]⟩ ∧
    ((run L Mem.init ops).map (fun m => m.read ⟨0, 1, 2⟩)) = some (.ok [.ofInt 8, .ofInt 9]) ∧
    ((run L Mem.init (ops ++ [.destroy 3])).map (fun m => m.read ⟨0, 1, 2⟩)) = some (.error .ub) := by
  decide

namespace C02

/-- A table, a block of it and a copy of the block; then the table is moved. -/
def exPre : List Op := [.make 0 3 [.ofInt 7, .ofInt 8, .ofInt 9], .view 1 0 4 [⟨0, 1, 2⟩], .copyCtor 2 1]
def exMem : Mem := (run (fun _ _ => []) Mem.init exPre).getD Mem.init
def exMoved : Mem := (run (fun _ _ => []) exMem [.moveCtor 3 0]).getD Mem.init
def exObj : Obj := (exMem.objs 0).getD ⟨0, none, []⟩

end C02

/-- The hypotheses of the four theorems are met by that history. -/
example := C02_view_reads_table (fun _ _ => []) C02.exPre [.moveCtor 3 0] C02.exMem C02.exMoved rfl rfl 2 4
  [⟨0, 1, 2⟩] rfl (by decide)
example := C02_copy_is_view (fun _ _ => []) C02.exMem _ 2 5 4 [⟨0, 1, 2⟩] rfl (.inl rfl)
example := C02_move_keeps_array (fun _ _ => []) C02.exMem C02.exMoved 3 0 0 C02.exObj rfl rfl rfl
example := C02_destroy_dangles (fun _ _ => []) C02.exMem _ 0 0 C02.exObj ⟨0, 1, 2⟩ rfl rfl rfl rfl

end ACE.Props

import Verif.Model.PyLife
import Verif.Lemmas.Core

/-!
# C65: what a Python program holds stays valid

Specification. Whatever a program does, and in whatever order its names go away, using an object that
a name refers to gives the words it was made from; it never reads freed memory. The code satisfies
this for the blocks that are properties of a table (`C65_parts_partial`), and for everything as long as
the tables keep their names (`C65_owners_kept_partial`, `C65_while_kept`); in general it does not
(`C65_range_false`, `C65_item_false`).
-/

namespace ACE.Props
open ACE ACE.PyLife

/-- The full statement: no program reads freed memory. -/
def C65Statement : Prop := ∀ ops : List Op, run [] ops ≠ .error .ub

/-- Only tables, blocks made from values, properties, uses and names that go away. -/
def OnlyParts (ops : List Op) : Prop :=
  ∀ op ∈ ops, (∀ x off len, op ≠ .item x off len) ∧ (∀ x off len, op ≠ .range x off len)

/-- No name of a table, or of a block made from values, goes away. -/
def KeepsOwners (ops : List Op) : Prop :=
  ∀ before x after s, ops = before ++ .drop x :: after → run [] before = .ok s →
    ∀ o, s[x]? = some o → o.owner ≠ x

namespace C65

/-- What holds in every state: an object reads a part of the words of its owner, and keeps alive an
earlier object with the same owner. -/
structure Good (s : State) (x : Nat) (o : Obj) : Prop where
  le : o.owner ≤ x
  inside : ∃ w, s[o.owner]? = some w ∧ w.owner = o.owner ∧ o.off + o.len ≤ w.words.length
  kept : ∀ p, o.keeps = some p → p < x ∧ ∃ q, s[p]? = some q ∧ q.owner = o.owner

def Inv (s : State) : Prop := ∀ x o, s[x]? = some o → Good s x o

/-- Every object that is not an owner keeps one alive. -/
def Linked (s : State) : Prop := ∀ (x : Nat) (o : Obj), s[x]? = some o → o.owner ≠ x → o.keeps.isSome
/-- Every owner has a name. -/
def Named (s : State) : Prop := ∀ (x : Nat) (o : Obj), s[x]? = some o → o.owner = x → o.held = true

theorem get_lt {s : State} {x : Nat} {o : Obj} (h : s[x]? = some o) : x < s.length :=
  (List.getElem?_eq_some_iff.mp h).1

theorem alive_of {s : State} {x y : Nat} {o : Obj} (hy : s[y]? = some o) (hh : o.held = true)
    (hc : x ∈ chain s s.length y) : alive s x = true := by
  unfold alive
  rw [List.any_eq_true]
  refine ⟨y, List.mem_range.mpr (get_lt hy), ?_⟩
  rw [hy]
  simp only [hh, Bool.true_and]
  exact List.contains_iff_mem.mpr hc

theorem self_mem_chain {s : State} {x n : Nat} (h : 0 < n) : x ∈ chain s n x := by
  cases n with
  | zero => omega
  | succ n => simp [chain]

/-- The chain of links from an object ends at its owner. -/
theorem owner_mem_chain {s : State} (hi : Inv s) (hl : Linked s) :
    ∀ (n x : Nat) (o : Obj), s[x]? = some o → x < n → o.owner ∈ chain s n x := by
  intro n
  induction n with
  | zero => intro x o _ h; omega
  | succ n ih =>
    intro x o hx hn
    by_cases h : o.owner = x
    · rw [h]; exact self_mem_chain (by omega)
    · obtain ⟨p, hp⟩ := Option.isSome_iff_exists.mp (hl x o hx h)
      obtain ⟨h1, q, h2, h3⟩ := (hi x o hx).kept p hp
      have := ih p q h2 (by omega)
      rw [h3] at this
      unfold chain
      refine List.mem_cons_of_mem _ ?_
      rw [hx]
      simp only [Option.bind_some, hp]
      exact this

theorem read_ok {s : State} (hi : Inv s) {x : Nat} {o : Obj} (hx : s[x]? = some o)
    (ha : alive s o.owner = true) :
    ∃ w ws, s[o.owner]? = some w ∧ read s x = .ok ws ∧ ws = (w.words.drop o.off).take o.len := by
  obtain ⟨w, hw, _, hb⟩ := (hi x o hx).inside
  unfold PyLife.read
  rw [hx]
  simp only [ha, if_true, hw]
  refine ⟨w, _, rfl, ?_, rfl⟩
  unfold sub
  rw [if_pos (by omega)]
  congr 2
  omega

theorem Good.append {s : State} {x : Nat} {o : Obj} (h : Good s x o) (n : Obj) : Good (s ++ [n]) x o := by
  have app : ∀ {i : Nat} {q : Obj}, s[i]? = some q → (s ++ [n])[i]? = some q := by
    intro i q hq
    rw [List.getElem?_append_left (get_lt hq)]; exact hq
  obtain ⟨w, h1, h2⟩ := h.inside
  refine ⟨h.le, ⟨w, app h1, h2⟩, fun p hp => ?_⟩
  obtain ⟨h3, q, h4, h5⟩ := h.kept p hp
  exact ⟨h3, q, app h4, h5⟩

theorem get_append {s : State} {n o : Obj} {x : Nat} (h : (s ++ [n])[x]? = some o) :
    s[x]? = some o ∨ (x = s.length ∧ o = n) := by
  by_cases hx : x < s.length
  · rw [List.getElem?_append_left hx] at h; exact Or.inl h
  · have := get_lt h
    have hx : x = s.length := by simp at this; omega
    subst hx
    simp at h
    exact Or.inr ⟨rfl, h.symm⟩

theorem inv_append {s : State} (hi : Inv s) {n : Obj} (hn : Good (s ++ [n]) s.length n) :
    Inv (s ++ [n]) := by
  intro x o hx
  rcases get_append hx with h | ⟨rfl, rfl⟩
  · exact (hi x o h).append n
  · exact hn

theorem inv_make {s : State} (hi : Inv s) (ws : Words) :
    Inv (s ++ [⟨true, none, s.length, 0, ws.length, ws⟩]) := by
  refine inv_append hi ⟨Nat.le_refl _, ⟨⟨true, none, s.length, 0, ws.length, ws⟩, ?_, rfl, ?_⟩, ?_⟩
  · simp
  · simp
  · intro p hp; cases hp

theorem inv_obtain {s : State} (hi : Inv s) {x off len : Nat} {o : Obj} (hx : s[x]? = some o)
    (hb : off + len ≤ o.off + o.len) (keep : Bool) :
    Inv (s ++ [⟨true, if keep then some x else none, o.owner, off, len, []⟩]) := by
  have hl := get_lt hx
  have g := (hi x o hx)
  obtain ⟨w, h1, h2, h3⟩ := g.inside
  refine inv_append hi ⟨?_, ⟨w, ?_, h2, ?_⟩, ?_⟩
  · have := g.le; show o.owner ≤ _; omega
  · show (s ++ _)[o.owner]? = some w
    rw [List.getElem?_append_left (get_lt h1)]; exact h1
  · show off + len ≤ _; omega
  · intro p hp
    cases keep with
    | false => cases hp
    | true =>
      have : x = p := Option.some.inj hp
      subst this
      refine ⟨hl, o, ?_, rfl⟩
      rw [List.getElem?_append_left hl]; exact hx

theorem get_set {s : State} {x y : Nat} {o q : Obj} (hx : s[x]? = some o)
    (h : (s.set x { o with held := false })[y]? = some q) :
    (y = x ∧ q = { o with held := false }) ∨ (y ≠ x ∧ s[y]? = some q) := by
  by_cases e : y = x
  · subst e
    rw [List.getElem?_set_self (get_lt hx)] at h
    exact Or.inl ⟨rfl, (Option.some.inj h).symm⟩
  · rw [List.getElem?_set_ne (Ne.symm e)] at h
    exact Or.inr ⟨e, h⟩

theorem set_get {s : State} {x i : Nat} {o q : Obj} (hx : s[x]? = some o) (hi : s[i]? = some q) :
    ∃ q', (s.set x { o with held := false })[i]? = some q' ∧ q'.owner = q.owner ∧ q'.words = q.words := by
  by_cases e : i = x
  · subst e
    rw [hx] at hi
    cases hi
    exact ⟨_, List.getElem?_set_self (get_lt hx), rfl, rfl⟩
  · exact ⟨q, by rw [List.getElem?_set_ne (Ne.symm e)]; exact hi, rfl, rfl⟩

theorem inv_drop {s : State} (hi : Inv s) {x : Nat} {o : Obj} (hx : s[x]? = some o) :
    Inv (s.set x { o with held := false }) := by
  have key : ∀ (y : Nat) (q : Obj), Good s y q → Good (s.set x { o with held := false }) y q := by
    intro y q g
    obtain ⟨w, h1, h2, h3⟩ := g.inside
    obtain ⟨w', h4, h5, h6⟩ := set_get hx h1
    refine ⟨g.le, ⟨w', h4, by rw [h5]; exact h2, by rw [h6]; exact h3⟩, fun p hp => ?_⟩
    obtain ⟨h7, r, h8, h9⟩ := g.kept p hp
    obtain ⟨r', h10, h11, _⟩ := set_get hx h8
    exact ⟨h7, r', h10, by rw [h11]; exact h9⟩
  intro y q hq
  rcases get_set hx hq with ⟨rfl, rfl⟩ | ⟨_, h⟩
  · have g := key y o (hi y o hx)
    exact ⟨g.le, g.inside, g.kept⟩
  · exact key y q (hi y q h)

theorem obtain_cases {s s' : State} {x off len : Nat} {keep : Bool}
    (h : obtain' s x off len keep = .ok s') :
    ∃ o, s[x]? = some o ∧ o.held = true ∧ off + len ≤ o.off + o.len ∧
      s' = s ++ [⟨true, if keep then some x else none, o.owner, off, len, []⟩] := by
  unfold obtain' at h
  cases hx : s[x]? with
  | none => rw [hx] at h; cases h
  | some o =>
    rw [hx] at h
    simp only at h
    split at h
    · rename_i hc
      simp only [Bool.and_eq_true, decide_eq_true_eq] at hc
      cases hr : read s x with
      | error e => rw [hr] at h; cases h
      | ok ws =>
        rw [hr] at h
        exact ⟨o, rfl, hc.1.1, hc.2, (Except.ok.inj h).symm⟩
    · cases h

/-- Every step keeps the invariant. -/
theorem inv_step {s s' : State} (hi : Inv s) {op : Op} (h : step s op = .ok s') : Inv s' := by
  cases op with
  | make ws => cases h; exact inv_make hi ws
  | part x off len => obtain ⟨o, hx, _, hb, rfl⟩ := obtain_cases h; exact inv_obtain hi hx hb true
  | item x off len => obtain ⟨o, hx, _, hb, rfl⟩ := obtain_cases h; exact inv_obtain hi hx hb false
  | range x off len => obtain ⟨o, hx, _, hb, rfl⟩ := obtain_cases h; exact inv_obtain hi hx hb false
  | use x =>
    simp only [step] at h
    cases hx : s[x]? with
    | none => rw [hx] at h; cases h
    | some o =>
      rw [hx] at h
      simp only at h
      split at h
      · cases hr : read s x with
        | error e => rw [hr] at h; cases h
        | ok ws => rw [hr] at h; cases h; exact hi
      · cases h
  | drop x =>
    simp only [step] at h
    cases hx : s[x]? with
    | none => rw [hx] at h; cases h
    | some o => rw [hx] at h; cases h; exact inv_drop hi hx

theorem inv_run {s s' : State} (hi : Inv s) {ops : List Op} (h : run s ops = .ok s') : Inv s' := by
  induction ops generalizing s with
  | nil => cases h; exact hi
  | cons op ops ih =>
    unfold run at h
    obtain ⟨t, h1, h2⟩ := bind_eq_ok.mp h
    exact ih (inv_step hi h1) h2

theorem inv_nil : Inv [] := fun x o h => by simp at h

/-- A step whose used object has a living owner does not read freed memory. -/
theorem step_ne_ub {s : State} (hi : Inv s)
    (ha : ∀ (x : Nat) (o : Obj), s[x]? = some o → o.held = true → alive s o.owner = true) (op : Op) :
    step s op ≠ .error .ub := by
  have hobt : ∀ x off len keep, obtain' s x off len keep ≠ .error .ub := by
    intro x off len keep h
    unfold obtain' at h
    cases hx : s[x]? with
    | none => rw [hx] at h; cases h
    | some o =>
      rw [hx] at h
      simp only at h
      split at h
      · rename_i hc
        simp only [Bool.and_eq_true] at hc
        obtain ⟨w, ws, _, hr, _⟩ := read_ok hi hx (ha x o hx hc.1.1)
        rw [hr] at h; cases h
      · cases h
  cases op with
  | make ws => exact fun h => by cases h
  | part x off len => exact hobt _ _ _ _
  | item x off len => exact hobt _ _ _ _
  | range x off len => exact hobt _ _ _ _
  | use x =>
    intro h
    simp only [step] at h
    cases hx : s[x]? with
    | none => rw [hx] at h; cases h
    | some o =>
      rw [hx] at h
      simp only at h
      split at h
      · rename_i hc
        obtain ⟨w, ws, _, hr, _⟩ := read_ok hi hx (ha x o hx hc)
        rw [hr] at h; cases h
      · cases h
  | drop x =>
    intro h
    simp only [step] at h
    cases hx : s[x]? with
    | none => rw [hx] at h; cases h
    | some o => rw [hx] at h; cases h

theorem alive_linked {s : State} (hi : Inv s) (hl : Linked s) (x : Nat) (o : Obj)
    (hx : s[x]? = some o) (hh : o.held = true) : alive s o.owner = true :=
  alive_of hx hh (owner_mem_chain hi hl _ x o hx (get_lt hx))

theorem alive_named {s : State} (hi : Inv s) (hn : Named s) (x : Nat) (o : Obj)
    (hx : s[x]? = some o) : alive s o.owner = true := by
  obtain ⟨w, h1, h2, _⟩ := (hi x o hx).inside
  exact alive_of h1 (hn _ w h1 h2) (self_mem_chain (by have := get_lt h1; omega))

theorem linked_step {s s' : State} (hl : Linked s) {op : Op}
    (ho : (∀ x off len, op ≠ .item x off len) ∧ (∀ x off len, op ≠ .range x off len))
    (h : step s op = .ok s') : Linked s' := by
  cases op with
  | make ws =>
    cases h
    intro x o hx hne
    rcases get_append hx with hx | ⟨rfl, rfl⟩
    · exact hl x o hx hne
    · exact absurd rfl hne
  | part x off len =>
    obtain ⟨o, hx, _, hb, rfl⟩ := obtain_cases h
    intro y q hy hne
    rcases get_append hy with hy | ⟨rfl, rfl⟩
    · exact hl y q hy hne
    · rfl
  | item x off len => exact absurd rfl (ho.1 x off len)
  | range x off len => exact absurd rfl (ho.2 x off len)
  | use x =>
    simp only [step] at h
    cases hx : s[x]? with
    | none => rw [hx] at h; cases h
    | some o =>
      rw [hx] at h
      simp only at h
      split at h
      · cases hr : read s x with
        | error e => rw [hr] at h; cases h
        | ok ws => rw [hr] at h; cases h; exact hl
      · cases h
  | drop x =>
    simp only [step] at h
    cases hx : s[x]? with
    | none => rw [hx] at h; cases h
    | some o =>
      rw [hx] at h; cases h
      intro y q hy hne
      rcases get_set hx hy with ⟨rfl, rfl⟩ | ⟨_, hy⟩
      · exact hl y o hx hne
      · exact hl y q hy hne

theorem named_obtain {s s' : State} (hn : Named s) {x off len : Nat} {keep : Bool}
    (h : obtain' s x off len keep = .ok s') : Named s' := by
  obtain ⟨o, hx, _, hb, rfl⟩ := obtain_cases h
  intro y q hy he
  rcases get_append hy with hy | ⟨rfl, rfl⟩
  · exact hn y q hy he
  · rfl

theorem named_step {s s' : State} (hi : Inv s) (hn : Named s) {op : Op}
    (ho : ∀ x, op = .drop x → ∀ o, s[x]? = some o → o.owner ≠ x)
    (h : step s op = .ok s') : Named s' := by
  cases op with
  | make ws =>
    cases h
    intro x o hx he
    rcases get_append hx with hx | ⟨rfl, rfl⟩
    · exact hn x o hx he
    · rfl
  | part x off len => exact named_obtain hn h
  | item x off len => exact named_obtain hn h
  | range x off len => exact named_obtain hn h
  | use x =>
    simp only [step] at h
    cases hx : s[x]? with
    | none => rw [hx] at h; cases h
    | some o =>
      rw [hx] at h
      simp only at h
      split at h
      · cases hr : read s x with
        | error e => rw [hr] at h; cases h
        | ok ws => rw [hr] at h; cases h; exact hn
      · cases h
  | drop x =>
    simp only [step] at h
    cases hx : s[x]? with
    | none => rw [hx] at h; cases h
    | some o =>
      rw [hx] at h; cases h
      intro y q hy he
      rcases get_set hx hy with ⟨rfl, rfl⟩ | ⟨_, hy⟩
      · exact absurd he (ho y rfl o hx)
      · exact hn y q hy he

theorem run_append {s : State} (a b : List Op) : run s (a ++ b) = (run s a).bind fun t => run t b := by
  induction a generalizing s with
  | nil => rfl
  | cons op a ih =>
    show (step s op).bind (fun t => run t (a ++ b)) = ((step s op).bind fun t => run t a).bind _
    cases step s op with
    | error e => rfl
    | ok t => exact ih

end C65
open C65

/-- Programs that use tables, blocks made from values and the properties that refer to blocks never
read freed memory, in whatever order the names go away. Missing: methods with an index and ranges. -/
theorem C65_parts_partial (ops : List Op) (h : OnlyParts ops) : run [] ops ≠ .error .ub := by
  have key : ∀ (ops : List Op) (s : State), Inv s → Linked s → OnlyParts ops → run s ops ≠ .error .ub := by
    intro ops
    induction ops with
    | nil => intro s _ _ _ h; cases h
    | cons op ops ih =>
      intro s hi hl ho h
      have hs := step_ne_ub hi (fun x o hx hh => alive_linked hi hl x o hx hh) op
      unfold run at h
      cases ht : step s op with
      | error e => rw [ht] at h hs; cases h; exact hs rfl
      | ok t =>
        rw [ht] at h
        exact ih t (inv_step hi ht) (linked_step hl (ho op (List.mem_cons_self ..)) ht)
          (fun op' h' => ho op' (List.mem_cons_of_mem _ h')) h
  exact key ops [] inv_nil (fun x o hx => by simp at hx) h

/-- Any program that keeps the names of its tables never reads freed memory. Missing: programs in which
the name of a table goes away before that of a range or of a block obtained with an index. -/
theorem C65_owners_kept_partial (ops : List Op) (h : KeepsOwners ops) : run [] ops ≠ .error .ub := by
  have key : ∀ (ops before : List Op) (s : State), run [] before = .ok s → Inv s → Named s →
      KeepsOwners (before ++ ops) → run s ops ≠ .error .ub := by
    intro ops
    induction ops with
    | nil => intro before s _ _ _ _ h; cases h
    | cons op ops ih =>
      intro before s hb hi hn ho h
      have hs := step_ne_ub hi (fun x o hx _ => alive_named hi hn x o hx) op
      unfold run at h
      cases ht : step s op with
      | error e => rw [ht] at h hs; cases h; exact hs rfl
      | ok t =>
        rw [ht] at h
        refine ih (before ++ [op]) t ?_ (inv_step hi ht) (named_step hi hn ?_ ht) ?_ h
        · rw [run_append, hb]
          show run s [op] = .ok t
          unfold run
          rw [ht]; rfl
        · intro x hx o hso
          exact ho before x ops s (by rw [hx]) hb o hso
        · simpa using ho
  exact key ops [] [] rfl inv_nil (fun x o hx => by simp at hx) (by simpa using h)

/-- After any program: as long as a name refers to the owner, or to an object that keeps it alive (for
example a block of it), an object reads exactly its part of the words the owner was made with. -/
theorem C65_while_kept (ops : List Op) (s : State) (h : run [] ops = .ok s) (x y : Nat) (o k : Obj)
    (hx : s[x]? = some o) (hy : s[y]? = some k) (hh : k.held = true)
    (hc : o.owner ∈ chain s s.length y) :
    ∃ w, s[o.owner]? = some w ∧ o.off + o.len ≤ w.words.length ∧
      read s x = .ok ((w.words.drop o.off).take o.len) := by
  have hi := inv_run inv_nil h
  obtain ⟨w, ws, h1, h2, rfl⟩ := read_ok hi hx (alive_of hy hh hc)
  obtain ⟨w', h3, _, h4⟩ := (hi x o hx).inside
  rw [h1] at h3; cases h3
  exact ⟨w, h1, h4, h2⟩

namespace C65
def ws : Words := [Dbl.ofNat 7, Dbl.ofNat 8, Dbl.ofNat 9]
/-- `x = Table.from_file( f ).ESZ.energies`, then `x` is used. -/
def rangeProgram : List Op := [.make ws, .part 0 0 2, .range 1 0 2, .drop 0, .drop 1, .use 2]
/-- `x = Table.from_file( f ).HPD( 1 )`, then `x` is used. -/
def itemProgram : List Op := [.make ws, .item 0 1 2, .drop 0, .use 1]
/-- `x = Table.from_file( f ).ESZ`, then `x` is used. -/
def partProgram : List Op := [.make ws, .part 0 0 2, .drop 0, .use 1, .part 1 1 1, .drop 1, .use 2]
/-- A table with a name, a range and an indexed block of temporary blocks. -/
def keptProgram : List Op :=
  [.make ws, .part 0 0 2, .range 1 0 2, .drop 1, .use 2, .item 0 1 2, .range 3 1 1, .drop 3, .use 4]
end C65

/-- Finding: a range outlives the table it reads. -/
theorem C65_range_false : run [] C65.rangeProgram = .error .ub := by decide +kernel
/-- Finding: a block obtained with an index outlives the table it reads. -/
theorem C65_item_false : run [] C65.itemProgram = .error .ub := by decide +kernel
theorem C65_false : ¬ C65Statement := fun h => h _ C65_range_false

/-! ## Examples -/

/-- The table is kept alive by its block and that by its part. -/
example : OnlyParts C65.partProgram ∧ ∃ s, run [] C65.partProgram = .ok s ∧
    read s 2 = .ok [Dbl.ofNat 8] := by
  refine ⟨?_, _, rfl, by decide +kernel⟩
  intro op hop
  simp [C65.partProgram] at hop
  rcases hop with rfl | rfl | rfl | rfl | rfl | rfl | rfl <;> exact ⟨by intros; simp, by intros; simp⟩

example : KeepsOwners C65.keptProgram ∧ ∃ s, run [] C65.keptProgram = .ok s ∧
    read s 4 = .ok [Dbl.ofNat 8] := by
  refine ⟨?_, _, rfl, by decide +kernel⟩
  intro before x after s he hr o ho
  have hb : before = C65.keptProgram.take before.length := by rw [he]; simp
  have hd : C65.keptProgram[before.length]? = some (.drop x) := by rw [he]; simp
  have hn : before.length < 9 := by
    have := congrArg List.length he
    simp [C65.keptProgram] at this
    omega
  have key : ∀ n < 9, ∀ y, C65.keptProgram[n]? = some (.drop y) →
      ∀ t, run [] (C65.keptProgram.take n) = .ok t → ∀ q, t[y]? = some q → q.owner ≠ y := by
    intro n hn y hy
    have : (n = 3 ∧ y = 1) ∨ (n = 7 ∧ y = 3) := by
      match n, hn, hy with
      | 0, _, hy => cases hy
      | 1, _, hy => cases hy
      | 2, _, hy => cases hy
      | 3, _, hy => cases hy; exact Or.inl ⟨rfl, rfl⟩
      | 4, _, hy => cases hy
      | 5, _, hy => cases hy
      | 6, _, hy => cases hy
      | 7, _, hy => cases hy; exact Or.inr ⟨rfl, rfl⟩
      | 8, _, hy => cases hy
    rcases this with ⟨rfl, rfl⟩ | ⟨rfl, rfl⟩
    · have : ∃ t, run [] (C65.keptProgram.take 3) = .ok t ∧ (t[1]?).map Obj.owner = some 0 :=
        ⟨_, rfl, rfl⟩
      obtain ⟨t', h1, h2⟩ := this
      intro t ht q hq
      rw [h1] at ht; cases ht
      rw [hq] at h2
      have : q.owner = 0 := Option.some.inj h2
      omega
    · have : ∃ t, run [] (C65.keptProgram.take 7) = .ok t ∧ (t[3]?).map Obj.owner = some 0 :=
        ⟨_, rfl, rfl⟩
      obtain ⟨t', h1, h2⟩ := this
      intro t ht q hq
      rw [h1] at ht; cases ht
      rw [hq] at h2
      have : q.owner = 0 := Option.some.inj h2
      omega
  exact key _ hn x hd s (by rw [← hb]; exact hr) o ho

/-- In the last program the name of the table is enough for the range of the temporary block. -/
example : ∃ s o, run [] C65.keptProgram = .ok s ∧ s[4]? = some o ∧ o.owner = 0 ∧
    0 ∈ chain s s.length 0 := ⟨_, _, rfl, rfl, rfl, by decide +kernel⟩

end ACE.Props

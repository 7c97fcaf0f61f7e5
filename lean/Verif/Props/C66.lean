import Verif.Model.Members
import Verif.Props.C28Cases
import Verif.Props.C29
import Verif.Lemmas.ThermalTable

/-!
# C66: a table made again from its own blocks is the same table

The blocks are taken out of a table with its accessors, one call for each block (for secondary
particles, one for each index), and given to the constructor again.
-/

namespace ACE.Props
open ACE

/-- A list that is only given when there are secondary particle types. -/
def CE.given (t : CE) {α : Type} (l : List α) : Option (List α) := if t.ptype.isSome then some l else none

/-- The blocks a user gets from the accessors of a continuous energy table, in the form in which the
constructor takes them: no lists when there are no secondary particle types. -/
def CE.taken (t : CE) : Res CE.Input := do
  let hpd ← (List.range' 1 t.particles.length).mapM t.HPD
  let mtrh ← (List.range' 1 t.particles.length).mapM t.MTRH
  let sigh ← (List.range' 1 t.particles.length).mapM t.SIGH
  let andh ← (List.range' 1 t.particles.length).mapM t.ANDH
  let dlwh ← (List.range' 1 t.particles.length).mapM t.DLWH
  let yh ← (List.range' 1 t.particles.length).mapM t.YH
  return { esz := t.esz, nu := t.nu, dnu := t.dnu, mtr := t.mtr, lqr := t.lqr, sig := t.sig, ang := t.ang
           dlw := t.dlw, bdd := t.bdd, dned := t.dned, gpd := t.gpd, mtrp := t.mtrp, sigp := t.sigp
           andp := t.andp, dlwp := t.dlwp, yp := t.yp, unr := t.unr, ptype := t.ptype
           hpd := CE.given t hpd, mtrh := CE.given t mtrh, sigh := CE.given t sigh, andh := CE.given t andh
           dlwh := CE.given t dlwh, yh := CE.given t yh }

namespace C66
open CE

/-- The blocks that come back. -/
def back (B : Blocks) (T : TYR) : Blocks where
  esz := B.esz
  nu := B.nu
  mtr := B.mtr
  lqr := B.lqr
  sig := B.sig
  ang := B.ang
  dlw := { B.dlw with tyr := T }
  photons := B.photons.map fun p => { p with dlwp := withoutFrames p.dlwp }
  unr := B.unr
  delayed := B.delayed.map fun p => { p with dned := withoutFrames p.dned }
  secondaries := B.secondaries.map fun s => (s.1, s.2.map fun p =>
    { p with dlwh := ⟨p.dlwh.block, some (frameTyr (framesOf p)), p.dlwh.frames⟩ })

section
variable {B : Blocks} {mts : List Nat} {vs : List (Frame × Nat)}

theorem back_sound (hs : Sound B mts vs) :
    Sound (back B (tyrBlock (allTyr B vs mts.length))) mts (allTyr B vs mts.length) where
  esz := hs.esz
  esz_holds := hs.esz_holds
  nu := hs.nu
  mtr := hs.mtr
  lqr := hs.lqr
  sig := hs.sig
  ang := hs.ang
  dlw := by
    have h := dlw_again hs
    exact h
  tyr := ⟨rfl, rfl, rfl⟩
  unr := hs.unr
  photons := by
    intro p hp
    obtain ⟨q, hq, rfl⟩ := Option.map_eq_some_iff.mp hp
    have h := hs.photons q hq
    exact ⟨h.gpd, h.mtrp, h.sigp, h.andp, h.dlwp, h.ndlwp, h.yp⟩
  delayed := by
    intro p hp
    obtain ⟨q, hq, rfl⟩ := Option.map_eq_some_iff.mp hp
    have h := hs.delayed q hq
    exact ⟨h.dnu, h.single, h.tabulated, h.bdd, h.dned, h.ndned⟩
  ptype := by
    intro t ps hp
    obtain ⟨q, hq, he⟩ := Option.map_eq_some_iff.mp hp
    injection he with h1 h2
    rw [← h1, ← h2, List.length_map]
    exact hs.ptype q.1 q.2 hq
  secondaries := by
    intro t ps hp p hm
    obtain ⟨q, hq, he⟩ := Option.map_eq_some_iff.mp hp
    injection he with h1 h2
    rw [← h2] at hm
    obtain ⟨r, hr, rfl⟩ := List.mem_map.mp hm
    have h := hs.secondaries q.1 q.2 hq r hr
    exact ⟨h.hpd, h.mtrh, h.sigh, h.andh, h.dlwh, h.ndlwh, h.frames, h.yh⟩
  nr := hs.nr
  ntyr := by
    show B.ang.nr ≤ _
    rw [allTyr_length hs]; exact hs.nr
  fission := hs.fission
  located := hs.located
  numbers := hs.numbers
  signs := allTyr_ok hs

theorem back_clear (hc : Clear B) (T : TYR) : Clear (back B T) where
  ntrp := by
    intro p hp
    obtain ⟨q, hq, rfl⟩ := Option.map_eq_some_iff.mp hp
    exact hc.ntrp q hq
  npcr := by
    intro p hp
    obtain ⟨q, hq, rfl⟩ := Option.map_eq_some_iff.mp hp
    exact hc.npcr q hq
  ntype := by
    intro t ps hp
    obtain ⟨q, hq, he⟩ := Option.map_eq_some_iff.mp hp
    injection he with h1 h2
    rw [← h2]
    simpa using hc.ntype q.1 q.2 hq
  last := by simpa [back] using hc.last
  dlw := hc.dlw
  unr := hc.unr
  yp := by
    intro p hp
    obtain ⟨q, hq, rfl⟩ := Option.map_eq_some_iff.mp hp
    exact hc.yp q hq
  dned := by
    intro p hp
    obtain ⟨q, hq, rfl⟩ := Option.map_eq_some_iff.mp hp
    exact hc.dned q hq
  unrPhotons := by simpa [back] using hc.unrPhotons
  index := by
    intro t p ps hp
    obtain ⟨⟨u, qs⟩, hq, he⟩ := Option.map_eq_some_iff.mp hp
    injection he with h1 h2
    cases qs with
    | nil => cases h2
    | cons q qs =>
      simp only [List.map_cons] at h2
      injection h2 with h2 h3
      subst h2
      exact hc.index u q qs hq

theorem back_size (T : TYR) (n : Nat) : (back B T).size n = B.size n := by
  unfold Blocks.size back
  cases B.photons <;> cases B.delayed <;> cases B.secondaries <;>
    simp [withoutFrames, SecondaryBlocks.size, Function.comp_def] <;> rfl

/-- The blocks that come back are those of the accessors. -/
theorem taken_eq (zaid : List Char) (d : TableData) (T : TYR) :
    CE.taken (tableOf zaid d B T) = .ok (back B T).input := by
  have key : ∀ {α : Type} (f : Particle → α) (g : CE → Nat → Res α)
      (hg : ∀ t i, g t i = (do return f (← t.particle i))),
      (List.range' 1 (tableOf zaid d B T).particles.length).mapM (g (tableOf zaid d B T)) =
        .ok ((tableOf zaid d B T).particles.map f) := by
    intro α f g hg
    have := mapM_range'_eq (g (tableOf zaid d B T)) ((tableOf zaid d B T).particles.map f) (by
      intro i hi
      rw [List.length_map] at hi
      rw [hg]
      unfold CE.particle
      rw [if_neg (by omega), Nat.add_sub_cancel, List.getElem?_eq_getElem hi]
      simp only [ok_bind, List.getElem_map]; rfl)
    rwa [List.length_map] at this
  unfold CE.taken
  rw [key (·.hpd) CE.HPD (fun _ _ => rfl), ok_bind, key (·.mtrh) CE.MTRH (fun _ _ => rfl), ok_bind,
    key (·.sigh) CE.SIGH (fun _ _ => rfl), ok_bind, key (·.andh) CE.ANDH (fun _ _ => rfl), ok_bind,
    key (·.dlwh) CE.DLWH (fun _ _ => rfl), ok_bind, key (·.yh) CE.YH (fun _ _ => rfl), ok_bind,
    pure_eq_ok]
  unfold tableOf back Blocks.input
  cases B.photons <;> cases B.delayed <;> cases B.secondaries <;>
    simp [particleOf, CE.given, Function.comp_def]

theorem pin_back (p : SecondaryBlocks) :
    let q : SecondaryBlocks := { p with dlwh := ⟨p.dlwh.block, some (frameTyr (framesOf p)), p.dlwh.frames⟩ }
    particleWords (pin q) = particleWords (pin p) ∧
      ∀ n, particleLocators n (pin q) = particleLocators n (pin p) := ⟨rfl, fun _ => rfl⟩

theorem locs_back (ps : List SecondaryBlocks) : ∀ n, locs n ((ps.map fun p : SecondaryBlocks =>
      ({ p with dlwh := ⟨p.dlwh.block, some (frameTyr (framesOf p)), p.dlwh.frames⟩ } : SecondaryBlocks)).map pin) =
    locs n (ps.map pin) := by
  induction ps with
  | nil => intro n; rfl
  | cons p ps ih =>
    intro n
    simp only [List.map_cons, locs]
    rw [ih, (pin_back p).1, (pin_back p).2]

theorem words_back (T : TYR) : x10 (back B T) T = x10 B T ∧ x23 (back B T) T = x23 B T ∧
    x24 (back B T) T = x24 B T ∧ x25 (back B T) T = x25 B T ∧ x26 (back B T) T = x26 B T ∧
    x12 (back B T) T = x12 B T ∧ x13 (back B T) T = x13 B T ∧ x14 (back B T) T = x14 B T ∧
    x16 (back B T) T = x16 B T ∧ x18 (back B T) T = x18 B T ∧ x20 (back B T) T = x20 B T := by
  have h10 : x10 (back B T) T = x10 B T := rfl
  have h23 : x23 (back B T) T = x23 B T := rfl
  have opt : ∀ {α : Type} (o : Option α) (f : α → α) (g : α → Words) (h : ∀ a, g (f a) = g a),
      optWords g (o.map f) = optWords g o := by
    intro α o f g h
    cases o
    · rfl
    · exact h _
  have h24 : x24 (back B T) T = x24 B T := by
    unfold x24; rw [h23]; exact congrArg _ (opt _ _ _ fun _ => rfl)
  have h25 : x25 (back B T) T = x25 B T := by
    unfold x25; rw [h24]; exact congrArg _ (opt _ _ _ fun _ => rfl)
  have h26 : x26 (back B T) T = x26 B T := by
    unfold x26; rw [h25]; exact congrArg _ (opt _ _ _ fun _ => rfl)
  have h12 : x12 (back B T) T = x12 B T := by
    unfold x12; rw [h26]; exact congrArg _ (opt _ _ _ fun _ => rfl)
  have h13 : x13 (back B T) T = x13 B T := by
    unfold x13; rw [h12]; exact congrArg _ (opt _ _ _ fun _ => rfl)
  have h14 : x14 (back B T) T = x14 B T := by
    unfold x14; rw [h13]; exact congrArg _ (opt _ _ _ fun _ => rfl)
  have h16 : x16 (back B T) T = x16 B T := by
    unfold x16; rw [h14]; exact congrArg _ (opt _ _ _ fun _ => rfl)
  have h18 : x18 (back B T) T = x18 B T := by
    unfold x18; rw [h16]; exact congrArg _ (opt _ _ _ fun _ => rfl)
  have h20 : x20 (back B T) T = x20 B T := by
    unfold x20; rw [h18]; exact congrArg _ (opt _ _ _ fun _ => rfl)
  exact ⟨h10, h23, h24, h25, h26, h12, h13, h14, h16, h18, h20⟩

theorem marks_back (T : TYR) (fis : Nat) : marks (back B T) T fis = marks B T fis := by
  obtain ⟨h10, h23, h24, h25, h26, h12, h13, h14, h16, h18, h20⟩ := words_back (B := B) T
  have h30 : n30 (back B T) T = n30 B T := by
    unfold n30
    rw [h20]
    unfold back
    cases B.secondaries <;> rfl
  have h31 : n31 (back B T) T = n31 B T := by
    unfold n31
    rw [h30]
    unfold back
    cases B.secondaries <;> simp
  have p1 : (marks (back B T) T fis).ntrp = (marks B T fis).ntrp := by
    show (match (B.photons.map fun p : PhotonBlocks => { p with dlwp := withoutFrames p.dlwp }) with
      | some p => p.mtrp.n | none => 0) = (match B.photons with | some p => p.mtrp.n | none => 0)
    cases B.photons <;> rfl
  have p2 : (marks (back B T) T fis).npcr = (marks B T fis).npcr := by
    show (match (B.delayed.map fun p : DelayedBlocks => { p with dned := withoutFrames p.dned }) with
      | some p => p.bdd.npcr | none => 0) = (match B.delayed with | some p => p.bdd.npcr | none => 0)
    cases B.delayed <;> rfl
  have p3 : (marks (back B T) T fis).ntype = (marks B T fis).ntype := by
    show (match (back B T).secondaries with | some s => s.2.length | none => 0) =
      (match B.secondaries with | some s => s.2.length | none => 0)
    unfold back
    cases B.secondaries <;> simp
  unfold marks at p1 p2 p3
  simp only at p1 p2 p3
  have s1 : (back B T).photons.isSome = B.photons.isSome := Option.isSome_map
  have s2 : (back B T).delayed.isSome = B.delayed.isSome := Option.isSome_map
  have s3 : (back B T).secondaries.isSome = B.secondaries.isSome := Option.isSome_map
  have e1 : x1 (back B T) = x1 B := rfl
  have e2 : x2 (back B T) = x2 B := rfl
  have e3 : x3 (back B T) = x3 B := rfl
  have e4 : x4 (back B T) = x4 B := rfl
  have e5 : x5 (back B T) T = x5 B T := rfl
  have e6 : x6 (back B T) T = x6 B T := rfl
  have e8 : x8 (back B T) T = x8 B T := rfl
  have f1 : (back B T).mtr = B.mtr := rfl
  have f2 : (back B T).ang = B.ang := rfl
  have f3 : (back B T).nu = B.nu := rfl
  have f4 : (back B T).unr = B.unr := rfl
  unfold marks
  rw [h10, h23, h24, h25, h26, h12, h13, h14, h16, h18, h20, h30, h31, p1, p2, p3, s1, s2, s3, e1, e2, e3,
    e4, e5, e6, e8, f1, f2, f3, f4]

theorem data_back (z a s : Nat) (T : TYR) (fis : Nat) :
    dataOf z a s (back B T) T fis = dataOf z a s B T fis := by
  have hx : x20 (back B T) T = x20 B T := (words_back T).2.2.2.2.2.2.2.2.2.2
  have h31 : n31 (back B T) T = n31 B T := congrArg Marks.n31 (marks_back (B := B) T 0)
  have hsp : spWords (back B T) T = spWords B T := by
    unfold spWords ixsOf
    rw [h31]
    unfold back
    cases B.secondaries with
    | none => rfl
    | some s =>
      simp only [Option.map_some, List.length_map, locs_back]
      have g1 : (s.2.map fun p : SecondaryBlocks => ({ p with dlwh := ⟨p.dlwh.block,
          some (frameTyr (framesOf p)), p.dlwh.frames⟩ } : SecondaryBlocks)).map (fun p => p.mtrh.n) =
          s.2.map (fun p => p.mtrh.n) := by rw [List.map_map]; rfl
      have g2 : bodies ((s.2.map fun p : SecondaryBlocks => ({ p with dlwh := ⟨p.dlwh.block,
          some (frameTyr (framesOf p)), p.dlwh.frames⟩ } : SecondaryBlocks)).map pin) =
          bodies (s.2.map pin) := by unfold bodies; rw [List.map_map, List.map_map, List.map_map]; rfl
      rw [g1, g2]
  have f0 : (back B T).esz = B.esz := rfl
  have f1 : (back B T).mtr = B.mtr := rfl
  have f2 : (back B T).ang = B.ang := rfl
  unfold dataOf
  rw [hx, hsp, marks_back, f0, f1, f2]

theorem firstAt_unique {l : List Nat} {k i j : Nat} (h : FirstAt l k i) (h' : FirstAt l k j) : i = j := by
  obtain ⟨a1, a2, a3⟩ := h
  obtain ⟨b1, b2, b3⟩ := h'
  rcases Nat.lt_trichotomy i j with h | h | h
  · exact absurd a2 (b3 i a1 h)
  · exact h
  · exact absurd b2 (a3 j b1 h)

theorem again (z a s : Nat) (hs : Sound B mts vs) :
    generateData z a s (back B (tyrBlock (allTyr B vs mts.length))).input = generateData z a s B.input := by
  obtain ⟨f, h1, _, h2, h3⟩ := generateData_eq z a s hs
  obtain ⟨f', h1', _, h2', h3'⟩ := generateData_eq z a s (back_sound hs)
  have e : allTyr (back B (tyrBlock (allTyr B vs mts.length))) (allTyr B vs mts.length) mts.length =
      allTyr B vs mts.length := by
    conv => lhs; unfold allTyr
    show (allTyr B vs mts.length).take B.ang.nr ++ List.replicate (mts.length - B.ang.nr) _ = _
    have h1 := hs.nr
    have h2 := hs.ntyr
    unfold allTyr
    rw [List.take_append_of_le_length (by simp; omega), List.take_take]
    simp
  rw [e] at h1' h3'
  have hf : f = f' := by
    by_cases h : 18 ∈ mts
    · obtain ⟨i, l, g1, g2, g3⟩ := h3 h
      obtain ⟨i', l', g1', g2', g3'⟩ := h3' h
      have := firstAt_unique g1 g1'
      subst this
      have g2' : B.sig.LLOC i = .ok l' := g2'
      rw [g2] at g2'
      injection g2' with g2'
      rw [g3, g3', g2']
      rfl
    · rw [h2 h, h2' h]
  rw [h1, h1', hf, data_back]
end
end C66

/-- What is stated for every table: one that was made from blocks is made again from the blocks it
gives back. -/
def C66Statement : Prop :=
  ∀ (zaid : List Char) (z a s : Nat) (b : CE.Input) (t : CE), CE.mk' zaid z a s b = .ok t →
    (CE.taken t >>= CE.mk' zaid z a s) = .ok t

/-- The table made again from its own blocks is the same: all words, counts and locators, and all
blocks. Missing: blocks that are not `Clear`, for which the table has other blocks than those given
(C28). -/
theorem C66_continuous_partial (zaid : List Char) (z a s : Nat) (B : Blocks) (mts : List Nat)
    (vs : List (Frame × Nat)) (hs : Sound B mts vs) (hc : Clear B)
    (hf : FitsN (B.size mts.length + 2))
    (ht : TableType.continuousEnergy.verifyType zaid = .ok ())
    (hid : (s ≠ 0 ∨ z ≠ 0 ∨ a ≠ 0) ∨ ∃ v, Ident.stoi (Ident.target zaid) = .ok v) :
    ∃ t, CE.mk' zaid z a s B.input = .ok t ∧ (CE.taken t >>= CE.mk' t.zaid z a s) = .ok t := by
  obtain ⟨fis, d, hg, hd, h⟩ := CE.mk_eq zaid z a s hs hc hf ht hid
  refine ⟨_, h, ?_⟩
  rw [C66.taken_eq, ok_bind, ← h]
  unfold CE.mk'
  rw [C66.again z a s hs]
  rfl

/-- The nuclide that was given is that of the table, so that it may be taken from the table as well. -/
theorem C66_continuous_nuclide_partial (zaid : List Char) (z a s : Nat) (B : Blocks) (mts : List Nat)
    (vs : List (Frame × Nat)) (hs : Sound B mts vs) (hc : Clear B)
    (hf : FitsN (B.size mts.length + 2))
    (ht : TableType.continuousEnergy.verifyType zaid = .ok ()) (hid : s ≠ 0 ∨ z ≠ 0 ∨ a ≠ 0)
    (hz : FitsN z) (ha : FitsN a) (hfs : FitsN s) :
    ∃ t, CE.mk' zaid z a s B.input = .ok t ∧ (do
      let b ← CE.taken t
      CE.mk' t.zaid (← t.Z) (← t.A) (← t.S) b) = .ok t := by
  obtain ⟨fis, d, hg, hd, h⟩ := CE.mk_eq zaid z a s hs hc hf ht (.inl hid)
  have n9 : (CE.dataOf z a s B (CE.tyrBlock (CE.allTyr B vs mts.length)) fis).NXS 9 = .ok (s : Int) :=
    NXS_get _ 8 _ rfl
  have n10 : (CE.dataOf z a s B (CE.tyrBlock (CE.allTyr B vs mts.length)) fis).NXS 10 = .ok (z : Int) :=
    NXS_get _ 9 _ rfl
  have n11 : (CE.dataOf z a s B (CE.tyrBlock (CE.allTyr B vs mts.length)) fis).NXS 11 = .ok (a : Int) :=
    NXS_get _ 10 _ rfl
  rw [C36_stored _ (CE.dataOf_sized z a s B _ fis) zaid (by rw [n9, n10, n11]; simp; omega)] at hd
  injection hd with hd
  refine ⟨_, h, ?_⟩
  rw [C66.taken_eq, ok_bind]
  have c1 : (CE.tableOf zaid d B (CE.tyrBlock (CE.allTyr B vs mts.length))).Z = .ok z :=
    TS.count_get (i := 9) (by rw [show (CE.tableOf zaid d B _).data = d from rfl, ← hd]; rfl) hz
  have c2 : (CE.tableOf zaid d B (CE.tyrBlock (CE.allTyr B vs mts.length))).A = .ok a :=
    TS.count_get (i := 10) (by rw [show (CE.tableOf zaid d B _).data = d from rfl, ← hd]; rfl) ha
  have c3 : (CE.tableOf zaid d B (CE.tyrBlock (CE.allTyr B vs mts.length))).S = .ok s :=
    TS.count_get (i := 8) (by rw [show (CE.tableOf zaid d B _).data = d from rfl, ← hd]; rfl) hfs
  rw [c1, ok_bind, c2, ok_bind, c3, ok_bind, ← h]
  unfold CE.mk'
  rw [C66.again z a s hs]
  rfl

/-- A table of all groups of blocks. -/
example : ∃ t, CE.mk' "92235.80c".toList 92 235 0 exBlocks.input = .ok t ∧ (do
    let b ← CE.taken t
    CE.mk' t.zaid (← t.Z) (← t.A) (← t.S) b) = .ok t :=
  C66_continuous_nuclide_partial _ 92 235 0 exBlocks [18, 102] exTyr ex_sound ex_clear (by decide +kernel)
    (by decide +kernel) (by decide) (by decide) (by decide) (by decide)

/-- Delayed neutrons without precursor groups: the table has the multiplicity and no other block of
the group, so that the blocks it gives back are refused. -/
theorem C66_refused : ∃ (b : CE.Input) (t : CE), CE.mk' "92235.80c".toList 92 235 0 b = .ok t ∧
    (CE.taken t >>= CE.mk' "92235.80c".toList 92 235 0) = .error .thrown := by
  have h : ((do
      let t ← tableFrom (exWith none none (some noGroups) none)
      return (CE.taken t >>= CE.mk' "92235.80c".toList 92 235 0)) : Res (Res CE)) =
      .ok (.error .thrown) := by decide +kernel
  obtain ⟨t, h1, h2⟩ := bind_eq_ok.mp h
  exact ⟨_, t, h1, Except.ok.inj h2⟩

theorem C66_false : ¬ C66Statement := by
  intro h
  obtain ⟨b, t, h1, h2⟩ := C66_refused
  have := h _ _ _ _ _ _ h1
  rw [h2] at this
  cases this

/-- One block is replaced: the table with other unresolved resonance data (or none) has these and
keeps every other block. -/
theorem C66_replaced_partial (zaid : List Char) (z a s : Nat) (B : Blocks) (mts : List Nat)
    (vs : List (Frame × Nat)) (u : Option UNR) (hs : Sound B mts vs) (hc : Clear B)
    (hu : ∀ x, u = some x → UNR.ofRange x.xss = .ok x) (hc' : Clear { B with unr := u })
    (hf : FitsN (B.size mts.length + 2)) (hf' : FitsN (Blocks.size { B with unr := u } mts.length + 2))
    (ht : TableType.continuousEnergy.verifyType zaid = .ok ())
    (hid : (s ≠ 0 ∨ z ≠ 0 ∨ a ≠ 0) ∨ ∃ v, Ident.stoi (Ident.target zaid) = .ok v) :
    ∃ t b t', CE.mk' zaid z a s B.input = .ok t ∧ CE.taken t = .ok b ∧
      CE.mk' zaid z a s { b with unr := u } = .ok t' ∧ t'.unr = u ∧
      { t' with data := t.data, unr := t.unr, ixs := t.ixs } = t := by
  obtain ⟨fis, d, hg, hd, h⟩ := CE.mk_eq zaid z a s hs hc hf ht hid
  have hs' : Sound { B with unr := u } mts vs := sound_replace hs B.photons u B.delayed B.secondaries
    hs.photons hu hs.delayed hs.ptype hs.secondaries
  obtain ⟨fis', d', hg', hd', h'⟩ := CE.mk_eq zaid z a s hs' hc' hf' ht hid
  refine ⟨_, _, CE.tableOf zaid d' { B with unr := u } (CE.tyrBlock (CE.allTyr B vs mts.length)), h,
    C66.taken_eq _ _ _, ?_, rfl, rfl⟩
  have hk : CE.mk' zaid z a s (C66.back { B with unr := u } (CE.tyrBlock (CE.allTyr { B with unr := u } vs
      mts.length))).input = CE.mk' zaid z a s (Blocks.input { B with unr := u }) := by
    unfold CE.mk'
    rw [C66.again z a s hs']
  exact hk.trans h'

theorem C66.without_clear {B : Blocks} (hc : Clear B) (h : B.delayed.isSome) :
    Clear { B with unr := none } where
  ntrp := hc.ntrp
  npcr := hc.npcr
  ntype := hc.ntype
  last := .inr (.inr (.inr (.inr h)))
  dlw := hc.dlw
  unr := by intro _ h; cases h
  yp := hc.yp
  dned := hc.dned
  unrPhotons := by intro h; cases h
  index := hc.index

/-- The unresolved resonances of the table of all groups are left out. -/
example : ∃ t b t', CE.mk' "92235.80c".toList 92 235 0 exBlocks.input = .ok t ∧ CE.taken t = .ok b ∧
    CE.mk' "92235.80c".toList 92 235 0 { b with unr := none } = .ok t' ∧ t'.unr = none ∧
    { t' with data := t.data, unr := t.unr, ixs := t.ixs } = t :=
  C66_replaced_partial _ 92 235 0 exBlocks [18, 102] exTyr none ex_sound ex_clear (fun _ h => by cases h)
    (C66.without_clear ex_clear rfl) (by decide +kernel) (by decide +kernel) (by decide +kernel) (Or.inl (by decide))

end ACE.Props

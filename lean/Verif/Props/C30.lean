import Verif.Props.C29

/-!
# C30: the NXS and JXS arrays describe the XSS array

`At d l w`: the words `w` start at locator `l`, that is after `l - 1` other words. `LocatedAt d i w`: JXS(i)
is the locator of `w`.
-/

namespace ACE.Props
open ACE

/-- The words are at this locator. -/
def At (d : TableData) (l : Int) (w : Words) : Prop :=
  ∃ pre post : Words, d.xss = pre ++ w ++ post ∧ l = pre.length + 1

/-- The words are at locator JXS(i). -/
def LocatedAt (d : TableData) (i : Nat) (w : Words) : Prop := ∃ l, d.JXS i = .ok l ∧ At d l w

/-- The words are at locator JXS(i), or they are not there and JXS(i) is zero. -/
def LocatedIf (d : TableData) (i : Nat) : Option Words → Prop
  | some w => LocatedAt d i w
  | none => d.JXS i = .ok 0

/-- The words of a continuous energy table, in order. -/
def Blocks.words (B : Blocks) (tyr secondaries : Words) : Words :=
  let opt {α : Type} (words : α → Words) : Option α → Words := fun o => (o.map words).getD []
  B.esz.xss ++ opt (·.xss) B.nu ++ B.mtr.xss ++ B.lqr.xss ++ tyr ++ B.sig.xss ++ B.ang.xss ++
    B.dlw.xss ++ opt (·.xss) B.unr ++
    opt (fun p => p.dnu.xss ++ p.bdd.xss ++ p.dned.block.xss) B.delayed ++
    opt (fun p => p.gpd.xss ++ p.mtrp.xss ++ p.sigp.xss ++ p.andp.xss ++ p.dlwp.block.xss ++
      p.yp.xss) B.photons ++ secondaries

/-- NXS of a continuous energy table. -/
structure CENxs (B : Blocks) (z a s : Nat) (mts : List Nat) (d : TableData) : Prop where
  length : d.NXS 1 = .ok (d.xss.length : Int)
  za : 1000 * z + a < 4294967296 → d.NXS 2 = .ok ((1000 * z + a : Nat) : Int)
  nes : d.NXS 3 = .ok (B.esz.n : Int)
  ntr : d.NXS 4 = .ok (mts.length : Int)
  nr : d.NXS 5 = .ok (B.ang.nr : Int)
  ntrp : d.NXS 6 = .ok ((match B.photons with | some p => p.mtrp.n | none => 0 : Nat) : Int)
  ntype : d.NXS 7 = .ok ((match B.secondaries with | some s => s.2.length | none => 0 : Nat) : Int)
  npcr : d.NXS 8 = .ok ((match B.delayed with | some p => p.bdd.npcr | none => 0 : Nat) : Int)
  state : d.NXS 9 = .ok (s : Int)
  z : d.NXS 10 = .ok (z : Int)
  a : d.NXS 11 = .ok (a : Int)
  rest : ∀ i, 12 ≤ i → i ≤ 16 → d.NXS i = .ok 0

/-- JXS of a continuous energy table with a TYR block of these words. -/
structure CEJxs (B : Blocks) (mts : List Nat) (tyrWords : Words) (d : TableData) : Prop where
  esz : LocatedAt d 1 B.esz.xss
  nu : LocatedIf d 2 (B.nu.map (·.xss))
  mtr : LocatedAt d 3 B.mtr.xss
  lqr : LocatedAt d 4 B.lqr.xss
  tyr : LocatedAt d 5 tyrWords
  lsig : LocatedAt d 6 B.sig.xss
  sig : LocatedAt d 7 (B.sig.xss.drop mts.length)
  land : LocatedAt d 8 B.ang.xss
  ang : LocatedAt d 9 (B.ang.xss.drop (B.ang.nr + 1))
  ldlw : LocatedAt d 10 B.dlw.xss
  dlw : LocatedAt d 11 (B.dlw.xss.drop B.ang.nr)
  gpd : LocatedIf d 12 (B.photons.map (·.gpd.xss))
  mtrp : LocatedIf d 13 (B.photons.map (·.mtrp.xss))
  lsigp : LocatedIf d 14 (B.photons.map (·.sigp.xss))
  sigp : LocatedIf d 15 (B.photons.map (fun p => p.sigp.xss.drop p.mtrp.n))
  landp : LocatedIf d 16 (B.photons.map (·.andp.xss))
  andp : LocatedIf d 17 (B.photons.map (fun p => p.andp.xss.drop p.mtrp.n))
  ldlwp : LocatedIf d 18 (B.photons.map (·.dlwp.block.xss))
  dlwp : LocatedIf d 19 (B.photons.map (fun p => p.dlwp.block.xss.drop p.mtrp.n))
  yp : LocatedIf d 20 (B.photons.map (·.yp.xss))
  /-- the fission cross section, where the SIG block has it -/
  fission : ∀ i l, FirstAt mts 18 i → B.sig.LLOC i = .ok l →
    LocatedAt d 21 ((B.sig.xss.drop mts.length).drop (l - 1))
  nofission : 18 ∉ mts → d.JXS 21 = .ok 0
  /-- the last word of the principal blocks -/
  last : ∃ pre post : Words, d.xss = pre ++ post ∧ d.JXS 22 = .ok (pre.length : Int) ∧
    pre = B.words tyrWords [] ∧ (B.secondaries = none → post = [])
  unr : LocatedIf d 23 (B.unr.map (·.xss))
  dnu : LocatedIf d 24 (B.delayed.map (·.dnu.xss))
  bdd : LocatedIf d 25 (B.delayed.map (·.bdd.xss))
  ldned : LocatedIf d 26 (B.delayed.map (·.dned.block.xss))
  dned : LocatedIf d 27 (B.delayed.map (fun p => p.dned.block.xss.drop p.bdd.npcr))
  unused : d.JXS 28 = .ok 0 ∧ d.JXS 29 = .ok 0
  ptype : LocatedIf d 30 (B.secondaries.map (·.1.xss))
  ntro : LocatedIf d 31 (B.secondaries.map (fun s => s.2.map (fun p => Dbl.ofNat p.mtrh.n)))

/-- The blocks of a secondary particle are at the ten locators of the IXS block. -/
structure CEParticle (p : SecondaryBlocks) (tyrh : Words) (l : List Nat) (d : TableData) : Prop where
  number : l.length = 10
  hpd : At d (l.getD 0 0) p.hpd.xss
  mtrh : At d (l.getD 1 0) p.mtrh.xss
  tyrh : At d (l.getD 2 0) tyrh
  lsigh : At d (l.getD 3 0) p.sigh.xss
  sigh : At d (l.getD 4 0) (p.sigh.xss.drop p.mtrh.n)
  landh : At d (l.getD 5 0) p.andh.xss
  andh : At d (l.getD 6 0) (p.andh.xss.drop p.mtrh.n)
  ldlwh : At d (l.getD 7 0) p.dlwh.block.xss
  dlwh : At d (l.getD 8 0) (p.dlwh.block.xss.drop p.mtrh.n)
  yh : At d (l.getD 9 0) p.yh.xss

/-- JXS(32) locates ten locators for each secondary particle. -/
def CEIxs (B : Blocks) (d : TableData) : Prop :=
  match B.secondaries with
  | none => d.JXS 32 = .ok 0
  | some (_, ps) => ∃ ls : List (List Nat), ls.length = ps.length ∧
      LocatedAt d 32 (ls.flatten.map Dbl.ofNat) ∧
      ∀ (i : Nat) (h : i < ps.length), ∃ fs : List Frame, ps[i].dlwh.frames = fs.map some ∧
        CEParticle ps[i] (fs.map fun f => TYR.word f 1) (ls.getD i []) d

/-! ## Proof -/

theorem JXS_get (d : TableData) (i : Nat) (v : Int) (h : d.jxs[i]? = some v) :
    d.JXS (i + 1) = .ok v := by
  have hl : i < d.jxs.length := (List.getElem?_eq_some_iff.mp h).1
  unfold TableData.JXS TableData.fetch TableData.verifyIndex
  rw [if_neg (by omega), ok_bind]
  simp [h]

theorem firstAt_unique {l : List Nat} {k i j : Nat} (hi : FirstAt l k i) (hj : FirstAt l k j) :
    i = j := by
  have h1 : ¬ i < j := fun h => hj.first i hi.pos h hi.hit
  have h2 : ¬ j < i := fun h => hi.first j hj.pos h hj.hit
  omega

/-- A block after other words. -/
theorem at_of {d : TableData} {a b w : Words} {l : Int} (hb : b <+: d.xss) (h : b = a ++ w)
    (hl : l = a.length + 1) : At d l w := by
  obtain ⟨t, ht⟩ := hb
  exact ⟨a, t, by rw [← ht, h], hl⟩

/-- The rest of a block. -/
theorem at_drop {d : TableData} {w : Words} {l : Int} (k : Nat) (h : At d l w) (hk : k ≤ w.length) :
    At d (l + k) (w.drop k) := by
  obtain ⟨pre, post, hx, hl⟩ := h
  refine ⟨pre ++ w.take k, post, ?_, ?_⟩
  · rw [hx]
    simp only [List.append_assoc]
    rw [← List.append_assoc (w.take k), List.take_append_drop]
  · simp [hl, Nat.min_eq_left hk]; omega

namespace CE30
open ACE.CE

section
variable {B : Blocks} {mts : List Nat} {vs : List (Frame × Nat)} {T : TYR} {fis : Nat}
  {z a s : Nat}

attribute [local irreducible] x1 x2 x3 x4 x5 x6 x8 x10 x23 x24 x25 x26 x12 x13 x14 x16 x18 x20

theorem pre_of {w : Words} (h : w <+: x20 B T) : w <+: (dataOf z a s B T fis).xss :=
  h.trans (List.prefix_append _ _)

theorem jxs_eq (i : Nat) (v : Nat) (h : (marks B T fis).js[i]? = some v) :
    (dataOf z a s B T fis).JXS (i + 1) = .ok (v : Int) := by
  refine JXS_get _ _ _ ?_
  simp [dataOf, h]

theorem opt_at {α : Type} (o : Option α) (f : α → Words) (i : Nat) (x y : Words)
    (hy : y = x ++ optWords f o) (hp : y <+: x20 B T)
    (h : (marks B T fis).js[i]? = some (if o.isSome then x.length + 1 else 0)) :
    LocatedIf (dataOf z a s B T fis) (i + 1) (o.map f) := by
  cases o with
  | none => exact jxs_eq i 0 (by simpa using h)
  | some b =>
    refine ⟨_, jxs_eq i _ (by simpa using h), at_of (pre_of hp) hy (by simp)⟩

theorem opt_drop {α : Type} (o : Option α) (f : α → Words) (g : α → Nat) (n : Nat)
    (hn : ∀ b, o = some b → g b = n) (hk : ∀ b, o = some b → g b ≤ (f b).length)
    (i : Nat) (x y : Words)
    (hy : y = x ++ optWords f o) (hp : y <+: x20 B T)
    (h : (marks B T fis).js[i]? = some (if o.isSome then x.length + n + 1 else 0)) :
    LocatedIf (dataOf z a s B T fis) (i + 1) (o.map (fun b => (f b).drop (g b))) := by
  cases o with
  | none => exact jxs_eq i 0 (by simpa using h)
  | some b =>
    have h1 := at_drop (g b) (at_of (l := x.length + 1) (pre_of (z := z) (a := a) (s := s) (fis := fis) hp)
      hy rfl) (hk b rfl)
    refine ⟨_, jxs_eq i _ (by simpa using h), ?_⟩
    have e : ((x.length + n + 1 : Nat) : Int) = x.length + 1 + (g b : Nat) := by
      rw [hn b rfl]; omega
    rw [e]
    exact h1

theorem must_at (i : Nat) (w x y : Words)
    (hy : y = x ++ w) (hp : y <+: x20 B T) (h : (marks B T fis).js[i]? = some (x.length + 1)) :
    LocatedAt (dataOf z a s B T fis) (i + 1) w :=
  ⟨_, jxs_eq i _ h, at_of (pre_of hp) hy (by simp)⟩

theorem must_drop (n : Nat) (i : Nat) (w x y : Words) (hk : n ≤ w.length)
    (hy : y = x ++ w) (hp : y <+: x20 B T) (h : (marks B T fis).js[i]? = some (x.length + n + 1)) :
    LocatedAt (dataOf z a s B T fis) (i + 1) (w.drop n) := by
  have h1 := at_drop n (at_of (l := x.length + 1) (pre_of (z := z) (a := a) (s := s) (fis := fis) hp)
    hy rfl) hk
  refine ⟨_, jxs_eq i _ h, ?_⟩
  have e : ((x.length + n + 1 : Nat) : Int) = x.length + 1 + (n : Nat) := by omega
  rw [e]
  exact h1

theorem words_eq : x20 B T = B.words T.xss [] := by
  simp only [x20, x18, x16, x14, x13, x12, x26, x25, x24, x23, x10, x8, x6, x5, x4, x3, x2, x1,
    Blocks.words]
  cases B.nu <;> cases B.unr <;> cases B.delayed <;> cases B.photons <;>
    simp [optWords]

theorem jxs_ok (hs : Sound B mts vs) (h0 : 18 ∉ mts → fis = 0)
    (h1 : 18 ∈ mts → ∃ i l, FirstAt mts 18 i ∧ B.sig.LLOC i = .ok l ∧
        fis = (x5 B T).length + mts.length + l) :
    CEJxs B mts T.xss (dataOf z a s B T fis) := by
  obtain ⟨g1, g2, g3, g4, g5, g6, g7⟩ := sound_lengths hs
  have lp : ∀ p, B.photons = some p → p.mtrp.n ≤ p.sigp.xss.length ∧ p.mtrp.n ≤ p.andp.xss.length ∧
      p.mtrp.n ≤ p.dlwp.block.xss.length := by
    intro p hp
    have hq := hs.photons p hp
    refine ⟨locBlock_length hq.sigp, by simpa using angular_length hq.andp, ?_⟩
    rw [← hq.ndlwp]; exact locBlock_length hq.dlwp
  have ld : ∀ p, B.delayed = some p → p.bdd.npcr ≤ p.dned.block.xss.length := by
    intro p hp
    have hq := hs.delayed p hp
    rw [← hq.ndned]; exact locBlock_length hq.dned
  exact {
    esz := ⟨_, jxs_eq 0 1 rfl, at_of (pre_of (q1 B T)) (a := []) (by rw [x1]; rfl) (by simp)⟩
    nu := opt_at B.nu _ 1 _ _ (by rw [x2]) (q2 B T) rfl
    mtr := must_at 2 _ _ _ (by rw [x3]) (q3 B T) rfl
    lqr := must_at 3 _ _ _ (by rw [x4]) (q4 B T) rfl
    tyr := must_at 4 _ _ _ (by rw [x5]) (q5 B T) rfl
    lsig := must_at 5 _ _ _ (by rw [x6]) (q6 B T) rfl
    sig := must_drop _ 6 _ _ _ g3 (by rw [x6]) (q6 B T) (by rw [← g1]; rfl)
    land := must_at 7 _ _ _ (by rw [x8]) (q8 B T) rfl
    ang := must_drop _ 8 _ _ _ g4 (by rw [x8]) (q8 B T) rfl
    ldlw := must_at 9 _ _ _ (by rw [x10]) (q10 B T) rfl
    dlw := must_drop _ 10 _ _ _ g5 (by rw [x10]) (q10 B T) rfl
    gpd := opt_at B.photons _ 11 _ _ (by rw [x12]) (q12 B T) rfl
    mtrp := opt_at B.photons _ 12 _ _ (by rw [x13]) (q13 B T) rfl
    lsigp := opt_at B.photons _ 13 _ _ (by rw [x14]) (q14 B T) rfl
    sigp := opt_drop B.photons (·.sigp.xss) (·.mtrp.n) (marks B T fis).ntrp
      (by intro b hb; simp [marks, hb]) (fun b hb => (lp b hb).1) 14 _ _ (by rw [x14]) (q14 B T) rfl
    landp := opt_at B.photons _ 15 _ _ (by rw [x16]) (q16 B T) rfl
    andp := opt_drop B.photons (·.andp.xss) (·.mtrp.n) (marks B T fis).ntrp
      (by intro b hb; simp [marks, hb]) (fun b hb => (lp b hb).2.1) 16 _ _ (by rw [x16]) (q16 B T) rfl
    ldlwp := opt_at B.photons _ 17 _ _ (by rw [x18]) (q18 B T) rfl
    dlwp := opt_drop B.photons (·.dlwp.block.xss) (·.mtrp.n) (marks B T fis).ntrp
      (by intro b hb; simp [marks, hb]) (fun b hb => (lp b hb).2.2) 18 _ _ (by rw [x18]) (q18 B T) rfl
    yp := opt_at B.photons _ 19 _ _ (by rw [x20]) (List.prefix_refl _) rfl
    fission := by
      intro i l hi hl
      have hm : 18 ∈ mts := List.mem_of_getElem? hi.hit
      obtain ⟨i', l', hi', hl', hf⟩ := h1 hm
      have e : i' = i := firstAt_unique hi' hi
      subst e
      rw [hl] at hl'
      injection hl' with hl'
      subst hl'
      obtain ⟨b1, b2⟩ := hs.located i' l hl
      have h7 := at_drop mts.length (at_of (l := (x5 B T).length + 1)
        (pre_of (z := z) (a := a) (s := s) (fis := fis) (q6 B T)) (by rw [x6]) rfl) g3
      have h8 := at_drop (l - 1) h7 (by simp; omega)
      refine ⟨_, jxs_eq 20 _ rfl, ?_⟩
      have e : ((fis : Nat) : Int) = (x5 B T).length + 1 + (mts.length : Nat) + ((l - 1 : Nat) : Int) := by
        omega
      show At _ ((fis : Nat) : Int) _
      rw [e]
      exact h8
    nofission := by
      intro h
      have := jxs_eq (B := B) (T := T) (fis := fis) (z := z) (a := a) (s := s) 20 _ rfl
      rw [this]
      show Except.ok ((fis : Nat) : Int) = _
      rw [h0 h]; rfl
    last := ⟨x20 B T, spWords B T, rfl, jxs_eq 21 _ rfl, words_eq, by intro h; simp [spWords, h]⟩
    unr := opt_at B.unr _ 22 _ _ (by rw [x23]) (q23 B T) rfl
    dnu := opt_at B.delayed _ 23 _ _ (by rw [x24]) (q24 B T) rfl
    bdd := opt_at B.delayed _ 24 _ _ (by rw [x25]) (q25 B T) rfl
    ldned := opt_at B.delayed _ 25 _ _ (by rw [x26]) (q26 B T) rfl
    dned := opt_drop B.delayed (·.dned.block.xss) (·.bdd.npcr) (marks B T fis).npcr
      (by intro b hb; simp [marks, hb]) (fun b hb => ld b hb) 26 _ _ (by rw [x26]) (q26 B T) rfl
    unused := ⟨jxs_eq 27 _ rfl, jxs_eq 28 _ rfl⟩
    ptype := by
      cases hp : B.secondaries with
      | none => exact jxs_eq 29 0 (by simp [marks, Marks.js, hp])
      | some t =>
        refine ⟨_, jxs_eq 29 ((x20 B T).length + 1) (by simp [marks, Marks.js, hp]), x20 B T,
          (NTRO.mk' (t.2.map (fun p => p.mtrh.n))).xss ++ ixsOf B T t ++ bodies (t.2.map pin), ?_,
          by simp⟩
        show x20 B T ++ spWords B T = _
        rw [spWords, hp]
        simp only [List.append_assoc]
    ntro := by
      cases hp : B.secondaries with
      | none => exact jxs_eq 30 0 (by simp [marks, Marks.js, hp])
      | some t =>
        refine ⟨_, jxs_eq 30 (n30 B T + 1) (by simp [marks, Marks.js, hp]), x20 B T ++ t.1.xss,
          ixsOf B T t ++ bodies (t.2.map pin), ?_, ?_⟩
        · show x20 B T ++ spWords B T = _
          rw [spWords, hp]
          simp [NTRO.mk']
        · rw [n30, hp]; simp }

theorem locs_getElem (n : Nat) (a : List ParticleInput) (q : ParticleInput) (b : List ParticleInput) :
    (locs n (a ++ q :: b)).getD a.length [] = particleLocators (n + (bodies a).length) q := by
  induction a generalizing n with
  | nil => simp [locs, bodies]
  | cons x a ih =>
    simp only [List.cons_append, locs, List.length_cons, List.getD_cons_succ, ih, bodies, List.map_cons,
      List.flatten_cons, List.length_append]
    congr 1
    omega

theorem locs_length (n : Nat) (a : List ParticleInput) : (locs n a).length = a.length := by
  induction a generalizing n with
  | nil => rfl
  | cons x a ih => simp [locs, ih]

theorem at_pre {d : TableData} {pre w post : Words} (k : Nat) (h : d.xss = pre ++ w ++ post)
    (hk : pre.length = k) : At d ((k + 1 : Nat) : Int) w := ⟨pre, post, h, by omega⟩

theorem particle_ok {d : TableData} {q : SecondaryBlocks} (hq : SoundSecondary q) (pre post : Words)
    (k : Nat) (hd : d.xss = pre ++ particleWords (pin q) ++ post) (hk : pre.length = k) :
    ∃ fs : List Frame, q.dlwh.frames = fs.map some ∧
      CEParticle q (fs.map fun f => TYR.word f 1) (particleLocators k (pin q)) d := by
  obtain ⟨fs, hfs, hl⟩ := hq.frames
  refine ⟨fs, hfs, ?_⟩
  have ht : (pin q).tyrh.xss = fs.map fun f => TYR.word f 1 := by
    simp [pin, framesOf_eq hfs, frameTyr]
  generalize hT : (fs.map fun f => TYR.word f 1) = tw at ht
  have hx : d.xss = pre ++ (q.hpd.xss ++ (q.mtrh.xss ++ (tw ++ (q.sigh.xss ++ (q.andh.xss ++
      (q.dlwh.block.xss ++ (q.yh.xss ++ post))))))) := by
    rw [hd, pin_words]
    have : (frameTyr (framesOf q)).xss = tw := ht
    rw [this]
    simp only [List.append_assoc]
  have e1 : (pin q).hpd = q.hpd := rfl
  have e2 : (pin q).mtrh = q.mtrh := rfl
  have e3 : (pin q).sigh = q.sigh := rfl
  have e4 : (pin q).andh = q.andh := rfl
  have e5 : (pin q).dlwh = q.dlwh := rfl
  have s1 : q.mtrh.n ≤ q.sigh.xss.length := locBlock_length hq.sigh
  have s2 : q.mtrh.n ≤ q.andh.xss.length := by simpa using angular_length hq.andh
  have s3 : q.mtrh.n ≤ q.dlwh.block.xss.length := by
    rw [← hq.ndlwh]; exact locBlock_length hq.dlwh
  have hls : particleLocators k (pin q) =
    [k + 1, k + q.hpd.xss.length + 1, k + q.hpd.xss.length + q.mtrh.xss.length + 1,
      k + q.hpd.xss.length + q.mtrh.xss.length + tw.length + 1,
      k + q.hpd.xss.length + q.mtrh.xss.length + tw.length + q.mtrh.n + 1,
      k + q.hpd.xss.length + q.mtrh.xss.length + tw.length + q.sigh.xss.length + 1,
      k + q.hpd.xss.length + q.mtrh.xss.length + tw.length + q.sigh.xss.length + q.mtrh.n + 1,
      k + q.hpd.xss.length + q.mtrh.xss.length + tw.length + q.sigh.xss.length +
        q.andh.xss.length + 1,
      k + q.hpd.xss.length + q.mtrh.xss.length + tw.length + q.sigh.xss.length +
        q.andh.xss.length + q.mtrh.n + 1,
      k + q.hpd.xss.length + q.mtrh.xss.length + tw.length + q.sigh.xss.length +
        q.andh.xss.length + q.dlwh.block.xss.length + 1] := by
    simp only [particleLocators, e1, e2, e3, e4, e5, ht]
  rw [hls]
  have a4 : At d ((k + q.hpd.xss.length + q.mtrh.xss.length + tw.length + 1 : Nat) : Int) q.sigh.xss :=
    at_pre _ (pre := pre ++ q.hpd.xss ++ q.mtrh.xss ++ tw) (post := q.andh.xss ++
      (q.dlwh.block.xss ++ (q.yh.xss ++ post))) (by rw [hx]; simp only [List.append_assoc])
      (by simp only [List.length_append, hk])
  have a6 : At d ((k + q.hpd.xss.length + q.mtrh.xss.length + tw.length + q.sigh.xss.length + 1 : Nat) :
      Int) q.andh.xss :=
    at_pre _ (pre := pre ++ q.hpd.xss ++ q.mtrh.xss ++ tw ++ q.sigh.xss) (post :=
      (q.dlwh.block.xss ++ (q.yh.xss ++ post))) (by rw [hx]; simp only [List.append_assoc])
      (by simp only [List.length_append, hk])
  have a8 : At d ((k + q.hpd.xss.length + q.mtrh.xss.length + tw.length + q.sigh.xss.length +
      q.andh.xss.length + 1 : Nat) : Int) q.dlwh.block.xss :=
    at_pre _ (pre := pre ++ q.hpd.xss ++ q.mtrh.xss ++ tw ++ q.sigh.xss ++ q.andh.xss) (post :=
      (q.yh.xss ++ post)) (by rw [hx]; simp only [List.append_assoc])
      (by simp only [List.length_append, hk])
  exact {
    number := rfl
    hpd := at_pre _ (pre := pre) (post := q.mtrh.xss ++ (tw ++ (q.sigh.xss ++ (q.andh.xss ++
      (q.dlwh.block.xss ++ (q.yh.xss ++ post)))))) (by rw [hx]; simp only [List.append_assoc]) hk
    mtrh := at_pre _ (pre := pre ++ q.hpd.xss) (post := tw ++ (q.sigh.xss ++ (q.andh.xss ++
      (q.dlwh.block.xss ++ (q.yh.xss ++ post))))) (by rw [hx]; simp only [List.append_assoc])
      (by simp only [List.length_append, hk])
    tyrh := at_pre _ (pre := pre ++ q.hpd.xss ++ q.mtrh.xss)
      (post := q.sigh.xss ++ (q.andh.xss ++ (q.dlwh.block.xss ++ (q.yh.xss ++ post)))) (by rw [hx]; simp only [List.append_assoc]) (by simp only [List.length_append, hk])
    lsigh := a4
    sigh := by
      have := at_drop q.mtrh.n a4 s1
      rw [← Int.natCast_add] at this
      rw [show k + q.hpd.xss.length + q.mtrh.xss.length + tw.length + 1 + q.mtrh.n =
        k + q.hpd.xss.length + q.mtrh.xss.length + tw.length + q.mtrh.n + 1 by omega] at this
      exact this
    landh := a6
    andh := by
      have := at_drop q.mtrh.n a6 s2
      rw [← Int.natCast_add, Nat.add_right_comm] at this
      exact this
    ldlwh := a8
    dlwh := by
      have := at_drop q.mtrh.n a8 s3
      rw [← Int.natCast_add, Nat.add_right_comm] at this
      exact this
    yh := at_pre _ (pre := pre ++ q.hpd.xss ++ q.mtrh.xss ++ tw ++ q.sigh.xss ++ q.andh.xss ++
        q.dlwh.block.xss) (post := post) (by rw [hx]; simp only [List.append_assoc])
      (by simp only [List.length_append, hk]) }

theorem ixs_ok (hs : Sound B mts vs) : CEIxs B (dataOf z a s B T fis) := by
  unfold CEIxs
  cases hp : B.secondaries with
  | none => exact jxs_eq 31 0 (by simp [marks, Marks.js, hp])
  | some t =>
    obtain ⟨t, ps⟩ := t
    have hxs : (dataOf z a s B T fis).xss = x20 B T ++ (t.xss ++
        (NTRO.mk' (ps.map (fun p => p.mtrh.n))).xss ++ ixsOf B T (t, ps) ++ bodies (ps.map pin)) := by
      show x20 B T ++ spWords B T = _
      rw [spWords, hp]
    have hnt : (NTRO.mk' (ps.map (fun p => p.mtrh.n))).xss.length = ps.length := by
      simp [NTRO.mk']
    have hn : n31 B T = (x20 B T).length + t.xss.length + ps.length := by
      rw [n31, n30, hp]
    have hlx : (ixsOf B T (t, ps)).length = ps.length * 10 := by
      have := locs_flatten_length (n31 B T + ps.length * 10) (ps.map pin)
      simp only [ixsOf, IXS.mk', ← List.map_flatten, List.length_map] at this ⊢
      omega
    refine ⟨locs (n31 B T + ps.length * 10) (ps.map pin), by rw [locs_length, List.length_map], ?_, ?_⟩
    · refine ⟨_, jxs_eq 31 (n31 B T + 1) (by simp [marks, Marks.js, hp]), x20 B T ++ t.xss ++
        (NTRO.mk' (ps.map (fun p => p.mtrh.n))).xss, bodies (ps.map pin), ?_, ?_⟩
      · rw [hxs]
        simp only [ixsOf, IXS.mk', ← List.map_flatten, List.append_assoc]
      · simp only [List.length_append, hnt, hn]; omega
    · intro i hi
      obtain ⟨u, v, huv, hu⟩ := getElem_split ps i hi
      have hq := hs.secondaries t ps hp ps[i] (List.getElem_mem hi)
      generalize hqe : ps[i] = q at *
      have hpin : ps.map pin = u.map pin ++ pin q :: v.map pin := by rw [huv]; simp
      have hg := locs_getElem (n31 B T + ps.length * 10) (u.map pin) (pin q) (v.map pin)
      rw [List.length_map, hu, ← hpin] at hg
      have hg' : (locs (n31 B T + ps.length * 10) (ps.map pin)).getD i [] =
          particleLocators (n31 B T + ps.length * 10 + (bodies (u.map pin)).length) (pin q) := by
        exact hg
      simp only [hg']
      refine particle_ok hq (x20 B T ++ t.xss ++ (NTRO.mk' (ps.map (fun p => p.mtrh.n))).xss ++
        ixsOf B T (t, ps) ++ bodies (u.map pin)) (bodies (v.map pin)) _ ?_ ?_
      · rw [hxs, hpin, bodies_append]
        simp [bodies]
      · simp only [List.length_append, hnt, hlx, hn]

theorem nxs_ok (hs : Sound B mts vs) : CENxs B z a s mts (dataOf z a s B T fis) := by
  have g1 := (sound_lengths hs).1
  exact {
    length := NXS_get _ 0 _ rfl
    za := by
      intro hza
      rw [NXS_get _ 1 _ rfl]
      congr 2
      show (z * 1000 + a) % 4294967296 = _
      omega
    nes := NXS_get _ 2 _ rfl
    ntr := by rw [← g1]; exact NXS_get _ 3 _ rfl
    nr := NXS_get _ 4 _ rfl
    ntrp := NXS_get _ 5 _ rfl
    ntype := NXS_get _ 6 _ rfl
    npcr := NXS_get _ 7 _ rfl
    state := NXS_get _ 8 _ rfl
    z := NXS_get _ 9 _ rfl
    a := NXS_get _ 10 _ rfl
    rest := by
      intro i h1 h2
      have : i = 12 ∨ i = 13 ∨ i = 14 ∨ i = 15 ∨ i = 16 := by omega
      rcases this with rfl | rfl | rfl | rfl | rfl
      · exact NXS_get _ 11 _ rfl
      · exact NXS_get _ 12 _ rfl
      · exact NXS_get _ 13 _ rfl
      · exact NXS_get _ 14 _ rfl
      · exact NXS_get _ 15 _ rfl }

end
end CE30

/-- Continuous energy tables: NXS has the counts of the blocks, JXS the locators of their words, and
the IXS block those of the secondary particles. The TYR block is that of the frames and
multiplicities, with none for the reactions without secondary neutrons. -/
theorem C30_CE (z a s : Nat) (B : Blocks) (mts : List Nat) (vs : List (Frame × Nat))
    (hs : Sound B mts vs) :
    ∃ d, CE.generateData z a s B.input = .ok d ∧ CENxs B z a s mts d ∧
      CEJxs B mts ((vs.take B.ang.nr ++
        List.replicate (mts.length - B.ang.nr) (Frame.laboratory, 0)).map
        fun v : Frame × Nat => TYR.word v.1 v.2) d ∧ CEIxs B d := by
  obtain ⟨fis, h, _, h0, h1⟩ := CE.generateData_eq z a s hs
  exact ⟨_, h, CE30.nxs_ok hs, CE30.jxs_ok hs h0 h1, CE30.ixs_ok hs⟩

example : ∃ d, CE.generateData 92 235 0 exBlocks.input = .ok d ∧ CENxs exBlocks 92 235 0 [18, 102] d ∧
    CEIxs exBlocks d := by
  obtain ⟨d, h1, h2, _, h3⟩ := C30_CE 92 235 0 exBlocks [18, 102] exTyr ex_sound
  exact ⟨d, h1, h2, h3⟩-- the locators themselves
example : (do
    let d ← CE.generateData 92 235 0 exBlocks.input
    return (d.xss.length, d.jxs)) = (.ok (194,
      [1, 11, 14, 16, 18, 20, 22, 30, 32, 32, 33, 83, 85, 86, 87, 92, 93, 93, 94, 105, 22, 106, 44, 57,
        64, 71, 72, 0, 0, 107, 109, 111]) : Res (Nat × List Int)) := by
  decide +kernel

end ACE.Props

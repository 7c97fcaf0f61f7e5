import Verif.Lemmas.Photoatomic
import Verif.Props.C35
import Verif.Props.C28Cases

/-!
# C32: a photoatomic table returns the blocks it was made from

The optional blocks come in groups: the fluorescence data, the shell data (EPS and SWD) and the
electron, photon and relaxation data (SUBSH to BREML and, optionally, SELAS). The constructor accepts
any combination; combinations that split a group are lost or undefined, see the end of this file.
-/

namespace ACE.Props
open ACE

/-- The contents of a table with complete groups of optional blocks. -/
structure PABlocks where
  z : Nat
  za : List Nat
  awr : List Dbl
  eszg : ESZG
  jinc : JINC
  jcoh : JCOH
  lhnm : LHNM
  jflo : Option JFLO
  shells : Option (EPS × SWD)
  electrons : Option PA.Electrons

namespace PABlocks

/-- The arguments of the constructor. -/
def input (B : PABlocks) : PA.Input where
  z := B.z
  za := B.za
  awr := B.awr
  eszg := B.eszg
  jinc := B.jinc
  jcoh := B.jcoh
  lhnm := B.lhnm
  jflo := B.jflo
  eps := B.shells.map (·.1)
  swd := B.shells.map (·.2)
  subsh := B.electrons.map (·.subsh)
  sphel := B.electrons.map (·.sphel)
  xprob := B.electrons.map (·.xprob)
  esze := B.electrons.map (·.esze)
  excit := B.electrons.map (·.excit)
  elas := B.electrons.map (·.elas)
  eion := match B.electrons with | some e => e.eion | none => []
  breme := B.electrons.map (·.breme)
  breml := B.electrons.map (·.breml)
  selas := B.electrons.bind (·.selas)

/-- What the reading constructors make of the words of the blocks is the blocks; the counts agree.
Blocks made by their constructors are such, see `C32_built_*`. -/
structure Sound (B : PABlocks) : Prop where
  eszg : ESZG.ofRange B.eszg.xss B.eszg.n = .ok B.eszg
  jinc : JINC.ofRange B.jinc.data.xss = .ok B.jinc
  jcoh : JCOH.ofRange B.jcoh.data.xss = .ok B.jcoh
  lhnm : LHNM.ofRange B.lhnm.xss B.lhnm.n = .ok B.lhnm
  nes : B.lhnm.n = B.eszg.n
  targets : B.za.length = B.awr.length
  sixteen : B.za.length ≤ 16
  jflo : ∀ b, B.jflo = some b → JFLO.ofRange b.xss b.n = .ok b ∧ 1 ≤ b.n
  shells : ∀ b, B.shells = some b → EPS.ofRange b.1.xss b.1.n = .ok b.1 ∧
    3 * b.1.n ≤ b.1.xss.length ∧ b.1.n = b.2.n ∧ SWD.ofRange b.2.xss b.2.n b.2.n = .ok b.2 ∧ b.2.n ≤ b.2.xss.length ∧ 1 ≤ b.2.n
  electrons : ∀ b, B.electrons = some b → PA.ElectronsRead b B.eszg.n ∧ b.esze.NSSH = b.subsh.n ∧
    b.xprob.n = b.subsh.n ∧ b.sphel.n = B.eszg.n ∧ ∀ s, b.selas = some s → s.n = b.esze.n

/-- The number of words of an optional block. -/
def opt {α : Type} (f : α → Words) : Option α → Nat
  | some b => (f b).length
  | none => 0

/-- The number of words of the electron data. -/
def electronSize (e : PA.Electrons) : Nat :=
  e.subsh.xss.length + e.sphel.xss.length + e.xprob.xss.length + e.esze.xss.length +
    e.excit.xss.length + e.elas.xss.length + 3 * e.eion.length + (e.eion.map (·.xss)).flatten.length +
    e.breme.xss.length + e.breml.xss.length + opt (fun s : SELAS => s.xss) e.selas

/-- The number of words of the table. -/
def size (B : PABlocks) : Nat :=
  B.eszg.xss.length + B.jinc.data.xss.length + B.jcoh.data.xss.length + opt (fun s : JFLO => s.xss) B.jflo +
    B.lhnm.xss.length + opt (fun s : EPS × SWD => s.1.xss ++ s.2.xss) B.shells +
    (match B.electrons with | some e => electronSize e | none => 0)

/-- The numbers of words and of elements can be represented. -/
structure Fits (B : PABlocks) : Prop where
  z : FitsN B.z
  words : FitsN (B.size + 1)
  eszg : FitsN B.eszg.n
  jinc : FitsN B.jinc.NM
  jcoh : FitsN B.jcoh.NM
  jflo : ∀ b : JFLO, B.jflo = some b → FitsN b.n
  swd : ∀ b, B.shells = some b → FitsN b.2.n
  electrons : ∀ b, B.electrons = some b → FitsN b.subsh.n ∧ FitsN b.esze.n ∧ FitsN b.excit.n ∧
    FitsN b.elas.n ∧ FitsN b.breme.n ∧ FitsN b.breml.n

end PABlocks

/-- The blocks and parameters of the table are those given. -/
structure PAReturned (b : PA.Input) (t : PA) : Prop where
  eszg : t.eszg = b.eszg
  jinc : t.jinc = b.jinc
  jcoh : t.jcoh = b.jcoh
  lhnm : t.lhnm = b.lhnm
  jflo : t.jflo = b.jflo
  eps : t.eps = b.eps
  swd : t.swd = b.swd
  subsh : t.subsh = b.subsh
  sphel : t.sphel = b.sphel
  xprob : t.xprob = b.xprob
  esze : t.esze = b.esze
  excit : t.excit = b.excit
  elas : t.elas = b.elas
  eion : t.eion = b.eion
  breme : t.breme = b.breme
  breml : t.breml = b.breml
  selas : t.selas = b.selas
  numberZ : t.Z = .ok b.z
  nes : t.NES = .ok b.eszg.n
  nflo : t.NFLO = .ok (match b.jflo with | some s => ArrayData.n s | none => 0)
  nsh : t.NSH = .ok (match b.swd with | some s => s.n | none => 0)
  nepr : t.NEPR = .ok (if b.subsh.isSome then (if b.selas.isSome then 3 else 1) else 0)
  nssh : t.NSSH = .ok b.eion.length
  ne : t.NE = .ok (match b.esze with | some s => ArrayData.n s | none => 0)
  nxl : t.NXL = .ok (match b.excit with | some s => ArrayData.n s | none => 0)
  na : t.NA = .ok (match b.elas with | some s => s.n | none => 0)
  nb : t.NB = .ok (match b.breme with | some s => s.n | none => 0)
  nbl : t.NBL = .ok (match b.breml with | some s => ArrayData.n s | none => 0)
  ninc : t.NINC = .ok (if b.selas.isSome then b.jinc.NM else 0)
  ncoh : t.NCOH = .ok (if b.selas.isSome then b.jcoh.NM else 0)
  each : ∀ i (h : i < b.eion.length), t.EION (i + 1) = .ok b.eion[i]
  za : ∀ i (h : i < b.za.length), t.data.IZ (i + 1) = .ok (b.za[i] : Int)
  awr : ∀ i (h : i < b.awr.length), t.data.AW (i + 1) = .ok b.awr[i]

namespace C32
open PA PABlocks

/-- The number of shells. -/
def nshOf (B : PABlocks) : Nat := nshCount (B.shells.map (·.2))
/-- The words before the optional groups. -/
def front (B : PABlocks) : Words :=
  B.eszg.xss ++ B.jinc.data.xss ++ B.jcoh.data.xss ++ jfloWords B.jflo ++ B.lhnm.xss
/-- The words and locators of the shells. -/
def shellPart (B : PABlocks) : Words × List Int :=
  addShells (front B) (nshOf B) (B.shells.map (·.1)) (B.shells.map (·.2))
/-- The words and locators of the electron data. -/
def electronPart (B : PABlocks) : Words × List Int := addElectrons (shellPart B).1 B.electrons

/-- The data. -/
def dataOf (B : PABlocks) : TableData where
  iz := B.za.map (fun v : Nat => (v : Int)) ++ List.replicate (16 - B.za.length) 0
  aw := B.awr.take B.za.length ++ List.replicate (16 - B.za.length) (Dbl.ofNat 0)
  nxs := [((electronPart B).1.length : Nat), (B.z : Nat), (B.eszg.n : Nat),
    (nfloCount B.jflo : Nat), (nshOf B : Nat),
    (neprOf B.electrons : Nat), (ifElectrons B.electrons (·.subsh.n) : Nat),
    (ifElectrons B.electrons (·.esze.n) : Nat),
    (ifElectrons B.electrons (·.excit.n) : Nat), (ifElectrons B.electrons (·.elas.n) : Nat),
    (ifElectrons B.electrons (·.breme.n) : Nat), (ifElectrons B.electrons (·.breml.n) : Nat),
    (if neprOf B.electrons > 1 then B.jinc.NM else 0 : Nat),
    (if neprOf B.electrons > 1 then B.jcoh.NM else 0 : Nat), 0, 0]
  jxs := [1, after B.eszg.xss, after (B.eszg.xss ++ B.jinc.data.xss),
    after (B.eszg.xss ++ B.jinc.data.xss ++ B.jcoh.data.xss),
    after (B.eszg.xss ++ B.jinc.data.xss ++ B.jcoh.data.xss ++ jfloWords B.jflo)] ++ (shellPart B).2 ++
    (electronPart B).2 ++ List.replicate 5 0
  xss := (electronPart B).1

theorem electrons_eq (B : PABlocks) : electrons B.input = .ok B.electrons := by
  obtain ⟨z, za, awr, eszg, jinc, jcoh, lhnm, jflo, shells, e⟩ := B
  cases e with
  | none => rfl
  | some e => rfl

theorem verify_eq {B : PABlocks} (h : B.Sound) : verifyElectrons B.electrons = .ok () := by
  have he := h.electrons
  cases hb : B.electrons with
  | none => rfl
  | some e =>
    obtain ⟨h1, h2, h3, h4, h5⟩ := he e hb
    simp only [verifyElectrons]
    have := h1.eion_count
    rw [guardThrow_eq_ok.mpr (by simp [h2, h3, this]), ok_bind]
    cases hs : e.selas with
    | none => rfl
    | some s =>
      have := h5 s hs
      exact guardThrow_eq_ok.mpr (by simp [this])

theorem generateData_eq {B : PABlocks} (h : B.Sound) : generateData B.input = .ok (dataOf B) := by
  have ht : targets B.input.za B.input.awr = .ok
      (B.za.map (fun v : Nat => (v : Int)) ++ List.replicate (16 - B.za.length) 0,
        B.awr.take B.za.length ++ List.replicate (16 - B.za.length) (Dbl.ofNat 0)) := by
    unfold targets
    exact if_pos ⟨h.sixteen, by have := h.targets; simp [input, this]⟩
  have hg1 : guardThrow (!(B.input.za.length != B.input.awr.length)) = .ok () :=
    guardThrow_eq_ok.mpr (by simp [input, h.targets])
  have hg2 : guardThrow (!(B.input.eszg.n != B.input.lhnm.n ||
      sphelDiffers B.input.eszg.n B.input.sphel)) = .ok () := by
    refine guardThrow_eq_ok.mpr ?_
    have he := h.electrons
    have hl := h.nes
    cases hb : B.electrons with
    | none => simp [input, hb, hl, sphelDiffers]
    | some e =>
      obtain ⟨_, _, _, h4, _⟩ := he e hb
      simp [input, hb, hl, h4, sphelDiffers]
  unfold generateData
  simp only [ht, ok_bind, electrons_eq, hg1, hg2, verify_eq h, pure_eq_ok]
  rfl

theorem electronPart_size {B : PABlocks} (h : B.Sound) : (electronPart B).1.length = B.size := by
  have e1 : (front B).length = B.eszg.xss.length + B.jinc.data.xss.length + B.jcoh.data.xss.length +
      opt (fun s : JFLO => s.xss) B.jflo + B.lhnm.xss.length := by
    unfold front jfloWords opt
    cases B.jflo <;> simp <;> omega
  have e2 : (shellPart B).1.length = (front B).length + opt (fun s : EPS × SWD => s.1.xss ++ s.2.xss) B.shells := by
    unfold shellPart addShells opt
    cases B.shells <;> simp <;> omega
  unfold size
  rw [← e1, ← e2]
  unfold electronPart
  cases hb : B.electrons with
  | none => rfl
  | some e =>
    obtain ⟨h1, _⟩ := h.electrons e hb
    unfold addElectrons
    have := addEION_eq e.eion ((shellPart B).1 ++ e.subsh.xss ++ e.sphel.xss ++ e.xprob.xss ++ e.esze.xss ++
      e.excit.xss ++ e.elas.xss)
    rw [h1.eion_count] at this
    simp only [this, electronSize, opt]
    cases hs : e.selas <;> simp only [List.length_append, eionHead_length] <;> omega

section
variable {B : PABlocks}

/-- The locator that follows the shell data. -/
theorem next_electrons : Next ((electronPart B).2 ++ List.replicate 5 0) (shellPart B).1.length
    (electronPart B).1.length := by
  unfold electronPart
  cases B.electrons with
  | none => exact Next.zeros 22
  | some e =>
    cases hs : e.selas <;> simp only [addElectrons, hs] <;> exact .here

theorem electron_prefix (h : B.Sound) : ∃ w, (electronPart B).1 = (shellPart B).1 ++ w := by
  unfold electronPart
  cases hb : B.electrons with
  | none => exact ⟨[], by simp [addElectrons]⟩
  | some e =>
    have := addEION_eq e.eion ((shellPart B).1 ++ e.subsh.xss ++ e.sphel.xss ++ e.xprob.xss ++ e.esze.xss ++
      e.excit.xss ++ e.elas.xss)
    rw [(h.electrons e hb).1.eion_count] at this
    cases hs : e.selas <;> simp only [addElectrons, hs, this] <;> simp only [List.append_assoc] <;>
      exact ⟨_, rfl⟩

theorem shell_prefix : ∃ w, (shellPart B).1 = front B ++ w := by
  unfold shellPart addShells
  cases B.shells with
  | none => exact ⟨[], by simp⟩
  | some e => exact ⟨e.1.xss ++ e.2.xss, by simp⟩

theorem next_shells : Next ((shellPart B).2 ++ ((electronPart B).2 ++ List.replicate 5 0))
    (front B).length (electronPart B).1.length := by
  have hn := next_electrons (B := B)
  cases hs : B.shells with
  | none =>
    have e2 : (shellPart B).2 = [0, 0, 0, 0, 0] := by simp [shellPart, addShells, hs]
    have e1 : (shellPart B).1 = front B := by simp [shellPart, addShells, hs]
    rw [e1] at hn
    rw [e2]
    exact hn.zero.zero.zero.zero.zero
  | some e =>
    have e2 : (shellPart B).2 = after (front B) :: [afterPlus (front B) (nshOf B),
        afterPlus (front B) (2 * nshOf B), after (front B ++ e.1.xss), afterPlus (front B ++ e.1.xss) (nshOf B)] := by
      simp [shellPart, addShells, hs]
    rw [e2]
    exact .here

theorem shellPart_length (B : PABlocks) : (shellPart B).2.length = 5 := by
  unfold shellPart addShells
  cases B.shells <;> rfl

theorem shells_read {d : TableData} {b : EPS × SWD} {w : Words} {l : List Int} {P : Words}
    (hE : EPS.ofRange b.1.xss b.1.n = .ok b.1) (hs : 3 * b.1.n ≤ b.1.xss.length) (hn : b.1.n = b.2.n)
    (hS : SWD.ofRange b.2.xss b.2.n b.2.n = .ok b.2) (hl : b.2.n ≤ b.2.xss.length)
    (hx : d.xss = P ++ b.1.xss ++ b.2.xss ++ w)
    (hj : d.jxs.drop 5 = after P :: afterPlus P b.2.n :: afterPlus P (2 * b.2.n) :: after (P ++ b.1.xss) ::
      afterPlus (P ++ b.1.xss) b.2.n :: l)
    (hnext : Next l (P ++ b.1.xss ++ b.2.xss).length d.xss.length) (hf : FitsN (d.xss.length + 1)) :
    readShells d b.2.n = .ok b := by
  have hlen : d.xss.length = P.length + b.1.xss.length + b.2.xss.length + w.length := by
    rw [hx]; simp only [List.length_append]
  have hdrop : ∀ i, d.jxs.drop (5 + i) = (d.jxs.drop 5).drop i := by intro i; simp
  have b6 : block d 6 = .ok (P.length, P.length + b.2.n) :=
    block_next (i := 5) hj .plus (by omega) (by omega) hf
  have b8 : block d 8 = .ok (P.length + 2 * b.2.n, (P ++ b.1.xss).length) :=
    block_next (i := 7) (by rw [hdrop 2, hj, ← afterPlus_eq]; rfl) .here (by simp; omega) (by simp; omega) hf
  have b9 : block d 9 = .ok ((P ++ b.1.xss).length, (P ++ b.1.xss).length + b.2.n) :=
    block_next (i := 8) (by rw [hdrop 3, hj]; rfl) .plus (by omega) (by simp; omega) hf
  have b10 : block d 10 = .ok ((P ++ b.1.xss).length + b.2.n, (P ++ b.1.xss ++ b.2.xss).length) :=
    block_next (i := 9) (by rw [hdrop 4, hj, ← afterPlus_eq]; rfl) hnext (by simp; omega) (by simp; omega) hf
  have w6 : sub d.xss P.length (P ++ b.1.xss).length = .ok b.1.xss :=
    sub_of_eq (a := P) (c := b.2.xss ++ w) (by rw [hx]; simp) rfl (by simp)
  have w9 : sub d.xss (P ++ b.1.xss).length (P ++ b.1.xss ++ b.2.xss).length = .ok b.2.xss :=
    sub_of_eq (a := P ++ b.1.xss) (c := w) (by rw [hx]) rfl (by simp; omega)
  unfold readShells CE.located
  rw [hn] at hE
  simp only [b6, b8, b9, b10, ok_bind, w6, w9, hE, pure_eq_ok, Nat.add_sub_cancel_left, hS]

/-- The table. -/
def tableOf (zaid : List Char) (B : PABlocks) (d : TableData) : PA :=
  ⟨zaid, d, B.eszg, B.jinc, B.jcoh, B.jflo, B.lhnm, B.shells.map (·.1), B.shells.map (·.2),
    B.electrons.map (·.subsh), B.electrons.map (·.sphel), B.electrons.map (·.xprob),
    B.electrons.map (·.esze), B.electrons.map (·.excit), B.electrons.map (·.elas), B.input.eion,
    B.electrons.map (·.breme), B.electrons.map (·.breml), B.electrons.bind (·.selas)⟩

/-- The counts of a table. -/
theorem counts {B : PABlocks} (hf : B.Fits) {d : TableData}
    (hn : ∀ i, 2 ≤ i → i < 12 → d.nxs[i]? = (dataOf B).nxs[i]?) :
    d.count 3 = .ok B.eszg.n ∧ d.count 4 = .ok (nfloCount B.jflo) ∧ d.count 5 = .ok (nshOf B) ∧
    d.count 6 = .ok (neprOf B.electrons) ∧ d.count 7 = .ok (ifElectrons B.electrons (·.subsh.n)) ∧
    d.count 8 = .ok (ifElectrons B.electrons (·.esze.n)) ∧
    d.count 9 = .ok (ifElectrons B.electrons (·.excit.n)) ∧
    d.count 10 = .ok (ifElectrons B.electrons (·.elas.n)) ∧
    d.count 11 = .ok (ifElectrons B.electrons (·.breme.n)) ∧
    d.count 12 = .ok (ifElectrons B.electrons (·.breml.n)) := by
  have hnfit : FitsN (PA.nfloCount B.jflo) := by
    cases h : B.jflo with
    | none => decide
    | some b => exact hf.jflo b h
  have hsfit : FitsN (C32.nshOf B) := by
    unfold C32.nshOf
    cases h : B.shells with
    | none => decide
    | some b => exact hf.swd b h
  have hefit : ∀ f : PA.Electrons → Nat, (∀ e, B.electrons = some e → FitsN (f e)) →
      FitsN (PA.ifElectrons B.electrons f) := by
    intro f h
    cases he : B.electrons with
    | none => exact (by decide : FitsN 0)
    | some e => exact h e he
  have hpfit : FitsN (PA.neprOf B.electrons) := by
    unfold PA.neprOf FitsN
    split
    · omega
    · split <;> omega
  have c3 : d.count 3 = .ok B.eszg.n := TS.count_get (i := 2) ((hn 2 (by decide) (by decide)).trans rfl) hf.eszg
  have c4 : d.count 4 = .ok (PA.nfloCount B.jflo) := TS.count_get (i := 3) ((hn 3 (by decide) (by decide)).trans rfl) hnfit
  have c5 : d.count 5 = .ok (C32.nshOf B) := TS.count_get (i := 4) ((hn 4 (by decide) (by decide)).trans rfl) hsfit
  have c6 : d.count 6 = .ok (PA.neprOf B.electrons) := TS.count_get (i := 5) ((hn 5 (by decide) (by decide)).trans rfl) hpfit
  have c7 : d.count 7 = .ok (PA.ifElectrons B.electrons (·.subsh.n)) :=
    TS.count_get (i := 6) ((hn 6 (by decide) (by decide)).trans rfl) (hefit _ fun e h => (hf.electrons e h).1)
  have c8 : d.count 8 = .ok (PA.ifElectrons B.electrons (·.esze.n)) :=
    TS.count_get (i := 7) ((hn 7 (by decide) (by decide)).trans rfl) (hefit _ fun e h => (hf.electrons e h).2.1)
  have c9 : d.count 9 = .ok (PA.ifElectrons B.electrons (·.excit.n)) :=
    TS.count_get (i := 8) ((hn 8 (by decide) (by decide)).trans rfl) (hefit _ fun e h => (hf.electrons e h).2.2.1)
  have c10 : d.count 10 = .ok (PA.ifElectrons B.electrons (·.elas.n)) :=
    TS.count_get (i := 9) ((hn 9 (by decide) (by decide)).trans rfl) (hefit _ fun e h => (hf.electrons e h).2.2.2.1)
  have c11 : d.count 11 = .ok (PA.ifElectrons B.electrons (·.breme.n)) :=
    TS.count_get (i := 10) ((hn 10 (by decide) (by decide)).trans rfl) (hefit _ fun e h => (hf.electrons e h).2.2.2.2.1)
  have c12 : d.count 12 = .ok (PA.ifElectrons B.electrons (·.breml.n)) :=
    TS.count_get (i := 11) ((hn 11 (by decide) (by decide)).trans rfl) (hefit _ fun e h => (hf.electrons e h).2.2.2.2.2)
  exact ⟨c3, c4, c5, c6, c7, c8, c9, c10, c11, c12⟩

/-- What is read from a table with these words, locators and counts; JXS(4) may be zero without fluorescence
data. -/
theorem generateBlocks_eq (zaid : List Char) {B : PABlocks} (hs : B.Sound) (hf : B.Fits) (d : TableData)
    (hx : d.xss = (electronPart B).1) (j4 : Int)
    (h4 : j4 = after (B.eszg.xss ++ B.jinc.data.xss ++ B.jcoh.data.xss) ∨ (B.jflo = none ∧ j4 = 0))
    (hj : d.jxs = [((0 + 1 : Nat) : Int), after B.eszg.xss, after (B.eszg.xss ++ B.jinc.data.xss), j4,
      after (B.eszg.xss ++ B.jinc.data.xss ++ B.jcoh.data.xss ++ jfloWords B.jflo)] ++
      ((shellPart B).2 ++ ((electronPart B).2 ++ List.replicate 5 0)))
    (hn : ∀ i, 2 ≤ i → i < 12 → d.nxs[i]? = (dataOf B).nxs[i]?) :
    generateBlocks zaid d = .ok (tableOf zaid B d) := by
  have hsz := C32.electronPart_size hs
  obtain ⟨w1, hw1⟩ := C32.electron_prefix hs
  obtain ⟨w2, hw2⟩ := C32.shell_prefix (B := B)
  have hns := C32.next_shells (B := B)
  have hne := C32.next_electrons (B := B)
  have h5 := C32.shellPart_length B
  rw [← hx] at hns hne hw1 hsz
  have hfx : FitsN (d.xss.length + 1) := by rw [hsz]; exact hf.words
  have hx5 : d.xss = B.eszg.xss ++ B.jinc.data.xss ++ B.jcoh.data.xss ++ PA.jfloWords B.jflo ++ B.lhnm.xss ++
      (w2 ++ w1) := by
    rw [hw1, hw2]; simp [C32.front]
  have hl5 : d.xss.length = B.eszg.xss.length + B.jinc.data.xss.length + B.jcoh.data.xss.length +
      (PA.jfloWords B.jflo).length + B.lhnm.xss.length + (w2 ++ w1).length := by
    rw [hx5]; simp only [List.length_append]
  have b1 : PA.block d 1 = .ok (0, B.eszg.xss.length) :=
    PA.block_next (i := 0) (by rw [hj]; rfl) .here (by omega) (by omega) hfx
  have b2 : PA.block d 2 = .ok (B.eszg.xss.length, (B.eszg.xss ++ B.jinc.data.xss).length) :=
    PA.block_next (i := 1) (by rw [hj]; rfl) .here (by simp) (by simp; omega) hfx
  have b3 : PA.block d 3 = .ok ((B.eszg.xss ++ B.jinc.data.xss).length,
      (B.eszg.xss ++ B.jinc.data.xss ++ B.jcoh.data.xss).length) := by
    refine PA.block_next (i := 2) (by rw [hj]; rfl) (l := j4 :: PA.after (B.eszg.xss ++ B.jinc.data.xss ++
      B.jcoh.data.xss ++ PA.jfloWords B.jflo) :: ((C32.shellPart B).2 ++ ((C32.electronPart B).2 ++
      List.replicate 5 0))) ?_ (by simp) (by simp; omega) hfx
    rcases h4 with rfl | ⟨h, rfl⟩
    · exact .here
    · rw [h]
      simp only [PA.jfloWords, List.append_nil]
      exact .zero .here
  have b4 : B.jflo ≠ none → PA.block d 4 = .ok ((B.eszg.xss ++ B.jinc.data.xss ++ B.jcoh.data.xss).length,
      (B.eszg.xss ++ B.jinc.data.xss ++ B.jcoh.data.xss ++ PA.jfloWords B.jflo).length) := by
    intro h
    have h4 := h4.resolve_right (fun hh => h hh.1)
    exact PA.block_next (i := 3) (by rw [hj, h4]; rfl) .here (by simp) (by simp; omega) hfx
  have b5 : PA.block d 5 = .ok ((B.eszg.xss ++ B.jinc.data.xss ++ B.jcoh.data.xss ++
      PA.jfloWords B.jflo).length, (C32.front B).length) :=
    PA.block_next (i := 4) (by rw [hj]; rfl) hns (by simp [C32.front]) (by simp [C32.front]; omega) hfx
  have v1 : d.words (0, B.eszg.xss.length) = .ok B.eszg.xss :=
    sub_of_eq (a := []) (c := B.jinc.data.xss ++ B.jcoh.data.xss ++ PA.jfloWords B.jflo ++ B.lhnm.xss ++
      (w2 ++ w1)) (by rw [hx5]; simp) rfl (by simp)
  have v2 : d.words (B.eszg.xss.length, (B.eszg.xss ++ B.jinc.data.xss).length) = .ok B.jinc.data.xss :=
    sub_of_eq (a := B.eszg.xss) (c := B.jcoh.data.xss ++ PA.jfloWords B.jflo ++ B.lhnm.xss ++
      (w2 ++ w1)) (by rw [hx5]; simp) rfl (by simp)
  have v3 : d.words ((B.eszg.xss ++ B.jinc.data.xss).length,
      (B.eszg.xss ++ B.jinc.data.xss ++ B.jcoh.data.xss).length) = .ok B.jcoh.data.xss :=
    sub_of_eq (a := B.eszg.xss ++ B.jinc.data.xss) (c := PA.jfloWords B.jflo ++ B.lhnm.xss ++
      (w2 ++ w1)) (by rw [hx5]; simp) rfl (by simp; omega)
  have v4 : d.words ((B.eszg.xss ++ B.jinc.data.xss ++ B.jcoh.data.xss).length,
      (B.eszg.xss ++ B.jinc.data.xss ++ B.jcoh.data.xss ++ PA.jfloWords B.jflo).length) =
      .ok (PA.jfloWords B.jflo) :=
    sub_of_eq (a := B.eszg.xss ++ B.jinc.data.xss ++ B.jcoh.data.xss) (c := B.lhnm.xss ++
      (w2 ++ w1)) (by rw [hx5]; simp) rfl (by simp; omega)
  have v5 : d.words ((B.eszg.xss ++ B.jinc.data.xss ++ B.jcoh.data.xss ++ PA.jfloWords B.jflo).length,
      (C32.front B).length) = .ok B.lhnm.xss :=
    sub_of_eq (a := B.eszg.xss ++ B.jinc.data.xss ++ B.jcoh.data.xss ++ PA.jfloWords B.jflo)
      (c := w2 ++ w1) (by rw [hx5]) rfl (by simp [C32.front]; omega)
  obtain ⟨c3, c4, c5, c6, c7, c8, c9, c10, c11, c12⟩ := C32.counts hf hn
  have r4 : CE.onlyIf (decide (PA.nfloCount B.jflo > 0))
      (do JFLO.ofRange (← d.words (← PA.block d 4)) (PA.nfloCount B.jflo)) = .ok B.jflo := by
    cases h : B.jflo with
    | none => exact CE.onlyIf_false rfl
    | some b =>
      obtain ⟨g1, g2⟩ := hs.jflo b h
      have b4 := b4 (by rw [h]; simp)
      rw [h] at b4 v4
      refine CE.onlyIf_true (decide_eq_true (show b.n > 0 from g2)) ?_
      rw [b4, ok_bind, v4, ok_bind]
      exact g1
  have r6 : CE.onlyIf (decide (C32.nshOf B > 0)) (PA.readShells d (C32.nshOf B)) = .ok B.shells := by
    cases h : B.shells with
    | none => exact CE.onlyIf_false (by simp [C32.nshOf, h, PA.nshCount])
    | some b =>
      obtain ⟨g1, g0, g2, g3, g4, g5⟩ := hs.shells b h
      have en : C32.nshOf B = b.2.n := by simp [C32.nshOf, h, PA.nshCount]
      have es : C32.shellPart B = (C32.front B ++ b.1.xss ++ b.2.xss,
          [PA.after (C32.front B), PA.afterPlus (C32.front B) b.2.n, PA.afterPlus (C32.front B) (2 * b.2.n),
            PA.after (C32.front B ++ b.1.xss), PA.afterPlus (C32.front B ++ b.1.xss) b.2.n]) := by
        unfold C32.shellPart
        rw [en, h]; rfl
      rw [en]
      refine CE.onlyIf_true (decide_eq_true g5) ?_
      refine C32.shells_read (P := C32.front B) (w := w1)
        (l := (C32.electronPart B).2 ++ List.replicate 5 0) g1 g0 g2 g3 g4 (by rw [hw1, es]) ?_ ?_ hfx
      · rw [hj, es]; rfl
      · rw [es] at hne; exact hne
  have r11 : CE.onlyIf (decide (PA.neprOf B.electrons > 0)) (PA.readElectrons d (PA.neprOf B.electrons)) =
      .ok B.electrons := by
    cases h : B.electrons with
    | none => exact CE.onlyIf_false rfl
    | some e =>
      obtain ⟨g1, _⟩ := hs.electrons e h
      rw [h] at c7 c8 c9 c10 c11 c12
      refine CE.onlyIf_true (decide_eq_true (by unfold PA.neprOf; simp only; split <;> omega)) ?_
      refine PA.electrons_read (x9 := (C32.shellPart B).1) g1 ?_ ?_ c3 c7 c8 c9 c10 c11 c12 hfx
      · have ee : C32.electronPart B = PA.addElectrons (C32.shellPart B).1 (some e) := by
          unfold C32.electronPart; rw [h]
        rw [← ee, hj, show (10 : Nat) = 5 + 5 from rfl, ← List.drop_drop]
        show List.drop 5 ((C32.shellPart B).2 ++ _) = _
        rw [List.drop_append_of_le_length (by omega), List.drop_of_length_le (by omega)]
        rfl
      · have ee : C32.electronPart B = PA.addElectrons (C32.shellPart B).1 (some e) := by
          unfold C32.electronPart; rw [h]
        rw [← ee, hx]
  have hln : LHNM.ofRange B.lhnm.xss B.eszg.n = .ok B.lhnm := by rw [← hs.nes]; exact hs.lhnm
  unfold PA.generateBlocks
  simp only [c3, c4, c5, c6, b1, b2, b3, b5, v1, v2, v3, v5, ok_bind, hs.eszg, hs.jinc, hs.jcoh, hln, r4, r6,
    r11, pure_eq_ok]
  rfl

end
end C32

/-- The blocks of a photoatomic or electron-photon table, all parameters, the targets and their atomic
masses come back, for every choice of the groups of optional blocks and all sizes. -/
theorem C32_blocks_partial (zaid : List Char) (B : PABlocks) (hs : B.Sound) (hf : B.Fits)
    (ht : TableType.photoatomic.verifyType zaid = .ok ()) :
    ∃ t, PA.mk' zaid B.input = .ok t ∧ t.zaid = zaid ∧ PAReturned B.input t := by
  unfold PA.mk' PA.ofTable
  rw [C32.generateData_eq hs, ok_bind, ht, ok_bind]
  have hread := C32.generateBlocks_eq zaid hs hf (C32.dataOf B) rfl _ (.inl rfl) (by simp [C32.dataOf])
    (fun _ _ _ => rfl)
  generalize hd : C32.dataOf B = d at hread
  obtain ⟨c3, c4, c5, c6, c7, c8, c9, c10, c11, c12⟩ := C32.counts (d := d) hf (fun _ _ _ => by rw [hd])
  have c2 : d.count 2 = .ok B.z := TS.count_get (i := 1) (by rw [← hd]; rfl) hf.z
  have c13 : d.count 13 = .ok (if PA.neprOf B.electrons > 1 then B.jinc.NM else 0) :=
    TS.count_get (i := 12) (by rw [← hd]; rfl) (by split; exact hf.jinc; decide)
  have c14 : d.count 14 = .ok (if PA.neprOf B.electrons > 1 then B.jcoh.NM else 0) :=
    TS.count_get (i := 13) (by rw [← hd]; rfl) (by split; exact hf.jcoh; decide)
  refine ⟨C32.tableOf zaid B d, hread, rfl, ?_⟩
  · have n7 : d.count 7 = .ok B.input.eion.length := by
      rw [c7]
      cases h : B.electrons with
      | none => simp [PABlocks.input, h, PA.ifElectrons]
      | some e =>
        have := (hs.electrons e h).1.eion_count
        simp [PABlocks.input, h, PA.ifElectrons, this]
    constructor
    all_goals try rfl
    · exact c2
    · exact c3
    · show d.count 4 = _
      rw [c4]; rfl
    · show d.count 5 = _
      rw [c5]; rfl
    · show d.count 6 = _
      rw [c6]
      cases h : B.electrons <;> simp [PABlocks.input, h, PA.neprOf]
    · exact n7
    · show d.count 8 = _
      rw [c8]
      cases h : B.electrons <;> simp [PABlocks.input, h, PA.ifElectrons]
    · show d.count 9 = _
      rw [c9]
      cases h : B.electrons <;> simp [PABlocks.input, h, PA.ifElectrons]
    · show d.count 10 = _
      rw [c10]
      cases h : B.electrons <;> simp [PABlocks.input, h, PA.ifElectrons]
    · show d.count 11 = _
      rw [c11]
      cases h : B.electrons <;> simp [PABlocks.input, h, PA.ifElectrons]
    · show d.count 12 = _
      rw [c12]
      cases h : B.electrons <;> simp [PABlocks.input, h, PA.ifElectrons]
    · show d.count 13 = _
      rw [c13]
      cases h : B.electrons with
      | none => simp [PABlocks.input, h, PA.neprOf]
      | some e => cases h' : e.selas <;> simp [PABlocks.input, h, h', PA.neprOf]
    · show d.count 14 = _
      rw [c14]
      cases h : B.electrons with
      | none => simp [PABlocks.input, h, PA.neprOf]
      | some e => cases h' : e.selas <;> simp [PABlocks.input, h, h', PA.neprOf]
    · intro i hi
      unfold PA.EION PA.NSSH
      simp only [C32.tableOf]
      rw [n7, ok_bind, if_neg (by omega), Nat.add_sub_cancel, List.getElem?_eq_getElem hi]
      rfl
    · intro k h
      refine TableData.fetch_get d.iz k _ ?_
      rw [← hd]
      show (B.za.map (fun v : Nat => (v : Int)) ++ List.replicate (16 - B.za.length) 0)[k]? = _
      have h' : k < B.za.length := h
      rw [List.getElem?_append_left (by simpa using h')]
      simp [h', PABlocks.input]
    · intro k h
      refine TableData.fetch_get d.aw k _ ?_
      rw [← hd]
      have h' : k < B.awr.length := h
      have hl := hs.targets
      show (B.awr.take B.za.length ++ List.replicate (16 - B.za.length) (Dbl.ofNat 0))[k]? = _
      rw [hl, List.take_length, List.getElem?_append_left h', List.getElem?_eq_getElem h']
      rfl

/-! ## Blocks made by their constructors -/

theorem C32_built_JINC_fixed {v : Words} {b : JINC} (h : JINC.mkFixed v = .ok b) :
    JINC.ofRange b.data.xss = .ok b := by
  unfold JINC.mkFixed at h
  obtain ⟨_, hg, h⟩ := bind_eq_ok.mp h
  obtain ⟨d, hd, h⟩ := bind_eq_ok.mp h
  injection h with h
  subst h
  have hv : v.length = 21 := by simpa using guardThrow_eq_ok.mp hg
  have hr := built_array hd
  obtain ⟨ho, hx⟩ := ArrayData.ofArrays_holds hd
  have hl : d.xss.length = 21 := by rw [hx]; simpa using hv
  have hn : d.n = 21 := by rw [← ho.hn v (by simp), hv]
  unfold JINC.ofRange JINC.numberElements JINC.numberArrays
  rw [hn] at hr
  simp only [hl, if_true, ok_bind]
  rw [show ArrayData.ofRange d.xss 21 1 = .ok d from hr, ok_bind]
  rfl

theorem C32_built_JINC_tabulated {m v : Words} {b : JINC} (h : JINC.mkTabulated m v = .ok b) :
    JINC.ofRange b.data.xss = .ok b := by
  unfold JINC.mkTabulated at h
  obtain ⟨d, hd, h⟩ := bind_eq_ok.mp h
  injection h with h
  subst h
  have hr := built_array hd
  obtain ⟨ho, hx⟩ := ArrayData.ofArrays_holds hd
  have hl : d.xss.length = 2 * d.n := by rw [hx]; exact length_flatten_const _ _ ho.hn
  unfold JINC.ofRange JINC.numberElements JINC.numberArrays
  simp only [hl, if_neg (show ¬ 2 * d.n = 21 by omega)]
  rw [guardThrow_eq_ok.mpr (by simp), ok_bind, pure_eq_ok, ok_bind, show 2 * d.n / 2 = d.n by omega,
    show ArrayData.ofRange d.xss d.n 2 = .ok d from hr, ok_bind]
  rfl

theorem C32_built_JCOH_fixed {u v : Words} {b : JCOH} (h : JCOH.mkFixed u v = .ok b) :
    JCOH.ofRange b.data.xss = .ok b := by
  unfold JCOH.mkFixed at h
  obtain ⟨_, hg, h⟩ := bind_eq_ok.mp h
  obtain ⟨d, hd, h⟩ := bind_eq_ok.mp h
  injection h with h
  subst h
  have hr := built_array hd
  obtain ⟨ho, hx⟩ := ArrayData.ofArrays_holds hd
  have hv : u.length + v.length = 110 := by simpa using guardThrow_eq_ok.mp hg
  have h1 := ho.hn u (by simp)
  have h2 := ho.hn v (by simp)
  have hl : d.xss.length = 110 := by rw [hx]; simpa using hv
  have hn : d.n = 55 := by omega
  unfold JCOH.ofRange JCOH.numberElements JCOH.numberArrays
  rw [hn] at hr
  simp only [hl, if_true, ok_bind]
  rw [show ArrayData.ofRange d.xss 55 2 = .ok d from hr, ok_bind]
  rfl

theorem C32_built_JCOH_tabulated {m u v : Words} {b : JCOH} (h : JCOH.mkTabulated m u v = .ok b) :
    JCOH.ofRange b.data.xss = .ok b := by
  unfold JCOH.mkTabulated at h
  obtain ⟨d, hd, h⟩ := bind_eq_ok.mp h
  injection h with h
  subst h
  have hr := built_array hd
  obtain ⟨ho, hx⟩ := ArrayData.ofArrays_holds hd
  have hl : d.xss.length = 3 * d.n := by rw [hx]; exact length_flatten_const _ _ ho.hn
  unfold JCOH.ofRange JCOH.numberElements JCOH.numberArrays
  simp only [hl, if_neg (show ¬ 3 * d.n = 110 by omega)]
  rw [guardThrow_eq_ok.mpr (by simp), ok_bind, pure_eq_ok, ok_bind, show 3 * d.n / 3 = d.n by omega,
    show ArrayData.ofRange d.xss d.n 3 = .ok d from hr, ok_bind]
  rfl

theorem located_size {D : Type} {words : D → Words} {gen : Nat → Words → Res D} {l : Bool}
    {ds : List D} {b : LocBlock D} (hb : LocBlock.ofData words gen l ds = .ok b) :
    b.n ≤ b.xss.length := by
  unfold LocBlock.ofData LocBlock.generateBlocks at hb
  obtain ⟨_, _, h⟩ := bind_eq_ok.mp hb
  injection h with h
  subst h
  simp [LocBlock.generateXSS_eq]

theorem C32_built_electron {ds : List ElectronDist} {b : ElectronBlock} (h : ElectronBlock.mk' ds = .ok b) :
    ElectronBlock.ofRange b.xss b.n = .ok b ∧ b.n = ds.length := by
  have h' := h
  unfold ElectronBlock.mk' ElectronBlock.generateBlocks at h
  obtain ⟨i, _, h⟩ := bind_eq_ok.mp h
  obtain ⟨i, _, h⟩ := bind_eq_ok.mp h
  obtain ⟨i, _, h⟩ := bind_eq_ok.mp h
  injection h with h
  subst h
  exact ⟨h', rfl⟩

theorem esze_arrays {add : Dbl → Dbl → Dbl} {en el br ex : Words} {ei as : List Words}
    (h : ESZE.generateArrays add en el br ex ei = .ok as) : as.length = 6 + ei.length := by
  unfold ESZE.generateArrays at h
  obtain ⟨_, _, h⟩ := bind_eq_ok.mp h
  obtain ⟨_, _, h⟩ := bind_eq_ok.mp h
  injection h with h
  subst h
  simp
  omega

/-- The electron data are made of `nssh` subshells each. -/
structure ElectronsMade (e : PA.Electrons) (nssh nes : Nat) : Prop where
  subsh : ∃ a b c d t, SUBSH.mk' a b c d t = .ok e.subsh ∧ a.length = nssh
  sphel : ∃ ss, SPHEL.mk' ss = .ok e.sphel ∧ ss.length = nssh
  sphel_nes : e.sphel.n = nes
  xprob : ∃ ts, XPROB.mk' ts = .ok e.xprob ∧ ts.length = nssh
  esze : ∃ add en el br ex ei, ESZE.mk' add en el br ex ei = .ok e.esze ∧ ei.length = nssh
  excit : ∃ en l, EXCIT.mk' en l = .ok e.excit
  elas : ∃ ds, ElectronBlock.mk' ds = .ok e.elas
  eion : ∀ b ∈ e.eion, ∃ ds, ElectronBlock.mk' ds = .ok b ∧ FitsN ds.length
  eion_count : e.eion.length = nssh
  breme : ∃ ds, ElectronBlock.mk' ds = .ok e.breme
  breml : ∃ en l, BREML.mk' en l = .ok e.breml
  selas : ∀ s, e.selas = some s → (∃ tr to, SELAS.mk' tr to = .ok s) ∧ s.n = e.esze.n

theorem C32_built_electrons {e : PA.Electrons} {nssh nes : Nat} (h : ElectronsMade e nssh nes) :
    PA.ElectronsRead e nes ∧ e.esze.NSSH = e.subsh.n ∧ e.xprob.n = e.subsh.n ∧ e.sphel.n = nes ∧
      ∀ s, e.selas = some s → s.n = e.esze.n := by
  obtain ⟨⟨a, b, c, d, t, hsub, hsn⟩, ⟨ss, hsph, hssn⟩, hnes, ⟨ts, hx, htn⟩, ⟨add, en, el, br, ex, ei, hez, hei⟩,
    ⟨x1, x2, hxc⟩, ⟨ds, hel⟩, heion, hec, ⟨bs, hbr⟩, ⟨y1, y2, hbl⟩, hse⟩ := h
  have hn : e.subsh.n = nssh := by
    have := (ArrayData.ofArrays_holds hsub).1.hn (a.map Dbl.ofNat) (by simp)
    rw [← this]; simpa using hsn
  obtain ⟨hxn, hxr⟩ := built_located hx
  have hxn' : e.xprob.n = nssh := by rw [hxn, htn]
  unfold ESZE.mk' at hez
  obtain ⟨as, has, hez⟩ := bind_eq_ok.mp hez
  have hal := esze_arrays has
  have hezr := built_array hez
  have hezm := (ArrayData.ofArrays_holds hez).1.hm
  refine ⟨⟨built_array hsub, ?_, ?_, ?_, ?_, ?_, built_array hxc, (C32_built_electron hel).1, ?_, ?_,
    (C32_built_electron hbr).1, built_array hbl, ?_⟩, ?_, ?_, hnes, fun s hs => (hse s hs).2⟩
  · have hl := ArrayData.ofArrays_holds hsub
    have : e.subsh.xss.length = 5 * e.subsh.n := by rw [hl.2]; exact length_flatten_const _ _ hl.1.hn
    omega
  · have := built_array hsph
    rw [hssn, ← hn, hnes] at this
    exact this
  · rw [hn, ← hxn']; exact hxr
  · rw [hn, ← hxn']; exact located_size hx
  · unfold ESZE.ofRange
    rw [hal, hei, ← hn] at hezr
    exact hezr
  · rw [hec, hn]
  · intro q hq
    obtain ⟨ds, h1, h2⟩ := heion q hq
    obtain ⟨g1, g2⟩ := C32_built_electron h1
    exact ⟨g1, by rw [g2]; exact h2⟩
  · intro s hs
    obtain ⟨⟨tr, to, h1⟩, h2⟩ := hse s hs
    have := built_array h1
    rw [h2] at this
    exact this
  · unfold ESZE.NSSH
    rw [hn]
    omega
  · rw [hn, hxn']

/-- Each block is made by its constructor, and the counts agree. -/
structure PABlocks.Made (B : PABlocks) : Prop where
  eszg : ∃ a b c d e, ESZG.mk' a b c d e = .ok B.eszg
  jinc : (∃ v, JINC.mkFixed v = .ok B.jinc) ∨ ∃ m v, JINC.mkTabulated m v = .ok B.jinc
  jcoh : (∃ u v, JCOH.mkFixed u v = .ok B.jcoh) ∨ ∃ m u v, JCOH.mkTabulated m u v = .ok B.jcoh
  lhnm : ∃ a, LHNM.mk' a = .ok B.lhnm
  nes : B.lhnm.n = B.eszg.n
  targets : B.za.length = B.awr.length
  sixteen : B.za.length ≤ 16
  jflo : ∀ b, B.jflo = some b → (∃ p q r s, JFLO.mk' p q r s = .ok b) ∧ 1 ≤ b.n
  shells : ∀ b, B.shells = some b → (∃ p q r, EPS.mk' p q r = .ok b.1) ∧ b.1.n = b.2.n ∧
    (∃ ds, SWD.mk' ds = .ok b.2) ∧ 1 ≤ b.2.n
  electrons : ∀ b, B.electrons = some b → ∃ nssh, ElectronsMade b nssh B.eszg.n

theorem C32_built {B : PABlocks} (h : B.Made) : B.Sound := by
  obtain ⟨⟨a, b, c, d, e, h1⟩, h2, h3, ⟨l, h4⟩, h5, h6, h7, h8, h9, h10⟩ := h
  refine ⟨built_array h1, ?_, ?_, built_array h4, h5, h6, h7, ?_, ?_, ?_⟩
  · rcases h2 with ⟨v, h⟩ | ⟨m, v, h⟩
    · exact C32_built_JINC_fixed h
    · exact C32_built_JINC_tabulated h
  · rcases h3 with ⟨u, v, h⟩ | ⟨m, u, v, h⟩
    · exact C32_built_JCOH_fixed h
    · exact C32_built_JCOH_tabulated h
  · intro b hb
    obtain ⟨⟨p, q, r, s, g⟩, g2⟩ := h8 b hb
    exact ⟨built_array g, g2⟩
  · intro b hb
    obtain ⟨⟨p, q, r, g⟩, g2, ⟨ds, g3⟩, g4⟩ := h9 b hb
    exact ⟨built_array g, built_array_holds g, g2, (built_located g3).2, located_size g3, g4⟩
  · intro b hb
    obtain ⟨nssh, g⟩ := h10 b hb
    exact C32_built_electrons g

/-! ## Refused and lost -/

/-- Inconsistent numbers of targets, incident energies, subshells or electron energies are refused. -/
theorem C32_refused (zaid : List Char) (b : PA.Input) (e : Option PA.Electrons)
    (he : PA.electrons b = .ok e) (h16 : b.za.length ≤ 16) (hle : b.za.length ≤ b.awr.length)
    (h : b.za.length < b.awr.length ∨ b.eszg.n ≠ b.lhnm.n ∨ (∃ s, b.sphel = some s ∧ b.eszg.n ≠ s.n) ∨
      (∃ x, e = some x ∧ (x.subsh.n ≠ x.xprob.n ∨ x.subsh.n ≠ x.esze.NSSH ∨ x.subsh.n ≠ x.eion.length ∨
        ∃ s, x.selas = some s ∧ x.esze.n ≠ s.n))) :
    PA.mk' zaid b = .error .thrown := by
  unfold PA.mk' PA.generateData PA.targets
  simp only [if_pos (⟨h16, hle⟩ : b.za.length ≤ 16 ∧ b.za.length ≤ b.awr.length), ok_bind, he]
  by_cases h1 : b.za.length ≠ b.awr.length
  · rw [show guardThrow (!(b.za.length != b.awr.length)) = .error .thrown by
      rw [show (!(b.za.length != b.awr.length)) = false by simpa using h1]; rfl]
    rfl
  rw [guardThrow_eq_ok.mpr (by simpa using h1), ok_bind]
  by_cases h2 : b.eszg.n ≠ b.lhnm.n ∨ ∃ s, b.sphel = some s ∧ b.eszg.n ≠ s.n
  · rw [show guardThrow (!(b.eszg.n != b.lhnm.n || PA.sphelDiffers b.eszg.n b.sphel)) = .error .thrown by
      rw [show (!(b.eszg.n != b.lhnm.n || PA.sphelDiffers b.eszg.n b.sphel)) = false by
        rcases h2 with h2 | ⟨s, hs, h2⟩
        · simp [h2]
        · rw [hs]; simp [PA.sphelDiffers, h2]]
      rfl]
    rfl
  have h2' : b.eszg.n = b.lhnm.n ∧ ∀ s, b.sphel = some s → b.eszg.n = s.n := by
    constructor
    · exact Classical.byContradiction fun hh => h2 (.inl hh)
    · intro s hs
      exact Classical.byContradiction fun hh => h2 (.inr ⟨s, hs, hh⟩)
  rw [guardThrow_eq_ok.mpr (by
    cases hsp : b.sphel with
    | none => simp [PA.sphelDiffers, h2'.1]
    | some s => simp [PA.sphelDiffers, h2'.1, ← h2'.2 s hsp]), ok_bind]
  have hv : PA.verifyElectrons e = .error .thrown := by
    rcases h with h | h | ⟨s, hs, h⟩ | ⟨x, rfl, h⟩
    · omega
    · exact absurd h2'.1 h
    · exact absurd (h2'.2 s hs) h
    · simp only [PA.verifyElectrons]
      by_cases hg : x.subsh.n ≠ x.xprob.n ∨ x.subsh.n ≠ x.esze.NSSH ∨ x.subsh.n ≠ x.eion.length
      · rw [show (!(x.subsh.n != x.xprob.n || x.subsh.n != x.esze.NSSH || x.subsh.n != x.eion.length)) = false by
          rcases hg with hg | hg | hg <;> simp [hg]]
        rfl
      · obtain ⟨s, hs, hn⟩ : ∃ s, x.selas = some s ∧ x.esze.n ≠ s.n := by
          rcases h with h | h | h | h
          · exact absurd (.inl h) hg
          · exact absurd (.inr (.inl h)) hg
          · exact absurd (.inr (.inr h)) hg
          · exact h
        have g : x.subsh.n = x.xprob.n ∧ x.subsh.n = x.esze.NSSH ∧ x.subsh.n = x.eion.length := by omega
        rw [guardThrow_eq_ok.mpr (by simp [← g.1, ← g.2.1, ← g.2.2]), ok_bind]
        simp only [hs]
        rw [show (!(x.esze.n != s.n)) = false by simpa using hn]
        rfl
  rw [hv]
  rfl

/-- More than 16 targets or less atomic masses than targets: undefined behaviour, not refused. -/
theorem C32_targets (zaid : List Char) (b : PA.Input) (h : 16 < b.za.length ∨ b.awr.length < b.za.length) :
    PA.mk' zaid b = .error .ub := by
  unfold PA.mk' PA.generateData PA.targets
  rw [if_neg (by omega)]
  rfl

/-- Electron data without a SUBSH block: all of them are lost, silently (unless SPHEL has another
number of energies): the table is the one made without them. -/
theorem C32_lost_electrons (zaid : List Char) (b : PA.Input) (h : b.subsh = none)
    (hs : ∀ s, b.sphel = some s → s.n = b.eszg.n) :
    PA.mk' zaid b = PA.mk' zaid { b with
      sphel := none, xprob := none, esze := none, excit := none, elas := none, eion := [], breme := none
      breml := none, selas := none } := by
  have e1 : PA.electrons b = .ok none := by unfold PA.electrons; rw [h]
  have e2 : PA.electrons { b with
      sphel := none, xprob := none, esze := none, excit := none, elas := none, eion := [], breme := none
      breml := none, selas := none } = .ok none := by unfold PA.electrons; simp only [h]
  have e3 : PA.sphelDiffers b.eszg.n b.sphel = PA.sphelDiffers b.eszg.n none := by
    cases hb : b.sphel with
    | none => rfl
    | some s => simp [PA.sphelDiffers, hs s hb]
  unfold PA.mk' PA.generateData
  simp only [e1, e2, e3]

/-- A SUBSH block without one of the blocks that go with it: an empty optional is read. -/
theorem C32_missing_electrons (zaid : List Char) (b : PA.Input) (h16 : b.za.length ≤ 16)
    (hle : b.za.length ≤ b.awr.length) (h : b.subsh.isSome)
    (hs : b.sphel = none ∨ b.xprob = none ∨ b.esze = none ∨ b.excit = none ∨ b.elas = none ∨ b.breme = none ∨
      b.breml = none) : PA.mk' zaid b = .error .ub := by
  have e1 : PA.electrons b = .error .ub := by
    obtain ⟨z, za, awr, eszg, jinc, jcoh, lhnm, jflo, eps, swd, subsh, sphel, xprob, esze, excit, elas, eion,
      breme, breml, selas⟩ := b
    simp only at h hs
    cases subsh with
    | none => cases h
    | some s =>
      rcases hs with rfl | rfl | rfl | rfl | rfl | rfl | rfl
      · rfl
      · cases sphel <;> rfl
      · cases sphel <;> cases xprob <;> rfl
      · cases sphel <;> cases xprob <;> cases esze <;> rfl
      · cases sphel <;> cases xprob <;> cases esze <;> cases excit <;> rfl
      · cases sphel <;> cases xprob <;> cases esze <;> cases excit <;> cases elas <;> rfl
      · cases sphel <;> cases xprob <;> cases esze <;> cases excit <;> cases elas <;> cases breme <;> rfl
  unfold PA.mk' PA.generateData PA.targets
  simp only [if_pos (⟨h16, hle⟩ : b.za.length ≤ 16 ∧ b.za.length ≤ b.awr.length), ok_bind, e1]
  rfl

/-! ## Concrete cases -/

namespace C32
deriving instance Inhabited for JINC, JCOH, ElectronBlock, ElectronDist, TabProb

/-- Two energies. -/
def exEszg : ESZG := made (ESZG.mk' [num 1, num 2] [num 3, num 4] [num 5, num 6] [num 7, num 8] [num 9, num 10])
/-- Three momenta. -/
def exJinc : JINC := made (JINC.mkTabulated [num 11, num 12, num 13] [num 14, num 15, num 16])
/-- One momentum. -/
def exJcoh : JCOH := made (JCOH.mkTabulated [num 17] [num 18] [num 19])
/-- Heating numbers. -/
def exLhnm : LHNM := made (LHNM.mk' [num 20, num 21])
/-- One fluorescence edge. -/
def exJflo : JFLO := made (JFLO.mk' [num 22] [num 23] [num 24] [num 25])
/-- A Compton profile. -/
def exProfile : TabProb := made (TabProb.mk' 2 [num 26, num 27] [num 28, num 29] [num 30, num 31] [])
/-- Two shells. -/
def exEps : EPS := made (EPS.mk' [2, 3] [num 32, num 33] [num 34, num 35])
/-- Two profiles. -/
def exSwd : SWD := made (SWD.mk' [exProfile, exProfile])
/-- A transition. -/
def exTran : TRAN := made (TRAN.mk' [1] [2] [num 36] [num 37])
/-- A distribution. -/
def exDist : ElectronDist := made (ElectronDist.mk' (num 38) [num 39, num 40] [num 41, num 42])
/-- One energy. -/
def exElectron : ElectronBlock := made (ElectronBlock.mk' [exDist])
/-- Two energies. -/
def exElectron2 : ElectronBlock := made (ElectronBlock.mk' [exDist, exDist])
/-- Two subshells. -/
def exElectrons : PA.Electrons where
  subsh := made (SUBSH.mk' [1, 2] [num 1, num 2] [num 3, num 4] [num 5, num 6] [1, 1])
  sphel := made (SPHEL.mk' [[num 43, num 44], [num 45, num 46]])
  xprob := made (XPROB.mk' [exTran, exTran])
  esze := made (ESZE.mk' (fun a _ => a) [num 1] [num 2] [num 3] [num 4] [[num 5], [num 6]])
  excit := made (EXCIT.mk' [num 1] [num 2])
  elas := exElectron2
  eion := [exElectron, exElectron2]
  breme := exElectron
  breml := made (BREML.mk' [num 1] [num 2])
  selas := some (made (SELAS.mk' [num 3] [num 4]))

theorem exElectrons_made : ElectronsMade exElectrons 2 2 where
  subsh := ⟨[1, 2], [num 1, num 2], [num 3, num 4], [num 5, num 6], [1, 1], by decide +kernel, rfl⟩
  sphel := ⟨[[num 43, num 44], [num 45, num 46]], by decide +kernel, rfl⟩
  sphel_nes := by decide +kernel
  xprob := ⟨[exTran, exTran], by decide +kernel, rfl⟩
  esze := ⟨fun a _ => a, [num 1], [num 2], [num 3], [num 4], [[num 5], [num 6]], by decide +kernel, rfl⟩
  excit := ⟨[num 1], [num 2], by decide +kernel⟩
  elas := ⟨[exDist, exDist], by decide +kernel⟩
  eion := by
    intro b hb
    have hb' : b = exElectron ∨ b = exElectron2 := by simpa [exElectrons] using hb
    rcases hb' with rfl | rfl
    · exact ⟨[exDist], by decide +kernel, by decide⟩
    · exact ⟨[exDist, exDist], by decide +kernel, by decide⟩
  eion_count := rfl
  breme := ⟨[exDist], by decide +kernel⟩
  breml := ⟨[num 1], [num 2], by decide +kernel⟩
  selas := by
    intro s hs
    have hs' : made (SELAS.mk' [num 3] [num 4]) = s := by injection hs
    subst hs'
    exact ⟨⟨[num 3], [num 4], by decide +kernel⟩, by decide +kernel⟩

/-- Everything. -/
def exAll : PABlocks :=
  ⟨1, [1000], [num 1], exEszg, exJinc, exJcoh, exLhnm, some exJflo, some (exEps, exSwd), some exElectrons⟩
/-- No optional blocks. -/
def exNone : PABlocks := ⟨1, [1000], [num 1], exEszg, exJinc, exJcoh, exLhnm, none, none, none⟩

theorem exAll_made : exAll.Made where
  eszg := ⟨[num 1, num 2], [num 3, num 4], [num 5, num 6], [num 7, num 8], [num 9, num 10], by decide +kernel⟩
  jinc := .inr ⟨[num 11, num 12, num 13], [num 14, num 15, num 16], by decide +kernel⟩
  jcoh := .inr ⟨[num 17], [num 18], [num 19], by decide +kernel⟩
  lhnm := ⟨[num 20, num 21], by decide +kernel⟩
  nes := by decide +kernel
  targets := rfl
  sixteen := by decide
  jflo := by
    intro b hb
    have hb' : exJflo = b := by injection hb
    subst hb'
    exact ⟨⟨[num 22], [num 23], [num 24], [num 25], by decide +kernel⟩, by decide +kernel⟩
  shells := by
    intro b hb
    have hb' : (exEps, exSwd) = b := by injection hb
    subst hb'
    exact ⟨⟨[2, 3], [num 32, num 33], [num 34, num 35], by decide +kernel⟩, by decide +kernel,
      ⟨[exProfile, exProfile], by decide +kernel⟩, by decide +kernel⟩
  electrons := by
    intro b hb
    have hb' : exElectrons = b := by injection hb
    subst hb'
    exact ⟨2, exElectrons_made⟩

theorem exAll_fits : exAll.Fits where
  z := by decide
  words := by decide +kernel
  eszg := by decide +kernel
  jinc := by decide +kernel
  jcoh := by decide +kernel
  jflo := by
    intro b hb
    have hb' : exJflo = b := by injection hb
    subst hb'
    decide +kernel
  swd := by
    intro b hb
    have hb' : (exEps, exSwd) = b := by injection hb
    subst hb'
    decide +kernel
  electrons := by
    intro b hb
    have hb' : exElectrons = b := by injection hb
    subst hb'
    refine ⟨?_, ?_, ?_, ?_, ?_, ?_⟩ <;> decide +kernel

end C32

/-- C32 with all blocks. -/
example : ∃ t, PA.mk' "1000.12p".toList C32.exAll.input = .ok t ∧ t.swd = some C32.exSwd ∧
    t.elas = some C32.exElectron2 ∧ t.EION 2 = .ok C32.exElectron2 ∧ t.NEPR = .ok 3 := by
  obtain ⟨t, h, _, hr⟩ := C32_blocks_partial "1000.12p".toList C32.exAll (C32_built C32.exAll_made)
    C32.exAll_fits (by decide +kernel)
  have e1 : C32.exAll.input.swd = some C32.exSwd := by
    simp only [PABlocks.input, C32.exAll, Option.map]
  have e2 : C32.exAll.input.elas = some C32.exElectron2 := by
    simp only [PABlocks.input, C32.exAll, Option.map, C32.exElectrons]
  have e5 : C32.exAll.input.eion = [C32.exElectron, C32.exElectron2] := by
    simp only [PABlocks.input, C32.exAll, C32.exElectrons]
  have e3 := hr.each 1 (by rw [e5]; decide)
  have e4 := hr.nepr
  refine ⟨t, h, by rw [hr.swd, e1], by rw [hr.elas, e2], ?_, ?_⟩
  · simp only [e3, e5]; rfl
  · rw [e4]; rfl

/-- Different numbers of subshells. -/
example : PA.mk' "1000.12p".toList { C32.exAll.input with eion := [C32.exElectron] } = .error .thrown :=
  C32_refused _ _ (some { C32.exElectrons with eion := [C32.exElectron] }) rfl (by decide) (by decide)
    (.inr (.inr (.inr ⟨_, rfl, .inr (.inr (.inl (by decide +kernel)))⟩)))

example : PA.mk' "1000.12p".toList { C32.exAll.input with subsh := none } =
    PA.mk' "1000.12p".toList { C32.exAll.input with
      subsh := none, sphel := none, xprob := none, esze := none, excit := none, elas := none, eion := []
      breme := none, breml := none, selas := none } :=
  C32_lost_electrons _ _ rfl (by
    intro s hs
    have hs' : C32.exElectrons.sphel = s := by injection hs
    subst hs'
    decide +kernel)

/-! ## Further findings -/

/-- Shell data (EPS) without Compton profiles are lost, silently; Compton profiles without shell data
are undefined behaviour. -/
theorem C32_shells :
    (PA.mk' "1000.12p".toList { C32.exNone.input with eps := some C32.exEps }).map (fun t => t.eps) = .ok none ∧
    PA.mk' "1000.12p".toList { C32.exNone.input with swd := some C32.exSwd } = .error .ub := by
  constructor <;> decide +kernel

/-- Shell data for another number of shells than the Compton profiles are accepted; the first binding
energy, 32, comes back as the number of electrons of the second shell, 3. -/
theorem C32_shell_count :
    (do let swd ← SWD.mk' [C32.exProfile]
        let t ← PA.mk' "1000.12p".toList { C32.exNone.input with eps := some C32.exEps, swd := some swd }
        match t.eps with
        | some b => return ((← C32.exEps.LBEPS), (← b.LBEPS))
        | none => return ([], [])) = .ok ([num 32, num 33], [num 3]) := by decide +kernel

/-- An empty fluorescence block is lost. -/
theorem C32_empty_jflo :
    (do let b ← JFLO.mk' [] [] [] []
        let t ← PA.mk' "1000.12p".toList { C32.exNone.input with jflo := some b }
        return t.jflo) = .ok none := by decide +kernel

/-- Photoelectric cross sections for more subshells than the other blocks are accepted, and those of
the last ones are not given back. -/
theorem C32_sphel :
    (do let b ← SPHEL.mk' [[num 43, num 44], [num 45, num 46], [num 47, num 48]]
        let t ← PA.mk' "1000.12p".toList { C32.exAll.input with sphel := some b }
        return (b.m, t.sphel.map (fun x : SPHEL => (x.m, x.photoelectric 3)))) =
      .ok (3, some (2, .error .range)) := by decide +kernel

/-- The full statement: whatever is given to the constructor, it refuses or gives back. -/
def C32Statement : Prop := ∀ (zaid : List Char) (b : PA.Input),
  PA.mk' zaid b = .error .thrown ∨ ∃ t, PA.mk' zaid b = .ok t ∧ PAReturned b t

/-- It does not hold. -/
theorem C32_false : ¬ C32Statement := by
  intro h
  have hn := C32_shells.1
  rcases h "1000.12p".toList { C32.exNone.input with eps := some C32.exEps } with h | ⟨t, h, hr⟩
  · rw [h] at hn; cases hn
  · have h5 : t.eps = some C32.exEps := hr.eps
    rw [h] at hn
    have h6 : t.eps = none := by
      have : (Except.ok t.eps : Res (Option EPS)) = .ok none := hn
      injection this
    rw [h6] at h5
    cases h5

end ACE.Props

import Verif.Props.C13

/-!
# C18: several energy laws for one reaction

`MultiSpec` lists the probability tables and the laws a user gives. False in general: the inner
locators of laws 61 and 67 are not made again, and the reader of law 67 goes on to law 1. Proved
for the other laws, for any number of them, any sizes and any base locator.
-/

namespace ACE.Props
open ACE

namespace LawSpec

/-- The same law at another locator and (for laws without energies of their own) with other incident
energies. -/
def at' (idat : Nat) (emin emax : Dbl) : LawSpec → LawSpec
  | equiprobable b i bins => equiprobable b i bins
  | photon _ _ lp e => photon emin emax lp e
  | level _ _ c1 c2 => level emin emax c1 c2
  | tabulated b i vs _ => tabulated b i vs idat
  | general b i e t bins => general b i e t bins
  | maxwell b i e t u => maxwell b i e t u
  | evaporation b i e t u => evaporation b i e t u
  | watt b i e as b' i' e' bs u => watt b i e as b' i' e' bs u
  | kalbach b i vs _ => kalbach b i vs idat
  | nbody _ _ npsx ap int v p c => nbody emin emax npsx ap int v p c
  | transfer _ _ c1 c2 => transfer emin emax c1 c2
  | energyAngle b i vs _ => energyAngle b i vs idat
  | angleEnergy b i vs _ => angleEnergy b i vs idat

theorem at_gives (s : LawSpec) (idat : Nat) (e e' : Dbl) (i : Nat) (a b : Dbl) (d : LawData) :
    (s.at' idat e e').Gives i a b d = s.Gives i a b d := by
  cases s <;> cases d <;> rfl

theorem at_number (s : LawSpec) (idat : Nat) (e e' : Dbl) : (s.at' idat e e').number = s.number := by
  cases s <;> rfl

theorem at_ok (s : LawSpec) (idat : Nat) (e e' : Dbl) : (s.at' idat e e').Ok = s.Ok := by
  cases s <;> rfl

theorem at_nonempty (s : LawSpec) (idat : Nat) (e e' : Dbl) :
    (s.at' idat e e').Nonempty = s.Nonempty := by
  cases s <;> rfl

theorem at_locator (s : LawSpec) (idat : Nat) (e e' : Dbl) : (s.at' idat e e').locator ≤ idat := by
  cases s <;> first | exact Nat.le_refl _ | exact Nat.zero_le _

end LawSpec

/-- A law whose data hold distributions that hold locators themselves. -/
def Nested (s : LawSpec) : Prop := s.number = 61 ∨ s.number = 67

instance (s : LawSpec) : Decidable (Nested s) := by unfold Nested; infer_instance

theorem equi_inv {xs : Words} {y : EquiBinData} :
    (EquiBinData.ofRange xs = .ok y → EquiBinData.generateBlocks xs = .ok y) ∧
    (EquiBinData.generateBlocks xs = .ok y → y.xss = xs) := by
  constructor
  · intro h
    unfold EquiBinData.ofRange at h
    simp only [bind_eq_ok] at h
    obtain ⟨_, _, _, _, _, _, _, _, h⟩ := h
    exact h
  · intro h
    unfold EquiBinData.generateBlocks at h
    simp only [bind_eq_ok] at h
    obtain ⟨_, _, _, _, _, _, _, _, _, _, _, _, _, _, h⟩ := h
    injection h with h; rw [← h]

theorem genEvap_inv {xs : Words} {y : GenEvap} :
    (GenEvap.ofRange xs = .ok y → GenEvap.generateBlocks xs = .ok y) ∧
    (GenEvap.generateBlocks xs = .ok y → y.xss = xs) := by
  constructor
  · intro h
    unfold GenEvap.ofRange at h
    simp only [bind_eq_ok] at h
    obtain ⟨_, _, _, _, _, _, _, _, h⟩ := h
    exact h
  · intro h
    unfold GenEvap.generateBlocks at h
    simp only [bind_eq_ok] at h
    obtain ⟨_, _, _, _, _, _, _, _, _, _, _, _, h⟩ := h
    injection h with h; rw [← h]

theorem evaporation_inv {xs : Words} {y : Evaporation} :
    (Evaporation.ofRange xs = .ok y → Evaporation.generateBlocks xs = .ok y) ∧
    (Evaporation.generateBlocks xs = .ok y → y.xss = xs) := by
  constructor
  · intro h
    unfold Evaporation.ofRange at h
    simp only [bind_eq_ok] at h
    obtain ⟨_, _, _, _, _, _, _, _, _, _, h⟩ := h
    exact h
  · intro h
    unfold Evaporation.generateBlocks at h
    simp only [bind_eq_ok] at h
    obtain ⟨_, _, _, _, _, _, _, _, h⟩ := h
    injection h with h; rw [← h]

theorem watt_inv {xs : Words} {y : Watt} :
    (Watt.ofRange xs = .ok y → Watt.generateBlocks xs = .ok y) ∧
    (Watt.generateBlocks xs = .ok y → y.xss = xs) := by
  constructor
  · intro h
    unfold Watt.ofRange at h
    simp only [bind_eq_ok] at h
    obtain ⟨_, _, _, _, _, _, _, _, _, _, h⟩ := h
    exact h
  · intro h
    unfold Watt.generateBlocks at h
    simp only [bind_eq_ok] at h
    obtain ⟨_, _, _, _, _, _, _, _, _, _, _, _, _, _, _, _, h⟩ := h
    injection h with h; rw [← h]

theorem law4_inv {xs : Words} {locb : Nat} {y : Law4} (h : Law4.ofRange locb xs = .ok y) :
    DistData.generateBlocks Law4.gen xs locb = .ok y := by
  unfold Law4.ofRange DistData.ofRange at h
  simp only [bind_eq_ok] at h
  obtain ⟨_, _, _, _, _, _, _, _, _, _, h⟩ := h
  exact h

theorem law4_mk_inv {b i : List Int} {ds : List TabDist} {locb : Nat} {y : Law4}
    (h : Law4.mk' b i ds locb = .ok y) : DistData.generateBlocks Law4.gen y.xss locb = .ok y := by
  unfold Law4.mk' DistData.mk' at h
  obtain ⟨xs, _, h⟩ := bind_eq_ok.mp h
  rw [distData_xss h]; exact h

/-- Data of a law that is not nested, put at `idat` and read there, are the data that the constructor
makes at `idat`. -/
theorem place_exact (sort : StdSort EquiEnergy.incident) (s : LawSpec) (d : LawData)
    (hb : s.build sort = .ok d) (hok : s.Ok) (hf : FitsN (s.locator + d.words.length + 1))
    (hn : ¬ Nested s) (idat : Nat) (hfi : FitsN (idat + d.words.length + 1)) :
    ∃ ws, d.placedMulti idat = .ok ws ∧ ws.length = d.words.length ∧ ∀ emin emax,
      (∃ d', LawData.read s.number idat ws emin emax = .ok d' ∧
        (s.at' idat emin emax).build sort = .ok d' ∧ d'.words = ws ∧ s.Gives idat emin emax d') ∧
      ∀ rest, ∃ d', LawData.read s.number idat (ws ++ rest) emin emax = .ok d' ∧
        s.Gives idat emin emax d' := by
  obtain ⟨ws, h1, h2, h3⟩ := (law_facts sort s d hb hok hf).place idat hfi
  have hp : d.placedMulti idat = d.placed idat := by
    cases d <;> first
      | rfl
      | (exfalso; apply hn
         rcases build_kind sort s _ hb with e | e
         · exact Or.inl e.symm
         · exact Or.inr e.1)
  refine ⟨ws, hp.trans h1, h2, fun emin emax => ⟨?_, fun rest => h3 emin emax rest⟩⟩
  obtain ⟨d', r1, r2⟩ := h3 emin emax []
  rw [List.append_nil] at r1
  refine ⟨d', r1, ?_⟩
  cases s with
  | equiprobable b i bins =>
    obtain ⟨x, hx, hb⟩ := bind_eq_ok.mp hb
    injection hb with hb; subst hb
    injection h1 with h1
    have h1' : x.xss = ws := h1
    subst h1'
    obtain ⟨y, hy, r1⟩ := bind_eq_ok.mp r1
    injection r1 with r1; subst r1
    have hy := equi_inv.1 hy
    have hx' := hx
    unfold EquiBinData.mk' at hx'
    obtain ⟨xs, hx1, hx2⟩ := bind_eq_ok.mp hx'
    rw [← equi_inv.2 hx2, hy] at hx2
    injection hx2 with e; subst e
    exact ⟨by show (EquiBinData.mk' sort b i bins >>= fun d => pure (LawData.equiprobable d)) = _
              rw [hx]; rfl, rfl, r2⟩
  | photon e e' lp energy =>
    injection hb with hb; subst hb
    injection h1 with h1
    have h1' : [Dbl.ofNat lp, energy] = ws := h1
    subst h1'
    injection r1 with r1; subst r1
    exact ⟨rfl, rfl, r2⟩
  | level e e' c1 c2 =>
    injection hb with hb; subst hb
    injection h1 with h1
    have h1' : [c1, c2] = ws := h1
    subst h1'
    injection r1 with r1; subst r1
    exact ⟨rfl, rfl, r2⟩
  | transfer e e' c1 c2 =>
    injection hb with hb; subst hb
    injection h1 with h1
    have h1' : [c1, c2] = ws := h1
    subst h1'
    injection r1 with r1; subst r1
    exact ⟨rfl, rfl, r2⟩
  | tabulated b i vs locb =>
    obtain ⟨bs, hbs, hb⟩ := bind_eq_ok.mp hb
    obtain ⟨x, hx, hb⟩ := bind_eq_ok.mp hb
    injection hb with hb; subst hb
    have key := law4_place mkEnergySpec (·.incident) (·.outgoing) IsEnergy vs bs hbs
      (fun v _ d hd => energySpec_xss v d hd)
      (fun v hm d hd hfv rest => (C08_energy v.incident v.int v.discrete v.outgoing v.pdf v.cdf d
        (hok.2.2 v hm).1 (hok.2.2 v hm).2 hfv hd rest).2)
      locb idat b i hok.1 hok.2.1 x hx hf hfi
    obtain ⟨ws', g0, _, _, d2, g2, g3⟩ := key.2.2
    rw [show LawData.placed idat (.tabulated x) = LawData.remake Law4.mk' x idat from rfl, g0] at h1
    injection h1 with h1; subst h1
    obtain ⟨y, hy, r1⟩ := bind_eq_ok.mp r1
    injection r1 with r1; subst r1
    have hy := law4_inv hy
    have hm := law4_mk_inv g2
    rw [g3, hy] at hm
    injection hm with hm; subst hm
    refine ⟨?_, g3, r2⟩
    show (vs.mapM mkEnergySpec >>= fun bs => Law4.mk' b i bs idat >>= fun d => pure (LawData.tabulated d)) = _
    rw [hbs, ok_bind, g2]; rfl
  | kalbach b i vs locb =>
    obtain ⟨bs, hbs, hb⟩ := bind_eq_ok.mp hb
    obtain ⟨x, hx, hb⟩ := bind_eq_ok.mp hb
    injection hb with hb; subst hb
    have key := law4_place mkKalbachSpec (·.1.incident) (·.1.outgoing) IsKalbach vs bs hbs
      (fun v _ d hd => kalbachSpec_xss v d hd)
      (fun v hm d hd hfv rest => by
        obtain ⟨_, d', h1, h2, h3⟩ := C08_kalbach v.1.incident v.1.int v.1.discrete v.1.outgoing
          v.1.pdf v.1.cdf v.2.1 v.2.2 d (hok.2.2 v hm).1 (hok.2.2 v hm).2 hfv hd rest
        exact ⟨d', h1, h2, h3⟩)
      locb idat b i hok.1 hok.2.1 x hx hf hfi
    obtain ⟨ws', g0, _, _, d2, g2, g3⟩ := key.2.2
    rw [show LawData.placed idat (.kalbach x) = LawData.remake Law4.mk' x idat from rfl, g0] at h1
    injection h1 with h1; subst h1
    obtain ⟨y, hy, r1⟩ := bind_eq_ok.mp r1
    injection r1 with r1; subst r1
    have hy := law4_inv hy
    have hm := law4_mk_inv g2
    rw [g3, hy] at hm
    injection hm with hm; subst hm
    refine ⟨?_, g3, r2⟩
    show (vs.mapM mkKalbachSpec >>= fun bs => Law4.mk' b i bs idat >>= fun d => pure (LawData.kalbach d)) = _
    rw [hbs, ok_bind, g2]; rfl
  | general b i e t bins =>
    obtain ⟨x, hx, hb⟩ := bind_eq_ok.mp hb
    injection hb with hb; subst hb
    injection h1 with h1
    have h1' : x.xss = ws := h1
    subst h1'
    obtain ⟨y, hy, r1⟩ := bind_eq_ok.mp r1
    injection r1 with r1; subst r1
    have hy := genEvap_inv.1 hy
    have hx' := hx
    unfold GenEvap.mk' at hx'
    obtain ⟨xs, hx1, hx2⟩ := bind_eq_ok.mp hx'
    rw [← genEvap_inv.2 hx2, hy] at hx2
    injection hx2 with e; subst e
    exact ⟨by show (GenEvap.mk' b i e t bins >>= fun d => pure (LawData.general d)) = _
              rw [hx]; rfl, rfl, r2⟩
  | maxwell b i e t u =>
    obtain ⟨x, hx, hb⟩ := bind_eq_ok.mp hb
    injection hb with hb; subst hb
    injection h1 with h1
    have h1' : x.xss = ws := h1
    subst h1'
    obtain ⟨y, hy, r1⟩ := bind_eq_ok.mp r1
    injection r1 with r1; subst r1
    have hy := evaporation_inv.1 hy
    have hx' := hx
    unfold Evaporation.mk' at hx'
    obtain ⟨xs, hx1, hx2⟩ := bind_eq_ok.mp hx'
    rw [← evaporation_inv.2 hx2, hy] at hx2
    injection hx2 with e; subst e
    exact ⟨by show (Evaporation.mk' b i e t u >>= fun d => pure (LawData.maxwell d)) = _
              rw [hx]; rfl, rfl, r2⟩
  | evaporation b i e t u =>
    obtain ⟨x, hx, hb⟩ := bind_eq_ok.mp hb
    injection hb with hb; subst hb
    injection h1 with h1
    have h1' : x.xss = ws := h1
    subst h1'
    obtain ⟨y, hy, r1⟩ := bind_eq_ok.mp r1
    injection r1 with r1; subst r1
    have hy := evaporation_inv.1 hy
    have hx' := hx
    unfold Evaporation.mk' at hx'
    obtain ⟨xs, hx1, hx2⟩ := bind_eq_ok.mp hx'
    rw [← evaporation_inv.2 hx2, hy] at hx2
    injection hx2 with e; subst e
    exact ⟨by show (Evaporation.mk' b i e t u >>= fun d => pure (LawData.evaporation d)) = _
              rw [hx]; rfl, rfl, r2⟩
  | watt b i e as b' i' e' bs u =>
    obtain ⟨ta, hta, hb⟩ := bind_eq_ok.mp hb
    obtain ⟨tb, htb, hb⟩ := bind_eq_ok.mp hb
    obtain ⟨x, hx, hb⟩ := bind_eq_ok.mp hb
    injection hb with hb; subst hb
    injection h1 with h1
    have h1' : x.xss = ws := h1
    subst h1'
    obtain ⟨y, hy, r1⟩ := bind_eq_ok.mp r1
    injection r1 with r1; subst r1
    have hy := watt_inv.1 hy
    have hx2 := hx
    unfold Watt.mk' at hx2
    rw [← watt_inv.2 hx2, hy] at hx2
    injection hx2 with e; subst e
    refine ⟨?_, rfl, r2⟩
    show (TabulatedData.mk' b i e as >>= fun a => TabulatedData.mk' b' i' e' bs >>= fun c =>
      Watt.mk' a c u >>= fun d => pure (LawData.watt d)) = _
    rw [hta, ok_bind, htb, ok_bind, hx]; rfl
  | nbody e e' npsx ap int v p c =>
    obtain ⟨x, hx, hb⟩ := bind_eq_ok.mp hb
    injection hb with hb; subst hb
    injection h1 with h1
    have h1' : x.xss = ws := h1
    subst h1'
    obtain ⟨y, hy, r1⟩ := bind_eq_ok.mp r1
    injection r1 with r1; subst r1
    unfold NBody.ofRange at hy
    obtain ⟨_, _, hy⟩ := bind_eq_ok.mp hy
    injection hy with hy; subst hy
    unfold NBody.mk' at hx
    obtain ⟨cs, hc, hx⟩ := bind_eq_ok.mp hx
    injection hx with hx; subst hx
    refine ⟨?_, rfl, r2⟩
    show (NBody.mk' emin emax npsx ap int v p c >>= fun d => pure (LawData.nbody d)) = _
    unfold NBody.mk'
    rw [hc]; rfl
  | energyAngle b i vs locb => exact absurd (Or.inl rfl) hn
  | angleEnergy b i vs locb => exact absurd (Or.inr rfl) hn

/-! ## Specification -/

/-- The probability table of a law as the user gives it. -/
structure ProbSpec where
  b : List Int
  i : List Int
  energies : Words
  probabilities : Words

/-- The probability tables and laws as the user gives them. -/
abbrev MultiSpec := List (ProbSpec × LawSpec)

/-- The call of the constructor of a table. -/
def ProbSpec.build (p : ProbSpec) : Res TabulatedData :=
  TabulatedData.mk' p.b p.i p.energies p.probabilities

/-- What is asked of the values of one law: the table can be built, has at least one energy, and the
law has values in range. -/
structure LawOk (p : ProbSpec) (s : LawSpec) : Prop where
  table : TabulatedData.Valid p.b p.i p.energies p.probabilities
  energies : p.energies ≠ []
  law : s.Ok
  plain : ¬ Nested s

/-- The sizes of the parts: three words, the table and the data of the law. -/
def lens (ps : List TabulatedData) (ds : List LawData) : List Nat :=
  List.zipWith (fun p d => 3 + p.xss.length + d.words.length) ps ds

/-- The locator of the data of law `k`. -/
def idatOf (locb : Nat) (ps : List TabulatedData) (ds : List LawData) (k : Nat) : Nat :=
  locb + ((lens ps ds).take k).sum + 3 + ((ps.map (·.xss.length)).getD k 0)

/-- The laws are given back: as many as given, each with its table and with the values of the law;
the energy range of laws without energies of their own is that of the table. -/
structure MultiGives (m : MultiSpec) (idat : Nat → Nat) (d : MultiData) : Prop where
  count : d.numberDistributions = m.length
  probability : ∀ (k : Nat) (h : k < m.length), ∃ p, d.probability (k + 1) = .ok p ∧
    GivesTable p m[k].1.b m[k].1.i m[k].1.energies m[k].1.probabilities
  distribution : ∀ (k : Nat) (h : k < m.length), ∃ emin emax e,
    LawSpec.Ends m[k].1.energies emin emax ∧ d.distribution (k + 1) = .ok e ∧
      m[k].2.Gives (idat k) emin emax e
  refused : ∀ k, k = 0 ∨ m.length < k →
    d.probability k = .error .range ∧ d.distribution k = .error .range

/-! ## The words and their reading -/

/-- `loop` without its accumulator. -/
def tailWords (locb before : Nat) : List (TabulatedData × LawData) → Res Words
  | [] => .ok []
  | (p, d) :: rest => do
      let idat := before + 3 + p.xss.length + locb
      let ws ← d.placedMulti idat
      let lnw := if rest.isEmpty then 0 else before + 3 + p.xss.length + ws.length + locb
      let t ← tailWords locb (before + 3 + p.xss.length + ws.length) rest
      return (Dbl.ofNat lnw :: Dbl.ofInt d.LAW :: Dbl.ofNat idat :: p.xss) ++ ws ++ t

theorem loop_eq (locb : Nat) (l : List (TabulatedData × LawData)) (xss : Words) :
    MultiData.loop locb l xss = (tailWords locb xss.length l >>= fun t => pure (xss ++ t)) := by
  induction l generalizing xss with
  | nil => simp [MultiData.loop, tailWords]
  | cons a l ih =>
    obtain ⟨p, d⟩ := a
    unfold MultiData.loop tailWords
    cases h : d.placedMulti (xss.length + 3 + p.xss.length + locb) with
    | error e => simp only [h]; rfl
    | ok ws =>
      simp only [h, ok_bind]
      rw [ih]
      have e : (xss ++ (Dbl.ofNat (if l.isEmpty = true then 0
          else xss.length + 3 + p.xss.length + ws.length + locb) :: Dbl.ofInt d.LAW ::
          Dbl.ofNat (xss.length + 3 + p.xss.length + locb) :: p.xss) ++ ws).length =
          xss.length + 3 + p.xss.length + ws.length := by simp; omega
      rw [e]
      cases tailWords locb (xss.length + 3 + p.xss.length + ws.length) l with
      | error e => rfl
      | ok t => simp [pure, Except.pure]

/-- Built tables and laws. -/
structure Built (sort : StdSort EquiEnergy.incident) (m : MultiSpec) (ps : List TabulatedData)
    (ds : List LawData) : Prop where
  np : ps.length = m.length
  nd : ds.length = m.length
  table : ∀ (k : Nat) (h : k < m.length), m[k].1.build = .ok (ps[k]'(by omega))
  law : ∀ (k : Nat) (h : k < m.length), m[k].2.build sort = .ok (ds[k]'(by omega))
  ok : ∀ (k : Nat) (h : k < m.length), LawOk m[k].1 m[k].2
  size : ∀ (k : Nat) (h : k < m.length),
    FitsN (m[k].2.locator + (ds[k]'(by omega)).words.length + 1)

theorem Built.tail {sort : StdSort EquiEnergy.incident} {a : ProbSpec × LawSpec} {m : MultiSpec}
    {p : TabulatedData} {ps : List TabulatedData} {d : LawData} {ds : List LawData}
    (h : Built sort (a :: m) (p :: ps) (d :: ds)) : Built sort m ps ds where
  np := by simpa using h.np
  nd := by simpa using h.nd
  table := fun k hk => h.table (k + 1) (by simpa using hk)
  law := fun k hk => h.law (k + 1) (by simpa using hk)
  ok := fun k hk => h.ok (k + 1) (by simpa using hk)
  size := fun k hk => h.size (k + 1) (by simpa using hk)

theorem law_number_fits (s : LawSpec) : Fits s.number ∧ wrap16 s.number = s.number := by
  cases s <;> simp [LawSpec.number, Fits, wrap16]

/-- One step of the loop of the reader. -/
theorem blocks_step {b i : List Int} {x y : Words} (hv : TabulatedData.Valid b i x y)
    (emin emax : Dbl) (he : LawSpec.Ends x emin emax) (pre ws tl : Words) (law : Int)
    (hl : Fits law) (hl' : wrap16 law = law) (h67 : law ≠ 67) (locb fuel : Nat) (final : Bool)
    (hf : FitsN (locb + pre.length + 3 + (TabulatedData.words b i x y).length + ws.length))
    (d' : LawData)
    (hr : LawData.read law (pre.length + 3 + (TabulatedData.words b i x y).length + locb)
      (if final then ws ++ tl else ws) emin emax = .ok d') :
    MultiData.blocks (pre ++ ((Dbl.ofNat (if final then 0 else
        pre.length + 3 + (TabulatedData.words b i x y).length + ws.length + locb) :: Dbl.ofInt law ::
        Dbl.ofNat (pre.length + 3 + (TabulatedData.words b i x y).length + locb) ::
        TabulatedData.words b i x y) ++ ws ++ tl)) locb (fuel + 1) (pre.length + 1) =
      (if final then .ok ([TabulatedData.tab b i x y []], [d']) else
        (MultiData.blocks (pre ++ ((Dbl.ofNat (if final then 0 else
        pre.length + 3 + (TabulatedData.words b i x y).length + ws.length + locb) :: Dbl.ofInt law ::
        Dbl.ofNat (pre.length + 3 + (TabulatedData.words b i x y).length + locb) ::
        TabulatedData.words b i x y) ++ ws ++ tl)) locb fuel
          (pre.length + 3 + (TabulatedData.words b i x y).length + ws.length + 1) >>= fun r =>
          pure (TabulatedData.tab b i x y [] :: r.1, d' :: r.2))) := by
  generalize hp : TabulatedData.words b i x y = pw at *
  generalize hlnw : (if final then 0 else pre.length + 3 + pw.length + ws.length + locb) = lnw
  generalize hxs : pre ++ ((Dbl.ofNat lnw :: Dbl.ofInt law ::
        Dbl.ofNat (pre.length + 3 + pw.length + locb) :: pw) ++ ws ++ tl) = xs
  have fl : FitsN lnw := by subst hlnw; split <;> omega
  have i1 : Base.IXSS xs (pre.length + 1) = .ok (lnw : Int) :=
    Base.IXSS_ofNat (a := pre) (by rw [← hxs]; simp; rfl) rfl fl
  have i2 : Base.IXSS xs (pre.length + 1 + 1) = .ok law :=
    Base.IXSS_of_eq (a := pre ++ [Dbl.ofNat lnw]) (by rw [← hxs]; simp; rfl) (by simp) hl
  have i3 : Base.IXSS xs (pre.length + 1 + 2) =
      .ok ((pre.length + 3 + pw.length + locb : Nat) : Int) :=
    Base.IXSS_ofNat (a := pre ++ [Dbl.ofNat lnw, Dbl.ofInt law]) (by rw [← hxs]; simp; rfl)
      (by simp) (by omega)
  have s1 : sub xs (pre.length + 1 + 2) (pre.length + 3 + pw.length) = .ok pw :=
    sub_of_eq (a := pre ++ [Dbl.ofNat lnw, Dbl.ofInt law,
      Dbl.ofNat (pre.length + 3 + pw.length + locb)]) (c := ws ++ tl) (by rw [← hxs]; simp)
      (by simp) (by simp)
  have hx : (TabulatedData.tab b i x y []).x = .ok x :=
    (TabulatedData.tab_accessors hv []).2.2.2.2.1
  generalize hR : MultiData.blocks xs locb fuel (pre.length + 3 + pw.length + ws.length + 1) = R
  unfold MultiData.blocks
  simp only [i1, i2, i3, ok_bind, sizeOfInt_natCast fl, hl']
  rw [sizeOfInt_natCast (by omega), if_neg (by omega)]
  have e1 : pre.length + 3 + pw.length + locb - locb = pre.length + 3 + pw.length := by omega
  rw [e1]
  cases final with
  | true =>
    simp only [if_true] at hlnw hr ⊢
    subst hlnw
    have s2 : sub xs (pre.length + 3 + pw.length) xs.length = .ok (ws ++ tl) :=
      sub_of_eq (a := pre ++ [Dbl.ofNat 0, Dbl.ofInt law,
        Dbl.ofNat (pre.length + 3 + pw.length + locb)] ++ pw) (c := []) (by rw [← hxs]; simp)
        (by simp; omega) (by rw [← hxs]; simp; omega)
    unfold MultiData.endOf
    rw [if_pos rfl, ok_bind, s1, ok_bind, ← hp, TabulatedData.ofRange_exact hv, ok_bind, hx, ok_bind,
      deref_head he.1, ok_bind, ok_bind, getLast_split he.2, ok_bind, hp, s2, ok_bind]
    unfold LawData.readMulti
    rw [if_neg h67, hr]
    rfl
  | false =>
    simp only [Bool.false_eq_true, if_false] at hlnw hr ⊢
    have s2 : sub xs (pre.length + 3 + pw.length) (lnw - locb) = .ok ws :=
      sub_of_eq (a := pre ++ [Dbl.ofNat lnw, Dbl.ofInt law,
        Dbl.ofNat (pre.length + 3 + pw.length + locb)] ++ pw) (c := tl) (by rw [← hxs]; simp)
        (by simp; omega) (by simp; omega)
    unfold MultiData.endOf
    rw [if_neg (by omega), if_neg (by omega), ok_bind, s1, ok_bind, ← hp,
      TabulatedData.ofRange_exact hv, ok_bind, hx, ok_bind,
      deref_head he.1, ok_bind, ok_bind, getLast_split he.2, ok_bind, hp, s2, ok_bind]
    unfold LawData.readMulti
    rw [if_neg h67, hr, ok_bind, pure_bind, if_neg (by omega)]
    have e2 : lnw - locb + 1 = pre.length + 3 + pw.length + ws.length + 1 := by omega
    rw [e2, hR]
    rfl

theorem build_LAW (sort : StdSort EquiEnergy.incident) (s : LawSpec) (d : LawData)
    (hb : s.build sort = .ok d) (hn : ¬ Nested s) : d.LAW = s.number :=
  (build_kind sort s d hb).resolve_right fun h => hn (Or.inr h.1)

/-- What the reader finds for law `k`. -/
structure Found (sort : StdSort EquiEnergy.incident) (p : ProbSpec) (s : LawSpec) (d : LawData)
    (idat : Nat) (exact : Prop) (e : LawData) (emin emax : Dbl) : Prop where
  ends : LawSpec.Ends p.energies emin emax
  gives : s.Gives idat emin emax e
  same : exact → (s.at' idat emin emax).build sort = .ok e ∧ e.words.length = d.words.length

theorem multi_words (sort : StdSort EquiEnergy.incident) (m : MultiSpec) (ps : List TabulatedData)
    (ds : List LawData) (hb : Built sort m ps ds) (hm : m ≠ []) (locb before : Nat)
    (hf : FitsN (locb + before + (lens ps ds).sum + 1)) :
    ∃ t, tailWords locb before (ps.zip ds) = .ok t ∧ t.length = (lens ps ds).sum ∧
      ∀ (pre rest : Words) (fuel : Nat), pre.length = before → m.length ≤ fuel →
        ∃ es, MultiData.blocks (pre ++ (t ++ rest)) locb fuel (before + 1) = .ok (ps, es) ∧
          es.length = m.length ∧
          ∀ (k : Nat) (h1 : k < m.length) (h2 : k < ds.length) (h3 : k < es.length),
            ∃ emin emax, Found sort m[k].1 m[k].2 ds[k] (before + idatOf locb ps ds k)
              (rest = []) es[k] emin emax := by
  induction m generalizing ps ds before with
  | nil => exact absurd rfl hm
  | cons a m ih =>
    cases ps with
    | nil => have := hb.np; cases this
    | cons p ps =>
    cases ds with
    | nil => have := hb.nd; cases this
    | cons d ds =>
    obtain ⟨q, s⟩ := a
    have hp : q.build = .ok p := hb.table 0 (by simp)
    have hd : s.build sort = .ok d := hb.law 0 (by simp)
    have ok0 : LawOk q s := hb.ok 0 (by simp)
    have sz0 : FitsN (s.locator + d.words.length + 1) := hb.size 0 (by simp)
    have hsum : (lens (p :: ps) (d :: ds)).sum =
        3 + p.xss.length + d.words.length + (lens ps ds).sum := by simp [lens]
    rw [hsum] at hf ⊢
    unfold ProbSpec.build at hp
    rw [TabulatedData.mk'_ok ok0.table] at hp
    injection hp with hp; subst hp
    have hpx : (TabulatedData.tab q.b q.i q.energies q.probabilities []).xss =
        TabulatedData.words q.b q.i q.energies q.probabilities := by
      rw [TabulatedData.tab_xss, List.append_nil]
    rw [hpx] at hf ⊢
    generalize hpw : TabulatedData.words q.b q.i q.energies q.probabilities = pw at *
    obtain ⟨emin, emax, hends⟩ := ends_of ok0.energies
    obtain ⟨ws, w1, w2, w3⟩ := place_exact sort s d hd ok0.law sz0 ok0.plain
      (before + 3 + pw.length + locb) (by omega)
    obtain ⟨⟨d', r1, r2, r3, r4⟩, w4⟩ := w3 emin emax
    have hlaw := build_LAW sort s d hd ok0.plain
    obtain ⟨hl1, hl2⟩ := law_number_fits s
    have h67 : s.number ≠ 67 := fun h => ok0.plain (Or.inr h)
    have hid0 : before + idatOf locb (TabulatedData.tab q.b q.i q.energies q.probabilities [] :: ps)
        (d :: ds) 0 = before + 3 + pw.length + locb := by
      simp [idatOf, hpx]; omega
    have hids : ∀ k, before + idatOf locb
        (TabulatedData.tab q.b q.i q.energies q.probabilities [] :: ps) (d :: ds) (k + 1) =
        before + 3 + pw.length + ws.length + idatOf locb ps ds k := by
      intro k
      simp [idatOf, lens, hpx, w2]; omega
    cases m with
    | nil =>
      have hps : ps = [] := List.eq_nil_of_length_eq_zero (by simpa using hb.np)
      have hds : ds = [] := List.eq_nil_of_length_eq_zero (by simpa using hb.nd)
      subst hps hds
      refine ⟨(Dbl.ofNat 0 :: Dbl.ofInt d.LAW :: Dbl.ofNat (before + 3 + pw.length + locb) :: pw) ++ ws,
        ?_, ?_, fun pre rest fuel hpre hfuel => ?_⟩
      · simp only [List.zip_cons_cons, List.zip_nil_right, tailWords, hpx, w1, ok_bind]
        simp
      · simp [lens, w2]; omega
      · obtain ⟨d'', g1, g2⟩ := w4 rest
        cases fuel with
        | zero => simp at hfuel
        | succ fuel =>
        subst hpre hpw
        have hstep := blocks_step ok0.table emin emax hends pre ws rest s.number hl1 hl2 h67 locb fuel
          true (by omega) d'' (by simpa using g1)
        rw [← hlaw] at hstep
        refine ⟨[d''], by simpa using hstep, rfl, fun k h1 h2 h3 => ⟨emin, emax, ?_⟩⟩
        have hk : k = 0 := by simpa using h1
        subst hk
        rw [hid0]
        refine ⟨hends, g2, fun hr => ?_⟩
        subst hr
        rw [List.append_nil, r1] at g1
        injection g1 with g1
        rw [List.getElem_cons_zero, ← g1]
        exact ⟨r2, by simp [r3, w2]⟩
    | cons c m =>
      obtain ⟨t, t1, t2, t3⟩ := ih ps ds hb.tail (by simp) (before + 3 + pw.length + ws.length)
        (by omega)
      have hne : (ps.zip ds).isEmpty = false := by
        have h1 := hb.np; have h2 := hb.nd
        cases ps with
        | nil => simp at h1
        | cons _ _ =>
        cases ds with
        | nil => simp at h2
        | cons _ _ => rfl
      refine ⟨(Dbl.ofNat (before + 3 + pw.length + ws.length + locb) :: Dbl.ofInt d.LAW ::
        Dbl.ofNat (before + 3 + pw.length + locb) :: pw) ++ ws ++ t,
        ?_, ?_, fun pre rest fuel hpre hfuel => ?_⟩
      · simp only [List.zip_cons_cons, tailWords, hpx, w1, ok_bind, t1, hne]
        rfl
      · simp [t2, w2]; omega
      · cases fuel with
        | zero => simp at hfuel
        | succ fuel =>
        subst hpre hpw
        generalize hpw : TabulatedData.words q.b q.i q.energies q.probabilities = pw at *
        obtain ⟨es, e1, e2, e3⟩ := t3 (pre ++ (Dbl.ofNat (pre.length + 3 + pw.length + ws.length + locb)
          :: Dbl.ofInt d.LAW :: Dbl.ofNat (pre.length + 3 + pw.length + locb) :: pw) ++ ws) rest fuel
          (by simp; omega) (by simpa using hfuel)
        have hstep := blocks_step ok0.table emin emax hends pre ws (t ++ rest) s.number hl1 hl2 h67
          locb fuel false (by rw [hpw]; omega) d' (by rw [hpw]; simpa using r1)
        rw [← hlaw, hpw] at hstep
        simp only [Bool.false_eq_true, if_false] at hstep
        refine ⟨d' :: es, ?_, by simp [e2], fun k h1 h2 h3 => ?_⟩
        · have ea : pre ++ ((Dbl.ofNat (pre.length + 3 + pw.length + ws.length + locb)
            :: Dbl.ofInt d.LAW :: Dbl.ofNat (pre.length + 3 + pw.length + locb) :: pw) ++ ws ++ t ++ rest)
            = pre ++ ((Dbl.ofNat (pre.length + 3 + pw.length + ws.length + locb)
            :: Dbl.ofInt d.LAW :: Dbl.ofNat (pre.length + 3 + pw.length + locb) :: pw) ++ ws ++
              (t ++ rest)) := by simp
          have eb : pre ++ (Dbl.ofNat (pre.length + 3 + pw.length + ws.length + locb)
            :: Dbl.ofInt d.LAW :: Dbl.ofNat (pre.length + 3 + pw.length + locb) :: pw) ++ ws ++
              (t ++ rest)
            = pre ++ ((Dbl.ofNat (pre.length + 3 + pw.length + ws.length + locb)
            :: Dbl.ofInt d.LAW :: Dbl.ofNat (pre.length + 3 + pw.length + locb) :: pw) ++ ws ++
              (t ++ rest)) := by simp
          rw [eb] at e1
          rw [ea, hstep, e1]
          rfl
        · cases k with
          | zero =>
            refine ⟨emin, emax, ?_⟩
            rw [hid0]
            exact ⟨hends, r4, fun _ => ⟨r2, by simp [r3, w2]⟩⟩
          | succ k =>
            obtain ⟨a, b, hk⟩ := e3 k (by simpa using h1) (by simpa using h2) (by simpa using h3)
            refine ⟨a, b, ?_⟩
            rw [hids]
            exact hk

/-! ## The property -/

/-- The call of the constructor. -/
def MultiSpec.build (sort : StdSort EquiEnergy.incident) (m : MultiSpec) (locb : Nat) :
    Res MultiData := do
  let ps ← m.mapM (fun a => a.1.build)
  let ds ← m.mapM (fun a => a.2.build sort)
  MultiData.mk' ps ds locb

/-- The values of all laws are in range, no law is 61 or 67, and there is at least one law. -/
structure MultiSpec.Ok (m : MultiSpec) : Prop where
  laws : ∀ a ∈ m, LawOk a.1 a.2
  some : m ≠ []

/-- The sizes fit: the laws as built by the user, and all words at the base locator. -/
def MultiSpec.Fits (sort : StdSort EquiEnergy.incident) (m : MultiSpec) (locb : Nat)
    (ps : List TabulatedData) (ds : List LawData) : Prop :=
  m.mapM (fun a => a.1.build) = .ok ps ∧ m.mapM (fun a => a.2.build sort) = .ok ds ∧
  (∀ (k : Nat) (h : k < m.length) (h' : k < ds.length),
    FitsN (m[k].2.locator + ds[k].words.length + 1)) ∧
  FitsN (locb + (lens ps ds).sum + 1)

theorem fits_built {sort : StdSort EquiEnergy.incident} {m : MultiSpec} {locb : Nat}
    {ps : List TabulatedData} {ds : List LawData} (hok : m.Ok) (h : m.Fits sort locb ps ds) :
    Built sort m ps ds := by
  obtain ⟨h1, h2, h3, _⟩ := h
  obtain ⟨l1, e1⟩ := mapM_ok_iff _ _ _ h1
  obtain ⟨l2, e2⟩ := mapM_ok_iff _ _ _ h2
  exact ⟨l1, l2, fun k hk => e1 k hk (by omega), fun k hk => e2 k hk (by omega),
    fun k hk => hok.laws _ (List.getElem_mem hk), fun k hk => h3 k hk (by omega)⟩

theorem multi_gives_of {sort : StdSort EquiEnergy.incident} {m : MultiSpec} {locb : Nat}
    {ps : List TabulatedData} {ds : List LawData} (hb : Built sort m ps ds) (xs : Words)
    (es : List LawData) (he : es.length = m.length) (exact : Prop)
    (hk : ∀ (k : Nat) (h1 : k < m.length) (h2 : k < ds.length) (h3 : k < es.length),
      ∃ emin emax, Found sort m[k].1 m[k].2 ds[k] (0 + idatOf locb ps ds k) exact es[k] emin emax) :
    MultiGives m (idatOf locb ps ds) ⟨xs, locb, ps, es⟩ := by
  have hnp := hb.np; have hnd := hb.nd
  refine ⟨he, fun k h => ?_, fun k h => ?_, fun k h => ?_⟩
  · have ht := hb.table k h
    have hv := (hb.ok k h).table
    refine ⟨ps[k]'(by omega), ?_, ?_⟩
    · unfold MultiData.probability MultiData.numberDistributions
      rw [if_neg (by simp only [he]; omega)]
      simp only [Nat.add_sub_cancel]
      rw [List.getElem?_eq_getElem (by omega)]
    · exact (C07_built _ _ _ _ hv.fb hv.fx _ ht).1
  · obtain ⟨emin, emax, hf⟩ := hk k h (by omega) (by omega)
    refine ⟨emin, emax, es[k]'(by omega), hf.ends, ?_, by simpa using hf.gives⟩
    unfold MultiData.distribution MultiData.numberDistributions
    rw [if_neg (by simp only [he]; omega)]
    simp only [Nat.add_sub_cancel]
    rw [List.getElem?_eq_getElem (by omega)]
  · unfold MultiData.probability MultiData.distribution MultiData.numberDistributions
    rw [if_pos (by simp only [he]; omega), if_pos (by simp only [he]; omega)]
    exact ⟨rfl, rfl⟩

/-- Everything about several laws: they are built, give back what was given, also when read back
with any words behind, and can be made again for another base locator. -/
theorem multi_full (sort : StdSort EquiEnergy.incident) (m : MultiSpec) (hok : m.Ok) (locb : Nat)
    (ps : List TabulatedData) (ds : List LawData) (hf : m.Fits sort locb ps ds) :
    ∃ d, m.build sort locb = .ok d ∧ d.xss.length = (lens ps ds).sum ∧ d.locb = locb ∧
      MultiGives m (idatOf locb ps ds) d ∧
      (∀ rest, ∃ r, MultiData.ofRange locb (d.xss ++ rest) = .ok r ∧
        MultiGives m (idatOf locb ps ds) r) ∧
      d.probabilities = ps ∧ d.distributions.length = m.length ∧
      (∀ (k : Nat) (h1 : k < m.length) (h2 : k < ds.length) (h3 : k < d.distributions.length),
        ∃ emin emax, Found sort m[k].1 m[k].2 ds[k] (0 + idatOf locb ps ds k) True
          d.distributions[k] emin emax) ∧
      MultiData.generateXSS ps ds locb = .ok d.xss := by
  have hb := fits_built hok hf
  obtain ⟨h1, h2, h3, h4⟩ := hf
  obtain ⟨t, t1, t2, t3⟩ := multi_words sort m ps ds hb hok.some locb 0 (by omega)
  have hg : MultiData.generateXSS ps ds locb = .ok t := by
    unfold MultiData.generateXSS
    rw [guardThrow_ok (by simp [hb.np, hb.nd]), ok_bind, loop_eq]
    show (tailWords locb 0 (ps.zip ds) >>= fun t => pure ([] ++ t)) = _
    rw [t1]; rfl
  have hlen : m.length ≤ t.length := by
    have : ∀ (m : MultiSpec) (ps : List TabulatedData) (ds : List LawData), Built sort m ps ds →
        m.length ≤ (lens ps ds).sum := by
      intro m
      induction m with
      | nil => intro _ _ _; simp
      | cons a m ih =>
        intro ps ds hb
        cases ps with
        | nil => have := hb.np; cases this
        | cons p ps =>
        cases ds with
        | nil => have := hb.nd; cases this
        | cons d ds =>
          have := ih ps ds hb.tail
          simp [lens] at this ⊢; omega
    rw [t2]; exact this m ps ds hb
  have hread : ∀ rest, ∃ es, MultiData.generateBlocks (t ++ rest) locb =
      .ok ⟨t ++ rest, locb, ps, es⟩ ∧ es.length = m.length ∧
      ∀ (k : Nat) (h1 : k < m.length) (h2 : k < ds.length) (h3 : k < es.length),
        ∃ emin emax, Found sort m[k].1 m[k].2 ds[k] (0 + idatOf locb ps ds k) (rest = [])
          es[k] emin emax := by
    intro rest
    obtain ⟨es, e1, e2, e3⟩ := t3 [] rest ((t ++ rest).length + 1) rfl (by simp; omega)
    refine ⟨es, ?_, e2, e3⟩
    unfold MultiData.generateBlocks
    rw [List.nil_append] at e1
    rw [e1]; rfl
  obtain ⟨es, e1, e2, e3⟩ := hread []
  rw [List.append_nil] at e1
  refine ⟨⟨t, locb, ps, es⟩, ?_, t2, rfl, multi_gives_of hb t es e2 _ e3, fun rest => ?_, rfl, e2,
    fun k h1 h2 h3 => ?_, hg⟩
  · unfold MultiSpec.build
    rw [h1, ok_bind, h2, ok_bind]
    unfold MultiData.mk'
    rw [hg, ok_bind, e1]
  · obtain ⟨fs, f1, f2, f3⟩ := hread rest
    exact ⟨_, f1, multi_gives_of hb _ fs f2 _ f3⟩
  · obtain ⟨emin, emax, hF⟩ := e3 k h1 h2 h3
    exact ⟨emin, emax, hF.ends, hF.gives, fun _ => hF.same rfl⟩

/-- Several laws are built for every base locator and give back the tables and the laws. Missing:
laws 61 and 67. -/
theorem C18_built_partial (sort : StdSort EquiEnergy.incident) (m : MultiSpec) (hok : m.Ok)
    (locb : Nat) (ps : List TabulatedData) (ds : List LawData) (hf : m.Fits sort locb ps ds) :
    ∃ d, m.build sort locb = .ok d ∧ d.xss.length = (lens ps ds).sum ∧
      MultiGives m (idatOf locb ps ds) d := by
  obtain ⟨d, h1, h2, _, h3, _⟩ := multi_full sort m hok locb ps ds hf
  exact ⟨d, h1, h2, h3⟩

/-- The words, followed by any words, are read as the same laws. Missing: laws 61 and 67. -/
theorem C18_read_partial (sort : StdSort EquiEnergy.incident) (m : MultiSpec) (hok : m.Ok)
    (locb : Nat) (ps : List TabulatedData) (ds : List LawData) (hf : m.Fits sort locb ps ds)
    (d : MultiData) (hd : m.build sort locb = .ok d) (rest : Words) :
    ∃ r, MultiData.ofRange locb (d.xss ++ rest) = .ok r ∧ MultiGives m (idatOf locb ps ds) r := by
  obtain ⟨d', h1, _, _, _, h2, _⟩ := multi_full sort m hok locb ps ds hf
  rw [hd] at h1; injection h1 with h1; subst h1
  exact h2 rest

/-! ## Made again for another base locator -/

theorem take_sum_le (l : List Nat) (k : Nat) (h : k < l.length) : (l.take k).sum + l[k] ≤ l.sum := by
  induction l generalizing k with
  | nil => simp at h
  | cons a l ih =>
    cases k with
    | zero => simp
    | succ k => have := ih k (by simpa using h); simp; omega

theorem idatOf_le (locb : Nat) (ps : List TabulatedData) (ds : List LawData)
    (h : ps.length = ds.length) (k : Nat) (hk : k < ds.length) :
    idatOf locb ps ds k + ds[k].words.length ≤ locb + (lens ps ds).sum := by
  have hl : (lens ps ds).length = ds.length := by simp [lens, h]
  have h1 := take_sum_le (lens ps ds) k (by omega)
  have h2 : (lens ps ds)[k]'(by omega) = 3 + (ps[k]'(by omega)).xss.length + ds[k].words.length := by
    simp [lens]
  have h3 : (ps.map (·.xss.length)).getD k 0 = (ps[k]'(by omega)).xss.length := by
    simp [List.getD, List.getElem?_eq_getElem (show k < ps.length by omega)]
  unfold idatOf
  rw [h3]
  omega

/-- The laws where they lie at base locator `locb`. -/
def MultiSpec.at' (m : MultiSpec) (idat : Nat → Nat) : MultiSpec :=
  m.mapIdx fun k a => (a.1, a.2.at' (idat k) (a.1.energies.head?.getD .nan)
    (a.1.energies.getLast?.getD .nan))

/-- Several laws made for one base locator and then again for another: as blocks do. -/
theorem multi_again (sort : StdSort EquiEnergy.incident) (m : MultiSpec) (hok : m.Ok) (locb : Nat)
    (ps : List TabulatedData) (ds : List LawData) (hf : m.Fits sort locb ps ds) (d : MultiData)
    (hd : m.build sort locb = .ok d) (locb' : Nat) (hf' : FitsN (locb' + (lens ps ds).sum + 1)) :
    ∃ d', MultiData.mk' d.probabilities d.distributions locb' = .ok d' ∧
      d'.xss.length = (lens ps ds).sum ∧ MultiGives m (idatOf locb' ps ds) d' ∧
      ∀ rest, ∃ r, MultiData.ofRange locb' (d'.xss ++ rest) = .ok r ∧
        MultiGives m (idatOf locb' ps ds) r := by
  have hb := fits_built hok hf
  obtain ⟨d1, g1, g2, g3, g4, g5, g6, g7, g8, _⟩ := multi_full sort m hok locb ps ds hf
  rw [hd] at g1; injection g1 with g1; subst g1
  obtain ⟨f1, f2, f3, f4⟩ := hf
  have np := hb.np; have nd := hb.nd
  have hlen : lens ps d.distributions = lens ps ds := by
    apply List.ext_getElem
    · simp [lens, g7, nd]
    · intro k h1 h2
      have hk : k < m.length := by simp [lens] at h2; omega
      obtain ⟨_, _, hF⟩ := g8 k hk (by omega) (by omega)
      simp [lens, (hF.same trivial).2]
  have hmk : ∀ (k : Nat) (h : k < (m.at' (idatOf locb ps ds)).length) (h' : k < m.length),
      (m.at' (idatOf locb ps ds))[k].1 = m[k].1 ∧ ∃ emin emax,
      LawSpec.Ends m[k].1.energies emin emax ∧
      (m.at' (idatOf locb ps ds))[k].2 = m[k].2.at' (idatOf locb ps ds k) emin emax := by
    intro k h h'
    obtain ⟨emin, emax, hF⟩ := g8 k h' (by omega) (by omega)
    simp only [MultiSpec.at', List.getElem_mapIdx]
    refine ⟨trivial, emin, emax, hF.ends, ?_⟩
    rw [hF.ends.1, hF.ends.2]
    rfl
  have hml : (m.at' (idatOf locb ps ds)).length = m.length := by simp [MultiSpec.at']
  have hok' : (m.at' (idatOf locb ps ds)).Ok := by
    refine ⟨fun a ha => ?_, fun h => hok.some ?_⟩
    · obtain ⟨k, hk, rfl⟩ := List.getElem_of_mem ha
      obtain ⟨e1, a, b, _, e2⟩ := hmk k hk (by omega)
      have := hok.laws _ (List.getElem_mem (show k < m.length by omega))
      rw [e1, e2]
      refine ⟨this.table, this.energies, ?_, ?_⟩
      · rw [LawSpec.at_ok]; exact this.law
      · have h := this.plain
        unfold Nested at h ⊢
        rwa [LawSpec.at_number]
    · rw [h] at hml; exact List.eq_nil_of_length_eq_zero hml.symm
  have hfit : (m.at' (idatOf locb ps ds)).Fits sort locb' ps d.distributions := by
    refine ⟨?_, ?_, fun k h1 h2 => ?_, by rw [hlen]; exact hf'⟩
    · refine mapM_of_getElem _ _ _ (by omega) fun k h1 h2 => ?_
      rw [(hmk k h1 (by omega)).1]
      exact hb.table k (by omega)
    · refine mapM_of_getElem _ _ _ (by omega) fun k h1 h2 => ?_
      obtain ⟨e1, a, b, he, e2⟩ := hmk k h1 (by omega)
      obtain ⟨a', b', hF⟩ := g8 k (by omega) (by omega) (by omega)
      have hh1 := hF.ends.1; have hh2 := hF.ends.2
      rw [he.1] at hh1; rw [he.2] at hh2
      injection hh1 with hh1; injection hh2 with hh2
      subst hh1 hh2
      rw [e2]
      have := (hF.same trivial).1
      rwa [Nat.zero_add] at this
    · obtain ⟨e1, a, b, he, e2⟩ := hmk k h1 (by omega)
      obtain ⟨a', b', hF⟩ := g8 k (by omega) (by omega) (by omega)
      rw [e2, (hF.same trivial).2]
      have h1 := LawSpec.at_locator (m[k]'(by omega)).2 (idatOf locb ps ds k) a b
      have h2 := idatOf_le locb ps ds (by omega) k (by omega)
      omega
  have hid : idatOf locb' ps d.distributions = idatOf locb' ps ds := by
    funext k; unfold idatOf; rw [hlen]
  have hgive : ∀ r, MultiGives (m.at' (idatOf locb ps ds)) (idatOf locb' ps ds) r →
      MultiGives m (idatOf locb' ps ds) r := by
    intro r hr
    refine ⟨hr.count.trans hml, fun k h => ?_, fun k h => ?_, fun k h => hr.refused k (by omega)⟩
    · obtain ⟨p, p1, p2⟩ := hr.probability k (by omega)
      rw [(hmk k (by omega) h).1] at p2
      exact ⟨p, p1, p2⟩
    · obtain ⟨emin, emax, e, e1, e2, e3⟩ := hr.distribution k (by omega)
      obtain ⟨h1, a, b, _, h2⟩ := hmk k (by omega) h
      rw [h1] at e1
      rw [h2, LawSpec.at_gives] at e3
      exact ⟨emin, emax, e, e1, e2, e3⟩
  obtain ⟨d', k1, k2, k3, k4, k5, _⟩ := multi_full sort _ hok' locb' ps d.distributions hfit
  rw [hid] at k4 k5
  rw [hlen] at k2
  refine ⟨d', ?_, k2, hgive _ k4, fun rest => ?_⟩
  · unfold MultiSpec.build at k1
    rw [hfit.1, ok_bind, hfit.2.1, ok_bind] at k1
    rw [g6]; exact k1
  · obtain ⟨r, r1, r2⟩ := k5 rest
    exact ⟨r, r1, hgive _ r2⟩

/-- Several laws can be made again for any other base locator, as the DLW and DLWH blocks do.
Missing: laws 61 and 67. -/
theorem C18_relocated_partial (sort : StdSort EquiEnergy.incident) (m : MultiSpec) (hok : m.Ok)
    (locb : Nat) (ps : List TabulatedData) (ds : List LawData) (hf : m.Fits sort locb ps ds)
    (d : MultiData) (hd : m.build sort locb = .ok d) (locb' : Nat)
    (hf' : FitsN (locb' + (lens ps ds).sum + 1)) :
    ∃ d', MultiData.mk' d.probabilities d.distributions locb' = .ok d' ∧
      MultiGives m (idatOf locb' ps ds) d' := by
  obtain ⟨d', h1, _, h2, _⟩ := multi_again sort m hok locb ps ds hf d hd locb' hf'
  exact ⟨d', h1, h2⟩

/-! ## Reading always ends -/

theorem sub_eq_ok {xs ys : Words} {l r : Nat} (h : sub xs l r = .ok ys) :
    l ≤ r ∧ r ≤ xs.length := by
  unfold sub at h
  split at h
  · assumption
  · cases h

theorem bind_congr_ok {α β : Type} {x : Res α} {f g : α → Res β}
    (h : ∀ a, x = .ok a → f a = g a) : (x >>= f) = (x >>= g) := by
  cases x with
  | error e => rfl
  | ok a => exact h a rfl

theorem blocks_fuel (xs : Words) (locb : Nat) (fuel fuel' locator : Nat) (h0 : locator ≤ xs.length + 1)
    (h : xs.length + 1 < fuel + locator) (h' : xs.length + 1 < fuel' + locator) :
    MultiData.blocks xs locb fuel locator = MultiData.blocks xs locb fuel' locator := by
  induction fuel generalizing fuel' locator with
  | zero => omega
  | succ fuel ih =>
    cases fuel' with
    | zero => omega
    | succ fuel' =>
      unfold MultiData.blocks
      refine bind_congr_ok fun lnw _ => bind_congr_ok fun law _ => bind_congr_ok fun idat _ => ?_
      by_cases c1 : sizeOfInt idat < locb
      · rw [if_pos c1, if_pos c1]
        exact bind_congr_ok fun _ h => by cases h
      rw [if_neg c1, if_neg c1]
      refine bind_congr_ok fun dbegin e0 => bind_congr_ok fun fin e4 => bind_congr_ok fun pw e5 => bind_congr_ok fun p _ =>
        bind_congr_ok fun x _ => bind_congr_ok fun emin _ => bind_congr_ok fun x' _ =>
        bind_congr_ok fun emax _ => bind_congr_ok fun dw e10 => bind_congr_ok fun ds _ => ?_
      by_cases c2 : sizeOfInt lnw = 0
      · rw [if_pos c2, if_pos c2]
      rw [if_neg c2, if_neg c2]
      have hs1 := sub_eq_ok e5
      have hs2 := sub_eq_ok e10
      have hfin : fin = sizeOfInt lnw - locb := by
        unfold MultiData.endOf at e4
        rw [if_neg c2] at e4
        split at e4
        · cases e4
        · injection e4 with e4; exact e4.symm
      rw [ih fuel' (sizeOfInt lnw - locb + 1) (by omega) (by omega) (by omega)]

/-- Reading several laws ends for all words and base locators: the result is the same however many
more steps than words the loop is given. -/
theorem C18_terminates (xs : Words) (locb fuel : Nat) (h : xs.length + 1 ≤ fuel) :
    MultiData.blocks xs locb fuel 1 = MultiData.blocks xs locb (xs.length + 1) 1 :=
  blocks_fuel xs locb fuel (xs.length + 1) 1 (by omega) (by omega) (by omega)

/-! ## Where it fails -/

/-- The words of law 67 are read as two laws. -/
theorem C18_law67_twice (idat : Nat) (xs : Words) (emin emax : Dbl) (es : List LawData)
    (h : LawData.readMulti 67 idat xs emin emax = .ok es) : es.length = 2 := by
  unfold LawData.readMulti at h
  simp only [reduceIte, bind_eq_ok] at h
  obtain ⟨_, _, _, _, h⟩ := h
  injection h with h; rw [← h]; rfl

/-- Laws 61 and 67 are written as they are, wherever they are put. -/
theorem C18_nested_not_relocated (idat : Nat) (d61 : Law61) (d67 : Law67) :
    (LawData.energyAngle d61).placedMulti idat = .ok d61.xss ∧
    (LawData.angleEnergy d67).placedMulti idat = .ok d67.xss := ⟨rfl, rfl⟩

/-- The property for laws of every kind. -/
def C18Statement : Prop :=
  ∀ (sort : StdSort EquiEnergy.incident) (m : MultiSpec) (locb : Nat) (ps : List TabulatedData)
    (ds : List LawData), (∀ a ∈ m, TabulatedData.Valid a.1.b a.1.i a.1.energies a.1.probabilities ∧
      a.1.energies ≠ [] ∧ a.2.Ok) → m ≠ [] → m.Fits sort locb ps ds →
    ∃ d, m.build sort locb = .ok d ∧ MultiGives m (idatOf locb ps ds) d

/-- A probability table. -/
def probExample : ProbSpec := ⟨[], [], [Dbl.ofNat 1, Dbl.ofNat 20], [Dbl.ofNat 1, Dbl.ofNat 1]⟩
/-- One law 67, built for base locator 0. -/
def multi67 : MultiSpec := [(probExample, law67Example)]

/-- The property is false: law 67 is written under number 61. -/
theorem C18_false : ¬ C18Statement := by
  intro h
  have e1 : ∃ ps, multi67.mapM (fun a => a.1.build) = .ok ps := ⟨_, rfl⟩
  have e2 : (List.mapM (fun a : ProbSpec × LawSpec => a.2.build (sortBy _)) multi67).toBool = true := by decide +kernel
  obtain ⟨ps, hps⟩ := e1
  cases hds : List.mapM (fun a : ProbSpec × LawSpec => a.2.build (sortBy _)) multi67 with
  | error e => rw [hds] at e2; cases e2
  | ok ds =>
  have hsz : (multi67.mapM (fun a => a.1.build) >>= fun ps =>
      multi67.mapM (fun a => a.2.build (sortBy _)) >>= fun ds =>
      pure ((lens ps ds).sum, ds.map (·.words.length))) = .ok (25, [16]) := by decide +kernel
  rw [hps, ok_bind, hds, ok_bind] at hsz
  have hl := (Except.ok.inj hsz)
  injection hl with hl1 hl2
  have hfit : multi67.Fits (sortBy _) 0 ps ds := by
    refine ⟨hps, hds, fun k h1 h2 => ?_, by rw [hl1]; decide⟩
    have hk : k = 0 := by have : k < 1 := h1; omega
    subst hk
    have : ds[0].words.length = 16 := by
      have : (ds.map (·.words.length))[0]'(by simpa using h2) = 16 := by simp [hl2]
      simpa using this
    rw [this, show (multi67[0]'(by decide)).2.locator = 0 from rfl]
    decide
  obtain ⟨d, hd, hg⟩ := h (sortBy _) multi67 0 ps ds (fun a ha => by
    simp only [multi67, List.mem_singleton] at ha
    subst ha
    refine ⟨⟨rfl, rfl, by decide, by decide⟩, by decide, ?_⟩
    refine ⟨by decide, by decide, fun v hv => ?_⟩
    simp only [List.mem_singleton] at hv
    subst hv
    refine ⟨by decide, fun u hu => ?_, fun bs hbs => ?_⟩
    · simp only [List.mem_singleton] at hu
      subst hu
      exact ⟨by decide, by decide⟩
    · have : ((([⟨Dbl.ofNat 0, 2, [Dbl.ofNat 1, Dbl.ofNat 2], [Dbl.ofNat 1, Dbl.ofNat 1],
        [Dbl.ofNat 0, Dbl.ofNat 1], 0⟩] : List EnergySpec).mapM mkEnergySpec).map
        (fun bs => decide (FitsN (0 + innerBefore 1 (bs.map (·.xss)) bs.length + 1)))) = .ok true := by
        decide +kernel
      rw [hbs] at this
      simpa [Except.map] using this) (by decide) hfit
  obtain ⟨emin, emax, e, _, h2, h3⟩ := hg.distribution 0 (by decide)
  have hno : (multi67.build (sortBy _) 0 >>= fun d => d.distribution 1 >>= fun e =>
      match e with
      | .angleEnergy _ => .ok true
      | _ => .ok false) ≠ .ok true := by decide +kernel
  rw [hd, ok_bind, h2, ok_bind] at hno
  cases e <;> first | exact hno rfl | exact h3

/-- No law at all is not accepted. -/
theorem C18_none (locb : Nat) : MultiData.mk' [] [] locb = .error .range := by
  rfl

/-- The numbers of tables and laws must be the same. -/
theorem C18_mismatch (ps : List TabulatedData) (ds : List LawData) (locb : Nat)
    (h : ds.length ≠ ps.length) : MultiData.mk' ps ds locb = .error .thrown := by
  unfold MultiData.mk' MultiData.generateXSS
  have : (ds.length == ps.length) = false := by simpa using h
  rw [this]; rfl

/-- The number of a law among several is taken modulo 2^16: the law read for number `i` is the one of
the `short` that differs from `i` by a multiple of 65536. -/
theorem C18_law_number (i : Int) :
    (∃ k : Int, wrap16 i = i + 65536 * k) ∧ -32768 ≤ wrap16 i ∧ wrap16 i ≤ 32767 := by
  unfold wrap16
  have h := Int.emod_add_mul_ediv i 65536
  have h1 := Int.emod_nonneg i (by decide : (65536 : Int) ≠ 0)
  have h2 := Int.emod_lt_of_pos i (by decide : (0 : Int) < 65536)
  split
  · exact ⟨⟨-(i / 65536), by omega⟩, by omega, by omega⟩
  · exact ⟨⟨-(i / 65536) - 1, by omega⟩, by omega, by omega⟩

/-- The words of two laws (3 twice) with the given number for the first one. -/
def wrongNumber (law : Int) : Words :=
  [Dbl.ofNat 11, Dbl.ofInt law, Dbl.ofNat 8, Dbl.ofNat 0, Dbl.ofNat 1, Dbl.ofNat 20, Dbl.ofNat 1,
   Dbl.ofNat 5, Dbl.ofNat 6, Dbl.ofNat 7,
   Dbl.ofNat 0, Dbl.ofNat 3, Dbl.ofNat 18, Dbl.ofNat 0, Dbl.ofNat 1, Dbl.ofNat 20, Dbl.ofNat 1,
   Dbl.ofNat 5, Dbl.ofNat 6]

/-- The laws read, if they are read. -/
def lawsOf (xs : Words) : Res (List LawData) := do return (← MultiData.ofRange 1 xs).distributions

/-- Words with the law numbers 65539 and -65533, which are those of no law, are accepted as law 3;
32771 is no law. -/
theorem C18_law_wraps : (lawsOf (wrongNumber 3)).toOption.isSome ∧
    lawsOf (wrongNumber 65539) = lawsOf (wrongNumber 3) ∧
    lawsOf (wrongNumber (-65533)) = lawsOf (wrongNumber 3) ∧
    lawsOf (wrongNumber 32771) = .error .thrown := by
  decide +kernel

/-! ## A case -/

/-- A level law and an evaporation spectrum. -/
def multiExample : MultiSpec :=
  [(probExample, .level (Dbl.ofNat 1) (Dbl.ofNat 20) (Dbl.ofNat 3) (Dbl.ofNat 4)),
   (probExample, .evaporation [] [] [Dbl.ofNat 1, Dbl.ofNat 20] [Dbl.ofNat 3, Dbl.ofNat 4] (Dbl.ofNat 5))]

example : multiExample.Ok := by
  refine ⟨fun a ha => ?_, by decide⟩
  simp only [multiExample, List.mem_cons, List.not_mem_nil, or_false] at ha
  rcases ha with rfl | rfl
  · exact ⟨⟨rfl, rfl, by decide, by decide⟩, by decide, trivial, by decide⟩
  · exact ⟨⟨rfl, rfl, by decide, by decide⟩, by decide, trivial, by decide⟩
example : ∃ ps ds, multiExample.Fits (sortBy _) 100 ps ds := by
  refine ⟨_, _, rfl, rfl, fun k h1 h2 => ?_, by decide +kernel⟩
  have hk : k = 0 ∨ k = 1 := by have : k < 2 := h1; omega
  rcases hk with rfl | rfl
  · exact (by decide +kernel : FitsN (0 + 2 + 1))
  · exact (by decide +kernel : FitsN (0 + 7 + 1))
example : (multiExample.build (sortBy _) 100 >>= fun d => MultiData.ofRange 100 (d.xss ++ [Dbl.ofNat 9])
    >>= fun r => do return (r.numberDistributions, (← r.distribution 1).LAW, (← r.distribution 2).LAW,
      d.xss.length)) = .ok (2, 3, 9, 27) := by decide +kernel

/-- The hypotheses of `C18_terminates`, `C18_law67_twice` and `C18_mismatch`. -/
example := C18_terminates [Dbl.ofNat 0, Dbl.ofNat 3] 7 20 (by decide)
example := C18_mismatch [⟨[Dbl.ofNat 0, Dbl.ofNat 0], ⟨[Dbl.ofNat 0], 2⟩, ⟨[Dbl.ofNat 0], 2⟩⟩] [] 7 (by decide)

end ACE.Props

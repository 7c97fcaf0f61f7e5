import Verif.Lemmas.EnergyData
import Verif.Lemmas.Sort
import Verif.Props.C07
import Verif.Props.C12

/-!
# C49: every energy law gives back the values it was built from

`LawSpec` lists the energy laws with the values a user gives to their constructors.
`s.build` is the call of the constructor, `s.number` the ACE law number,
`s.Gives idat emin emax d` says that the data `d`, lying at locator `idat` with incident energies
from `emin` to `emax`, give back the values of `s`; `s.Range emin emax` that these are the first
and last incident energy of `s`.
-/

namespace ACE.Props
open ACE

/-- The energy laws as the user gives them; laws with locators have a base locator. -/
inductive LawSpec where
  | equiprobable (b i : List Int) (bins : List EquiEnergy)
  | photon (emin emax : Dbl) (lp : Nat) (energy : Dbl)
  | level (emin emax c1 c2 : Dbl)
  | tabulated (b i : List Int) (vs : List EnergySpec) (locb : Nat)
  | general (b i : List Int) (energies temperatures bins : Words)
  | maxwell (b i : List Int) (energies temperatures : Words) (u : Dbl)
  | evaporation (b i : List Int) (energies temperatures : Words) (u : Dbl)
  | watt (b i : List Int) (energies as : Words) (b' i' : List Int) (energies' bs : Words) (u : Dbl)
  | kalbach (b i : List Int) (vs : List (EnergySpec × Words × Words)) (locb : Nat)
  | nbody (emin emax : Dbl) (npsx : Nat) (ap : Dbl) (int : Nat) (values pdf cdf : Words)
  | transfer (emin emax c1 c2 : Dbl)
  | energyAngle (b i : List Int) (vs : List (NestedSpec AngularSpec)) (locb : Nat)
  | angleEnergy (b i : List Int) (vs : List (NestedSpec EnergySpec)) (locb : Nat)

/-- A `std::vector< long >`. -/
def Longs (l : List Int) : Prop := ∀ i ∈ l, -9223372036854775808 ≤ i ∧ i ≤ 9223372036854775807

instance (l : List Int) : Decidable (Longs l) := by unfold Longs; infer_instance

namespace LawSpec

/-- The law number of the ACE format. -/
def number : LawSpec → Int
  | equiprobable .. => 1
  | photon .. => 2
  | level .. => 3
  | tabulated .. => 4
  | general .. => 5
  | maxwell .. => 7
  | evaporation .. => 9
  | watt .. => 11
  | transfer .. => 33
  | kalbach .. => 44
  | energyAngle .. => 61
  | nbody .. => 66
  | angleEnergy .. => 67

/-- The call of the constructors; the lists of distributions are built first. -/
def build (sort : StdSort EquiEnergy.incident) : LawSpec → Res LawData
  | equiprobable b i bins => do return .equiprobable (← EquiBinData.mk' sort b i bins)
  | photon emin emax lp energy => .ok (.photon (TwoParam.mk' emin emax (Dbl.ofNat lp) energy))
  | level emin emax c1 c2 => .ok (.level (TwoParam.mk' emin emax c1 c2))
  | tabulated b i vs locb => do
      return .tabulated (← Law4.mk' b i (← vs.mapM mkEnergySpec) locb)
  | general b i e t bins => do return .general (← GenEvap.mk' b i e t bins)
  | maxwell b i e t u => do return .maxwell (← Evaporation.mk' b i e t u)
  | evaporation b i e t u => do return .evaporation (← Evaporation.mk' b i e t u)
  | watt b i e as b' i' e' bs u => do
      return .watt (← Watt.mk' (← TabulatedData.mk' b i e as) (← TabulatedData.mk' b' i' e' bs) u)
  | kalbach b i vs locb => do
      return .kalbach (← Law4.mk' b i (← vs.mapM mkKalbachSpec) locb)
  | nbody emin emax npsx ap int values pdf cdf => do
      return .nbody (← NBody.mk' emin emax npsx ap int values pdf cdf)
  | transfer emin emax c1 c2 => .ok (.transfer (TwoParam.mk' emin emax c1 c2))
  | energyAngle b i vs locb => do
      return .energyAngle (← Law61.mk' b i (← vs.mapM mkEnergyAngleSpec) locb)
  | angleEnergy b i vs locb => do
      return .angleEnergy (← Law67.mk' b i (← vs.mapM mkAngleEnergySpec) locb)

/-- The base locator for which the law was built. -/
def locator : LawSpec → Nat
  | tabulated _ _ _ locb => locb
  | kalbach _ _ _ locb => locb
  | energyAngle _ _ _ locb => locb
  | angleEnergy _ _ _ locb => locb
  | _ => 0

/-- The values are in the range of their C++ types, digits are digits, the bins are equally many
and energies are not NaN. -/
def Ok : LawSpec → Prop
  | equiprobable _ _ bins => (∀ d ∈ bins, d.incident ≠ .nan) ∧
      ∃ net, FitsN net ∧ ∀ d ∈ bins, d.xss.length = net
  | photon _ _ lp _ => lp < 4294967296
  | tabulated b i vs _ => Longs b ∧ Longs i ∧ ∀ v ∈ vs, v.Ok
  | kalbach b i vs _ => Longs b ∧ Longs i ∧ ∀ v ∈ vs, v.1.Ok
  | nbody _ _ npsx _ int _ _ _ => FitsN npsx ∧ FitsN int
  | energyAngle b i vs _ => Longs b ∧ Longs i ∧ ∀ v ∈ vs, FitsN v.int ∧ (∀ u ∈ v.inner, Fits u.int) ∧
      ∀ bs, v.inner.mapM mkAngularSpec = .ok bs →
        FitsN (v.locb + innerBefore 3 (bs.map (·.angular.xss)) bs.length + 1)
  | angleEnergy b i vs _ => Longs b ∧ Longs i ∧ ∀ v ∈ vs, FitsN v.int ∧ (∀ u ∈ v.inner, u.Ok) ∧
      ∀ bs, v.inner.mapM mkEnergySpec = .ok bs →
        FitsN (v.locb + innerBefore 1 (bs.map (·.xss)) bs.length + 1)
  | _ => True

/-- What equiprobable bin data give: the bins in the order `order`. -/
structure EquiGives (d : EquiBinData) (b i : List Int) (order : List EquiEnergy) : Prop where
  regions : d.NB = .ok b.length ∧ d.NBT = .ok (b.map Dbl.ofInt) ∧ d.INT = .ok (i.map Dbl.ofInt)
  count : d.NE = .ok order.length
  energies : d.incidentEnergies = .ok (order.map (·.incident))
  energy : ∀ (k : Nat) (hk : k < order.length), d.incidentEnergy (k + 1) = .ok order[k].incident
  bins : ∀ (k : Nat) (hk : k < order.length),
    d.NET = .ok order[k].xss.length ∧ d.distribution (k + 1) = .ok order[k]
  refused : ∀ k, k = 0 ∨ order.length < k →
    d.incidentEnergy k = .error .range ∧ d.distribution k = .error .range

/-- The values of a law are given back. -/
def Gives (idat : Nat) (emin emax : Dbl) : LawSpec → LawData → Prop
  | equiprobable b i bins, .equiprobable d =>
      ∃ order, IsSort EquiEnergy.incident bins order ∧ EquiGives d b i order
  | photon _ _ lp energy, .photon d =>
      d.emin = emin ∧ d.emax = emax ∧ d.C1 = .ok (Dbl.ofNat lp) ∧ d.C2 = .ok energy
  | level _ _ c1 c2, .level d => d.emin = emin ∧ d.emax = emax ∧ d.C1 = .ok c1 ∧ d.C2 = .ok c2
  | tabulated b i vs _, .tabulated d => ∃ bs, vs.mapM mkEnergySpec = .ok bs ∧
      DistGives d idat b i (vs.map (·.incident)) (bs.map (·.xss))
        (fun k x => ∀ v, vs[k]? = some v → IsEnergy v x)
  | general b i e t bins, .general d =>
      GivesTable d.tabulated b i e t ∧ d.NET = .ok bins.length ∧ d.binValues = .ok bins
  | maxwell b i e t u, .maxwell d => GivesTable d.tabulated b i e t ∧ d.energies = .ok e ∧
      d.temperatures = .ok t ∧ d.U = .ok u
  | evaporation b i e t u, .evaporation d => GivesTable d.tabulated b i e t ∧ d.energies = .ok e ∧
      d.temperatures = .ok t ∧ d.U = .ok u
  | watt b i e as b' i' e' bs u, .watt d =>
      GivesTable d.a b i e as ∧ GivesTable d.b b' i' e' bs ∧ d.U = .ok u
  | kalbach b i vs _, .kalbach d => ∃ bs, vs.mapM mkKalbachSpec = .ok bs ∧
      DistGives d idat b i (vs.map (·.1.incident)) (bs.map (·.xss))
        (fun k x => ∀ v, vs[k]? = some v → IsKalbach v x)
  | nbody _ _ npsx ap int values pdf cdf, .nbody d => d.emin = emin ∧ d.emax = emax ∧
      d.NPSX = .ok npsx ∧ d.AP = .ok ap ∧ d.interpolation = .ok (int : Int) ∧
      d.numberValues = .ok values.length ∧ d.values = .ok values ∧ d.pdf = .ok pdf ∧ d.cdf = .ok cdf
  | transfer _ _ c1 c2, .transfer d =>
      d.emin = emin ∧ d.emax = emax ∧ d.C1 = .ok c1 ∧ d.C2 = .ok c2
  | energyAngle b i vs _, .energyAngle d => ∃ ds, vs.mapM mkEnergyAngleSpec = .ok ds ∧
      DistGives d idat b i (vs.map (·.incident)) (ds.map (·.xss))
        (fun k x => ∀ v, vs[k]? = some v →
          IsEnergyAngle v (idat + wordsBefore b (ds.map (·.xss)) k) x)
  | angleEnergy b i vs _, .angleEnergy d => ∃ ds, vs.mapM mkAngleEnergySpec = .ok ds ∧
      DistGives d idat b i (vs.map (·.incident)) (ds.map (·.xss))
        (fun k x => ∀ v, vs[k]? = some v →
          IsAngleEnergy v (idat + wordsBefore b (ds.map (·.xss)) k) x)
  | _, _ => False

/-- First and last element of a list. -/
def Ends (l : Words) (emin emax : Dbl) : Prop := l.head? = some emin ∧ l.getLast? = some emax

/-- The first and last incident energy. -/
def Range (emin emax : Dbl) : LawSpec → Prop
  | equiprobable _ _ bins => ∃ order, IsSort EquiEnergy.incident bins order ∧
      Ends (order.map (·.incident)) emin emax
  | photon a b _ _ => emin = a ∧ emax = b
  | level a b _ _ => emin = a ∧ emax = b
  | tabulated _ _ vs _ => Ends (vs.map (·.incident)) emin emax
  | general _ _ e _ _ => Ends e emin emax
  | maxwell _ _ e _ _ => Ends e emin emax
  | evaporation _ _ e _ _ => Ends e emin emax
  | watt _ _ e _ _ _ _ _ _ => Ends e emin emax
  | kalbach _ _ vs _ => Ends (vs.map (·.1.incident)) emin emax
  | nbody a b _ _ _ _ _ _ => emin = a ∧ emax = b
  | transfer a b _ _ => emin = a ∧ emax = b
  | energyAngle _ _ vs _ => Ends (vs.map (·.incident)) emin emax
  | angleEnergy _ _ vs _ => Ends (vs.map (·.incident)) emin emax

end LawSpec

/-! ## One law at a time: words, reading, placing at a locator -/

/-- Placing the data `d` of a law at `idat`, as blocks do, gives words that, whatever follows, are
read under the law number as giving back the values of `s`. -/
def Placeable (s : LawSpec) (d : LawData) (idat : Nat) : Prop :=
  ∃ ws, d.placed idat = .ok ws ∧ ws.length = d.words.length ∧
    ∀ emin emax rest, ∃ d', LawData.read s.number idat (ws ++ rest) emin emax = .ok d' ∧
      s.Gives idat emin emax d'

theorem mapM_of_getElem {α β : Type} (f : α → Res β) (as : List α) (bs : List β)
    (hl : bs.length = as.length)
    (h : ∀ (k : Nat) (h1 : k < as.length) (h2 : k < bs.length), f as[k] = .ok bs[k]) :
    as.mapM f = .ok bs := by
  induction as generalizing bs with
  | nil =>
    have : bs = [] := List.eq_nil_of_length_eq_zero hl
    subst this; rfl
  | cons a as ih =>
    cases bs with
    | nil => cases hl
    | cons b bs =>
      have h0 : f a = .ok b := h 0 (by simp) (by simp)
      rw [List.mapM_cons, h0, ok_bind,
        ih bs (by simpa using hl) (fun k h1 h2 => h (k + 1) (by simpa using h1) (by simpa using h2))]
      rfl

theorem ends_iff {D : Type} {d : DistData D} {locb : Nat} {b i : List Int} {es : Words}
    {ws : List Words} {P : Nat → D → Prop} (hd : DistGives d locb b i es ws P) {emin emax : Dbl}
    (h1 : d.minimumIncidentEnergy = .ok emin) (h2 : d.maximumIncidentEnergy = .ok emax) :
    LawSpec.Ends es emin emax := by
  unfold DistData.minimumIncidentEnergy at h1
  unfold DistData.maximumIncidentEnergy at h2
  rw [hd.count, ok_bind] at h2
  by_cases he : es.length = 0
  · rw [(hd.refused 1 (by omega)).1] at h1; cases h1
  · rw [hd.energy 0 (by omega)] at h1
    have e : es.length = es.length - 1 + 1 := by omega
    rw [e, hd.energy (es.length - 1) (by omega)] at h2
    injection h1 with h1; injection h2 with h2
    refine ⟨?_, ?_⟩
    · rw [List.head?_eq_getElem?, List.getElem?_eq_getElem (by omega), h1]
    · rw [List.getLast?_eq_getElem?, List.getElem?_eq_getElem (by omega), h2]

theorem law4_place {V : Type} (mk : V → Res TabDist) (energy : V → Dbl) (outgoing : V → Words)
    (Is : V → TabDist → Prop) (vs : List V) (bs : List TabDist) (hb : vs.mapM mk = .ok bs)
    (hx : ∀ v ∈ vs, ∀ d, mk v = .ok d → d.value = energy v ∧ (outgoing v).length < d.xss.length)
    (hr : ∀ v ∈ vs, ∀ d, mk v = .ok d → FitsN (outgoing v).length → ∀ rest,
      ∃ d', TabDist.ofRange (energy v) (d.xss ++ rest) = .ok d' ∧ Is v d')
    (locb idat : Nat) (b i : List Int) (lb : Longs b) (li : Longs i) (d : Law4)
    (hd : Law4.mk' b i bs locb = .ok d)
    (hf : FitsN (locb + d.xss.length + 1)) (hf' : FitsN (idat + d.xss.length + 1)) :
    DistGives d locb b i (vs.map energy) (bs.map (·.xss))
      (fun k x => ∀ v, vs[k]? = some v → Is v x) ∧
    (∀ rest, ∃ r, Law4.ofRange locb (d.xss ++ rest) = .ok r ∧
        DistGives r locb b i (vs.map energy) (bs.map (·.xss))
          (fun k x => ∀ v, vs[k]? = some v → Is v x)) ∧
    ∃ ws, LawData.remake Law4.mk' d idat = .ok ws ∧ ws.length = d.xss.length ∧
      (∀ rest, ∃ r, Law4.ofRange idat (ws ++ rest) = .ok r ∧
        DistGives r idat b i (vs.map energy) (bs.map (·.xss))
          (fun k x => ∀ v, vs[k]? = some v → Is v x)) ∧
      ∃ d2, Law4.mk' b i bs idat = .ok d2 ∧ d2.xss = ws := by
  have hi : i.length = b.length := by
    by_cases h : i.length = b.length
    · exact h
    · rw [C11_mismatch bs locb b i h] at hd; cases hd
  have hlen : d.xss.length = wordsBefore b (bs.map (·.xss)) bs.length := by
    -- the words of the built data
    have hgx := distData_generateXSS b i (bs.map Law4.part) locb (bs.map (·.xss)) hi (by simp)
      (fun k h1 h2 => by simp [Law4.part])
    unfold Law4.mk' DistData.mk' at hd
    rw [hgx, ok_bind] at hd
    have : d.xss = distWords locb b i ((bs.map Law4.part).map (·.1)) (bs.map (·.xss)) := by
      unfold DistData.generateBlocks at hd
      simp only [bind_eq_ok] at hd
      obtain ⟨_, _, _, _, _, _, _, _, _, _, _, _, _, _, _, _, _, _, _, _, h⟩ := hd
      injection h with h; rw [← h]
    rw [this, distWords_length _ _ _ _ _ hi (by simp)]; simp
  rw [hlen] at hf hf'
  obtain ⟨d1, h1, h2, h3, h4, h5⟩ := law4_spec' mk energy outgoing Is vs bs hb hx hr locb b i hi hf
  rw [hd] at h1; injection h1 with h1; subst h1
  obtain ⟨d2, g1, g2, g3, g4, g5⟩ := law4_spec' mk energy outgoing Is vs bs hb hx hr idat b i hi hf'
  refine ⟨h4, h5, d2.xss, ?_, by omega, g5, d2, g1, rfl⟩
  unfold LawData.remake
  rw [h4.regions.2.1, ok_bind, toLongs_ofInt b lb, ok_bind, h4.regions.2.2, ok_bind,
    toLongs_ofInt i li, ok_bind, h2, g1]
  rfl

theorem distData_xss {D : Type} {gen : Dbl → Nat → Words → Res D} {xs : Words} {locb : Nat}
    {d : DistData D} (h : DistData.generateBlocks gen xs locb = .ok d) : d.xss = xs := by
  unfold DistData.generateBlocks at h
  simp only [bind_eq_ok] at h
  obtain ⟨_, _, _, _, _, _, _, _, _, _, _, _, _, _, _, _, _, _, _, _, h⟩ := h
  injection h with h; rw [← h]

theorem nested_mismatch {D : Type} (part : D → Dbl × (Nat → Res Words))
    (gen : Dbl → Nat → Words → Res D) (ds : List D) (b i : List Int) (locb : Nat) (d : DistData D)
    (h : DistData.mk' gen b i (ds.map part) locb = .ok d) : i.length = b.length := by
  unfold DistData.mk' at h
  obtain ⟨xs, h, _⟩ := bind_eq_ok.mp h
  unfold DistData.generateXSS at h
  obtain ⟨_, _, h⟩ := bind_eq_ok.mp h
  obtain ⟨_, h, _⟩ := bind_eq_ok.mp h
  by_cases hi : i.length = b.length
  · exact hi
  · unfold InterpolationData.mk' at h
    rw [ColumnData.ofColumns_error _ _ (by simpa using hi)] at h
    cases h

theorem angleEnergy_xss_length (v : NestedSpec EnergySpec) (bs : List TabDist) (d : AngleEnergy)
    (hv : FitsN v.int) (hb : v.inner.mapM mkEnergySpec = .ok bs) (h : mkAngleEnergySpec v = .ok d) :
    d.xss.length = innerBefore 1 (bs.map (·.xss)) bs.length := by
  unfold mkAngleEnergySpec at h
  rw [hb, ok_bind] at h
  unfold AngleEnergy.mk' at h
  rw [angleEnergy_xss _ _ _ hv, ok_bind] at h
  unfold AngleEnergy.generateBlocks at h
  simp only [bind_eq_ok] at h
  obtain ⟨_, _, _, _, _, _, _, _, _, _, _, _, _, _, h⟩ := h
  injection h with h; rw [← h]
  have := innerWords_length v.int v.locb [bs.map (·.value)] (bs.map (·.xss)) (by simp)
  simpa using this

theorem energyAngle_xss_length (v : NestedSpec AngularSpec) (bs : List AngularProb) (d : EnergyAngle)
    (hv : FitsN v.int) (hb : v.inner.mapM mkAngularSpec = .ok bs) (h : mkEnergyAngleSpec v = .ok d) :
    d.xss.length = innerBefore 3 (bs.map (·.angular.xss)) bs.length := by
  unfold mkEnergyAngleSpec at h
  rw [hb, ok_bind] at h
  unfold EnergyAngle.mk' at h
  rw [energyAngle_xss _ _ _ hv] at h
  unfold EnergyAngle.generateBlocks at h
  simp only [bind_eq_ok] at h
  obtain ⟨_, _, _, _, _, _, _, _, _, _, h⟩ := h
  injection h with h; rw [← h]
  have := innerWords_length v.int v.locb [bs.map (·.angular.value), bs.map (·.probability),
    bs.map (·.cumulative)] (bs.map (·.angular.xss)) (by simp)
  simpa using this

theorem dist2Loop_length (ne offset : Nat) (ds : List (Dbl × (Nat → Res Words))) (len : List Nat)
    (xss out : Words) (index : Nat) (hl : len.length = ds.length)
    (h : ∀ (k : Nat) (h1 : k < ds.length) (h2 : k < len.length) (loc : Nat) (ws : Words),
      ds[k].2 loc = .ok ws → ws.length = len[k])
    (ho : dist2Loop ne offset ds xss index = .ok out) : out.length = xss.length + len.sum := by
  induction ds generalizing xss index len with
  | nil =>
    have : len = [] := List.eq_nil_of_length_eq_zero hl
    subst this
    unfold dist2Loop at ho
    injection ho with ho; subst ho; simp
  | cons p ds ih =>
    cases len with
    | nil => cases hl
    | cons l len =>
      unfold dist2Loop at ho
      obtain ⟨ws, hw, ho⟩ := bind_eq_ok.mp ho
      have h0 := h 0 (by simp) (by simp) _ _ hw
      have := ih len _ _ (by simpa using hl)
        (fun k h1 h2 => h (k + 1) (by simpa using h1) (by simpa using h2)) ho
      rw [this]
      simp only [List.getElem_cons_zero] at h0
      simp [h0]; omega

theorem nested_length {D : Type} (part : DistDataI D → Dbl × (Nat → Res Words))
    (gen : Dbl → Nat → Words → Res (DistDataI D)) (ds : List (DistDataI D)) (b i : List Int)
    (locb : Nat) (d : DistData (DistDataI D))
    (hp : ∀ (k : Nat) (h : k < ds.length) (loc : Nat) (ws : Words), (part ds[k]).2 loc = .ok ws →
      ws.length = ds[k].xss.length)
    (h : DistData.mk' gen b i (ds.map part) locb = .ok d) :
    d.xss.length = wordsBefore b (ds.map (·.xss)) ds.length := by
  have hi := nested_mismatch part gen ds b i locb d h
  unfold DistData.mk' at h
  obtain ⟨xs, h, hg⟩ := bind_eq_ok.mp h
  rw [distData_xss hg]
  unfold DistData.generateXSS at h
  obtain ⟨ys, hy, h⟩ := bind_eq_ok.mp h
  unfold InterpolationData.mk' at h
  rw [ColumnData.ofColumns_ok _ b.length (by simp) (by simp [hi]), ok_bind] at h
  injection h with h; subst h
  have := dist2Loop_length _ _ _ (ds.map (·.xss.length)) _ _ _ (by simp) (fun k h1 h2 loc ws hw => by
    rw [List.getElem_map] at hw ⊢
    exact hp k (by simpa using h2) loc ws hw) hy
  rw [List.length_append, this]
  have ht : (ds.map (·.xss)).take ds.length = ds.map (·.xss) := List.take_of_length_le (by simp)
  unfold wordsBefore
  rw [ht, List.length_flatten, List.map_map]
  simp [hi, Function.comp_def]; omega

/-- Placing data of law 67 somewhere else. -/
theorem law67_place (vs : List (NestedSpec EnergySpec)) (ds : List AngleEnergy)
    (hb : vs.mapM mkAngleEnergySpec = .ok ds)
    (hv : ∀ v ∈ vs, FitsN v.int ∧ (∀ u ∈ v.inner, u.Ok) ∧
      ∀ bs, v.inner.mapM mkEnergySpec = .ok bs →
        FitsN (v.locb + innerBefore 1 (bs.map (·.xss)) bs.length + 1))
    (locb idat : Nat) (b i : List Int) (lb : Longs b) (li : Longs i) (d : Law67)
    (hd : Law67.mk' b i ds locb = .ok d)
    (hf : FitsN (locb + d.xss.length + 1)) (hf' : FitsN (idat + d.xss.length + 1)) :
    DistGives d locb b i (vs.map (·.incident)) (ds.map (·.xss))
      (fun k x => ∀ v, vs[k]? = some v →
        IsAngleEnergy v (locb + wordsBefore b (ds.map (·.xss)) k) x) ∧
    (∀ rest, ∃ r, Law67.ofRange locb (d.xss ++ rest) = .ok r ∧
        DistGives r locb b i (vs.map (·.incident)) (ds.map (·.xss))
          (fun k x => ∀ v, vs[k]? = some v →
            IsAngleEnergy v (locb + wordsBefore b (ds.map (·.xss)) k) x)) ∧
    ∃ ws, LawData.remake Law67.mk' d idat = .ok ws ∧ ws.length = d.xss.length ∧
      ∀ rest, ∃ r, Law67.ofRange idat (ws ++ rest) = .ok r ∧
        DistGives r idat b i (vs.map (·.incident)) (ds.map (·.xss))
          (fun k x => ∀ v, vs[k]? = some v →
            IsAngleEnergy v (idat + wordsBefore b (ds.map (·.xss)) k) x) := by
  have hi := nested_mismatch Law67.part AngleEnergy.ofRange ds b i locb d hd
  obtain ⟨hlen, hmk⟩ := mapM_ok_iff mkAngleEnergySpec vs ds hb
  have hint : ∀ (k : Nat) (h : k < ds.length), ds[k].interpolation = .ok ((vs[k]'(by omega)).int : Int) ∧
      ∃ bs, (vs[k]'(by omega)).inner.mapM mkEnergySpec = .ok bs := by
    intro k h
    have hm := hmk k (by omega) h
    unfold mkAngleEnergySpec at hm
    obtain ⟨bs, hbs, hm⟩ := bind_eq_ok.mp hm
    have hv1 := (hv _ (List.getElem_mem (l := vs) (show k < vs.length by omega))).1
    refine ⟨?_, bs, hbs⟩
    unfold AngleEnergy.mk' at hm
    rw [angleEnergy_xss _ _ _ hv1, ok_bind] at hm
    unfold AngleEnergy.generateBlocks at hm
    simp only [bind_eq_ok] at hm
    obtain ⟨_, _, _, _, _, _, _, _, _, _, _, _, _, _, hm⟩ := hm
    injection hm with hm; rw [← hm]
    exact Base.IXSS_ofNat (a := []) (by simp [innerWords]; rfl) (by simp) hv1
  have hxl : d.xss.length = wordsBefore b (ds.map (·.xss)) ds.length := by
    refine nested_length Law67.part AngleEnergy.ofRange ds b i locb d (fun k h loc ws hw => ?_) hd
    obtain ⟨h1, bs, h2⟩ := hint k h
    have hk : k < vs.length := by omega
    obtain ⟨hv1, hv2, hv3⟩ := hv _ (List.getElem_mem hk)
    obtain ⟨hb1, hb2, hb3⟩ := mapM_energy_values _ _ h2
    have hm := hmk k hk h
    unfold mkAngleEnergySpec at hm
    rw [h2, ok_bind, angleEnergy_mk _ _ _ _ hb2 hv1 (hv3 bs h2) (fun j hj t => by
      obtain ⟨u, _, hu2, hu3, hu4⟩ := hb3 j hj
      have hfl := flatten_length_ge bs (·.xss) bs[j] (List.getElem_mem hj)
      have hwl := innerBefore_full 1 (bs.map (·.xss))
      rw [List.length_map] at hwl
      have hv3' := hv3 bs h2
      obtain ⟨_, d', hd', _⟩ := C08_energy u.incident u.int u.discrete u.outgoing u.pdf u.cdf bs[j]
        (hv2 u hu3).1 (hv2 u hu3).2 (by omega) hu2 t
      have := (energySpec_xss _ _ hu2).1
      exact ⟨d', by rw [this]; exact hd'⟩)] at hm
    injection hm with hm
    have hdis : ds[k].distributions = bs := by rw [← hm]
    have hinc : ds[k].incident = vs[k].incident := by rw [← hm]
    unfold Law67.part at hw
    simp only [h1, ok_bind, hdis, hinc] at hw
    obtain ⟨t, ht, hw⟩ := bind_eq_ok.mp hw
    injection hw with hw; subst hw
    have e1 := angleEnergy_xss_length { vs[k] with locb := loc } bs t hv1 h2
      (by unfold mkAngleEnergySpec; simp only [h2, ok_bind]; exact ht)
    have e2 := angleEnergy_xss_length vs[k] bs ds[k] hv1 h2 (hmk k hk h)
    omega
  rw [hxl] at hf hf'
  obtain ⟨d1, h1, h2, ⟨h3, h4⟩, h5, h6⟩ := law67_full vs ds hb hv locb b i hi hf
  rw [hd] at h1; injection h1 with h1; subst h1
  let vs' : List (NestedSpec EnergySpec) := (List.range vs.length).map (fun k =>
    { (vs[k]?.getD ⟨.nan, 0, [], 0⟩) with locb := locb + wordsBefore b (ds.map (·.xss)) k })
  have hvl : vs'.length = vs.length := by simp [vs']
  have hvk : ∀ (k : Nat) (h : k < vs'.length) (h' : k < vs.length),
      vs'[k] = { vs[k] with locb := locb + wordsBefore b (ds.map (·.xss)) k } := by
    intro k h h'
    simp [vs', h']
  have hb' : vs'.mapM mkAngleEnergySpec = .ok d.distributions :=
    mapM_of_getElem _ _ _ (by omega) (fun k g1 g2 => by
      rw [hvk k g1 (by omega)]
      exact h4 k (by omega) g2)
  have hxk : ∀ (k : Nat) (h : k < d.distributions.length) (h' : k < ds.length),
      d.distributions[k].xss.length = ds[k].xss.length := by
    intro k h h'
    obtain ⟨_, bs, g2⟩ := hint k h'
    have hv1 := (hv _ (List.getElem_mem (l := vs) (show k < vs.length by omega))).1
    have e1 := angleEnergy_xss_length { vs[k]'(by omega) with locb := locb + wordsBefore b (ds.map (·.xss)) k }
      bs _ hv1 g2 (h4 k (by omega) h)
    have e2 := angleEnergy_xss_length _ bs _ hv1 g2 (hmk k (by omega) h')
    omega
  have hlens : (d.distributions.map (·.xss)).map List.length = (ds.map (·.xss)).map List.length := by
    refine List.ext_getElem (by simp; omega) (fun k g1 g2 => ?_)
    simp only [List.getElem_map]
    exact hxk k (by simpa using g1) (by simpa using g2)
  have hwc := fun k => wordsBefore_congr b _ _ hlens k
  obtain ⟨e1, g1, g2, _, g5, g6⟩ := law67_full vs' d.distributions hb'
    (fun v hm => by
      obtain ⟨k, hk, rfl⟩ := List.getElem_of_mem hm
      rw [hvk k hk (by omega)]
      obtain ⟨hv1, hv2, hv3⟩ := hv _ (List.getElem_mem (l := vs) (show k < vs.length by omega))
      refine ⟨hv1, hv2, fun bs hbs => ?_⟩
      have el := angleEnergy_xss_length _ bs _ hv1 hbs (hmk k (by omega) (by omega))
      have hst := startOf_add_le (ds.map (·.xss)) k (by simp; omega)
      rw [List.getElem_map] at hst
      have ht : (ds.map (·.xss)).take ds.length = ds.map (·.xss) := List.take_of_length_le (by simp)
      simp only [wordsBefore, ht] at hf ⊢
      simp only [startOf] at hst
      simp only [FitsN] at hf ⊢
      omega)
    idat b i hi (by rw [hwc, h3, ← hlen]; exact hf')
  have hev : vs'.map (·.incident) = vs.map (·.incident) := by
    refine List.ext_getElem (by simp [hvl]) (fun k k1 k2 => ?_)
    simp only [List.getElem_map]
    rw [hvk k (by simpa using k1) (by simpa using k2)]
  refine ⟨h5, h6, e1.xss, ?_, by rw [g2, hwc, hxl, h3, hlen], fun rest => ?_⟩
  · unfold LawData.remake
    rw [h5.regions.2.1, ok_bind, toLongs_ofInt b lb, ok_bind, h5.regions.2.2, ok_bind,
      toLongs_ofInt i li, ok_bind, g1]
    rfl
  · obtain ⟨r, r1, r2⟩ := g6 rest
    refine ⟨r, r1, ?_⟩
    have := distGives_congr hlens r2
    rw [hev] at this
    obtain ⟨p1, p2, p3, p4, p5, p6, p7, p8⟩ := this
    refine ⟨p1, p2, p3, p4, p5, p6, fun k hk => ?_, p8⟩
    obtain ⟨x, x1, x2⟩ := p7 k hk
    refine ⟨x, x1, fun v hv' => ?_⟩
    have hk' : k < vs.length := by simpa using hk
    rw [List.getElem?_eq_getElem hk'] at hv'
    injection hv' with hv'; subst hv'
    have := x2 vs'[k] (List.getElem?_eq_getElem (by omega))
    rw [hwc, hvk k (by omega) hk'] at this
    exact this

/-- Placing data of law 61 somewhere else. -/
theorem law61_place (vs : List (NestedSpec AngularSpec)) (ds : List EnergyAngle)
    (hb : vs.mapM mkEnergyAngleSpec = .ok ds)
    (hv : ∀ v ∈ vs, FitsN v.int ∧ (∀ u ∈ v.inner, Fits u.int) ∧
      ∀ bs, v.inner.mapM mkAngularSpec = .ok bs →
        FitsN (v.locb + innerBefore 3 (bs.map (·.angular.xss)) bs.length + 1))
    (locb idat : Nat) (b i : List Int) (lb : Longs b) (li : Longs i) (d : Law61)
    (hd : Law61.mk' b i ds locb = .ok d)
    (hf : FitsN (locb + d.xss.length + 1)) (hf' : FitsN (idat + d.xss.length + 1)) :
    DistGives d locb b i (vs.map (·.incident)) (ds.map (·.xss))
      (fun k x => ∀ v, vs[k]? = some v →
        IsEnergyAngle v (locb + wordsBefore b (ds.map (·.xss)) k) x) ∧
    (∀ rest, ∃ r, Law61.ofRange locb (d.xss ++ rest) = .ok r ∧
        DistGives r locb b i (vs.map (·.incident)) (ds.map (·.xss))
          (fun k x => ∀ v, vs[k]? = some v →
            IsEnergyAngle v (locb + wordsBefore b (ds.map (·.xss)) k) x)) ∧
    ∃ ws, LawData.remake Law61.mk' d idat = .ok ws ∧ ws.length = d.xss.length ∧
      ∀ rest, ∃ r, Law61.ofRange idat (ws ++ rest) = .ok r ∧
        DistGives r idat b i (vs.map (·.incident)) (ds.map (·.xss))
          (fun k x => ∀ v, vs[k]? = some v →
            IsEnergyAngle v (idat + wordsBefore b (ds.map (·.xss)) k) x) := by
  have hi := nested_mismatch Law61.part EnergyAngle.ofRange ds b i locb d hd
  obtain ⟨hlen, hmk⟩ := mapM_ok_iff mkEnergyAngleSpec vs ds hb
  have hint : ∀ (k : Nat) (h : k < ds.length), ds[k].interpolation = .ok ((vs[k]'(by omega)).int : Int) ∧
      ∃ bs, (vs[k]'(by omega)).inner.mapM mkAngularSpec = .ok bs := by
    intro k h
    have hm := hmk k (by omega) h
    unfold mkEnergyAngleSpec at hm
    obtain ⟨bs, hbs, hm⟩ := bind_eq_ok.mp hm
    have hv1 := (hv _ (List.getElem_mem (l := vs) (show k < vs.length by omega))).1
    refine ⟨?_, bs, hbs⟩
    unfold EnergyAngle.mk' at hm
    rw [energyAngle_xss _ _ _ hv1] at hm
    unfold EnergyAngle.generateBlocks at hm
    simp only [bind_eq_ok] at hm
    obtain ⟨_, _, _, _, _, _, _, _, _, _, hm⟩ := hm
    injection hm with hm; rw [← hm]
    exact Base.IXSS_ofNat (a := []) (by simp [innerWords]; rfl) (by simp) hv1
  have hxl : d.xss.length = wordsBefore b (ds.map (·.xss)) ds.length := by
    refine nested_length Law61.part EnergyAngle.ofRange ds b i locb d (fun k h loc ws hw => ?_) hd
    obtain ⟨h1, bs, h2⟩ := hint k h
    have hk : k < vs.length := by omega
    obtain ⟨hv1, hv2, hv3⟩ := hv _ (List.getElem_mem hk)
    obtain ⟨hb1, _, _, hb3⟩ := mapM_angular_values _ _ h2
    have hm := hmk k hk h
    unfold mkEnergyAngleSpec at hm
    rw [h2, ok_bind, energyAngle_mk _ _ _ _ hv1 (hv3 bs h2) (fun j hj t => by
      obtain ⟨u, _, hu2, hu3, _, _, hu4, hu5⟩ := hb3 j hj
      have hfl := flatten_length_ge bs (·.angular.xss) bs[j] (List.getElem_mem hj)
      have hwl := innerBefore_full 3 (bs.map (·.angular.xss))
      rw [List.length_map] at hwl
      have hv3' := hv3 bs h2
      obtain ⟨_, d', hd', _⟩ := C08_angular u.energy u.int u.cosines u.pdf u.cdf bs[j].angular
        (hv2 u hu2) (by omega) hu3 t
      exact ⟨d', by rw [hu4]; exact hd'⟩)] at hm
    injection hm with hm
    have hdis : ds[k].distributions = bs := by rw [← hm]
    have hinc : ds[k].incident = vs[k].incident := by rw [← hm]
    unfold Law61.part at hw
    simp only [h1, ok_bind, hdis, hinc] at hw
    obtain ⟨t, ht, hw⟩ := bind_eq_ok.mp hw
    injection hw with hw; subst hw
    have e1 := energyAngle_xss_length { vs[k] with locb := loc } bs t hv1 h2
      (by unfold mkEnergyAngleSpec; simp only [h2, ok_bind]; exact ht)
    have e2 := energyAngle_xss_length vs[k] bs ds[k] hv1 h2 (hmk k hk h)
    omega
  rw [hxl] at hf hf'
  obtain ⟨d1, h1, h2, ⟨h3, h4⟩, h5, h6⟩ := law61_full vs ds hb hv locb b i hi hf
  rw [hd] at h1; injection h1 with h1; subst h1
  let vs' : List (NestedSpec AngularSpec) := (List.range vs.length).map (fun k =>
    { (vs[k]?.getD ⟨.nan, 0, [], 0⟩) with locb := locb + wordsBefore b (ds.map (·.xss)) k })
  have hvl : vs'.length = vs.length := by simp [vs']
  have hvk : ∀ (k : Nat) (h : k < vs'.length) (h' : k < vs.length),
      vs'[k] = { vs[k] with locb := locb + wordsBefore b (ds.map (·.xss)) k } := by
    intro k h h'
    simp [vs', h']
  have hb' : vs'.mapM mkEnergyAngleSpec = .ok d.distributions :=
    mapM_of_getElem _ _ _ (by omega) (fun k g1 g2 => by
      rw [hvk k g1 (by omega)]
      exact h4 k (by omega) g2)
  have hxk : ∀ (k : Nat) (h : k < d.distributions.length) (h' : k < ds.length),
      d.distributions[k].xss.length = ds[k].xss.length := by
    intro k h h'
    obtain ⟨_, bs, g2⟩ := hint k h'
    have hv1 := (hv _ (List.getElem_mem (l := vs) (show k < vs.length by omega))).1
    have e1 := energyAngle_xss_length { vs[k]'(by omega) with locb := locb + wordsBefore b (ds.map (·.xss)) k }
      bs _ hv1 g2 (h4 k (by omega) h)
    have e2 := energyAngle_xss_length _ bs _ hv1 g2 (hmk k (by omega) h')
    omega
  have hlens : (d.distributions.map (·.xss)).map List.length = (ds.map (·.xss)).map List.length := by
    refine List.ext_getElem (by simp; omega) (fun k g1 g2 => ?_)
    simp only [List.getElem_map]
    exact hxk k (by simpa using g1) (by simpa using g2)
  have hwc := fun k => wordsBefore_congr b _ _ hlens k
  obtain ⟨e1, g1, g2, _, g5, g6⟩ := law61_full vs' d.distributions hb'
    (fun v hm => by
      obtain ⟨k, hk, rfl⟩ := List.getElem_of_mem hm
      rw [hvk k hk (by omega)]
      obtain ⟨hv1, hv2, hv3⟩ := hv _ (List.getElem_mem (l := vs) (show k < vs.length by omega))
      refine ⟨hv1, hv2, fun bs hbs => ?_⟩
      have el := energyAngle_xss_length _ bs _ hv1 hbs (hmk k (by omega) (by omega))
      have hst := startOf_add_le (ds.map (·.xss)) k (by simp; omega)
      rw [List.getElem_map] at hst
      have ht : (ds.map (·.xss)).take ds.length = ds.map (·.xss) := List.take_of_length_le (by simp)
      simp only [wordsBefore, ht] at hf ⊢
      simp only [startOf] at hst
      simp only [FitsN] at hf ⊢
      omega)
    idat b i hi (by rw [hwc, h3, ← hlen]; exact hf')
  have hev : vs'.map (·.incident) = vs.map (·.incident) := by
    refine List.ext_getElem (by simp [hvl]) (fun k k1 k2 => ?_)
    simp only [List.getElem_map]
    rw [hvk k (by simpa using k1) (by simpa using k2)]
  refine ⟨h5, h6, e1.xss, ?_, by rw [g2, hwc, hxl, h3, hlen], fun rest => ?_⟩
  · unfold LawData.remake
    rw [h5.regions.2.1, ok_bind, toLongs_ofInt b lb, ok_bind, h5.regions.2.2, ok_bind,
      toLongs_ofInt i li, ok_bind, g1]
    rfl
  · obtain ⟨r, r1, r2⟩ := g6 rest
    refine ⟨r, r1, ?_⟩
    have := distGives_congr hlens r2
    rw [hev] at this
    obtain ⟨p1, p2, p3, p4, p5, p6, p7, p8⟩ := this
    refine ⟨p1, p2, p3, p4, p5, p6, fun k hk => ?_, p8⟩
    obtain ⟨x, x1, x2⟩ := p7 k hk
    refine ⟨x, x1, fun v hv' => ?_⟩
    have hk' : k < vs.length := by simpa using hk
    rw [List.getElem?_eq_getElem hk'] at hv'
    injection hv' with hv'; subst hv'
    have := x2 vs'[k] (List.getElem?_eq_getElem (by omega))
    rw [hwc, hvk k (by omega) hk'] at this
    exact this

/-! ## The laws -/

/-- There is at least one incident energy. -/
def LawSpec.Nonempty : LawSpec → Prop
  | .tabulated _ _ vs _ => vs ≠ []
  | .general _ _ e _ _ => e ≠ []
  | .maxwell _ _ e _ _ => e ≠ []
  | .evaporation _ _ e _ _ => e ≠ []
  | .watt _ _ e _ _ _ _ _ _ => e ≠ []
  | .kalbach _ _ vs _ => vs ≠ []
  | .energyAngle _ _ vs _ => vs ≠ []
  | .angleEnergy _ _ vs _ => vs ≠ []
  | _ => True

/-- Everything proved about data `d` built from `s`. -/
structure LawFacts (s : LawSpec) (d : LawData) : Prop where
  gives : ∃ emin emax, s.Gives s.locator emin emax d
  range : ∀ emin emax, d.emin = .ok emin → d.emax = .ok emax →
    s.Range emin emax ∧ s.Gives s.locator emin emax d
  nonempty : s.Nonempty → ∃ emin emax, d.emin = .ok emin ∧ d.emax = .ok emax
  read : ∀ emin emax rest, ∃ d', LawData.read s.number s.locator (d.words ++ rest) emin emax = .ok d' ∧
    s.Gives s.locator emin emax d'
  place : ∀ idat, FitsN (idat + d.words.length + 1) → Placeable s d idat

theorem tab_mk_xss {b i : List Int} {x y : Words} {t : TabulatedData}
    (h : TabulatedData.mk' b i x y = .ok t) :
    i.length = b.length ∧ y.length = x.length ∧ t.xss = TabulatedData.words b i x y := by
  by_cases hv : i.length = b.length ∧ y.length = x.length
  · refine ⟨hv.1, hv.2, ?_⟩
    unfold TabulatedData.mk' at h
    obtain ⟨xs, hx, h⟩ := bind_eq_ok.mp h
    unfold TabulatedData.generateXSS InterpolationData.mk' at hx
    rw [ColumnData.ofColumns_ok _ b.length (by simp) (by simp [hv.1]), ok_bind,
      ColumnData.ofColumns_ok _ x.length (by simp) (by simp [hv.2]), ok_bind] at hx
    injection hx with hx; subst hx
    unfold TabulatedData.generateBlocks at h
    simp only [bind_eq_ok] at h
    obtain ⟨_, _, _, _, _, _, _, _, _, _, _, _, h⟩ := h
    injection h with h; rw [← h]; rfl
  · rw [TabulatedData.mk'_error hv] at h; cases h

theorem two_param_facts (s : LawSpec) (mk : TwoParam → LawData) (emin emax c1 c2 : Dbl)
    (hl : s.locator = 0)
    (hw : ∀ d, (mk d).words = d.xss) (hm : ∀ d, (mk d).emin = .ok d.emin)
    (hM : ∀ d, (mk d).emax = .ok d.emax) (hp : ∀ d idat, (mk d).placed idat = .ok d.xss)
    (hr : ∀ idat xs e e', LawData.read s.number idat xs e e' =
      (TwoParam.ofRange xs e e' >>= fun d => pure (mk d)))
    (hg : ∀ idat e e' d, s.Gives idat e e' (mk d) ↔
      d.emin = e ∧ d.emax = e' ∧ d.C1 = .ok c1 ∧ d.C2 = .ok c2)
    (hR : ∀ e e', s.Range e e' ↔ e = emin ∧ e' = emax) :
    LawFacts s (mk (TwoParam.mk' emin emax c1 c2)) := by
  have hread : ∀ idat e e' rest, ∃ d', LawData.read s.number idat ([c1, c2] ++ rest) e e' = .ok d' ∧
      s.Gives idat e e' d' := by
    intro idat e e' rest
    refine ⟨mk ⟨[c1, c2] ++ rest, e, e'⟩, ?_, (hg _ _ _ _).mpr ⟨rfl, rfl, ?_, ?_⟩⟩
    · rw [hr]
      unfold TwoParam.ofRange
      rw [guardThrow_not_lt (by simp), ok_bind]
      rfl
    · exact Base.XSS_of_eq (a := []) (c := c2 :: rest) rfl rfl
    · exact Base.XSS_of_eq (a := [c1]) (c := rest) rfl rfl
  have hg0 : s.Gives s.locator emin emax (mk (TwoParam.mk' emin emax c1 c2)) :=
    (hg _ _ _ _).mpr ⟨rfl, rfl, Base.XSS_of_eq (a := []) (c := [c2]) rfl rfl,
      Base.XSS_of_eq (a := [c1]) (c := []) rfl rfl⟩
  refine ⟨⟨emin, emax, hg0⟩, fun e e' h1 h2 => ?_, fun _ => ⟨_, _, hm _, hM _⟩, fun e e' rest => ?_,
    fun idat _ => ⟨[c1, c2], hp _ _, by rw [hw]; rfl, hread idat⟩⟩
  · rw [hm] at h1; rw [hM] at h2
    injection h1 with h1; injection h2 with h2
    have h1' : emin = e := h1
    have h2' : emax = e' := h2
    subst h1' h2'
    exact ⟨(hR _ _).mpr ⟨rfl, rfl⟩, hg0⟩
  · rw [hw]; exact hread _ e e' rest

theorem ends_of {x : Words} (h : x ≠ []) : ∃ a b, LawSpec.Ends x a b := by
  cases x with
  | nil => exact absurd rfl h
  | cons a l => exact ⟨a, (a :: l).getLast (by simp), rfl, List.getLast?_eq_some_getLast (by simp)⟩

theorem deref_ends {x : Words} {a b : Dbl} (h1 : deref x 0 = .ok a) (h2 : last x = .ok b) :
    LawSpec.Ends x a b := by
  cases x with
  | nil => cases h1
  | cons c l =>
    refine ⟨?_, ?_⟩
    · injection h1 with h1; rw [← h1]; rfl
    · unfold last at h2
      cases hh : (c :: l).getLast? with
      | none => rw [hh] at h2; cases h2
      | some v => rw [hh] at h2; injection h2 with h2; rw [h2]

theorem evaporation_facts (s : LawSpec) (mk : Evaporation → LawData) (b i : List Int) (x y : Words)
    (u : Dbl) (hl : s.locator = 0)
    (hw : ∀ d, (mk d).words = d.xss) (hm : ∀ d, (mk d).emin = d.emin)
    (hM : ∀ d, (mk d).emax = d.emax) (hp : ∀ d idat, (mk d).placed idat = .ok d.xss)
    (hr : ∀ idat xs e e', LawData.read s.number idat xs e e' =
      (Evaporation.ofRange xs >>= fun d => pure (mk d)))
    (hg : ∀ idat e e' d, s.Gives idat e e' (mk d) ↔
      GivesTable d.tabulated b i x y ∧ d.energies = .ok x ∧ d.temperatures = .ok y ∧ d.U = .ok u)
    (hR : ∀ e e', s.Range e e' ↔ LawSpec.Ends x e e') (hN : s.Nonempty ↔ x ≠ [])
    (d : Evaporation) (hd : Evaporation.mk' b i x y u = .ok d)
    (hf : FitsN (s.locator + (mk d).words.length + 1)) : LawFacts s (mk d) := by
  have hd' := hd
  unfold Evaporation.mk' at hd'
  obtain ⟨t, ht, hd'⟩ := bind_eq_ok.mp hd'
  obtain ⟨hi, hy, htx⟩ := tab_mk_xss ht
  have hdx : d.xss = TabulatedData.words b i x y ++ [u] := by
    unfold Evaporation.generateBlocks at hd'
    simp only [bind_eq_ok] at hd'
    obtain ⟨_, _, _, _, _, _, _, _, h⟩ := hd'
    injection h with h; rw [← h, htx]
  have hwl : (TabulatedData.words b i x y).length = 2 + 2 * b.length + 2 * x.length := by
    simp [TabulatedData.words]; omega
  have hv : TabulatedData.Valid b i x y := by
    rw [hw, hdx, List.length_append, hwl] at hf
    exact ⟨hi, hy, by omega, by omega⟩
  rw [Evaporation.mk'_ok hv] at hd
  injection hd with hd
  have hga : ∀ idat e e' rest, s.Gives idat e e'
      (mk ⟨TabulatedData.words b i x y ++ u :: rest, TabulatedData.tab b i x y []⟩) := by
    intro idat e e' rest
    have := TabulatedData.tab_accessors hv []
    refine (hg _ _ _ _).mpr ⟨this, this.2.2.2.2.1, this.2.2.2.2.2, ?_⟩
    unfold Evaporation.U
    exact deref_of_eq (a := TabulatedData.words b i x y) (c := rest) rfl
      (by rw [TabulatedData.tab_xss, List.append_nil])
  have hread : ∀ idat e e' rest, ∃ d', LawData.read s.number idat (d.xss ++ rest) e e' = .ok d' ∧
      s.Gives idat e e' d' := by
    intro idat e e' rest
    refine ⟨_, ?_, hga idat e e' rest⟩
    rw [hr, hdx, List.append_assoc, List.singleton_append, Evaporation.ofRange_ok hv]
    rfl
  have hen : d.energies = .ok x := by
    rw [← hd]; exact (TabulatedData.tab_accessors hv []).2.2.2.2.1
  have hemin : d.emin = deref x 0 := by unfold Evaporation.emin; rw [hen, ok_bind]
  have hemax : d.emax = last x := by
    unfold Evaporation.emax last; rw [hen, ok_bind]; rfl
  have hg0 : ∀ e e', s.Gives s.locator e e' (mk d) := fun e e' => by
    rw [← hd]; exact hga _ e e' []
  refine ⟨⟨.nan, .nan, hg0 _ _⟩, fun e e' h1 h2 => ⟨(hR _ _).mpr ?_, hg0 _ _⟩, fun hn => ?_,
    fun e e' rest => by rw [hw]; exact hread _ _ _ _,
    fun idat _ => ⟨d.xss, hp _ _, by rw [hw], hread idat⟩⟩
  · rw [hm, hemin] at h1; rw [hM, hemax] at h2
    exact deref_ends h1 h2
  · obtain ⟨a, c, h1, h2⟩ := ends_of (hN.mp hn)
    exact ⟨a, c, by rw [hm, hemin]; exact deref_head h1, by rw [hM, hemax]; exact getLast_split h2⟩

theorem general_facts (b i : List Int) (x y bins : Words) (d : GenEvap)
    (hd : GenEvap.mk' b i x y bins = .ok d) (hf : FitsN (d.xss.length + 1)) :
    LawFacts (.general b i x y bins) (.general d) := by
  have hd' := hd
  unfold GenEvap.mk' at hd'
  obtain ⟨t, ht, hd'⟩ := bind_eq_ok.mp hd'
  obtain ⟨hi, hy, htx⟩ := tab_mk_xss ht
  have hdx : d.xss = TabulatedData.words b i x y ++ ColumnData.words bins.length [bins] := by
    unfold GenEvap.generateBlocks at hd'
    simp only [bind_eq_ok] at hd'
    obtain ⟨_, _, _, _, _, _, _, _, _, _, _, _, h⟩ := hd'
    injection h with h; rw [← h, htx]; simp [ColumnData.words]
  have hwl : (TabulatedData.words b i x y).length = 2 + 2 * b.length + 2 * x.length := by
    simp [TabulatedData.words]; omega
  have hfit := hf
  rw [hdx, List.length_append, hwl] at hfit
  have hbl : bins.length ≤ (ColumnData.words bins.length [bins]).length := by simp
  have hv : TabulatedData.Valid b i x y := ⟨hi, hy, by omega, by omega⟩
  have fb : FitsN bins.length := by omega
  rw [GenEvap.mk'_ok hv bins fb] at hd
  injection hd with hd
  have hga : ∀ idat e e' rest, LawSpec.Gives idat e e' (.general b i x y bins) (.general
      ⟨TabulatedData.words b i x y ++ (ColumnData.words bins.length [bins] ++ rest),
        TabulatedData.tab b i x y [], ⟨ColumnData.words bins.length [bins] ++ rest, 1⟩⟩) := by
    intro idat e e' rest
    have hH : ColumnData.Holds ⟨ColumnData.words bins.length [bins] ++ rest, 1⟩ bins.length [bins] :=
      ⟨by simp, fb, rest, rfl⟩
    exact ⟨TabulatedData.tab_accessors hv [], hH.N, hH.column 0 (by simp)⟩
  have hread : ∀ idat e e' rest, ∃ d', LawData.read 5 idat (d.xss ++ rest) e e' = .ok d' ∧
      LawSpec.Gives idat e e' (.general b i x y bins) d' := by
    intro idat e e' rest
    refine ⟨_, ?_, hga idat e e' rest⟩
    have hr : LawData.read 5 idat (d.xss ++ rest) e e' =
      (GenEvap.ofRange (d.xss ++ rest) >>= fun d => pure (.general d)) := rfl
    rw [hr, hdx, List.append_assoc, GenEvap.ofRange_ok hv bins rest fb]
    rfl
  have hen : d.tabulated.x = .ok x := by
    rw [← hd]; exact (TabulatedData.tab_accessors hv []).2.2.2.2.1
  have hemin : d.emin = deref x 0 := by unfold GenEvap.emin; rw [hen, ok_bind]
  have hemax : d.emax = last x := by unfold GenEvap.emax; rw [hen, ok_bind]
  have hg0 : ∀ e e', LawSpec.Gives 0 e e' (.general b i x y bins) (.general d) := fun e e' => by
    have := hga 0 e e' []
    rw [← hd]
    simpa [ColumnData.words] using this
  refine ⟨⟨.nan, .nan, hg0 _ _⟩, fun e e' h1 h2 => ⟨?_, hg0 _ _⟩, fun hn => ?_,
    fun e e' rest => hread _ _ _ _, fun idat _ => ⟨d.xss, rfl, rfl, hread idat⟩⟩
  · have h1' : d.emin = .ok e := h1
    have h2' : d.emax = .ok e' := h2
    rw [hemin] at h1'; rw [hemax] at h2'
    exact deref_ends h1' h2'
  · obtain ⟨a, c, h1, h2⟩ := ends_of (show x ≠ [] from hn)
    exact ⟨a, c, by show d.emin = _; rw [hemin]; exact deref_head h1,
      by show d.emax = _; rw [hemax]; exact getLast_split h2⟩

theorem watt_facts (b i : List Int) (x y : Words) (b' i' : List Int) (x' y' : Words) (u : Dbl)
    (ta tb : TabulatedData) (ha : TabulatedData.mk' b i x y = .ok ta)
    (hb : TabulatedData.mk' b' i' x' y' = .ok tb) (d : Watt)
    (hd : Watt.mk' ta tb u = .ok d) (hf : FitsN (d.xss.length + 1)) :
    LawFacts (.watt b i x y b' i' x' y' u) (.watt d) := by
  obtain ⟨hi, hy, hax⟩ := tab_mk_xss ha
  obtain ⟨hi', hy', hbx⟩ := tab_mk_xss hb
  have hdx : d.xss = TabulatedData.words b i x y ++ (TabulatedData.words b' i' x' y' ++ [u]) := by
    unfold Watt.mk' Watt.generateBlocks at hd
    simp only [bind_eq_ok] at hd
    obtain ⟨_, _, _, _, _, _, _, _, _, _, _, _, _, _, _, _, h⟩ := hd
    injection h with h; rw [← h, hax, hbx, List.append_assoc]
  have hwl : (TabulatedData.words b i x y).length = 2 + 2 * b.length + 2 * x.length := by
    simp [TabulatedData.words]; omega
  have hwl' : (TabulatedData.words b' i' x' y').length = 2 + 2 * b'.length + 2 * x'.length := by
    simp [TabulatedData.words]; omega
  have hfit := hf
  rw [hdx, List.length_append, List.length_append, hwl, hwl'] at hfit
  have hv : TabulatedData.Valid b i x y := ⟨hi, hy, by omega, by omega⟩
  have hv' : TabulatedData.Valid b' i' x' y' := ⟨hi', hy', by omega, by omega⟩
  rw [TabulatedData.mk'_ok hv] at ha
  rw [TabulatedData.mk'_ok hv'] at hb
  injection ha with ha; injection hb with hb; subst ha hb
  rw [Watt.mk'_ok hv hv'] at hd
  injection hd with hd
  have hga : ∀ idat e e' rest, LawSpec.Gives idat e e' (.watt b i x y b' i' x' y' u) (.watt
      ⟨TabulatedData.words b i x y ++ (TabulatedData.words b' i' x' y' ++ u :: rest),
        TabulatedData.tab b i x y [], TabulatedData.tab b' i' x' y' []⟩) := by
    intro idat e e' rest
    refine ⟨TabulatedData.tab_accessors hv [], TabulatedData.tab_accessors hv' [], ?_⟩
    unfold Watt.U
    exact deref_of_eq (a := TabulatedData.words b i x y ++ TabulatedData.words b' i' x' y')
      (c := rest) (by simp) (by simp only [TabulatedData.tab_xss, List.append_nil, List.length_append])
  have hread : ∀ idat e e' rest, ∃ d', LawData.read 11 idat (d.xss ++ rest) e e' = .ok d' ∧
      LawSpec.Gives idat e e' (.watt b i x y b' i' x' y' u) d' := by
    intro idat e e' rest
    refine ⟨_, ?_, hga idat e e' rest⟩
    have hr : LawData.read 11 idat (d.xss ++ rest) e e' =
      (Watt.ofRange (d.xss ++ rest) >>= fun d => pure (.watt d)) := rfl
    rw [hr, hdx, List.append_assoc, List.append_assoc, List.singleton_append, Watt.ofRange_ok hv hv']
    rfl
  have hen : d.a.x = .ok x := by
    rw [← hd]; exact (TabulatedData.tab_accessors hv []).2.2.2.2.1
  have hemin : d.emin = deref x 0 := by unfold Watt.emin; rw [hen, ok_bind]
  have hemax : d.emax = last x := by unfold Watt.emax; rw [hen, ok_bind]
  have hg0 : ∀ e e', LawSpec.Gives 0 e e' (.watt b i x y b' i' x' y' u) (.watt d) := fun e e' => by
    rw [← hd]; exact hga 0 e e' []
  refine ⟨⟨.nan, .nan, hg0 _ _⟩, fun e e' h1 h2 => ⟨?_, hg0 _ _⟩, fun hn => ?_,
    fun e e' rest => hread _ _ _ _, fun idat _ => ⟨d.xss, rfl, rfl, hread idat⟩⟩
  · have h1' : d.emin = .ok e := h1
    have h2' : d.emax = .ok e' := h2
    rw [hemin] at h1'; rw [hemax] at h2'
    exact deref_ends h1' h2'
  · obtain ⟨a, c, h1, h2⟩ := ends_of (show x ≠ [] from hn)
    exact ⟨a, c, by show d.emin = _; rw [hemin]; exact deref_head h1,
      by show d.emax = _; rw [hemax]; exact getLast_split h2⟩

theorem nbody_facts (emin emax : Dbl) (npsx : Nat) (ap : Dbl) (int : Nat) (values pdf cdf : Words)
    (hn : FitsN npsx) (hint : FitsN int) (d : NBody)
    (hd : NBody.mk' emin emax npsx ap int values pdf cdf = .ok d) (hf : FitsN (d.xss.length + 1)) :
    LawFacts (.nbody emin emax npsx ap int values pdf cdf) (.nbody d) := by
  unfold NBody.mk' at hd
  obtain ⟨c, hc, hd⟩ := bind_eq_ok.mp hd
  injection hd with hd
  have hlen : pdf.length = values.length ∧ cdf.length = values.length := by
    by_cases h : ∀ x ∈ [pdf, cdf], x.length = values.length
    · simpa using h
    · rw [ColumnData.ofColumns_error _ _ h] at hc; cases hc
  rw [ColumnData.ofColumns_ok _ values.length (by simp) (by simp [hlen.1, hlen.2])] at hc
  injection hc with hc; subst hc
  have hdx : d.xss = Dbl.ofNat npsx :: ap :: Dbl.ofNat int ::
      ColumnData.words values.length [values, pdf, cdf] := by rw [← hd]
  have hfv : FitsN values.length := by
    have : values.length ≤ d.xss.length := by rw [hdx]; simp; omega
    omega
  have hga : ∀ idat e e' rest, LawSpec.Gives idat e e'
      (.nbody emin emax npsx ap int values pdf cdf) (.nbody ⟨d.xss ++ rest, e, e'⟩) := by
    intro idat e e' rest
    have hnv : NBody.numberValues ⟨d.xss ++ rest, e, e'⟩ = .ok values.length := by
      unfold NBody.numberValues
      have i4 : Base.IXSS (d.xss ++ rest) 4 = .ok (values.length : Int) :=
        Base.IXSS_ofNat (a := [Dbl.ofNat npsx, ap, Dbl.ofNat int])
        (c := [values, pdf, cdf].flatten ++ rest) (by rw [hdx]; simp [ColumnData.words]) rfl hfv
      simp only [i4, ok_bind, sizeOfInt_natCast hfv]
      rfl
    refine ⟨rfl, rfl, ?_, ?_, ?_, hnv, ?_, ?_, ?_⟩
    · unfold NBody.NPSX
      have i1 : Base.IXSS (d.xss ++ rest) 1 = .ok (npsx : Int) :=
        Base.IXSS_ofNat (a := []) (by rw [hdx]; simp; rfl) rfl hn
      simp only [i1, ok_bind]
      rw [u32OfInt_natCast (by unfold FitsN at hn; omega)]
      rfl
    · exact Base.XSS_of_eq (a := [Dbl.ofNat npsx]) (by rw [hdx]; simp; rfl) rfl
    · exact Base.IXSS_ofNat (a := [Dbl.ofNat npsx, ap]) (by rw [hdx]; simp; rfl) rfl hint
    · unfold NBody.values
      rw [hnv, ok_bind]
      exact Base.XSSr_of_eq (a := [Dbl.ofNat npsx, ap, Dbl.ofNat int, Dbl.ofNat values.length])
        (c := pdf ++ cdf ++ rest) (by rw [hdx]; simp [ColumnData.words]) rfl rfl
    · unfold NBody.pdf
      rw [hnv, ok_bind]
      exact Base.XSSr_of_eq (a := [Dbl.ofNat npsx, ap, Dbl.ofNat int, Dbl.ofNat values.length] ++ values)
        (c := cdf ++ rest) (by rw [hdx]; simp [ColumnData.words]) (by simp; omega) (by omega)
    · unfold NBody.cdf
      rw [hnv, ok_bind]
      exact Base.XSSr_of_eq (a := [Dbl.ofNat npsx, ap, Dbl.ofNat int, Dbl.ofNat values.length] ++ values ++ pdf)
        (c := rest) (by rw [hdx]; simp [ColumnData.words]) (by simp; omega) (by omega)
  have hread : ∀ idat e e' rest, ∃ d', LawData.read 66 idat (d.xss ++ rest) e e' = .ok d' ∧
      LawSpec.Gives idat e e' (.nbody emin emax npsx ap int values pdf cdf) d' := by
    intro idat e e' rest
    refine ⟨_, ?_, hga idat e e' rest⟩
    have hr : LawData.read 66 idat (d.xss ++ rest) e e' =
      (NBody.ofRange (d.xss ++ rest) e e' >>= fun d => pure (.nbody d)) := rfl
    rw [hr]
    unfold NBody.ofRange
    rw [guardThrow_not_lt (by rw [hdx]; simp), ok_bind]
    rfl
  have he : d.emin = emin ∧ d.emax = emax := by rw [← hd]; exact ⟨rfl, rfl⟩
  have hg0 : LawSpec.Gives 0 emin emax (.nbody emin emax npsx ap int values pdf cdf) (.nbody d) := by
    have := hga 0 emin emax []
    rw [List.append_nil] at this
    rw [← hd] at this ⊢
    exact this
  refine ⟨⟨emin, emax, hg0⟩, fun e e' h1 h2 => ?_, fun _ => ⟨_, _, rfl, rfl⟩,
    fun e e' rest => hread _ _ _ _, fun idat _ => ⟨d.xss, rfl, rfl, hread idat⟩⟩
  have h1' : (Except.ok d.emin : Res Dbl) = .ok e := h1
  have h2' : (Except.ok d.emax : Res Dbl) = .ok e' := h2
  injection h1' with h1'; injection h2' with h2'
  rw [he.1] at h1'; rw [he.2] at h2'
  subst h1' h2'
  exact ⟨⟨rfl, rfl⟩, hg0⟩

theorem equi_gives {b i : List Int} {net : Nat} {order : List EquiEnergy}
    (hi : i.length = b.length) (hn : ∀ d ∈ order, d.xss.length = net)
    (fn : FitsN net) (hf : FitsN (EquiBinData.wordsOf b i net order).length) (rest : Words) :
    LawSpec.EquiGives (EquiBinData.obj b i net order rest) b i order := by
  have hl := EquiBinData.wordsOf_length (b := b) hi hn
  have fb : FitsN b.length := by omega
  have fe : FitsN order.length := by omega
  have hI : ColumnData.Holds ⟨ColumnData.words b.length [b.map Dbl.ofInt, i.map Dbl.ofInt], 2⟩
      b.length [b.map Dbl.ofInt, i.map Dbl.ofInt] := ⟨by simp [hi], fb, [], by simp⟩
  have hE : ColumnData.Holds ⟨ColumnData.words order.length [order.map (·.incident)], 1⟩
      order.length [order.map (·.incident)] := ⟨by simp, fe, [], by simp⟩
  refine ⟨⟨hI.N, hI.column 0 (by simp), hI.column 1 (by simp)⟩, hE.N, hE.column 0 (by simp),
    fun k hk => EquiBinData.incidentOf_ok fe k hk, fun k hk => ⟨?_, ?_⟩, fun k hk => ⟨?_, ?_⟩⟩
  · rw [hn _ (List.getElem_mem hk)]
    exact EquiBinData.NET_ok hi fn fb fe rest
  · unfold EquiBinData.distribution EquiBinData.NE
    have : (EquiBinData.obj b i net order rest).energies.N = .ok order.length := hE.N
    rw [this, ok_bind, if_neg (by omega)]
    have : (EquiBinData.obj b i net order rest).bins[k + 1 - 1]? = some order[k] := by
      simp [EquiBinData.obj, hk]
    rw [this]; rfl
  · unfold EquiBinData.incidentEnergy EquiBinData.incidentOf
    have : (EquiBinData.obj b i net order rest).energies.N = .ok order.length := hE.N
    rw [this, ok_bind, if_pos (by omega)]
  · unfold EquiBinData.distribution EquiBinData.NE
    have : (EquiBinData.obj b i net order rest).energies.N = .ok order.length := hE.N
    rw [this, ok_bind, if_pos (by omega)]

theorem equi_facts (sort : StdSort EquiEnergy.incident) (b i : List Int) (bins : List EquiEnergy)
    (hnan : ∀ d ∈ bins, d.incident ≠ .nan) (net : Nat) (fn : FitsN net)
    (hnet : ∀ d ∈ bins, d.xss.length = net) (d : EquiBinData)
    (hd : EquiBinData.mk' sort b i bins = .ok d) (hf : FitsN (d.xss.length + 1)) :
    LawFacts (.equiprobable b i bins) (.equiprobable d) := by
  have hs := sort.spec bins hnan
  have hn : ∀ d ∈ sort.run bins, d.xss.length = net := fun d hd => hnet d (hs.1.mem_iff.mp hd)
  unfold EquiBinData.mk' at hd
  obtain ⟨xs, hx, hd⟩ := bind_eq_ok.mp hd
  have hi : i.length = b.length := by
    by_cases h : i.length = b.length
    · exact h
    · rw [EquiBinData.generateXSS_mismatch b i _ h] at hx; cases hx
  have hne : sort.run bins ≠ [] := by
    intro h
    rw [h] at hx
    unfold EquiBinData.generateXSS at hx
    obtain ⟨_, _, hx⟩ := bind_eq_ok.mp hx
    cases hx
  rw [EquiBinData.generateXSS_ok b i _ net hi hne hn] at hx
  injection hx with hx; subst hx
  have hdx : d.xss = EquiBinData.wordsOf b i net (sort.run bins) := by
    unfold EquiBinData.generateBlocks at hd
    simp only [bind_eq_ok] at hd
    obtain ⟨_, _, _, _, _, _, _, _, _, _, _, _, _, _, h⟩ := hd
    injection h with h; rw [← h]
  have hfl : FitsN (EquiBinData.wordsOf b i net (sort.run bins)).length := by
    rw [← hdx]; omega
  have hg := EquiBinData.generateBlocks_ok hi hn fn hfl []
  rw [List.append_nil, hd] at hg
  injection hg with hg
  have hread : ∀ idat e e' rest, ∃ d', LawData.read 1 idat (d.xss ++ rest) e e' = .ok d' ∧
      LawSpec.Gives idat e e' (.equiprobable b i bins) d' := by
    intro idat e e' rest
    refine ⟨.equiprobable (EquiBinData.obj b i net (sort.run bins) rest), ?_, sort.run bins, hs,
      equi_gives hi hn fn hfl rest⟩
    have hr : LawData.read 1 idat (d.xss ++ rest) e e' =
      (EquiBinData.ofRange (d.xss ++ rest) >>= fun d => pure (.equiprobable d)) := rfl
    rw [hr, hdx, EquiBinData.ofRange_ok hi hn fn hfl rest]
    rfl
  have hE : LawSpec.EquiGives d b i (sort.run bins) := by
    rw [hg]; exact equi_gives hi hn fn hfl []
  have hg0 : ∀ e e', LawSpec.Gives 0 e e' (.equiprobable b i bins) (.equiprobable d) :=
    fun e e' => ⟨sort.run bins, hs, hE⟩
  have hpos : 0 < (sort.run bins).length := List.length_pos_iff.mpr hne
  have hemin : d.emin = .ok (sort.run bins)[0].incident := hE.energy 0 hpos
  have hemax : d.emax = .ok ((sort.run bins)[(sort.run bins).length - 1]'(by omega)).incident := by
    unfold EquiBinData.emax
    rw [hE.count, ok_bind]
    have := hE.energy ((sort.run bins).length - 1) (by omega)
    rw [Nat.sub_add_cancel (by omega)] at this
    exact this
  refine ⟨⟨.nan, .nan, hg0 _ _⟩, fun e e' h1 h2 => ⟨⟨sort.run bins, hs, ?_, ?_⟩, hg0 _ _⟩,
    fun _ => ⟨_, _, hemin, hemax⟩,
    fun e e' rest => hread _ _ _ _, fun idat _ => ⟨d.xss, rfl, rfl, hread idat⟩⟩
  · have h1' : d.emin = .ok e := h1
    rw [hemin] at h1'; injection h1' with h1'
    rw [List.head?_eq_getElem?, List.getElem?_map, List.getElem?_eq_getElem hpos, ← h1']
    rfl
  · have h2' : d.emax = .ok e' := h2
    rw [hemax] at h2'; injection h2' with h2'
    rw [List.getLast?_eq_getElem?, List.getElem?_map, List.length_map,
      List.getElem?_eq_getElem (by omega), ← h2']
    rfl

theorem ends_energies {D : Type} {d : DistData D} {locb : Nat} {b i : List Int} {es : Words}
    {ws : List Words} {P : Nat → D → Prop} (hd : DistGives d locb b i es ws P) (h : es ≠ []) :
    ∃ a c, d.minimumIncidentEnergy = .ok a ∧ d.maximumIncidentEnergy = .ok c := by
  have hpos : 0 < es.length := List.length_pos_iff.mpr h
  refine ⟨_, es[es.length - 1], hd.energy 0 hpos, ?_⟩
  unfold DistData.maximumIncidentEnergy
  rw [hd.count, ok_bind]
  have := hd.energy (es.length - 1) (by omega)
  rw [Nat.sub_add_cancel (by omega)] at this
  exact this

/-- Everything, for each law. -/
theorem law_facts (sort : StdSort EquiEnergy.incident) (s : LawSpec) (d : LawData)
    (hb : s.build sort = .ok d) (hok : s.Ok) (hf : FitsN (s.locator + d.words.length + 1)) :
    LawFacts s d := by
  cases s with
  | equiprobable b i bins =>
    obtain ⟨x, hx, hb⟩ := bind_eq_ok.mp hb
    injection hb with hb; subst hb
    obtain ⟨hnan, net, fn, hnet⟩ := hok
    exact equi_facts sort b i bins hnan net fn hnet x hx (by
      have e : LawSpec.locator (.equiprobable b i bins) = 0 := rfl
      rw [e, Nat.zero_add] at hf; exact hf)
  | photon emin emax lp energy =>
    injection hb with hb; subst hb
    exact two_param_facts _ LawData.photon emin emax (Dbl.ofNat lp) energy rfl (fun _ => rfl)
      (fun _ => rfl) (fun _ => rfl) (fun _ _ => rfl) (fun _ _ _ _ => rfl) (fun _ _ _ _ => Iff.rfl)
      (fun _ _ => Iff.rfl)
  | level emin emax c1 c2 =>
    injection hb with hb; subst hb
    exact two_param_facts _ LawData.level emin emax c1 c2 rfl (fun _ => rfl)
      (fun _ => rfl) (fun _ => rfl) (fun _ _ => rfl) (fun _ _ _ _ => rfl) (fun _ _ _ _ => Iff.rfl)
      (fun _ _ => Iff.rfl)
  | transfer emin emax c1 c2 =>
    injection hb with hb; subst hb
    exact two_param_facts _ LawData.transfer emin emax c1 c2 rfl (fun _ => rfl)
      (fun _ => rfl) (fun _ => rfl) (fun _ _ => rfl) (fun _ _ _ _ => rfl) (fun _ _ _ _ => Iff.rfl)
      (fun _ _ => Iff.rfl)
  | general b i e t bins =>
    obtain ⟨x, hx, hb⟩ := bind_eq_ok.mp hb
    injection hb with hb; subst hb
    exact general_facts b i e t bins x hx (by
      have e : LawSpec.locator (.general b i e t bins) = 0 := rfl
      rw [e, Nat.zero_add] at hf; exact hf)
  | maxwell b i e t u =>
    obtain ⟨x, hx, hb⟩ := bind_eq_ok.mp hb
    injection hb with hb; subst hb
    exact evaporation_facts _ LawData.maxwell b i e t u rfl (fun _ => rfl)
      (fun _ => rfl) (fun _ => rfl) (fun _ _ => rfl) (fun _ _ _ _ => rfl) (fun _ _ _ _ => Iff.rfl)
      (fun _ _ => Iff.rfl) Iff.rfl x hx hf
  | evaporation b i e t u =>
    obtain ⟨x, hx, hb⟩ := bind_eq_ok.mp hb
    injection hb with hb; subst hb
    exact evaporation_facts _ LawData.evaporation b i e t u rfl (fun _ => rfl)
      (fun _ => rfl) (fun _ => rfl) (fun _ _ => rfl) (fun _ _ _ _ => rfl) (fun _ _ _ _ => Iff.rfl)
      (fun _ _ => Iff.rfl) Iff.rfl x hx hf
  | watt b i e as b' i' e' bs u =>
    obtain ⟨ta, ha, hb⟩ := bind_eq_ok.mp hb
    obtain ⟨tb, htb, hb⟩ := bind_eq_ok.mp hb
    obtain ⟨x, hx, hb⟩ := bind_eq_ok.mp hb
    injection hb with hb; subst hb
    exact watt_facts b i e as b' i' e' bs u ta tb ha htb x hx (by
      have e : LawSpec.locator (.watt b i e as b' i' e' bs u) = 0 := rfl
      rw [e, Nat.zero_add] at hf; exact hf)
  | nbody emin emax npsx ap int values pdf cdf =>
    obtain ⟨x, hx, hb⟩ := bind_eq_ok.mp hb
    injection hb with hb; subst hb
    exact nbody_facts emin emax npsx ap int values pdf cdf hok.1 hok.2 x hx (by
      have e : LawSpec.locator (.nbody emin emax npsx ap int values pdf cdf) = 0 := rfl
      rw [e, Nat.zero_add] at hf; exact hf)
  | tabulated b i vs locb =>
    obtain ⟨bs, hbs, hb⟩ := bind_eq_ok.mp hb
    obtain ⟨x, hx, hb⟩ := bind_eq_ok.mp hb
    injection hb with hb; subst hb
    have key := fun idat hf' => law4_place mkEnergySpec (·.incident) (·.outgoing) IsEnergy vs bs hbs
      (fun v _ d hd => energySpec_xss v d hd)
      (fun v hm d hd hfv rest => (C08_energy v.incident v.int v.discrete v.outgoing v.pdf v.cdf d
        (hok.2.2 v hm).1 (hok.2.2 v hm).2 hfv hd rest).2)
      locb idat b i hok.1 hok.2.1 x hx hf hf'
    obtain ⟨h1, h2, _⟩ := key locb hf
    refine ⟨⟨.nan, .nan, bs, hbs, h1⟩, fun e e' g1 g2 => ⟨ends_iff h1 g1 g2, bs, hbs, h1⟩,
      fun hn => ends_energies h1 (by have hn' : vs ≠ [] := hn; simpa using hn'), fun e e' rest => ?_, fun idat hfi => ?_⟩
    · obtain ⟨r, r1, r2⟩ := h2 rest
      refine ⟨.tabulated r, ?_, bs, hbs, r2⟩
      show (Law4.ofRange locb (x.xss ++ rest) >>= fun d => pure (LawData.tabulated d)) = _
      rw [r1]; rfl
    · obtain ⟨_, _, ws, w1, w2, w3, _⟩ := key idat hfi
      refine ⟨ws, w1, w2, fun e e' rest => ?_⟩
      obtain ⟨r, r1, r2⟩ := w3 rest
      refine ⟨.tabulated r, ?_, bs, hbs, r2⟩
      show (Law4.ofRange idat (ws ++ rest) >>= fun d => pure (LawData.tabulated d)) = _
      rw [r1]; rfl
  | kalbach b i vs locb =>
    obtain ⟨bs, hbs, hb⟩ := bind_eq_ok.mp hb
    obtain ⟨x, hx, hb⟩ := bind_eq_ok.mp hb
    injection hb with hb; subst hb
    have key := fun idat hf' => law4_place mkKalbachSpec (·.1.incident) (·.1.outgoing) IsKalbach vs bs hbs
      (fun v _ d hd => kalbachSpec_xss v d hd)
      (fun v hm d hd hfv rest => by
        obtain ⟨_, d', h1, h2, h3⟩ := C08_kalbach v.1.incident v.1.int v.1.discrete v.1.outgoing
          v.1.pdf v.1.cdf v.2.1 v.2.2 d (hok.2.2 v hm).1 (hok.2.2 v hm).2 hfv hd rest
        exact ⟨d', h1, h2, h3⟩)
      locb idat b i hok.1 hok.2.1 x hx hf hf'
    obtain ⟨h1, h2, _⟩ := key locb hf
    refine ⟨⟨.nan, .nan, bs, hbs, h1⟩, fun e e' g1 g2 => ⟨ends_iff h1 g1 g2, bs, hbs, h1⟩,
      fun hn => ends_energies h1 (by have hn' : vs ≠ [] := hn; simpa using hn'), fun e e' rest => ?_, fun idat hfi => ?_⟩
    · obtain ⟨r, r1, r2⟩ := h2 rest
      refine ⟨.kalbach r, ?_, bs, hbs, r2⟩
      show (Law4.ofRange locb (x.xss ++ rest) >>= fun d => pure (LawData.kalbach d)) = _
      rw [r1]; rfl
    · obtain ⟨_, _, ws, w1, w2, w3, _⟩ := key idat hfi
      refine ⟨ws, w1, w2, fun e e' rest => ?_⟩
      obtain ⟨r, r1, r2⟩ := w3 rest
      refine ⟨.kalbach r, ?_, bs, hbs, r2⟩
      show (Law4.ofRange idat (ws ++ rest) >>= fun d => pure (LawData.kalbach d)) = _
      rw [r1]; rfl
  | energyAngle b i vs locb =>
    obtain ⟨ds, hds, hb⟩ := bind_eq_ok.mp hb
    obtain ⟨x, hx, hb⟩ := bind_eq_ok.mp hb
    injection hb with hb; subst hb
    have key := fun idat hf' => law61_place vs ds hds hok.2.2 locb idat b i hok.1 hok.2.1 x hx hf hf'
    obtain ⟨h1, h2, _⟩ := key locb hf
    refine ⟨⟨.nan, .nan, ds, hds, h1⟩, fun e e' g1 g2 => ⟨ends_iff h1 g1 g2, ds, hds, h1⟩,
      fun hn => ends_energies h1 (by have hn' : vs ≠ [] := hn; simpa using hn'), fun e e' rest => ?_, fun idat hfi => ?_⟩
    · obtain ⟨r, r1, r2⟩ := h2 rest
      refine ⟨.energyAngle r, ?_, ds, hds, r2⟩
      show (Law61.ofRange locb (x.xss ++ rest) >>= fun d => pure (LawData.energyAngle d)) = _
      rw [r1]; rfl
    · obtain ⟨_, _, ws, w1, w2, w3⟩ := key idat hfi
      refine ⟨ws, w1, w2, fun e e' rest => ?_⟩
      obtain ⟨r, r1, r2⟩ := w3 rest
      refine ⟨.energyAngle r, ?_, ds, hds, r2⟩
      show (Law61.ofRange idat (ws ++ rest) >>= fun d => pure (LawData.energyAngle d)) = _
      rw [r1]; rfl
  | angleEnergy b i vs locb =>
    obtain ⟨ds, hds, hb⟩ := bind_eq_ok.mp hb
    obtain ⟨x, hx, hb⟩ := bind_eq_ok.mp hb
    injection hb with hb; subst hb
    have key := fun idat hf' => law67_place vs ds hds hok.2.2 locb idat b i hok.1 hok.2.1 x hx hf hf'
    obtain ⟨h1, h2, _⟩ := key locb hf
    refine ⟨⟨.nan, .nan, ds, hds, h1⟩, fun e e' g1 g2 => ⟨ends_iff h1 g1 g2, ds, hds, h1⟩,
      fun hn => ends_energies h1 (by have hn' : vs ≠ [] := hn; simpa using hn'), fun e e' rest => ?_, fun idat hfi => ?_⟩
    · obtain ⟨r, r1, r2⟩ := h2 rest
      refine ⟨.angleEnergy r, ?_, ds, hds, r2⟩
      show (Law67.ofRange locb (x.xss ++ rest) >>= fun d => pure (LawData.angleEnergy d)) = _
      rw [r1]; rfl
    · obtain ⟨_, _, ws, w1, w2, w3⟩ := key idat hfi
      refine ⟨ws, w1, w2, fun e e' rest => ?_⟩
      obtain ⟨r, r1, r2⟩ := w3 rest
      refine ⟨.angleEnergy r, ?_, ds, hds, r2⟩
      show (Law67.ofRange idat (ws ++ rest) >>= fun d => pure (LawData.angleEnergy d)) = _
      rw [r1]; rfl

/-- Equiprobable bins give the energies they were built from; there is one bin less. -/
theorem C49_bins (e : EquiEnergy) (hf : FitsN e.xss.length) :
    e.energies = .ok e.xss ∧ e.numberBins + 1 = e.xss.length := by
  refine ⟨?_, by unfold EquiEnergy.numberBins; omega⟩
  unfold EquiEnergy.energies EquiEnergy.numberBins
  rw [show (e.xss.length : Int) - 1 + 1 = (e.xss.length : Int) by omega, sizeOfInt_natCast hf]
  exact Base.XSSr_of_eq (a := []) (c := []) (by simp) rfl rfl

example : EquiEnergy.energies ⟨Dbl.ofNat 1, [Dbl.ofNat 2, Dbl.ofNat 3]⟩ = .ok [Dbl.ofNat 2, Dbl.ofNat 3] := by
  decide +kernel

/-- An energy law gives back the values it was built from; its incident energy range is that of the
values. -/
theorem C49_built (sort : StdSort EquiEnergy.incident) (s : LawSpec) (d : LawData)
    (hb : s.build sort = .ok d) (hok : s.Ok) (hf : FitsN (s.locator + d.words.length + 1)) :
    (∃ emin emax, s.Gives s.locator emin emax d) ∧
    (∀ emin emax, d.emin = .ok emin → d.emax = .ok emax →
      s.Range emin emax ∧ s.Gives s.locator emin emax d) ∧
    (s.Nonempty → ∃ emin emax, d.emin = .ok emin ∧ d.emax = .ok emax) :=
  have h := law_facts sort s d hb hok hf
  ⟨h.gives, h.range, h.nonempty⟩

/-- Its words, whatever follows them, are read as law `s.number` with the same values; laws 2, 3,
33 and 66 have the incident energy range that the reader is given. -/
theorem C49_read (sort : StdSort EquiEnergy.incident) (s : LawSpec) (d : LawData)
    (hb : s.build sort = .ok d) (hok : s.Ok) (hf : FitsN (s.locator + d.words.length + 1))
    (emin emax : Dbl) (rest : Words) :
    ∃ d', LawData.read s.number s.locator (d.words ++ rest) emin emax = .ok d' ∧
      s.Gives s.locator emin emax d' :=
  (law_facts sort s d hb hok hf).read emin emax rest

/-- A number that is no law is refused. -/
theorem C49_unknown (law : Int) (h : law ∉ [1, 2, 3, 4, 5, 7, 9, 11, 33, 44, 61, 66, 67])
    (idat : Nat) (xs : Words) (emin emax : Dbl) :
    LawData.read law idat xs emin emax = .error .thrown := by
  simp only [List.mem_cons, List.not_mem_nil, or_false, not_or] at h
  unfold LawData.read
  simp [h]

/-- A discrete photon that is given back has its flag, says it is a primary photon exactly when the flag
is 2, and has its energy. -/
theorem C49_photon (idat : Nat) (emin emax a b : Dbl) (lp : Nat) (energy : Dbl) (d : TwoParam)
    (h : (LawSpec.photon a b lp energy).Gives idat emin emax (.photon d)) (hlp : lp < 4294967296) :
    d.LP = .ok lp ∧ (d.isPrimaryPhoton = .ok true ↔ lp = 2) ∧
      (d.isPrimaryPhoton = .ok false ↔ lp ≠ 2) ∧ d.EG = .ok energy := by
  obtain ⟨_, _, h1, h2⟩ := h
  have hL : d.LP = .ok lp := by
    unfold TwoParam.LP
    rw [h1, ok_bind, Dbl.trunc?_ofNat]
    unfold toU32
    simp only
    rw [if_pos ⟨by omega, by omega⟩]
    rfl
  have hP : d.isPrimaryPhoton = .ok (lp == 2) := by
    unfold TwoParam.isPrimaryPhoton
    rw [hL]; rfl
  refine ⟨hL, ?_, ?_, h2⟩
  · rw [hP]
    by_cases h : lp = 2 <;> simp [h]
  · rw [hP]
    by_cases h : lp = 2 <;> simp [h]

example : (TwoParam.mk' (Dbl.ofNat 1) (Dbl.ofNat 20) (Dbl.ofNat 2) (Dbl.ofNat 7)).isPrimaryPhoton =
    .ok true := by decide

-- an evaporation spectrum, an N-body spectrum and a Watt spectrum
example : (LawSpec.evaporation [] [] [Dbl.ofNat 1, Dbl.ofNat 20] [Dbl.ofNat 3, Dbl.ofNat 4]
      (Dbl.ofNat 5)).build (sortBy _) = .ok (.evaporation ⟨[Dbl.ofNat 0, Dbl.ofNat 2, Dbl.ofNat 1,
        Dbl.ofNat 20, Dbl.ofNat 3, Dbl.ofNat 4, Dbl.ofNat 5],
        TabulatedData.tab [] [] [Dbl.ofNat 1, Dbl.ofNat 20] [Dbl.ofNat 3, Dbl.ofNat 4] []⟩) := by
  decide
example : ((LawSpec.nbody (Dbl.ofNat 1) (Dbl.ofNat 20) 3 (Dbl.ofNat 9) 2 [Dbl.ofNat 0, Dbl.ofNat 1]
      [Dbl.ofNat 1, Dbl.ofNat 1] [Dbl.ofNat 0, Dbl.ofNat 1]).build (sortBy _) >>= fun d =>
    LawData.read 66 0 (d.words ++ [Dbl.ofNat 7]) (Dbl.ofNat 1) (Dbl.ofNat 20) >>= fun d =>
      match d with
      | .nbody d => do return ((← d.NPSX), (← d.cdf))
      | _ => .error .ub) = .ok (3, [Dbl.ofNat 0, Dbl.ofNat 1]) := by decide
-- equiprobable bins are sorted by incident energy
example : ((LawSpec.equiprobable [] [] [⟨Dbl.ofNat 20, [Dbl.ofNat 3, Dbl.ofNat 4]⟩,
      ⟨Dbl.ofNat 1, [Dbl.ofNat 5, Dbl.ofNat 6]⟩]).build (sortBy _) >>= fun d => d.emin) =
    .ok (Dbl.ofNat 1) := by decide

/-- The hypotheses of the theorems are met: an N-body spectrum with a table of five words. -/
private abbrev exBody : LawSpec := .nbody (Dbl.ofNat 1) (Dbl.ofNat 20) 3 (Dbl.ofNat 9) 2 [Dbl.ofNat 0, Dbl.ofNat 1]
      [Dbl.ofNat 1, Dbl.ofNat 1] [Dbl.ofNat 0, Dbl.ofNat 1]
example := C49_bins ⟨Dbl.ofNat 1, [Dbl.ofNat 2, Dbl.ofNat 3]⟩ (by decide)
example := C49_built (sortBy _) exBody _ rfl (by unfold LawSpec.Ok FitsN; decide) (by decide)
example := C49_read (sortBy _) exBody _ rfl (by unfold LawSpec.Ok FitsN; decide) (by decide)
example := C49_unknown 10 (by decide)
example := C49_photon 0 (Dbl.ofNat 1) (Dbl.ofNat 20) (Dbl.ofNat 1) (Dbl.ofNat 20) 2 (Dbl.ofNat 7)
  (TwoParam.mk' (Dbl.ofNat 1) (Dbl.ofNat 20) (Dbl.ofNat 2) (Dbl.ofNat 7))
  (by simp [LawSpec.Gives]; decide) (by decide)

end ACE.Props

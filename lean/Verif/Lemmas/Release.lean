import Verif.Model.Release
import Verif.Lemmas.ReleaseTac

/-!
# The release build returns what the debug build returns

The functions with index checks and the loops; all others by `release_keeps`.
-/

namespace ACE.Release

/-- A check before the rest. -/
theorem checked {α : Type} {c : Prop} [Decidable c] {r r' : Res α}
    (h : ¬ c → Keeps r r') : Keeps ((if c then .error .range else .ok ()) >>= fun _ : Unit => r) r' := by
  by_cases hc : c
  · rw [if_pos hc]; exact Keeps.range
  · rw [if_neg hc]; exact h hc

/-- The same as an alternative. -/
theorem checked' {α : Type} {c : Prop} [Decidable c] {r r' : Res α}
    (h : ¬ c → Keeps r r') : Keeps (if c then .error .range else r) r' := by
  by_cases hc : c
  · rw [if_pos hc]; exact Keeps.range
  · rw [if_neg hc]; exact h hc

/-- A call that throws no exception of its own (an index check may fail). -/
inductive Quiet {α : Type} : Res α → Prop
  | ok (v : α) : Quiet (.ok v)
  | range : Quiet (.error .range)
  | ub : Quiet (.error .ub)

theorem Quiet.bind {α β : Type} {r : Res β} {k : β → Res α} (h : Quiet r) (hk : ∀ b, Quiet (k b)) :
    Quiet (r >>= k) := by
  cases h with
  | ok v => exact hk v
  | range => exact .range
  | ub => exact .ub

/-- A result that is only used for a check. -/
theorem skip {α β : Type} {r : Res β} {k : β → Res α} {r' : Res α} (hr : Quiet r)
    (h : ∀ b, Keeps (k b) r') : Keeps (r >>= k) r' := by
  cases hr with
  | ok v => exact h v
  | range => exact Keeps.range
  | ub => exact Keeps.ub

theorem quiet_index (n index : Nat) : Quiet (ACE.TableData.verifyIndex n index) := by
  unfold ACE.TableData.verifyIndex
  split
  · exact .range
  · exact .ok _

theorem quiet_IXSS (xs : Words) (index : Nat) : Quiet (ACE.Base.IXSS xs index) := by
  unfold ACE.Base.IXSS ACE.Base.XSS ACE.Base.verifyIndex
  refine Quiet.bind (Quiet.bind ?_ fun _ => ?_) fun d => ?_
  · split
    · exact .range
    · exact .ok _
  · unfold deref
    split
    · exact .ok _
    · exact .ub
  · unfold toInt32
    split
    · split
      · exact .ok _
      · exact .ub
    · exact .ub

theorem quiet_N (d : ColumnData) : Quiet (ACE.ColumnData.N d) := by
  unfold ACE.ColumnData.N
  split
  · exact .ok _
  · exact Quiet.bind (quiet_IXSS _ _) fun _ => .ok _

theorem quiet_UNR (xs : Words) : Quiet (ACE.UNR.N xs) := by
  unfold ACE.UNR.N ACE.UNR.flag
  refine Quiet.bind ?_ fun _ => .ok _
  split
  · exact .ok _
  · exact quiet_IXSS _ _

theorem quiet_NYP (d : YP) : Quiet (ACE.YP.NYP d) := by
  unfold ACE.YP.NYP
  split
  · exact .ok _
  · exact Quiet.bind (quiet_IXSS _ _) fun _ => .ok _

theorem quiet_NSSH (t : PA) : Quiet (ACE.PA.NSSH t) := by
  unfold ACE.PA.NSSH ACE.TableData.count ACE.TableData.NXS ACE.TableData.fetch
  refine Quiet.bind (Quiet.bind (quiet_index _ _) fun _ => ?_) fun _ => .ok _
  split
  · exact .ok _
  · exact .ub

theorem position_eq {array n index : Nat} (h : ¬ array < 1) :
    position array n index = (array - 1) * n + index := if_neg (by omega)

theorem element_of {α : Type} {l : List α} {index : Nat} {r : Res α} (h : ¬ index < 1)
    (hr : (∃ x, r = .ok x ∧ l[index - 1]? = some x) ∨ r = .error .ub) : Keeps r (element l index) := by
  rcases hr with ⟨x, hx, h'⟩ | hr
  · unfold element
    rw [if_neg (by omega), h', hx]
    exact Keeps.same _
  · rw [hr]; exact Keeps.ub

/-- An element of a vector. -/
macro "elem" : tactic => `(tactic| (
  refine element_of (by omega) ?_
  split
  · exact .inl ⟨_, rfl, by assumption⟩
  · exact .inr rfl))

theorem Base.iterator.keeps (xs : Words) (index : Nat) :
    Keeps (ACE.Base.iterator xs index) (Base.iterator xs index) := by
  refine checked fun h => ?_
  unfold Base.iterator
  rw [if_neg (by omega)]
  exact Keeps.same _

theorem Base.XSS.keeps (xs : Words) (index : Nat) :
    Keeps (ACE.Base.XSS xs index) (Base.XSS xs index) :=
  checked fun h => by unfold deref; elem

release_keeps ACE.Base.IXSS ACE.Base.IXSSr

theorem ArrayData.verify {α : Type} {d : ArrayData} {array index : Nat} {r r' : Res α}
    (h : ¬ array < 1 → Keeps r r') : Keeps (ACE.ArrayData.verifyIndex d array index >>= fun _ => r) r' := by
  unfold ACE.ArrayData.verifyIndex ACE.ArrayData.verifyArray
  by_cases hc : array < 1 ∨ array > d.m
  · rw [if_pos hc]; exact Keeps.range
  · rw [if_neg hc, ok_bind]
    exact checked fun _ => h fun h => hc (.inl h)

theorem ArrayData.dvalue.keeps (d : ArrayData) (array index : Nat) :
    Keeps (ACE.ArrayData.dvalue d array index) (ArrayData.dvalue d array index) :=
  ArrayData.verify fun h => by
    unfold ArrayData.dvalue
    rw [position_eq h]
    exact Base.XSS.keeps _ _

theorem ArrayData.ivalue.keeps (d : ArrayData) (array index : Nat) :
    Keeps (ACE.ArrayData.ivalue d array index) (ArrayData.ivalue d array index) :=
  ArrayData.verify fun h => by
    unfold ArrayData.ivalue
    rw [position_eq h]
    exact Base.IXSS.keeps _ _

theorem ArrayData.darray.keeps (d : ArrayData) (array : Nat) :
    Keeps (ACE.ArrayData.darray d array) (ArrayData.darray d array) :=
  checked fun h => by
    unfold ArrayData.darray
    rw [position_eq (by omega), Nat.add_comm _ 1]
    exact Base.XSSr.keeps _ _ _

theorem ArrayData.iarray.keeps (d : ArrayData) (array : Nat) :
    Keeps (ACE.ArrayData.iarray d array) (ArrayData.iarray d array) :=
  checked fun h => by
    unfold ArrayData.iarray
    rw [position_eq (by omega), Nat.add_comm _ 1]
    exact Base.IXSSr.keeps _ _ _

theorem TableData.fetch.keeps {α : Type} (sequence : List α) (index : Nat) :
    Keeps (ACE.TableData.fetch sequence index) (TableData.fetch sequence index) :=
  checked fun h => by elem

theorem TableData.XSSr.keeps (d : TableData) (index length : Nat) :
    Keeps (ACE.TableData.XSSr d index length) (TableData.XSSr d index length) :=
  checked fun h => skip (quiet_index _ _) fun _ => by
    unfold TableData.XSSr
    rw [if_neg (by omega)]
    exact Keeps.same _

theorem TableData.setNXS.keeps (d : TableData) (index : Nat) (value : Int) :
    Keeps (ACE.TableData.setNXS d index value) (TableData.setNXS d index value) :=
  checked fun h => by
    unfold TableData.setNXS
    rw [if_neg (by omega)]
    exact Keeps.same _

theorem LocBlock.LLOCof.keeps (xs : Words) (n : Nat) (locator : Bool) (index : Nat) :
    Keeps (ACE.LocBlock.LLOCof xs n locator index) (LocBlock.LLOCof xs n locator index) :=
  checked fun _ => Keeps.ite (Keeps.bind (Base.IXSS.keeps _ _) fun _ => Keeps.same _)
    (Keeps.bind (Base.IXSS.keeps _ _) fun _ => Keeps.same _)

theorem LocBlock.get.keeps {D : Type} (b : LocBlock D) (index : Nat) :
    Keeps (ACE.LocBlock.get b index) (LocBlock.get b index) :=
  checked fun h => by elem

theorem ElectronBlock.LLOCof.keeps (information : ArrayData) (n index : Nat) :
    Keeps (ACE.ElectronBlock.LLOCof information n index) (ElectronBlock.LLOCof information n index) :=
  checked fun _ => Keeps.bind (ArrayData.ivalue.keeps _ _ _) fun _ => Keeps.same _

theorem ElectronBlock.energyOf.keeps (information : ArrayData) (n index : Nat) :
    Keeps (ACE.ElectronBlock.energyOf information n index) (ElectronBlock.energyOf information n index) :=
  checked fun _ => ArrayData.dvalue.keeps _ _ _

theorem ElectronBlock.lengthOf.keeps (information : ArrayData) (n index : Nat) :
    Keeps (ACE.ElectronBlock.lengthOf information n index) (ElectronBlock.lengthOf information n index) :=
  checked fun _ => Keeps.bind (ArrayData.ivalue.keeps _ _ _) fun _ => Keeps.same _

theorem ElectronBlock.get.keeps (b : ElectronBlock) (index : Nat) :
    Keeps (ACE.ElectronBlock.get b index) (ElectronBlock.get b index) :=
  checked fun h => by elem

release_keeps ACE.ColumnData.value ACE.ColumnData.column

/-- The check of an index in columns of values. -/
theorem verifyValue {α : Type} {values : ColumnData} {index : Nat} {r r' : Res α}
    (h : ¬ index < 1 → Keeps r r') : Keeps (ACE.Dist.verifyValueIndex values index >>= fun _ => r) r' := by
  unfold ACE.Dist.verifyValueIndex
  rw [bind_assoc]
  exact skip (quiet_N _) fun _ => checked fun hc => h fun h => hc (.inl h)

theorem Dist.value.keeps (values : ColumnData) (column index : Nat) :
    Keeps (ACE.Dist.value values column index) (Dist.value values column index) :=
  verifyValue fun _ => ColumnData.value.keeps _ _ _

theorem DistData.distribution.keeps {D : Type} (d : DistData D) (index : Nat) :
    Keeps (ACE.DistData.distribution d index) (DistData.distribution d index) :=
  verifyValue fun h => by elem

theorem DistDataI.distribution.keeps {D : Type} (d : DistDataI D) (index : Nat) :
    Keeps (ACE.DistDataI.distribution d index) (DistDataI.distribution d index) :=
  verifyValue fun h => by elem

theorem AngularData.incidentEnergyOf.keeps (values : ColumnData) (index : Nat) :
    Keeps (ACE.AngularData.incidentEnergyOf values index) (AngularData.incidentEnergyOf values index) :=
  verifyValue fun _ => ColumnData.value.keeps _ _ _

theorem AngularData.LOCCof.keeps (values : ColumnData) (index : Nat) :
    Keeps (ACE.AngularData.LOCCof values index) (AngularData.LOCCof values index) :=
  verifyValue fun _ => Keeps.bind (ColumnData.value.keeps _ _ _) fun _ => Keeps.same _

theorem AngularData.distribution.keeps (d : AngularData) (index : Nat) :
    Keeps (ACE.AngularData.distribution d index) (AngularData.distribution d index) :=
  verifyValue fun h => by elem

theorem AngularBlock.LANDof.keeps (xs : Words) (nr : Nat) (zero : Bool) (index : Nat) :
    Keeps (ACE.AngularBlock.LANDof xs nr zero index) (AngularBlock.LANDof xs nr zero index) :=
  checked' fun _ => Base.IXSS.keeps _ _

theorem AngularBlock.get.keeps (b : AngularBlock) (index : Nat) :
    Keeps (ACE.AngularBlock.get b index) (AngularBlock.get b index) :=
  checked' fun h => by
    have e : index - (if b.zero then 0 else 1) = index + (if b.zero then 1 else 0) - 1 := by
      cases b.zero <;> simp
    rw [e]
    refine element_of ?_ ?_
    · revert h
      cases b.zero <;> simp <;> omega
    · split
      · exact .inl ⟨_, rfl, by assumption⟩
      · exact .inr rfl

theorem EquiBinData.incidentOf.keeps (energies : ColumnData) (index : Nat) :
    Keeps (ACE.EquiBinData.incidentOf energies index) (EquiBinData.incidentOf energies index) :=
  skip (quiet_N _) fun _ => checked' fun _ => ColumnData.value.keeps _ _ _

theorem EquiBinData.distribution.keeps (d : EquiBinData) (index : Nat) :
    Keeps (ACE.EquiBinData.distribution d index) (EquiBinData.distribution d index) :=
  skip (quiet_N _) fun _ => checked' fun h => by elem

theorem Dist.findNext.keeps {rel rel' : Nat → Res Int} (h : ∀ j, Keeps (rel j) (rel' j)) (locator : Int) :
    ∀ l : List Nat, Keeps (ACE.Dist.findNext rel locator l) (ACE.Dist.findNext rel' locator l)
  | [] => Keeps.same _
  | j :: js => Keeps.bind (h j) fun _ => Keeps.ite (Keeps.same _) (Dist.findNext.keeps h locator js)

release_keeps ACE.TabulatedData.ofRange ACE.TabulatedData.x ACE.LawData.readMulti

theorem MultiData.blocks.keeps (xs : Words) (locb : Nat) : ∀ fuel locator : Nat,
    Keeps (ACE.MultiData.blocks xs locb fuel locator) (MultiData.blocks xs locb fuel locator)
  | 0, _ => Keeps.same _
  | fuel + 1, locator => by
      have ih := MultiData.blocks.keeps xs locb fuel
      unfold ACE.MultiData.blocks MultiData.blocks
      release

theorem MultiData.probability.keeps (d : MultiData) (index : Nat) :
    Keeps (ACE.MultiData.probability d index) (MultiData.probability d index) :=
  checked' fun h => by elem

theorem MultiData.distribution.keeps (d : MultiData) (index : Nat) :
    Keeps (ACE.MultiData.distribution d index) (MultiData.distribution d index) :=
  checked' fun h => by elem

theorem TYR.referenceFrame.keeps (t : TYR) (index : Nat) :
    Keeps (ACE.TYR.referenceFrame t index) (TYR.referenceFrame t index) :=
  checked' fun h => by elem

theorem TYR.multiplicity.keeps (t : TYR) (index : Nat) :
    Keeps (ACE.TYR.multiplicity t index) (TYR.multiplicity t index) :=
  checked' fun h => by elem

theorem DLW.LDLWof.keeps (xs : Words) (nr index : Nat) :
    Keeps (ACE.DLW.LDLWof xs nr index) (DLW.LDLWof xs nr index) :=
  checked' fun _ => Base.IXSS.keeps _ _

theorem DLW.pick.keeps {α : Type} (nr : Nat) (l : List α) (index : Nat) :
    Keeps (ACE.DLW.pick nr l index) (DLW.pick nr l index) :=
  checked' fun h => by elem

release_keeps ACE.Precursor.ofRange

theorem BDD.groups.keeps (xs : Words) : ∀ todo index left : Nat,
    Keeps (ACE.BDD.groups xs todo index left) (BDD.groups xs todo index left)
  | 0, _, _ => Keeps.same _
  | todo + 1, index, left => by
      have ih := BDD.groups.keeps xs todo
      unfold ACE.BDD.groups BDD.groups
      release

theorem BDD.group.keeps (d : BDD) (index : Nat) :
    Keeps (ACE.BDD.group d index) (BDD.group d index) := by
  unfold ACE.BDD.group
  exact checked' fun h => by elem

theorem UNR.tables.keeps (xs : Words) (m : Nat) : ∀ todo index left : Nat,
    Keeps (ACE.UNR.tables xs m todo index left) (UNR.tables xs m todo index left)
  | 0, _, _ => Keeps.same _
  | todo + 1, index, left => by
      have ih := UNR.tables.keeps xs m todo
      unfold ACE.UNR.tables UNR.tables
      release

theorem UNR.table.keeps (d : UNR) (index : Nat) :
    Keeps (ACE.UNR.table d index) (UNR.table d index) :=
  skip (quiet_UNR _) fun _ => checked' fun h => by elem

theorem ESZE.electroionisation.keeps (d : ESZE) (index : Nat) :
    Keeps (ACE.ESZE.electroionisation d index) (ESZE.electroionisation d index) :=
  checked' fun _ => ArrayData.darray.keeps _ _

theorem YP.MT.keeps (d : YP) (index : Nat) : Keeps (ACE.YP.MT d index) (YP.MT d index) :=
  skip (quiet_NYP _) fun _ => checked' fun _ => Keeps.bind (Base.IXSS.keeps _ _) fun _ => Keeps.same _

release_keeps ACE.IXSU.IP

theorem IXSU.search.keeps (d : IXSU) (type : Nat) : ∀ start count : Nat,
    Keeps (ACE.IXSU.search d type start count) (IXSU.search d type start count)
  | _, 0 => Keeps.same _
  | start, count + 1 => by
      have ih := IXSU.search.keeps d type (start + 1) count
      unfold ACE.IXSU.search IXSU.search
      release

theorem PA.EION.keeps (t : PA) (index : Nat) : Keeps (ACE.PA.EION t index) (PA.EION t index) :=
  skip (quiet_NSSH _) fun _ => checked' fun h => by elem

release_keeps ACE.ITXE.relLocator ACE.ITXE.nextOf

theorem ITXE.NIEBof.keeps (xs : Words) (nieb : Option Nat) (ne index : Nat) :
    Keeps (ACE.ITXE.NIEBof xs nieb ne index) (ITXE.NIEBof xs nieb ne index) := by
  cases nieb with
  | some n => exact Keeps.same _
  | none =>
      unfold ACE.ITXE.NIEBof ITXE.NIEBof
      exact checked' fun _ => Keeps.bind (Base.IXSS.keeps _ _) fun _ => Keeps.same _

theorem ITXE.probBlocks.keeps (xs : Words) (nc ne locb : Nat) : ∀ todo incident cur : Nat,
    Keeps (ACE.ITXE.probBlocks xs nc ne locb todo incident cur)
      (ITXE.probBlocks xs nc ne locb todo incident cur)
  | 0, _, _ => Keeps.same _
  | todo + 1, incident, cur => by
      have ih := ITXE.probBlocks.keeps xs nc ne locb todo
      unfold ACE.ITXE.probBlocks ITXE.probBlocks
      release

theorem quiet_NIEB (d : ITXE) (index : Nat) : Quiet (ACE.ITXE.NIEB d index) := by
  unfold ACE.ITXE.NIEB ACE.ITXE.NIEBof
  split
  · exact .ok _
  · dsimp only
    split
    · exact .range
    · exact Quiet.bind (quiet_IXSS _ _) fun _ => .ok _

theorem ITXE.get.keeps (d : ITXE) (incident outgoing : Nat) :
    Keeps (ACE.ITXE.get d incident outgoing) (ITXE.get d incident outgoing) := by
  unfold ACE.ITXE.get ACE.ITXE.verifyIndices
  by_cases hi : incident < 1 ∨ incident > d.ne
  · rw [if_pos hi]; exact Keeps.range
  · rw [if_neg hi]
    dsimp only
    rw [bind_assoc]
    refine skip (quiet_NIEB _ _) fun n => checked fun ho => ?_
    unfold ITXE.get element
    rw [if_neg (by omega)]
    cases hl : d.data[incident - 1]? with
    | none => exact Keeps.ub
    | some l =>
        show Keeps (match l[outgoing - 1]? with | none => _ | some c => _) (if outgoing = 0 then _ else _)
        rw [if_neg (by omega)]
        cases l[outgoing - 1]? with
        | none => exact Keeps.ub
        | some c => exact Keeps.same _

release_keeps ACE.AngularData.mk'

theorem AngularBlock.loop.keeps (sort : StdSort AngDist.energy) (nr : Nat) :
    ∀ (l : List AngEntry) (xss : Words) (index : Nat),
      Keeps (ACE.AngularBlock.loop sort nr l xss index) (AngularBlock.loop sort nr l xss index)
  | [], _, _ => Keeps.same _
  | .fullyIsotropic :: ds, _, _ => AngularBlock.loop.keeps sort nr ds _ _
  | .givenElsewhere :: ds, _, _ => AngularBlock.loop.keeps sort nr ds _ _
  | .data d :: ds, _, _ => Keeps.bind (AngularData.mk'.keeps _ _ _) fun _ =>
      AngularBlock.loop.keeps sort nr ds _ _

release_keeps ACE.DistData.mk' ACE.AngleEnergy.mk' ACE.EnergyAngle.mk' ACE.DistDataI.interpolation

/-- The same loop for parts that are related. -/
theorem dist2Loop.keeps {D : Type} {p p' : D → Dbl × (Nat → Res Words)} (h : ∀ d, (p d).1 = (p' d).1)
    (hk : ∀ d n, Keeps ((p d).2 n) ((p' d).2 n)) (ne offset : Nat) :
    ∀ (l : List D) (xss : Words) (index : Nat),
      Keeps (dist2Loop ne offset (l.map p) xss index) (dist2Loop ne offset (l.map p') xss index)
  | [], _, _ => Keeps.same _
  | d :: ds, _, _ => by
      rw [List.map_cons, List.map_cons]
      unfold dist2Loop
      rw [← h d]
      exact Keeps.bind (hk d _) fun _ => dist2Loop.keeps h hk ne offset ds _ _

theorem dist2XSS.keeps {D : Type} {p p' : D → Dbl × (Nat → Res Words)} (h : ∀ d, (p d).1 = (p' d).1)
    (hk : ∀ d n, Keeps ((p d).2 n) ((p' d).2 n)) (offset : Nat) (l : List D) :
    Keeps (dist2XSS offset (l.map p)) (dist2XSS offset (l.map p')) := by
  unfold dist2XSS
  rw [List.length_map, List.length_map]
  exact dist2Loop.keeps h hk _ _ l _ _

theorem DistData.make {D E : Type} {gen gen' : Dbl → Nat → Words → Res E}
    (hg : ∀ a b c, Keeps (gen a b c) (gen' a b c)) {p p' : D → Dbl × (Nat → Res Words)}
    (h : ∀ d, (p d).1 = (p' d).1) (hk : ∀ d n, Keeps ((p d).2 n) ((p' d).2 n))
    (boundaries interpolants : List Int) (l : List D) (locb : Nat) :
    Keeps (ACE.DistData.mk' gen boundaries interpolants (l.map p) locb)
      (DistData.mk' gen' boundaries interpolants (l.map p') locb) :=
  Keeps.bind (Keeps.bind (dist2XSS.keeps h hk _ l) fun _ => Keeps.same _) fun _ =>
    DistData.generateBlocks.keeps _ _ _ _ hg

theorem Law61.mk'.keeps (boundaries interpolants : List Int) (l : List EnergyAngle) (locb : Nat) :
    Keeps (ACE.Law61.mk' boundaries interpolants l locb) (Law61.mk' boundaries interpolants l locb) :=
  DistData.make (p := ACE.Law61.part) (p' := Law61.part) EnergyAngle.ofRange.keeps (fun _ => rfl) (fun _ _ =>
    Keeps.bind (DistDataI.interpolation.keeps _) fun _ =>
      Keeps.bind (EnergyAngle.mk'.keeps _ _ _ _) fun _ => Keeps.same _) _ _ _ _

theorem Law67.mk'.keeps (boundaries interpolants : List Int) (l : List AngleEnergy) (locb : Nat) :
    Keeps (ACE.Law67.mk' boundaries interpolants l locb) (Law67.mk' boundaries interpolants l locb) :=
  DistData.make (p := ACE.Law67.part) (p' := Law67.part) AngleEnergy.ofRange.keeps (fun _ => rfl) (fun _ _ =>
    Keeps.bind (DistDataI.interpolation.keeps _) fun _ =>
      Keeps.bind (AngleEnergy.mk'.keeps _ _ _ _) fun _ => Keeps.same _) _ _ _ _

release_keeps ACE.LawData.placedMulti

theorem MultiData.loop.keeps (locb : Nat) : ∀ (l : List (TabulatedData × LawData)) (xss : Words),
    Keeps (ACE.MultiData.loop locb l xss) (MultiData.loop locb l xss)
  | [], _ => Keeps.same _
  | (_, _) :: rest, _ => Keeps.bind (LawData.placedMulti.keeps _ _) fun _ =>
      MultiData.loop.keeps locb rest _

release_keeps ACE.EnergyData.placed

theorem DLW.loop.keeps (size : Nat) :
    ∀ (l : List (EnergyData × Mult)) (xss : Words) (tyr : List Nat) (index : Nat),
      Keeps (ACE.DLW.loop size l xss tyr index) (DLW.loop size l xss tyr index)
  | [], _, _, _ => Keeps.same _
  | (_, _) :: rest, _, _, _ => Keeps.bind (EnergyData.placed.keeps _ _) fun _ =>
      DLW.loop.keeps size rest _ _ _

theorem DLWH.loop.keeps (size : Nat) : ∀ (l : List EnergyData) (xss : Words) (index : Nat),
    Keeps (ACE.DLWH.loop size l xss index) (DLWH.loop size l xss index)
  | [], _, _ => Keeps.same _
  | _ :: rest, _, _ => Keeps.bind (EnergyData.placed.keeps _ _) fun _ => DLWH.loop.keeps size rest _ _

release_keeps_all

end ACE.Release

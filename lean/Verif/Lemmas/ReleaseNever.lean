import Verif.Lemmas.Release

/-!
# The release build never throws for an index

The loops; all other functions by `release_never_all`.
-/

namespace ACE.Release

theorem element.never {α : Type} (l : List α) (index : Nat) : Never (element l index) := by
  unfold element
  release

theorem Dist.findNext.never {rel : Nat → Res Int} (h : ∀ j, Never (rel j)) (locator : Int) :
    ∀ l : List Nat, Never (ACE.Dist.findNext rel locator l)
  | [] => Never.pure' _
  | j :: js => Never.bind (h j) fun _ => Never.ite (Never.pure' _) (Dist.findNext.never h locator js)

release_never ACE.guardThrow ACE.toU32

theorem ColumnData.appendColumns.never (ne : Nat) : ∀ (l : List Words) (xss : Words),
    Never (ACE.ColumnData.appendColumns ne l xss)
  | [], _ => Never.ok _
  | _ :: cs, _ => Never.bind (guardThrow.never _) fun _ => ColumnData.appendColumns.never ne cs _

theorem findRounded.never (key : Nat) : ∀ ds : Words, Never (ACE.findRounded key ds)
  | [] => Never.ok _
  | _ :: ds => Never.bind (toU32.never _) fun _ => Never.ite (Never.pure' _)
      (Never.bind (findRounded.never key ds) fun _ => Never.pure' _)

theorem TableData.printLines.never (F : Text.Formats) : ∀ (k : Nat) (w : Words),
    Never (ACE.TableData.printLines F k w)
  | 0, _ => Never.ok _
  | k + 1, _ :: _ :: _ :: _ :: w => Never.bind (TableData.printLines.never F k w) fun _ => Never.pure' _
  | _ + 1, [] | _ + 1, [_] | _ + 1, [_, _] | _ + 1, [_, _, _] => Never.ub

theorem TableData.printEntries.never (F : Text.Formats) : ∀ (k : Nat) (w : Words),
    Never (ACE.TableData.printEntries F k w)
  | 0, _ => Never.ok _
  | k + 1, _ :: w => Never.bind (TableData.printEntries.never F k w) fun _ => Never.pure' _
  | _ + 1, [] => Never.ub

release_never ACE.Base.IXSS ACE.TabulatedData.ofRange ACE.LawData.readMulti ACE.MultiData.endOf
  ACE.TabulatedData.x ACE.TabulatedData.y ACE.deref ACE.last

theorem MultiData.blocks.never (xs : Words) (locb : Nat) : ∀ fuel locator : Nat,
    Never (MultiData.blocks xs locb fuel locator)
  | 0, _ => Never.endless
  | fuel + 1, locator => by
      have ih := MultiData.blocks.never xs locb fuel
      unfold MultiData.blocks
      release

release_never ACE.Precursor.ofRange

theorem BDD.groups.never (xs : Words) : ∀ todo index left : Nat, Never (BDD.groups xs todo index left)
  | 0, _, _ => Never.pure' _
  | todo + 1, index, left => by
      have ih := BDD.groups.never xs todo
      unfold BDD.groups
      release

release_never ACE.ProbabilityTable.ofRange

theorem UNR.tables.never (xs : Words) (m : Nat) : ∀ todo index left : Nat,
    Never (UNR.tables xs m todo index left)
  | 0, _, _ => Never.pure' _
  | todo + 1, index, left => by
      have ih := UNR.tables.never xs m todo
      unfold UNR.tables
      release

release_never ACE.IXSU.IP

theorem IXSU.search.never (d : IXSU) (type : Nat) : ∀ start count : Nat,
    Never (IXSU.search d type start count)
  | _, 0 => Never.ok _
  | start, count + 1 => by
      have ih := IXSU.search.never d type (start + 1) count
      unfold IXSU.search
      release

release_never ACE.ITXE.relLocator ACE.ITXE.nextOf ACE.ITXE.NIEBof

release_never ACE.PCos.ofRange ACE.DCos.ofRange ACE.InterpolationData.mk'

theorem ITXE.plainLoop.never (xs : Words) (nc : Nat) : ∀ todo cur : Nat,
    Never (ACE.ITXE.plainLoop xs nc todo cur)
  | 0, _ => Never.pure' _
  | todo + 1, cur => by
      have ih := ITXE.plainLoop.never xs nc todo
      unfold ACE.ITXE.plainLoop
      release

theorem ITXE.plainBlocks.never (xs : Words) (nc nieb : Nat) : ∀ todo cur : Nat,
    Never (ACE.ITXE.plainBlocks xs nc nieb todo cur)
  | 0, _ => Never.pure' _
  | todo + 1, cur => by
      have ih := ITXE.plainBlocks.never xs nc nieb todo
      unfold ACE.ITXE.plainBlocks
      release

theorem ITXE.probLoop.never (xs : Words) (nc next : Nat) : ∀ todo cur : Nat,
    Never (ACE.ITXE.probLoop xs nc next todo cur)
  | 0, _ => Never.pure' _
  | todo + 1, cur => by
      have ih := ITXE.probLoop.never xs nc next todo
      unfold ACE.ITXE.probLoop
      release

theorem ITXE.probBlocks.never (xs : Words) (nc ne locb : Nat) : ∀ todo incident cur : Nat,
    Never (ITXE.probBlocks xs nc ne locb todo incident cur)
  | 0, _, _ => Never.pure' _
  | todo + 1, incident, cur => by
      have ih := ITXE.probBlocks.never xs nc ne locb todo
      unfold ITXE.probBlocks
      release

release_never ACE.AngularData.mk'

theorem AngularBlock.loop.never (sort : StdSort AngDist.energy) (nr : Nat) :
    ∀ (l : List AngEntry) (xss : Words) (index : Nat), Never (AngularBlock.loop sort nr l xss index)
  | [], _, _ => Never.ok _
  | .fullyIsotropic :: ds, _, _ => AngularBlock.loop.never sort nr ds _ _
  | .givenElsewhere :: ds, _, _ => AngularBlock.loop.never sort nr ds _ _
  | .data _ :: ds, _, _ => Never.bind (AngularData.mk'.never _ _ _) fun _ =>
      AngularBlock.loop.never sort nr ds _ _

theorem dist2Loop.never (ne offset : Nat) : ∀ (l : List (Dbl × (Nat → Res Words))),
    (∀ p ∈ l, ∀ n, Never (p.2 n)) → ∀ (xss : Words) (index : Nat),
      Never (dist2Loop ne offset l xss index)
  | [], _, _, _ => Never.ok _
  | p :: ps, h, _, _ => by
      unfold dist2Loop
      exact Never.bind (h p List.mem_cons_self _) fun _ =>
        dist2Loop.never ne offset ps (fun q hq => h q (List.mem_cons_of_mem _ hq)) _ _

theorem dist2XSS.never (offset : Nat) (l : List (Dbl × (Nat → Res Words)))
    (h : ∀ p ∈ l, ∀ n, Never (p.2 n)) : Never (dist2XSS offset l) := dist2Loop.never _ _ l h _ _

/-- All parts of a list made by the same function. -/
theorem allParts {D : Type} {p : D → Dbl × (Nat → Res Words)} (hk : ∀ d n, Never ((p d).2 n))
    (l : List D) : ∀ q ∈ l.map p, ∀ n, Never (q.2 n) := by
  intro q hq
  obtain ⟨d, -, rfl⟩ := List.mem_map.mp hq
  exact hk d

theorem AngleEnergy.generateXSS.never (interpolation : Int) (ds : List TabDist) (locb : Nat) :
    Never (ACE.AngleEnergy.generateXSS interpolation ds locb) :=
  Never.bind (dist2XSS.never _ _ (allParts (fun _ _ => Never.ok _) _)) fun _ => Never.pure' _

theorem DistData.generateXSS.never (boundaries interpolants : List Int)
    (l : List (Dbl × (Nat → Res Words))) (locb : Nat) (h : ∀ p ∈ l, ∀ n, Never (p.2 n)) :
    Never (ACE.DistData.generateXSS boundaries interpolants l locb) :=
  Never.bind (dist2XSS.never _ _ h) fun _ => Never.bind (InterpolationData.mk'.never _ _) fun _ =>
    Never.pure' _

theorem DistData.mk'.never {D : Type} (gen : Dbl → Nat → Words → Res D) (boundaries interpolants : List Int)
    (l : List (Dbl × (Nat → Res Words))) (locb : Nat) (hg : ∀ a b c, Never (gen a b c))
    (h : ∀ p ∈ l, ∀ n, Never (p.2 n)) : Never (DistData.mk' gen boundaries interpolants l locb) :=
  Never.bind (DistData.generateXSS.never _ _ l _ h) fun _ => DistData.generateBlocks.never _ _ _ hg

theorem Law4.mk'.never (boundaries interpolants : List Int) (l : List TabDist) (locb : Nat) :
    Never (Law4.mk' boundaries interpolants l locb) :=
  DistData.mk'.never _ _ _ _ _ Law4.gen.never (allParts (fun _ _ => Never.ok _) _)

release_never ACE.AngleEnergy.mk' ACE.EnergyAngle.mk' ACE.DistDataI.interpolation

theorem Law61.mk'.never (boundaries interpolants : List Int) (l : List EnergyAngle) (locb : Nat) :
    Never (Law61.mk' boundaries interpolants l locb) :=
  DistData.mk'.never _ _ _ _ _ EnergyAngle.ofRange.never (allParts (p := Law61.part) (fun _ _ =>
    Never.bind (DistDataI.interpolation.never _) fun _ =>
      Never.bind (EnergyAngle.mk'.never _ _ _ _) fun _ => Never.pure' _) _)

theorem Law67.mk'.never (boundaries interpolants : List Int) (l : List AngleEnergy) (locb : Nat) :
    Never (Law67.mk' boundaries interpolants l locb) :=
  DistData.mk'.never _ _ _ _ _ AngleEnergy.ofRange.never (allParts (p := Law67.part) (fun _ _ =>
    Never.bind (DistDataI.interpolation.never _) fun _ =>
      Never.bind (AngleEnergy.mk'.never _ _ _ _) fun _ => Never.pure' _) _)

release_never ACE.LawData.placedMulti

theorem MultiData.loop.never (locb : Nat) : ∀ (l : List (TabulatedData × LawData)) (xss : Words),
    Never (MultiData.loop locb l xss)
  | [], _ => Never.ok _
  | (_, _) :: rest, _ => Never.bind (LawData.placedMulti.never _ _) fun _ =>
      MultiData.loop.never locb rest _

release_never ACE.EnergyData.placed

theorem DLW.loop.never (size : Nat) :
    ∀ (l : List (EnergyData × Mult)) (xss : Words) (tyr : List Nat) (index : Nat),
      Never (DLW.loop size l xss tyr index)
  | [], _, _, _ => Never.ok _
  | (_, _) :: rest, _, _, _ => Never.bind (EnergyData.placed.never _ _) fun _ =>
      DLW.loop.never size rest _ _ _

theorem DLWH.loop.never (size : Nat) : ∀ (l : List EnergyData) (xss : Words) (index : Nat),
    Never (DLWH.loop size l xss index)
  | [], _, _ => Never.ok _
  | _ :: rest, _, _ => Never.bind (EnergyData.placed.never _ _) fun _ => DLWH.loop.never size rest _ _

release_never_all

end ACE.Release

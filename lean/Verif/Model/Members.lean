import Verif.Model.Photonuclear
import Verif.Model.ThermalTable

/-!
# The counts and the indexed blocks of a continuous energy table

/repo/src/ACEtk/ContinuousEnergyTable.hpp:144-250,506-700.
-/

namespace ACE
namespace CE

/-- `length`, ContinuousEnergyTable.hpp:147. -/
def length (t : CE) : Res Nat := t.data.count 1
/-- `ZA`, ContinuousEnergyTable.hpp:152. -/
def ZA (t : CE) : Res Nat := t.data.count 2
/-- `NES` and `numberEnergyPoints`, ContinuousEnergyTable.hpp:157,162. -/
def NES (t : CE) : Res Nat := t.data.count 3
/-- `NTR` and `numberReactions`, ContinuousEnergyTable.hpp:167,172. -/
def NTR (t : CE) : Res Nat := t.data.count 4
/-- `totalNumberReactions`, ContinuousEnergyTable.hpp:177: `unsigned int` arithmetic. -/
def totalNumberReactions (t : CE) : Res Nat := do return ((← t.NTR) + 1) % 4294967296
/-- `NR`, ContinuousEnergyTable.hpp:183,189. -/
def NR (t : CE) : Res Nat := t.data.count 5
/-- `NTRP`, ContinuousEnergyTable.hpp:194,199. -/
def NTRP (t : CE) : Res Nat := t.data.count 6
/-- `NTYPE`, ContinuousEnergyTable.hpp:205,211. -/
def NTYPE (t : CE) : Res Nat := t.data.count 7
/-- `NPCR`, ContinuousEnergyTable.hpp:216,221. -/
def NPCR (t : CE) : Res Nat := t.data.count 8
/-- `S`, ContinuousEnergyTable.hpp:226,231. -/
def S (t : CE) : Res Nat := t.data.count 9
/-- `Z`, ContinuousEnergyTable.hpp:236,241. -/
def Z (t : CE) : Res Nat := t.data.count 10
/-- `A`, ContinuousEnergyTable.hpp:246,251. -/
def A (t : CE) : Res Nat := t.data.count 11

/-- `vector[ index - 1 ]` of the seven vectors, ContinuousEnergyTable.hpp:518-521,545-548,572-575,
600-603,628-631,656-659,684-687: there is no check of the index, the access is undefined outside
(`index - 1` of the index 0 is the largest `std::size_t`). -/
def particle (t : CE) (index : Nat) : Res Particle :=
  if index = 0 then .error .ub
  else match t.particles[index - 1]? with
    | some p => .ok p
    | none => .error .ub
/-- `HPD( index )`, ContinuousEnergyTable.hpp:518-521. -/
def HPD (t : CE) (index : Nat) : Res HPD := do return (← t.particle index).hpd
/-- `MTRH( index )`, ContinuousEnergyTable.hpp:545-548. -/
def MTRH (t : CE) (index : Nat) : Res MTR := do return (← t.particle index).mtrh
/-- `TYRH( index )`, ContinuousEnergyTable.hpp:572-575. -/
def TYRH (t : CE) (index : Nat) : Res TYR := do return (← t.particle index).tyrh
/-- `SIGH( index )`, ContinuousEnergyTable.hpp:600-603. -/
def SIGH (t : CE) (index : Nat) : Res SIGH := do return (← t.particle index).sigh
/-- `ANDH( index )`, ContinuousEnergyTable.hpp:628-631. -/
def ANDH (t : CE) (index : Nat) : Res AngularBlock := do return (← t.particle index).andh
/-- `DLWH( index )`, ContinuousEnergyTable.hpp:656-659. -/
def DLWH (t : CE) (index : Nat) : Res DLWH := do return (← t.particle index).dlwh
/-- `YH( index )`, ContinuousEnergyTable.hpp:684-687. -/
def YH (t : CE) (index : Nat) : Res YP := do return (← t.particle index).yh

end CE
end ACE

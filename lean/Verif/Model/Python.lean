import Verif.Model.Typed
import Verif.Model.Members

/-!
# The members of the five table classes and their Python names

Written by tools/pymodel.py from /repo/src/ACEtk/*Table.hpp and /repo/python/src/*Table.python.cpp.

A table class in C++ has member functions; most of them are there twice, under the name used in the
ACE manual and under a descriptive name that forwards to the first. pybind11 registers attributes of
the Python class one after the other: `def_property_readonly` replaces an attribute of the same name.
Not modelled: overload sets (`def` of a name used before; there is none in these classes), the keyword
arguments and the conversion of a Python integer to an index (a negative one is a TypeError).
-/

namespace ACE
namespace Python

/-- What a member function can return: a string, a double, an unsigned or signed integer, a block, or
nothing (an empty `std::optional`, `None` in Python). -/
inductive Val where
  | nothing
  | text (s : List Char)
  | real (x : Dbl)
  | count (n : Nat)
  | signed (n : Int)
  | ESZ (b : ACE.ESZ)
  | NU (b : ACE.NU)
  | MTR (b : ACE.MTR)
  | LQR (b : ACE.LQR)
  | TYR (b : ACE.TYR)
  | SIG (b : ACE.SIG)
  | AND (b : ACE.AngularBlock)
  | DLW (b : ACE.DLW)
  | GPD (b : ACE.GPD)
  | SIGP (b : ACE.SIGP)
  | DLWH (b : ACE.DLWH)
  | YP (b : ACE.YP)
  | UNR (b : ACE.UNR)
  | BDD (b : ACE.BDD)
  | PTYPE (b : ACE.PTYPE)
  | NTRO (b : ACE.NTRO)
  | IXS (b : ACE.IXS)
  | HPD (b : ACE.HPD)
  | SIGH (b : ACE.SIGH)
  | SIGD (b : ACE.SIGD)
  | ESZG (b : ACE.ESZG)
  | JINC (b : ACE.JINC)
  | JCOH (b : ACE.JCOH)
  | JFLO (b : ACE.JFLO)
  | LHNM (b : ACE.LHNM)
  | EPS (b : ACE.EPS)
  | SWD (b : ACE.SWD)
  | SUBSH (b : ACE.SUBSH)
  | SPHEL (b : ACE.SPHEL)
  | XPROB (b : ACE.XPROB)
  | ESZE (b : ACE.ESZE)
  | EXCIT (b : ACE.EXCIT)
  | electron (b : ACE.ElectronBlock)
  | BREML (b : ACE.BREML)
  | SELAS (b : ACE.SELAS)
  | ESZU (b : ACE.ESZU)
  | IXSU (b : ACE.IXSU)
  | crossSection (b : ACE.CrossSectionData)
  | ITIE (b : ACE.ITIE)
  | ITXE (b : ACE.ITXE)
  | ITCA (b : ACE.ITCA)
deriving DecidableEq

/-- A `std::optional` block, pybind11/stl.h. -/
def opt {B : Type} (f : B → Val) : Option B → Val
  | none => .nothing
  | some b => f b

/-- The body of a member function: it has no argument, it is static, it takes an index, or it forwards
to another member with the same arguments. -/
inductive Body (T : Type) where
  | value (f : T → Res Val)
  | static (v : Val)
  | indexed (f : T → Nat → Res Val)
  | same (name : String)

/-- A member function with the line of its class definition. -/
structure Member (T : Type) where
  line : Nat
  name : String
  body : Body T

/-- An attribute of a Python class: the line of the binding file, its name, the member function given
to pybind11 and whether it was given to `def` (a method) or `def_property_readonly` (a property). -/
structure Binding where
  line : Nat
  python : String
  member : String
  method : Bool
deriving DecidableEq

/-- The outcome of using a member: the result of a function, no such member, or wrong arguments. -/
inductive Outcome where
  | result (r : Res Val)
  | missing
  | arguments
deriving DecidableEq

/-- The function found for a name, following one forwarding. -/
def find {T : Type} (api : List (Member T)) (name : String) : Option (Body T) :=
  match (api.find? (·.name == name)).map Member.body with
  | some (.same other) => (api.find? (·.name == other)).map Member.body
  | b => b

/-- Running the body of a member function without (`none`) or with an index. -/
def run {T : Type} (t : T) : Option (Body T) → Option Nat → Outcome
  | some (.value f), none => .result (f t)
  | some (.static v), none => .result (.ok v)
  | some (.indexed f), some i => .result (f t i)
  | none, _ => .missing
  | _, _ => .arguments

/-- A call of a member function in C++, `t.name()` or `t.name( index )`. -/
def cpp {T : Type} (api : List (Member T)) (t : T) (name : String) (index : Option Nat) : Outcome :=
  run t (find api name) index

/-- pybind11 calls the getter of a property and a method with the table as its first argument, which a
static member function does not take (a TypeError). -/
def runPython {T : Type} (t : T) (method : Bool) : Option (Body T) → Option Nat → Outcome
  | some (.static _), _ => .arguments
  | b, index => if method = index.isSome then run t b index else .arguments

/-- The binding in force for a name: the last one registered (`def_property_readonly` sets the
attribute of the class again). -/
def binding (bs : List Binding) (name : String) : Option Binding :=
  bs.reverse.find? (·.python == name)

/-- An attribute of a table in Python: `t.name` or `t.name( index )`. -/
def python {T : Type} (api : List (Member T)) (bs : List Binding) (t : T) (name : String)
    (index : Option Nat) : Outcome :=
  match binding bs name with
  | none => .missing
  | some b => runPython t b.method (find api b.member) index

/-- The member functions of `ContinuousEnergyTable`, /repo/src/ACEtk/ContinuousEnergyTable.hpp (the number is the line). -/
def continuousMembers : List (Member (AnyHeader × CE)) := [
  ⟨95, "ZAID", .value fun t => .ok (.text t.1.zaid)⟩,
  ⟨105, "AWR", .value fun t => .ok (.real t.1.awr)⟩,
  ⟨115, "atomicWeightRatio", .same "AWR"⟩,
  ⟨120, "TEMP", .value fun t => .ok (.real t.1.temp)⟩,
  ⟨130, "temperature", .same "TEMP"⟩,
  ⟨135, "date", .value fun t => .ok (.text t.1.date)⟩,
  ⟨147, "length", .value fun t => do return .count (← t.2.length)⟩,
  ⟨152, "ZA", .value fun t => do return .count (← t.2.ZA)⟩,
  ⟨157, "NES", .value fun t => do return .count (← t.2.NES)⟩,
  ⟨162, "numberEnergyPoints", .same "NES"⟩,
  ⟨167, "NTR", .value fun t => do return .count (← t.2.NTR)⟩,
  ⟨172, "numberReactions", .same "NTR"⟩,
  ⟨177, "totalNumberReactions", .value fun t => do return .count (← t.2.totalNumberReactions)⟩,
  ⟨183, "NR", .value fun t => do return .count (← t.2.NR)⟩,
  ⟨189, "numberProjectileProductionReactions", .same "NR"⟩,
  ⟨194, "NTRP", .value fun t => do return .count (← t.2.NTRP)⟩,
  ⟨199, "numberPhotonProductionReactions", .same "NTRP"⟩,
  ⟨205, "NTYPE", .value fun t => do return .count (← t.2.NTYPE)⟩,
  ⟨211, "numberSecondaryParticleTypes", .same "NTYPE"⟩,
  ⟨216, "NPCR", .value fun t => do return .count (← t.2.NPCR)⟩,
  ⟨221, "numberDelayedPrecursors", .same "NPCR"⟩,
  ⟨226, "S", .value fun t => do return .count (← t.2.S)⟩,
  ⟨231, "isomericState", .same "S"⟩,
  ⟨236, "Z", .value fun t => do return .count (← t.2.Z)⟩,
  ⟨241, "atomNumber", .same "Z"⟩,
  ⟨246, "A", .value fun t => do return .count (← t.2.A)⟩,
  ⟨251, "massNumber", .same "A"⟩,
  ⟨260, "ESZ", .value fun t => .ok (.ESZ t.2.esz)⟩,
  ⟨265, "principalCrossSectionBlock", .same "ESZ"⟩,
  ⟨270, "NU", .value fun t => .ok (opt .NU t.2.nu)⟩,
  ⟨275, "fissionMultiplicityBlock", .same "NU"⟩,
  ⟨283, "MTR", .value fun t => .ok (.MTR t.2.mtr)⟩,
  ⟨288, "reactionNumberBlock", .same "MTR"⟩,
  ⟨293, "LQR", .value fun t => .ok (.LQR t.2.lqr)⟩,
  ⟨298, "reactionQValueBlock", .same "LQR"⟩,
  ⟨303, "TYR", .value fun t => .ok (.TYR t.2.tyr)⟩,
  ⟨308, "frameAndMultiplicityBlock", .same "TYR"⟩,
  ⟨313, "SIG", .value fun t => .ok (.SIG t.2.sig)⟩,
  ⟨318, "crossSectionBlock", .same "SIG"⟩,
  ⟨323, "AND", .value fun t => .ok (.AND t.2.ang)⟩,
  ⟨328, "angularDistributionBlock", .same "AND"⟩,
  ⟨333, "DLW", .value fun t => .ok (.DLW t.2.dlw)⟩,
  ⟨338, "energyDistributionBlock", .same "DLW"⟩,
  ⟨343, "GPD", .value fun t => .ok (opt .GPD t.2.gpd)⟩,
  ⟨348, "photonProductionBlock", .same "GPD"⟩,
  ⟨356, "MTRP", .value fun t => .ok (opt .MTR t.2.mtrp)⟩,
  ⟨361, "photonProductionReactionNumberBlock", .same "MTRP"⟩,
  ⟨369, "SIGP", .value fun t => .ok (opt .SIGP t.2.sigp)⟩,
  ⟨374, "photonProductionCrossSectionBlock", .same "SIGP"⟩,
  ⟨382, "ANDP", .value fun t => .ok (opt .AND t.2.andp)⟩,
  ⟨387, "photonProductionAngularDistributionBlock", .same "ANDP"⟩,
  ⟨395, "DLWP", .value fun t => .ok (opt .DLWH t.2.dlwp)⟩,
  ⟨400, "photonProductionEnergyDistributionBlock", .same "DLWP"⟩,
  ⟨408, "YP", .value fun t => .ok (opt .YP t.2.yp)⟩,
  ⟨413, "photonMultiplicityReactionNumberBlock", .same "YP"⟩,
  ⟨421, "UNR", .value fun t => .ok (opt .UNR t.2.unr)⟩,
  ⟨426, "probabilityTableBlock", .same "UNR"⟩,
  ⟨434, "DNU", .value fun t => .ok (opt .NU t.2.dnu)⟩,
  ⟨439, "delayedFissionMultiplicityBlock", .same "DNU"⟩,
  ⟨447, "BDD", .value fun t => .ok (opt .BDD t.2.bdd)⟩,
  ⟨452, "delayedNeutronPrecursorBlock", .same "BDD"⟩,
  ⟨460, "DNED", .value fun t => .ok (opt .DLWH t.2.dned)⟩,
  ⟨465, "delayedNeutronEnergyDistributionBlock", .same "DNED"⟩,
  ⟨473, "PTYPE", .value fun t => .ok (opt .PTYPE t.2.ptype)⟩,
  ⟨478, "secondaryParticleTypeBlock", .same "PTYPE"⟩,
  ⟨486, "NTRO", .value fun t => .ok (opt .NTRO t.2.ntro)⟩,
  ⟨491, "secondaryParticleInformationBlock", .same "NTRO"⟩,
  ⟨499, "IXS", .value fun t => .ok (opt .IXS t.2.ixs)⟩,
  ⟨504, "secondaryParticleLocatorBlock", .same "IXS"⟩,
  ⟨518, "HPD", .indexed fun t i => do return .HPD (← t.2.HPD i)⟩,
  ⟨532, "secondaryParticleProductionBlock", .same "HPD"⟩,
  ⟨545, "MTRH", .indexed fun t i => do return .MTR (← t.2.MTRH i)⟩,
  ⟨558, "secondaryParticleReactionNumberBlock", .same "MTRH"⟩,
  ⟨572, "TYRH", .indexed fun t i => do return .TYR (← t.2.TYRH i)⟩,
  ⟨586, "secondaryParticleFrameAndMultiplicityBlock", .same "TYRH"⟩,
  ⟨600, "SIGH", .indexed fun t i => do return .SIGH (← t.2.SIGH i)⟩,
  ⟨614, "secondaryParticleProductionCrossSectionBlock", .same "SIGH"⟩,
  ⟨628, "ANDH", .indexed fun t i => do return .AND (← t.2.ANDH i)⟩,
  ⟨642, "secondaryParticleAngularDistributionBlock", .same "ANDH"⟩,
  ⟨656, "DLWH", .indexed fun t i => do return .DLWH (← t.2.DLWH i)⟩,
  ⟨670, "secondaryParticleEnergyDistributionBlock", .same "DLWH"⟩,
  ⟨684, "YH", .indexed fun t i => do return .YP (← t.2.YH i)⟩,
  ⟨698, "secondaryParticleMultiplicityReactionNumberBlock", .same "YH"⟩]

/-- The attributes of `ContinuousEnergyTable` in Python, /repo/python/src/ContinuousEnergyTable.python.cpp (the number is the line). -/
def continuousBindings : List Binding := [
  ⟨121, "zaid", "ZAID", false⟩,
  ⟨127, "AWR", "AWR", false⟩,
  ⟨133, "atomic_weight_ratio", "atomicWeightRatio", false⟩,
  ⟨139, "TEMP", "TEMP", false⟩,
  ⟨145, "temperature", "temperature", false⟩,
  ⟨151, "date", "date", false⟩,
  ⟨157, "length", "length", false⟩,
  ⟨163, "za", "ZA", false⟩,
  ⟨169, "NES", "NES", false⟩,
  ⟨175, "number_energy_points", "numberEnergyPoints", false⟩,
  ⟨181, "NTR", "NTR", false⟩,
  ⟨187, "number_reactions", "numberReactions", false⟩,
  ⟨193, "total_number_reactions", "totalNumberReactions", false⟩,
  ⟨199, "NR", "NR", false⟩,
  ⟨205, "number_projectile_production_reactions", "numberProjectileProductionReactions", false⟩,
  ⟨211, "NTRP", "NTRP", false⟩,
  ⟨217, "number_photon_production_reactions", "numberPhotonProductionReactions", false⟩,
  ⟨223, "NTYPE", "NTYPE", false⟩,
  ⟨229, "number_secondary_particle_types", "numberSecondaryParticleTypes", false⟩,
  ⟨235, "NPCR", "NPCR", false⟩,
  ⟨241, "number_delayed_precursors", "numberDelayedPrecursors", false⟩,
  ⟨247, "S", "S", false⟩,
  ⟨253, "isomeric_state", "isomericState", false⟩,
  ⟨259, "Z", "Z", false⟩,
  ⟨265, "atom_number", "atomNumber", false⟩,
  ⟨271, "A", "A", false⟩,
  ⟨277, "mass_number", "massNumber", false⟩,
  ⟨283, "ESZ", "ESZ", false⟩,
  ⟨289, "principal_cross_section_block", "principalCrossSectionBlock", false⟩,
  ⟨295, "NU", "NU", false⟩,
  ⟨301, "fission_multiplicity_block", "fissionMultiplicityBlock", false⟩,
  ⟨307, "MTR", "MTR", false⟩,
  ⟨313, "reaction_number_block", "reactionNumberBlock", false⟩,
  ⟨319, "LQR", "LQR", false⟩,
  ⟨325, "reaction_qvalue_block", "reactionQValueBlock", false⟩,
  ⟨331, "TYR", "TYR", false⟩,
  ⟨337, "frame_and_multiplicity_block", "frameAndMultiplicityBlock", false⟩,
  ⟨343, "SIG", "SIG", false⟩,
  ⟨349, "cross_section_block", "crossSectionBlock", false⟩,
  ⟨355, "AND", "AND", false⟩,
  ⟨361, "angular_distribution_block", "angularDistributionBlock", false⟩,
  ⟨367, "DLW", "DLW", false⟩,
  ⟨373, "energy_distribution_block", "energyDistributionBlock", false⟩,
  ⟨379, "GPD", "GPD", false⟩,
  ⟨385, "photon_production_block", "photonProductionBlock", false⟩,
  ⟨391, "MTRP", "MTRP", false⟩,
  ⟨397, "photon_production_reaction_number_block", "photonProductionReactionNumberBlock", false⟩,
  ⟨403, "SIGP", "SIGP", false⟩,
  ⟨409, "photon_production_cross_section_block", "crossSectionBlock", false⟩,
  ⟨415, "ANDP", "ANDP", false⟩,
  ⟨421, "photon_production_angular_distribution_block", "photonProductionAngularDistributionBlock", false⟩,
  ⟨427, "DLWP", "DLWP", false⟩,
  ⟨433, "photon_production_energy_distribution_block", "photonProductionEnergyDistributionBlock", false⟩,
  ⟨439, "YP", "YP", false⟩,
  ⟨445, "photon_multiplicity_reaction_number_block", "photonMultiplicityReactionNumberBlock", false⟩,
  ⟨451, "UNR", "UNR", false⟩,
  ⟨457, "probability_table_block", "probabilityTableBlock", false⟩,
  ⟨463, "DNU", "DNU", false⟩,
  ⟨469, "delayed_fission_multiplicity_block", "delayedFissionMultiplicityBlock", false⟩,
  ⟨475, "BDD", "BDD", false⟩,
  ⟨481, "delayed_neutron_precursor_block", "delayedNeutronPrecursorBlock", false⟩,
  ⟨487, "DNED", "DNED", false⟩,
  ⟨493, "delayed_neutron_energy_distribution_block", "delayedNeutronEnergyDistributionBlock", false⟩,
  ⟨498, "PTYPE", "PTYPE", false⟩,
  ⟨504, "secondary_particle_type_block", "secondaryParticleTypeBlock", false⟩,
  ⟨509, "NTRO", "NTRO", false⟩,
  ⟨515, "secondary_particle_information_block", "secondaryParticleInformationBlock", false⟩,
  ⟨520, "IXS", "IXS", false⟩,
  ⟨526, "secondary_particle_locator_block", "secondaryParticleLocatorBlock", false⟩,
  ⟨532, "HPD", "HPD", true⟩,
  ⟨543, "secondary_particle_production_block", "secondaryParticleProductionBlock", true⟩,
  ⟨554, "MTRH", "MTRH", true⟩,
  ⟨565, "secondary_particle_reaction_number_block", "secondaryParticleReactionNumberBlock", true⟩,
  ⟨576, "TYRH", "TYRH", true⟩,
  ⟨587, "secondary_particle_frame_and_multiplicity_block", "secondaryParticleFrameAndMultiplicityBlock", true⟩,
  ⟨598, "SIGH", "SIGH", true⟩,
  ⟨609, "secondary_particle_production_cross_section_block", "secondaryParticleFrameAndMultiplicityBlock", true⟩,
  ⟨620, "ANDH", "ANDH", true⟩,
  ⟨631, "secondary_particle_angular_distribution_block", "secondaryParticleAngularDistributionBlock", true⟩,
  ⟨642, "DLWH", "DLWH", true⟩,
  ⟨653, "secondary_particle_energy_distribution_block", "secondaryParticleEnergyDistributionBlock", true⟩,
  ⟨664, "YH", "YH", true⟩,
  ⟨675, "secondary_particle_multiplicity_reaction_number_block", "secondaryParticleMultiplicityReactionNumberBlock", true⟩]

/-- The member functions of `DosimetryTable`, /repo/src/ACEtk/DosimetryTable.hpp (the number is the line). -/
def dosimetryMembers : List (Member (AnyHeader × Dosimetry)) := [
  ⟨56, "ZAID", .value fun t => .ok (.text t.1.zaid)⟩,
  ⟨66, "AWR", .value fun t => .ok (.real t.1.awr)⟩,
  ⟨76, "atomicWeightRatio", .same "AWR"⟩,
  ⟨81, "TEMP", .value fun t => .ok (.real t.1.temp)⟩,
  ⟨91, "temperature", .same "TEMP"⟩,
  ⟨96, "date", .value fun t => .ok (.text t.1.date)⟩,
  ⟨108, "length", .value fun t => do return .count (← t.2.data.count 1)⟩,
  ⟨113, "ZA", .value fun t => do return .count (← t.2.ZA)⟩,
  ⟨118, "NTR", .value fun t => do return .count (← t.2.NTR)⟩,
  ⟨123, "numberReactions", .same "NTR"⟩,
  ⟨132, "MTR", .value fun t => .ok (.MTR t.2.mtr)⟩,
  ⟨137, "reactionNumberBlock", .same "MTR"⟩,
  ⟨142, "SIGD", .value fun t => .ok (.SIGD t.2.sigd)⟩,
  ⟨147, "crossSectionBlock", .same "SIGD"⟩]

/-- The attributes of `DosimetryTable` in Python, /repo/python/src/DosimetryTable.python.cpp (the number is the line). -/
def dosimetryBindings : List Binding := [
  ⟨51, "zaid", "ZAID", false⟩,
  ⟨57, "AWR", "AWR", false⟩,
  ⟨63, "atomic_weight_ratio", "atomicWeightRatio", false⟩,
  ⟨69, "TEMP", "TEMP", false⟩,
  ⟨75, "temperature", "temperature", false⟩,
  ⟨81, "date", "date", false⟩,
  ⟨87, "length", "length", false⟩,
  ⟨93, "za", "ZA", false⟩,
  ⟨99, "NTR", "NTR", false⟩,
  ⟨105, "number_reactions", "numberReactions", false⟩,
  ⟨111, "MTR", "MTR", false⟩,
  ⟨117, "reaction_number_block", "reactionNumberBlock", false⟩,
  ⟨123, "SIGD", "SIGD", false⟩,
  ⟨129, "cross_section_block", "crossSectionBlock", false⟩]

/-- The member functions of `PhotoatomicTable`, /repo/src/ACEtk/PhotoatomicTable.hpp (the number is the line). -/
def photoatomicMembers : List (Member (AnyHeader × PA)) := [
  ⟨72, "ZAID", .value fun t => .ok (.text t.1.zaid)⟩,
  ⟨82, "AWR", .value fun t => .ok (.real t.1.awr)⟩,
  ⟨92, "atomicWeightRatio", .same "AWR"⟩,
  ⟨97, "TEMP", .value fun t => .ok (.real t.1.temp)⟩,
  ⟨107, "temperature", .same "TEMP"⟩,
  ⟨112, "date", .value fun t => .ok (.text t.1.date)⟩,
  ⟨124, "length", .value fun t => do return .count (← t.2.data.count 1)⟩,
  ⟨129, "Z", .value fun t => do return .count (← t.2.Z)⟩,
  ⟨134, "atomNumber", .same "Z"⟩,
  ⟨139, "S", .static (.count 0)⟩,
  ⟨144, "isomericState", .static (.count 0)⟩,
  ⟨149, "A", .static (.count 0)⟩,
  ⟨154, "massNumber", .static (.count 0)⟩,
  ⟨159, "NES", .value fun t => do return .count (← t.2.NES)⟩,
  ⟨164, "numberEnergyPoints", .same "NES"⟩,
  ⟨169, "NFLO", .value fun t => do return .count (← t.2.NFLO)⟩,
  ⟨174, "numberFluorescenceEdges", .same "NFLO"⟩,
  ⟨179, "NSH", .value fun t => do return .count (← t.2.NSH)⟩,
  ⟨184, "numberElectronShells", .same "NSH"⟩,
  ⟨190, "NEPR", .value fun t => do return .count (← t.2.NEPR)⟩,
  ⟨196, "electronPhotonRelaxationFormat", .same "NEPR"⟩,
  ⟨202, "NSSH", .value fun t => do return .count (← t.2.NSSH)⟩,
  ⟨208, "numberElectronSubshells", .same "NSSH"⟩,
  ⟨213, "NE", .value fun t => do return .count (← t.2.NE)⟩,
  ⟨218, "numberElectronEnergyPoints", .same "NE"⟩,
  ⟨223, "NXL", .value fun t => do return .count (← t.2.NXL)⟩,
  ⟨228, "numberElectronExcitationEnergyPoints", .same "NXL"⟩,
  ⟨237, "NA", .value fun t => do return .count (← t.2.NA)⟩,
  ⟨243, "numberElectronElasticEnergyPoints", .same "NA"⟩,
  ⟨249, "NB", .value fun t => do return .count (← t.2.NB)⟩,
  ⟨255, "numberPhotonBremsstrahlungEnergyPoints", .same "NB"⟩,
  ⟨263, "NBL", .value fun t => do return .count (← t.2.NBL)⟩,
  ⟨268, "numberElectronBremsstrahlungEnergyPoints", .same "NBL"⟩,
  ⟨276, "NINC", .value fun t => do return .count (← t.2.NINC)⟩,
  ⟨281, "numberIncoherentMomentumValues", .same "NINC"⟩,
  ⟨286, "NCOH", .value fun t => do return .count (← t.2.NCOH)⟩,
  ⟨291, "numberCoherentMomentumValues", .same "NCOH"⟩,
  ⟨300, "ESZG", .value fun t => .ok (.ESZG t.2.eszg)⟩,
  ⟨305, "principalCrossSectionBlock", .same "ESZG"⟩,
  ⟨313, "JINC", .value fun t => .ok (.JINC t.2.jinc)⟩,
  ⟨318, "incoherentScatteringFunctionBlock", .same "JINC"⟩,
  ⟨326, "JCOH", .value fun t => .ok (.JCOH t.2.jcoh)⟩,
  ⟨331, "coherentFormFactorBlock", .same "JCOH"⟩,
  ⟨339, "JFLO", .value fun t => .ok (opt .JFLO t.2.jflo)⟩,
  ⟨344, "fluorescenceDataBlock", .same "JFLO"⟩,
  ⟨352, "LHNM", .value fun t => .ok (.LHNM t.2.lhnm)⟩,
  ⟨357, "heatingNumbersBlock", .same "LHNM"⟩,
  ⟨362, "EPS", .value fun t => .ok (opt .EPS t.2.eps)⟩,
  ⟨367, "electronShellBlock", .same "EPS"⟩,
  ⟨375, "SWD", .value fun t => .ok (opt .SWD t.2.swd)⟩,
  ⟨380, "comptonProfileBlock", .same "SWD"⟩,
  ⟨388, "SUBSH", .value fun t => .ok (opt .SUBSH t.2.subsh)⟩,
  ⟨393, "electronSubshellBlock", .same "SUBSH"⟩,
  ⟨401, "SPHEL", .value fun t => .ok (opt .SPHEL t.2.sphel)⟩,
  ⟨409, "photoelectricCrossSectionBlock", .same "SPHEL"⟩,
  ⟨417, "XPROB", .value fun t => .ok (opt .XPROB t.2.xprob)⟩,
  ⟨422, "subshellTransitionDataBlock", .same "XPROB"⟩,
  ⟨430, "ESZE", .value fun t => .ok (opt .ESZE t.2.esze)⟩,
  ⟨435, "electronCrossSectionBlock", .same "ESZE"⟩,
  ⟨443, "EXCIT", .value fun t => .ok (opt .EXCIT t.2.excit)⟩,
  ⟨448, "electronExcitationEnergyLossBlock", .same "EXCIT"⟩,
  ⟨456, "ELAS", .value fun t => .ok (opt .electron t.2.elas)⟩,
  ⟨461, "electronElasticAngularDistributionBlock", .same "ELAS"⟩,
  ⟨475, "EION", .indexed fun t i => do return .electron (← t.2.EION i)⟩,
  ⟨492, "electroionisationEnergyDistributionBlock", .same "EION"⟩,
  ⟨500, "BREME", .value fun t => .ok (opt .electron t.2.breme)⟩,
  ⟨505, "bremsstrahlungEnergyDistributionBlock", .same "BREME"⟩,
  ⟨513, "BREML", .value fun t => .ok (opt .BREML t.2.breml)⟩,
  ⟨518, "electronEnergyAfterBremsstrahlungBlock", .same "BREML"⟩,
  ⟨526, "SELAS", .value fun t => .ok (opt .SELAS t.2.selas)⟩,
  ⟨531, "electronElasticCrossSectionBlock", .same "SELAS"⟩]

/-- The attributes of `PhotoatomicTable` in Python, /repo/python/src/PhotoatomicTable.python.cpp (the number is the line). -/
def photoatomicBindings : List Binding := [
  ⟨104, "zaid", "ZAID", false⟩,
  ⟨110, "AWR", "AWR", false⟩,
  ⟨116, "atomic_weight_ratio", "atomicWeightRatio", false⟩,
  ⟨122, "TEMP", "TEMP", false⟩,
  ⟨128, "temperature", "temperature", false⟩,
  ⟨134, "date", "date", false⟩,
  ⟨140, "length", "length", false⟩,
  ⟨146, "S", "S", false⟩,
  ⟨152, "isomeric_state", "isomericState", false⟩,
  ⟨158, "Z", "Z", false⟩,
  ⟨164, "atom_number", "atomNumber", false⟩,
  ⟨170, "A", "A", false⟩,
  ⟨176, "mass_number", "massNumber", false⟩,
  ⟨182, "NES", "NES", false⟩,
  ⟨188, "number_energy_points", "numberEnergyPoints", false⟩,
  ⟨194, "NFLO", "NFLO", false⟩,
  ⟨200, "number_fluorescence_edges", "numberFluorescenceEdges", false⟩,
  ⟨206, "NSH", "NSH", false⟩,
  ⟨212, "number_electron_shells", "numberElectronShells", false⟩,
  ⟨218, "NEPR", "NEPR", false⟩,
  ⟨225, "electron_photon_relaxation_format", "electronPhotonRelaxationFormat", false⟩,
  ⟨232, "NSSH", "NSSH", false⟩,
  ⟨238, "number_electron_subshells", "numberElectronSubshells", false⟩,
  ⟨244, "NE", "NE", false⟩,
  ⟨250, "number_electron_energy_points", "numberElectronEnergyPoints", false⟩,
  ⟨256, "NXL", "NXL", false⟩,
  ⟨262, "number_electron_excitation_energy_points", "numberElectronExcitationEnergyPoints", false⟩,
  ⟨268, "NA", "NA", false⟩,
  ⟨274, "number_electron_elastic_energy_points", "numberElectronElasticEnergyPoints", false⟩,
  ⟨280, "NB", "NB", false⟩,
  ⟨286, "number_electron_bremsstrahlung_energy_points", "numberElectronBremsstrahlungEnergyPoints", false⟩,
  ⟨292, "NBL", "NBL", false⟩,
  ⟨298, "number_electron_bremsstrahlung_energy_points", "numberElectronBremsstrahlungEnergyPoints", false⟩,
  ⟨304, "ESZG", "ESZG", false⟩,
  ⟨310, "principal_cross_section_block", "principalCrossSectionBlock", false⟩,
  ⟨316, "JINC", "JINC", false⟩,
  ⟨322, "incoherent_scattering_function_block", "incoherentScatteringFunctionBlock", false⟩,
  ⟨328, "JCOH", "JCOH", false⟩,
  ⟨334, "coherent_form_factor_block", "coherentFormFactorBlock", false⟩,
  ⟨340, "JFLO", "JFLO", false⟩,
  ⟨346, "fluorescence_data_block", "fluorescenceDataBlock", false⟩,
  ⟨352, "EPS", "EPS", false⟩,
  ⟨358, "heating_numbers_block", "electronShellBlock", false⟩,
  ⟨364, "LHNM", "LHNM", false⟩,
  ⟨370, "heating_numbers_block", "heatingNumbersBlock", false⟩,
  ⟨376, "EPS", "EPS", false⟩,
  ⟨382, "electron_shell_block", "electronShellBlock", false⟩,
  ⟨388, "SWD", "SWD", false⟩,
  ⟨394, "compton_profile_block", "comptonProfileBlock", false⟩,
  ⟨400, "SUBSH", "SUBSH", false⟩,
  ⟨406, "electron_subshell_block", "electronSubshellBlock", false⟩,
  ⟨412, "SPHEL", "SPHEL", false⟩,
  ⟨418, "photoelectric_cross_section_block", "photoelectricCrossSectionBlock", false⟩,
  ⟨424, "XPROB", "XPROB", false⟩,
  ⟨430, "subshell_transition_data_block", "subshellTransitionDataBlock", false⟩,
  ⟨436, "ESZE", "ESZE", false⟩,
  ⟨442, "electron_cross_section_block", "electronCrossSectionBlock", false⟩,
  ⟨448, "EXCIT", "EXCIT", false⟩,
  ⟨454, "electron_excitation_energy_loss_block", "electronExcitationEnergyLossBlock", false⟩,
  ⟨460, "ELAS", "ELAS", false⟩,
  ⟨466, "electron_elastic_angular_distribution_block", "electronElasticAngularDistributionBlock", false⟩,
  ⟨472, "EION", "EION", true⟩,
  ⟨483, "electroionisation_energy_distribution_block", "electroionisationEnergyDistributionBlock", true⟩,
  ⟨494, "BREME", "BREME", false⟩,
  ⟨500, "bremsstrahlung_energy_distribution_block", "bremsstrahlungEnergyDistributionBlock", false⟩,
  ⟨506, "BREML", "BREML", false⟩,
  ⟨512, "electron_energy_after_bremsstrahlung_block", "electronEnergyAfterBremsstrahlungBlock", false⟩,
  ⟨518, "SELAS", "SELAS", false⟩,
  ⟨524, "electron_elastic_cross_section_block", "electronElasticCrossSectionBlock", false⟩]

/-- The member functions of `PhotonuclearTable`, /repo/src/ACEtk/PhotonuclearTable.hpp (the number is the line). -/
def photonuclearMembers : List (Member (AnyHeader × PN)) := [
  ⟨65, "ZAID", .value fun t => .ok (.text t.1.zaid)⟩,
  ⟨75, "AWR", .value fun t => .ok (.real t.1.awr)⟩,
  ⟨85, "atomicWeightRatio", .same "AWR"⟩,
  ⟨90, "TEMP", .value fun t => .ok (.real t.1.temp)⟩,
  ⟨100, "temperature", .same "TEMP"⟩,
  ⟨105, "date", .value fun t => .ok (.text t.1.date)⟩,
  ⟨117, "length", .value fun t => do return .count (← t.2.length)⟩,
  ⟨122, "ZA", .value fun t => do return .count (← t.2.ZA)⟩,
  ⟨127, "NES", .value fun t => do return .count (← t.2.NES)⟩,
  ⟨132, "numberEnergyPoints", .same "NES"⟩,
  ⟨137, "NTR", .value fun t => do return .count (← t.2.NTR)⟩,
  ⟨142, "numberReactions", .same "NTR"⟩,
  ⟨147, "NTYPE", .value fun t => do return .count (← t.2.NTYPE)⟩,
  ⟨152, "numberSecondaryParticleTypes", .same "NTYPE"⟩,
  ⟨157, "S", .value fun t => do return .count (← t.2.S)⟩,
  ⟨162, "isomericState", .same "S"⟩,
  ⟨167, "Z", .value fun t => do return .count (← t.2.Z)⟩,
  ⟨172, "atomNumber", .same "Z"⟩,
  ⟨177, "A", .value fun t => do return .count (← t.2.A)⟩,
  ⟨182, "massNumber", .same "A"⟩,
  ⟨191, "ESZ", .value fun t => .ok (.ESZU t.2.eszu)⟩,
  ⟨196, "principalCrossSectionBlock", .same "ESZ"⟩,
  ⟨201, "MTR", .value fun t => .ok (.MTR t.2.mtr)⟩,
  ⟨206, "reactionNumberBlock", .same "MTR"⟩,
  ⟨211, "LQR", .value fun t => .ok (.LQR t.2.lqr)⟩,
  ⟨216, "reactionQValueBlock", .same "LQR"⟩,
  ⟨221, "SIG", .value fun t => .ok (.SIG t.2.sig)⟩,
  ⟨226, "crossSectionBlock", .same "SIG"⟩,
  ⟨231, "IXS", .value fun t => .ok (opt .IXSU t.2.ixsu)⟩,
  ⟨236, "secondaryParticleLocatorBlock", .same "IXS"⟩,
  ⟨250, "PXS", .indexed fun t i => do return .crossSection (← t.2.PXS i)⟩,
  ⟨265, "secondaryParticleProductionCrossSection", .same "PXS"⟩,
  ⟨279, "PHN", .indexed fun t i => do return .crossSection (← t.2.PHN i)⟩,
  ⟨294, "secondaryParticleHeatingCrossSection", .same "PHN"⟩,
  ⟨307, "MTRH", .indexed fun t i => do return .MTR (← t.2.MTRH i)⟩,
  ⟨320, "secondaryParticleReactionNumberBlock", .same "MTRH"⟩,
  ⟨334, "TYRH", .indexed fun t i => do return .TYR (← t.2.TYRH i)⟩,
  ⟨348, "secondaryParticleFrameAndMultiplicityBlock", .same "TYRH"⟩,
  ⟨362, "SIGH", .indexed fun t i => do return .SIGH (← t.2.SIGH i)⟩,
  ⟨376, "secondaryParticleProductionCrossSectionBlock", .same "SIGH"⟩,
  ⟨390, "ANDH", .indexed fun t i => do return .AND (← t.2.ANDH i)⟩,
  ⟨404, "secondaryParticleAngularDistributionBlock", .same "ANDH"⟩,
  ⟨418, "DLWH", .indexed fun t i => do return .DLWH (← t.2.DLWH i)⟩,
  ⟨432, "secondaryParticleEnergyDistributionBlock", .same "DLWH"⟩]

/-- The attributes of `PhotonuclearTable` in Python, /repo/python/src/PhotonuclearTable.python.cpp (the number is the line). -/
def photonuclearBindings : List Binding := [
  ⟨82, "zaid", "ZAID", false⟩,
  ⟨88, "AWR", "AWR", false⟩,
  ⟨94, "atomic_weight_ratio", "atomicWeightRatio", false⟩,
  ⟨100, "TEMP", "TEMP", false⟩,
  ⟨106, "temperature", "temperature", false⟩,
  ⟨112, "date", "date", false⟩,
  ⟨118, "length", "length", false⟩,
  ⟨124, "za", "ZA", false⟩,
  ⟨130, "NES", "NES", false⟩,
  ⟨136, "number_energy_points", "numberEnergyPoints", false⟩,
  ⟨142, "NTR", "NTR", false⟩,
  ⟨148, "number_reactions", "numberReactions", false⟩,
  ⟨154, "NTYPE", "NTYPE", false⟩,
  ⟨160, "number_secondary_particle_types", "numberSecondaryParticleTypes", false⟩,
  ⟨166, "S", "S", false⟩,
  ⟨172, "isomeric_state", "isomericState", false⟩,
  ⟨178, "Z", "Z", false⟩,
  ⟨184, "atom_number", "atomNumber", false⟩,
  ⟨190, "A", "A", false⟩,
  ⟨196, "mass_number", "massNumber", false⟩,
  ⟨202, "ESZ", "ESZ", false⟩,
  ⟨208, "principal_cross_section_block", "principalCrossSectionBlock", false⟩,
  ⟨214, "MTR", "MTR", false⟩,
  ⟨220, "reaction_number_block", "reactionNumberBlock", false⟩,
  ⟨226, "LQR", "LQR", false⟩,
  ⟨232, "reaction_qvalue_block", "reactionQValueBlock", false⟩,
  ⟨238, "SIG", "SIG", false⟩,
  ⟨244, "cross_section_block", "crossSectionBlock", false⟩,
  ⟨249, "IXS", "IXS", false⟩,
  ⟨255, "secondary_particle_locator_block", "secondaryParticleLocatorBlock", false⟩,
  ⟨261, "PXS", "PXS", true⟩,
  ⟨272, "secondary_particle_production_crossSection", "secondaryParticleProductionCrossSection", true⟩,
  ⟨283, "PHN", "PHN", true⟩,
  ⟨294, "secondary_particle_heating_cross_section", "secondaryParticleHeatingCrossSection", true⟩,
  ⟨305, "MTRH", "MTRH", true⟩,
  ⟨316, "secondary_particle_reaction_number_block", "secondaryParticleReactionNumberBlock", true⟩,
  ⟨327, "TYRH", "TYRH", true⟩,
  ⟨338, "secondary_particle_frame_and_multiplicity_block", "secondaryParticleFrameAndMultiplicityBlock", true⟩,
  ⟨349, "SIGH", "SIGH", true⟩,
  ⟨360, "secondary_particle_production_cross_section_block", "secondaryParticleProductionCrossSectionBlock", true⟩,
  ⟨371, "ANDH", "ANDH", true⟩,
  ⟨382, "secondary_particle_angular_distribution_block", "secondaryParticleAngularDistributionBlock", true⟩,
  ⟨393, "DLWH", "DLWH", true⟩,
  ⟨404, "secondary_particle_energy_distribution_block", "secondaryParticleEnergyDistributionBlock", true⟩]

/-- The member functions of `ThermalScatteringTable`, /repo/src/ACEtk/ThermalScatteringTable.hpp (the number is the line). -/
def thermalMembers : List (Member (AnyHeader × TS)) := [
  ⟨48, "ZAID", .value fun t => .ok (.text t.1.zaid)⟩,
  ⟨58, "AWR", .value fun t => .ok (.real t.1.awr)⟩,
  ⟨68, "atomicWeightRatio", .same "AWR"⟩,
  ⟨73, "TEMP", .value fun t => .ok (.real t.1.temp)⟩,
  ⟨83, "temperature", .same "TEMP"⟩,
  ⟨88, "date", .value fun t => .ok (.text t.1.date)⟩,
  ⟨100, "length", .value fun t => do return .count (← t.2.data.count 1)⟩,
  ⟨105, "IDPNI", .value fun t => do return .count (← t.2.IDPNI)⟩,
  ⟨110, "inelasticScatteringMode", .same "IDPNI"⟩,
  ⟨118, "NIL", .value fun t => do return .count (← t.2.NIL)⟩,
  ⟨126, "inelasticDimensioningParameter", .same "NIL"⟩,
  ⟨131, "NIEB", .value fun t => do return .count (← t.2.NIEB)⟩,
  ⟨136, "numberInelasticOutgoingEnergies", .same "NIEB"⟩,
  ⟨141, "IDPNC", .value fun t => do return .count (← t.2.IDPNC)⟩,
  ⟨146, "elasticScatteringMode", .same "IDPNC"⟩,
  ⟨153, "NCL", .value fun t => do return .signed (← t.2.data.signed 6)⟩,
  ⟨160, "firstElasticDimensioningParameter", .same "NCL"⟩,
  ⟨167, "NCLI", .value fun t => do return .signed (← t.2.data.signed 8)⟩,
  ⟨174, "secondElasticDimensioningParameter", .same "NCLI"⟩,
  ⟨179, "IFENG", .value fun t => do return .count (← t.2.IFENG)⟩,
  ⟨184, "secondaryEnergyMode", .same "IFENG"⟩,
  ⟨193, "ITIE", .value fun t => .ok (.ITIE t.2.itie)⟩,
  ⟨198, "inelasticCrossSectionBlock", .same "ITIE"⟩,
  ⟨206, "ITXE", .value fun t => .ok (.ITXE t.2.itxe)⟩,
  ⟨211, "inelasticAngularDistributionBlock", .same "ITXE"⟩,
  ⟨219, "ITCE", .value fun t => .ok (opt .ITIE t.2.itce)⟩,
  ⟨224, "coherentElasticCrossSectionBlock", .same "ITCE"⟩,
  ⟨233, "ITCA", .value fun t => .ok (opt .ITCA t.2.itca)⟩,
  ⟨239, "coherentElasticAngularDistributionBlock", .same "ITCA"⟩,
  ⟨247, "ITCEI", .value fun t => .ok (opt .ITIE t.2.itcei)⟩,
  ⟨252, "incoherentElasticCrossSectionBlock", .same "ITCEI"⟩,
  ⟨261, "ITCAI", .value fun t => .ok (opt .ITCA t.2.itcai)⟩,
  ⟨267, "incoherentElasticAngularDistributionBlock", .same "ITCAI"⟩]

/-- The attributes of `ThermalScatteringTable` in Python, /repo/python/src/ThermalScatteringTable.python.cpp (the number is the line). -/
def thermalBindings : List Binding := [
  ⟨63, "zaid", "ZAID", false⟩,
  ⟨69, "AWR", "AWR", false⟩,
  ⟨75, "atomic_weight_ratio", "atomicWeightRatio", false⟩,
  ⟨81, "TEMP", "TEMP", false⟩,
  ⟨87, "temperature", "temperature", false⟩,
  ⟨93, "date", "date", false⟩,
  ⟨99, "length", "length", false⟩,
  ⟨105, "IDPNI", "IDPNI", false⟩,
  ⟨111, "inelastic_scattering_mode", "inelasticScatteringMode", false⟩,
  ⟨117, "NIL", "NIL", false⟩,
  ⟨125, "inelastic_dimensioning_parameter", "inelasticDimensioningParameter", false⟩,
  ⟨133, "NIEB", "NIEB", false⟩,
  ⟨139, "number_inelastic_outgoing_energies", "numberInelasticOutgoingEnergies", false⟩,
  ⟨145, "IDPNC", "IDPNC", false⟩,
  ⟨151, "elastic_scattering_mode", "elasticScatteringMode", false⟩,
  ⟨157, "NCL", "NCL", false⟩,
  ⟨164, "first_elastic_dimensioning_parameter", "firstElasticDimensioningParameter", false⟩,
  ⟨171, "NCLI", "NCLI", false⟩,
  ⟨178, "second_elastic_dimensioning_parameter", "secondElasticDimensioningParameter", false⟩,
  ⟨185, "IFENG", "IFENG", false⟩,
  ⟨191, "secondary_energy_mode", "secondaryEnergyMode", false⟩,
  ⟨197, "ITIE", "ITIE", false⟩,
  ⟨203, "inelastic_cross_section_block", "inelasticCrossSectionBlock", false⟩,
  ⟨209, "ITXE", "ITXE", false⟩,
  ⟨215, "inelastic_angular_distribution_block", "inelasticAngularDistributionBlock", false⟩,
  ⟨221, "ITCE", "ITCE", false⟩,
  ⟨227, "coherent_elastic_cross_section_block", "coherentElasticCrossSectionBlock", false⟩,
  ⟨233, "ITCA", "ITCA", false⟩,
  ⟨239, "coherent_elastic_angular_distribution_block", "coherentElasticAngularDistributionBlock", false⟩,
  ⟨245, "ITCEI", "ITCEI", false⟩,
  ⟨251, "incoherent_elastic_cross_section_block", "incoherentElasticCrossSectionBlock", false⟩,
  ⟨257, "ITCAI", "ITCAI", false⟩,
  ⟨263, "incoherent_elastic_angular_distribution_block", "incoherentElasticAngularDistributionBlock", false⟩]

end Python
end ACE

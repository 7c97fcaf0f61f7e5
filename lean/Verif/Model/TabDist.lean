import Verif.Model.Arrays

/-!
# Tabulated distributions for one incident energy (or cosine)

`TabulatedEnergyDistribution`, `TabulatedKalbachMannDistribution`,
`TabulatedAngularDistribution`, `ComptonProfile`: a
`TabulatedProbabilityDistribution` together with the energy or cosine.
-/

namespace ACE

/-- Fields shared by these classes: the value (`incident_`, `energy_`) and the
base class. /repo/src/ACEtk/continuous/TabulatedEnergyDistribution.hpp:25-28,
TabulatedKalbachMannDistribution.hpp:24-27, TabulatedAngularDistribution.hpp:22-25. -/
structure TabDist where
  value : Dbl
  dist : TabProb
deriving DecidableEq, Repr

namespace TabDist

/-- The words of the object. -/
def xss (d : TabDist) : Words := d.dist.xss

/-- Reading constructors (both overloads),
/repo/src/ACEtk/continuous/TabulatedEnergyDistribution/src/ctor.hpp:38-53,
TabulatedKalbachMannDistribution/src/ctor.hpp:42-57,
TabulatedAngularDistribution/src/ctor.hpp:36-51. -/
def ofRange (value : Dbl) (xs : Words) : Res TabDist := do
  return { value := value, dist := ← TabProb.ofRange xs }

/-- `TabulatedAngularDistribution` from values,
/repo/src/ACEtk/continuous/TabulatedAngularDistribution/src/ctor.hpp:18-27. -/
def mkAngular (energy : Dbl) (interpolation : Int) (cosines pdf cdf : Words) : Res TabDist := do
  return { value := energy, dist := ← TabProb.mk' interpolation cosines pdf cdf [] }

/-- `TabulatedEnergyDistribution` from values,
/repo/src/ACEtk/continuous/TabulatedEnergyDistribution/src/ctor.hpp:19-29. The flag
is computed in `std::size_t` and converted to `int`; simplification: it is not
reduced modulo 2^32. -/
def mkEnergy (incident : Dbl) (interpolation : Int) (outgoing pdf cdf : Words)
    (discrete : Nat) : Res TabDist := do
  return { value := incident
           dist := ← TabProb.mk' (discrete * 10 + interpolation) outgoing pdf cdf [] }

/-- `TabulatedKalbachMannDistribution` from values,
/repo/src/ACEtk/continuous/TabulatedKalbachMannDistribution/src/ctor.hpp:21-33. -/
def mkKalbach (incident : Dbl) (interpolation : Int) (outgoing pdf cdf r a : Words)
    (discrete : Nat) : Res TabDist := do
  return { value := incident
           dist := ← TabProb.mk' (discrete * 10 + interpolation) outgoing pdf cdf [r, a] }

/-- `interpolation()` of the energy and Kalbach-Mann distributions: the remainder
(C++ `%`, sign of the dividend) of the flag by 10 converted to `unsigned int`.
/repo/src/ACEtk/continuous/TabulatedEnergyDistribution.hpp:48-52,
TabulatedKalbachMannDistribution.hpp:47-51. -/
def interpolation (d : TabDist) : Res Nat := do
  let flag ← d.dist.interpolation
  return ((flag.tmod 10) % 4294967296).toNat

/-- `numberDiscretePhotonLines()`: unsigned 32-bit arithmetic.
/repo/src/ACEtk/continuous/TabulatedEnergyDistribution.hpp:57-62,
TabulatedKalbachMannDistribution.hpp:56-61. -/
def numberDiscretePhotonLines (d : TabDist) : Res Nat := do
  let flag ← d.dist.interpolation
  let int ← d.interpolation
  return ((flag - int) % 4294967296).toNat / 10

/-- `precompoundFractionValues()`,
/repo/src/ACEtk/continuous/TabulatedKalbachMannDistribution.hpp:98-101. -/
def r (d : TabDist) : Res Words := d.dist.column 0
/-- `angularDistributionSlopeValues()`,
/repo/src/ACEtk/continuous/TabulatedKalbachMannDistribution.hpp:106-109. -/
def a (d : TabDist) : Res Words := d.dist.column 1

end TabDist
end ACE

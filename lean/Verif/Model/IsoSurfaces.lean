import Mathlib.Data.Matrix.Mul
import Mathlib.Algebra.Field.Defs
import Mathlib.Data.Fin.VecNotation

/-!
# The implicit surfaces

`CircleIsoSurface`, `SphereIsoSurface` and `CylinderIsoSurface` of `src/SofaCaribou/Topology`, which a `FictitiousGrid` evaluates at
the corners of its cells.  Floating point numbers are elements of a field.  The overload `IsoSurface::iso_value(const Coord &)`
(`IsoSurface.h:27-30`) is not modelled: it is a template member which nothing instantiates (it maps a constant vector as a mutable one and
returns nothing).
-/

set_option autoImplicit false

namespace Caribou

variable {K : Type*} [Field K]

/-- The data of `CircleIsoSurface` (`D = 2`, `CircleIsoSurface.h:21-24,35-36`) and of `SphereIsoSurface` (`D = 3`,
`SphereIsoSurface.h:21-24,35-36`): the two classes have the same source up to the dimension. -/
structure RoundSurface (D : ℕ) (K : Type*) where
  radius : K
  center : Fin D → K

/-- `iso_value`, `CircleIsoSurface.h:26-32` and `SphereIsoSurface.h:26-32`. -/
def RoundSurface.isoValue {D : ℕ} (s : RoundSurface D K) (x : Fin D → K) : K :=
  let d := (x - s.center) ⬝ᵥ (x - s.center)
  d - s.radius * s.radius

/-- The data of `CylinderIsoSurface`, `CylinderIsoSurface.h:21-25,36-38`. -/
structure CylinderSurface (K : Type*) where
  radius : K
  length : K
  center : Fin 3 → K

/-- `iso_value`, `CylinderIsoSurface.h:27-33`: the length is not read. -/
def CylinderSurface.isoValue (s : CylinderSurface K) (x : Fin 3 → K) : K :=
  let d : Fin 2 → K := ![x 0 - s.center 0, x 1 - s.center 1]
  d ⬝ᵥ d - s.radius * s.radius

end Caribou

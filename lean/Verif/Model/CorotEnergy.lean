import Verif.Model.Corotational

/-!
# Model of the energy reported by `TetrahedronElasticForce` and `HexahedronElasticForce`
-/

set_option autoImplicit false

namespace Caribou

/-- `getPotentialEnergy` of both classes, `TetrahedronElasticForce.h:99-102`, `HexahedronElasticForce.h:115-118`. -/
def CorotState.potentialEnergy {N n M : ℕ} (_s : CorotState N n M) (_x : Fin N → Fin 3 → ℝ) : ℝ := 0

end Caribou

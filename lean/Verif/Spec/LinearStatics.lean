import Verif.Spec.Refinement
import Verif.Spec.CorotEnergy

/-!
# Specification vocabulary for bodies in static equilibrium
-/

set_option autoImplicit false

namespace Caribou.Spec

/-- The points at which the energy of an element is computed. -/
noncomputable def energyPoints (C : CorotClass) (m : IntegrationMethod) : List (GaussNode 3) :=
  match C with
  | .tetra => gaussTetra1
  | .hexa => hexaQuadrature m

/-- The elastic energy of a body with the nodes `X` displaced by `U`. -/
noncomputable def bodyEnergy {N M : ℕ} (C : CorotClass) (d : CorotData) (idx : Fin M → Fin C.nodes → Fin N) (X U : Fin N → Fin 3 → ℝ) : ℝ :=
  ∑ e, strainEnergy C.elem (energyPoints C d.method) (lameL d.young d.poisson) (lameMu d.young d.poisson) (fun i => X (idx e i)) fun i => U (idx e i)

/-- The load which is the vector `v` at the node `p`. -/
def pointLoad {N : ℕ} (p : Fin N) (v : Fin 3 → ℝ) : Fin N → Fin 3 → ℝ := fun q => if q = p then v else 0

end Caribou.Spec

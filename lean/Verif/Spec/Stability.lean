import Verif.Spec.Material
import Mathlib.LinearAlgebra.Matrix.Trace

/-!
# The quadratic form of isotropic linear elasticity
-/

set_option autoImplicit false

namespace Caribou.Spec

/-- The symmetric part of a gradient: the small strain. -/
noncomputable def symPart (G : Matrix (Fin 3) (Fin 3) ℝ) : Matrix (Fin 3) (Fin 3) ℝ := (1 / 2 : ℝ) • (G + G.transpose)

/-- Twice the energy density of the small strain `E`: `l (tr E)² + 2 mu E : E`. -/
noncomputable def lameForm (l mu : ℝ) (E : Matrix (Fin 3) (Fin 3) ℝ) : ℝ := l * E.trace ^ 2 + 2 * mu * ddot E E

end Caribou.Spec

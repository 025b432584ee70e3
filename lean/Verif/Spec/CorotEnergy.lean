import Verif.Spec.Stability
import Verif.Model.Elements
import Verif.Model.Canonical
import Mathlib.Analysis.Calculus.Deriv.Pi
import Mathlib.LinearAlgebra.CrossProduct
import Mathlib.LinearAlgebra.Matrix.NonsingularInverse

/-!
# Specification of elastic energies and of moments of forces (C109)
-/

set_option autoImplicit false

namespace Caribou.Spec

/-- The energy `1/2 ∫ (l (tr ε)² + 2 mu ε : ε)` of the displacements `u` of the nodes of an element with the nodes `X`, computed with the
points `gauss`; `ε` is the symmetric part of the gradient of the displacement. -/
noncomputable def strainEnergy {n : ℕ} (E : Elem ℝ 3 n) (gauss : List (GaussNode 3)) (l mu : ℝ) (X u : Fin n → Fin 3 → ℝ) : ℝ :=
  1 / 2 * (gauss.map fun g => Matrix.det (E.jacobian X g.position) * g.weight *
    lameForm l mu (symPart (Matrix.of (E.jacobian u g.position) * (Matrix.of (E.jacobian X g.position))⁻¹))).sum

/-- The power of the forces `f` on nodes which move with the velocities `v`. -/
def power {N : ℕ} (f v : Fin N → Fin 3 → ℝ) : ℝ := ∑ p, f p ⬝ᵥ v p

/-- Along all motions through the configurations in `S`, the energy `W` decreases by the work of the forces `F`. -/
def DerivesFrom {N : ℕ} (S : Set (Fin N → Fin 3 → ℝ)) (F : (Fin N → Fin 3 → ℝ) → Fin N → Fin 3 → ℝ)
    (W : (Fin N → Fin 3 → ℝ) → ℝ) : Prop :=
  ∀ (x : ℝ → Fin N → Fin 3 → ℝ) (v : Fin N → Fin 3 → ℝ) (t : ℝ), x t ∈ S → HasDerivAt x v t →
    HasDerivAt (fun t => W (x t)) (-power (F (x t)) v) t

/-- The moment of the forces `f` at the positions `x`. -/
def moment {N : ℕ} (x f : Fin N → Fin 3 → ℝ) : Fin 3 → ℝ := ∑ p, crossProduct (x p) (f p)

end Caribou.Spec

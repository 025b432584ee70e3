import Verif.Spec.Canonical
import Verif.Spec.Traction

/-!
# Flat pieces of a surface and the loads on them
-/

set_option autoImplicit false

namespace Caribou.Spec

/-- Integral of `f` over the flat piece of surface made of the points `c + ξ 0 • a + ξ 1 • b`, with `ξ` in the canonical square or triangle; `f` is given in terms of `ξ`. -/
noncomputable def flatIntegral (s : Shape) (a b : Fin 3 → ℝ) (f : (Fin 2 → ℝ) → ℝ) : ℝ :=
  parallelogramArea a b * match s with | .cube => intCube2 f | .simplex => intSimplex2 f

/-- `E` is a potential of the forces `f`: moving the nodes from `x` by `u` the forces do the work which the energy loses. -/
def IsPotential {N D : ℕ} (E : (Fin N → Fin D → ℝ) → ℝ) (f : Fin N → Fin D → ℝ) : Prop :=
  ∀ x u : Fin N → Fin D → ℝ, E (x + u) - E x = -∑ p, ∑ a, f p a * u p a

/-- Mean of a list of points. -/
noncomputable def meanPoint (l : List (Fin 3 → ℝ)) : Fin 3 → ℝ := (1 / (l.length : ℝ)) • l.sum

end Caribou.Spec

import Mathlib.Analysis.Real.Sqrt
import Mathlib.Data.Fin.VecNotation
import Mathlib.Algebra.BigOperators.Group.Finset.Basic

/-!
# Specification of the implicit surfaces (C105)
-/

set_option autoImplicit false

namespace Caribou.Spec

variable {D : ℕ}

/-- The Euclidean distance. -/
noncomputable def distance (x y : Fin D → ℝ) : ℝ := √(∑ a, (x a - y a) ^ 2)

/-- The open disc or ball. -/
def openBall (c : Fin D → ℝ) (r : ℝ) : Set (Fin D → ℝ) := {x | distance x c < r}

/-- The diagonal of a box with edges `h`. -/
noncomputable def diagonal (h : Fin D → ℝ) : ℝ := √(∑ a, h a ^ 2)

/-- The interior of the cylinder of the given radius and length around an axis along `z` through its centre `c`. -/
def cylinderInterior (c : Fin 3 → ℝ) (r l : ℝ) : Set (Fin 3 → ℝ) :=
  {x | distance ![x 0, x 1] ![c 0, c 1] < r ∧ |x 2 - c 2| < l / 2}

end Caribou.Spec

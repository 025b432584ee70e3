import Mathlib.LinearAlgebra.CrossProduct
import Mathlib.Analysis.Real.Sqrt

/-!
# What the traction and bounding box properties talk about
-/

set_option autoImplicit false

namespace Caribou.Spec

/-- Area of the triangle with the given corners. -/
noncomputable def triangleArea (a b c : Fin 3 → ℝ) : ℝ :=
  Real.sqrt (∑ k, crossProduct (b - a) (c - a) k ^ 2) / 2

/-- Area of the parallelogram with corner `a` and sides `u`, `v`. -/
noncomputable def parallelogramArea (u v : Fin 3 → ℝ) : ℝ := Real.sqrt (∑ k, crossProduct u v k ^ 2)

/-- How many increments the field has to make in `k` time steps when it waits `steps` time steps between increments (at
least one) and the first time step makes one. -/
def incrementsDue (steps k : ℕ) : ℕ := if k = 0 then 0 else 1 + (k - 1) / max steps 1

/-- `lo` and `hi` are the smallest and the largest element of the list. -/
structure IsRange {K : Type*} [LinearOrder K] (l : List K) (lo hi : K) : Prop where
  lo_mem : lo ∈ l
  hi_mem : hi ∈ l
  lo_le : ∀ x ∈ l, lo ≤ x
  le_hi : ∀ x ∈ l, x ≤ hi

end Caribou.Spec

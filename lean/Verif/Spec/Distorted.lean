import Mathlib.Data.Real.Basic
import Mathlib.Algebra.BigOperators.Fin

/-!
# Specification vocabulary for distorted quads and hexahedra
-/

set_option autoImplicit false

namespace Caribou.Spec

/-- The signs of the corners of a quad, in the order of its nodes. -/
def quadSign : Fin 4 → Fin 2 → ℝ := ![![-1, -1], ![1, -1], ![1, 1], ![-1, 1]]

/-- The signs of the corners of a hexahedron, in the order of its nodes. -/
def hexaSign : Fin 8 → Fin 3 → ℝ :=
  ![![-1, -1, -1], ![1, -1, -1], ![1, 1, -1], ![-1, 1, -1], ![-1, -1, 1], ![1, -1, 1], ![1, 1, 1], ![-1, 1, 1]]

/-- A combination of the corners.  For one direction it is half of the mean edge in this direction; for several directions it measures how the edges differ, and is null for parallelograms and
parallelepipeds. -/
noncomputable def cornerMoment {d n : ℕ} (σ : Fin n → Fin d → ℝ) (X : Fin n → Fin d → ℝ) (S : Finset (Fin d)) (a : Fin d) : ℝ := (∑ i, (∏ j ∈ S, σ i j) * X i a) / n

/-- An element close to a parallelogram or parallelepiped: the differences between its edges have components at most `θ` along the mean edges.  `α` is such that a displacement along the mean edges
is at least `1 / α` times the largest of its components. -/
structure NearBox {d n : ℕ} (σ : Fin n → Fin d → ℝ) (X : Fin n → Fin d → ℝ) (θ α : ℝ) : Prop where
  skew : ∀ S : Finset (Fin d), 2 ≤ S.card → ∃ c : Fin d → ℝ, (∀ j, |c j| ≤ θ) ∧ ∀ a, cornerMoment σ X S a = ∑ j, c j * cornerMoment σ X {j} a
  size : ∀ (v : Fin d → ℝ) (j : Fin d), v j ^ 2 ≤ α ^ 2 * ∑ a, (∑ j, v j * cornerMoment σ X {j} a) ^ 2

end Caribou.Spec

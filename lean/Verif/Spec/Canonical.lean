import Mathlib.Analysis.SpecialFunctions.Integrals.Basic
import Mathlib.Algebra.BigOperators.Fin

/-!
# The canonical cubes and simplices: membership and integrals

Nothing here mentions the model.
-/

set_option autoImplicit false

namespace Caribou.Spec

/-- The two families of canonical elements: `[-1,1]^d` and the corner simplex. -/
inductive Shape
  | cube | simplex
  deriving DecidableEq

/-- `ξ` belongs to the closed canonical element. -/
def Shape.Mem {K : Type*} [Field K] [LinearOrder K] {d : ℕ} : Shape → (Fin d → K) → Prop
  | .cube, ξ => ∀ j, -1 ≤ ξ j ∧ ξ j ≤ 1
  | .simplex, ξ => (∀ j, 0 ≤ ξ j) ∧ ∑ j, ξ j ≤ 1

/-- `ξ` belongs to the canonical element enlarged by `eps`: closed for cubes, open for simplices. -/
def Shape.MemEps {K : Type*} [Field K] [LinearOrder K] {d : ℕ} : Shape → (Fin d → K) → K → Prop
  | .cube, ξ, eps => ∀ j, -1 - eps ≤ ξ j ∧ ξ j ≤ 1 + eps
  | .simplex, ξ, eps => (∀ j, -eps < ξ j) ∧ ∑ j, ξ j < 1 + eps

/-- Integral over `[-1,1]`. -/
noncomputable def intCube1 (f : (Fin 1 → ℝ) → ℝ) : ℝ := ∫ u in (-1 : ℝ)..1, f ![u]

/-- Integral over `[-1,1]²`. -/
noncomputable def intCube2 (f : (Fin 2 → ℝ) → ℝ) : ℝ := ∫ u in (-1 : ℝ)..1, ∫ v in (-1 : ℝ)..1, f ![u, v]

/-- Integral over `[-1,1]³`. -/
noncomputable def intCube3 (f : (Fin 3 → ℝ) → ℝ) : ℝ :=
  ∫ u in (-1 : ℝ)..1, ∫ v in (-1 : ℝ)..1, ∫ w in (-1 : ℝ)..1, f ![u, v, w]

/-- Integral over the triangle `u, v ≥ 0`, `u + v ≤ 1`. -/
noncomputable def intSimplex2 (f : (Fin 2 → ℝ) → ℝ) : ℝ := ∫ u in (0 : ℝ)..1, ∫ v in (0 : ℝ)..(1 - u), f ![u, v]

/-- Integral over the tetrahedron `u, v, w ≥ 0`, `u + v + w ≤ 1`. -/
noncomputable def intSimplex3 (f : (Fin 3 → ℝ) → ℝ) : ℝ :=
  ∫ u in (0 : ℝ)..1, ∫ v in (0 : ℝ)..(1 - u), ∫ w in (0 : ℝ)..(1 - u - v), f ![u, v, w]

/-- Polynomials of degree at most three in each variable. -/
def cubic1 (c : Fin 4 → ℝ) (ξ : Fin 1 → ℝ) : ℝ := ∑ i, c i * ξ 0 ^ (i : ℕ)

/-- Polynomials of degree at most three in each of two variables. -/
def cubic2 (c : Fin 4 → Fin 4 → ℝ) (ξ : Fin 2 → ℝ) : ℝ := ∑ i, ∑ j, c i j * (ξ 0 ^ (i : ℕ) * ξ 1 ^ (j : ℕ))

/-- Polynomials of degree at most three in each of three variables. -/
def cubic3 (c : Fin 4 → Fin 4 → Fin 4 → ℝ) (ξ : Fin 3 → ℝ) : ℝ :=
  ∑ i, ∑ j, ∑ k, c i j k * (ξ 0 ^ (i : ℕ) * ξ 1 ^ (j : ℕ) * ξ 2 ^ (k : ℕ))

end Caribou.Spec

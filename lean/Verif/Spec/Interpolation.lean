import Mathlib.Analysis.Calculus.Deriv.Basic
import Mathlib.Algebra.BigOperators.Fin

/-!
# What it means to be a family of Lagrange shape functions

These definitions do not mention the model: `L`, `dL`, `node` are arbitrary functions.
-/

set_option autoImplicit false

namespace Caribou.Spec

/-- The `n` functions add up to one everywhere. -/
def PartitionOfUnity {K : Type*} [Field K] {d n : ℕ} (L : (Fin d → K) → Fin n → K) : Prop :=
  ∀ ξ, ∑ i, L ξ i = 1

/-- Function `i` is one at node `i` and zero at every other node. -/
def Nodal {K : Type*} [Field K] {d n : ℕ} (L : (Fin d → K) → Fin n → K) (node : Fin n → Fin d → K) : Prop :=
  ∀ j, L (node j) j = 1 ∧ ∀ i, i ≠ j → L (node j) i = 0

/-- `dL ξ i j` is the partial derivative of `L · i` with respect to coordinate `j` at `ξ`. -/
def IsPartialDeriv {d n : ℕ} (L : (Fin d → ℝ) → Fin n → ℝ) (dL : (Fin d → ℝ) → Fin n → Fin d → ℝ) : Prop :=
  ∀ ξ i j, HasDerivAt (fun t => L (Function.update ξ j t) i) (dL ξ i j) (ξ j)

/-- The affine function `ξ ↦ c + g · ξ`. -/
def affineFn {K : Type*} [Field K] {d : ℕ} (c : K) (g : Fin d → K) (ξ : Fin d → K) : K := c + ∑ j, g j * ξ j

/-- The general polynomial of total degree at most two, `ξ ↦ c + g · ξ + ξᵀ H ξ`. -/
def quadraticFn {K : Type*} [Field K] {d : ℕ} (c : K) (g : Fin d → K) (H : Fin d → Fin d → K) (ξ : Fin d → K) : K :=
  c + ∑ j, g j * ξ j + ∑ j, ∑ k, H j k * (ξ j * ξ k)

end Caribou.Spec

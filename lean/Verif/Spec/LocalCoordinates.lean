import Mathlib.Algebra.BigOperators.Fin
import Mathlib.Algebra.Order.Field.Basic

/-!
# Distances and orthogonality, used to state what `local_coordinates` returns
-/

set_option autoImplicit false

namespace Caribou.Spec

/-- Squared Euclidean distance. -/
def dist2 {K : Type*} [Field K] {m : ℕ} (p q : Fin m → K) : K := ∑ a, (p a - q a) ^ 2

/-- The vector `r` is orthogonal to every displacement of the parametrised flat piece `φ`. -/
def OrthogonalTo {K : Type*} [Field K] {d m : ℕ} (r : Fin m → K) (φ : (Fin d → K) → Fin m → K) : Prop :=
  ∀ η η', ∑ a, r a * (φ η a - φ η' a) = 0

/-- `ξ` is a parameter whose image by `φ` is as close as possible to `p`. -/
def Closest {K : Type*} [Field K] [LinearOrder K] {d m : ℕ} (φ : (Fin d → K) → Fin m → K) (p : Fin m → K)
    (ξ : Fin d → K) : Prop :=
  ∀ η, dist2 p (φ ξ) ≤ dist2 p (φ η)

end Caribou.Spec

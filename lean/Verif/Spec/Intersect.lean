import Mathlib.Algebra.BigOperators.Fin
import Mathlib.Algebra.Order.Field.Basic

/-!
# Segments, triangles, the cube
-/

set_option autoImplicit false

namespace Caribou.Spec

variable {K : Type*} [Field K] [LinearOrder K]

/-- The closed cube `[-1,1]³`. -/
def InCube (x : Fin 3 → K) : Prop := ∀ j, -1 ≤ x j ∧ x j ≤ 1

/-- `x` is on the closed segment from `a` to `b`. -/
def OnSegment (a b x : Fin 3 → K) : Prop := ∃ t, 0 ≤ t ∧ t ≤ 1 ∧ ∀ j, x j = (1 - t) * a j + t * b j

/-- `x` is in the closed triangle `a b c`. -/
def InTriangle (a b c x : Fin 3 → K) : Prop :=
  ∃ α β γ, 0 ≤ α ∧ 0 ≤ β ∧ 0 ≤ γ ∧ α + β + γ = 1 ∧ ∀ j, x j = α * a j + β * b j + γ * c j

end Caribou.Spec

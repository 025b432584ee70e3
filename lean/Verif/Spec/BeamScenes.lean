import Mathlib.Algebra.Order.Field.Basic
import Mathlib.Data.Fin.VecNotation

/-!
# Specification vocabulary for the beam of the benchmarks
-/

set_option autoImplicit false

namespace Caribou.Spec

/-- A family of points with three indices is a grid of equal cells with the side lengths `s` which fills the box from `lo` to `hi`, with `m d` cells along the axis `d`. -/
def FillsBox {K : Type*} [Field K] (p : ℕ → ℕ → ℕ → Fin 3 → K) (lo hi s : Fin 3 → K) (m : Fin 3 → ℕ) : Prop :=
  p 0 0 0 = lo ∧ p (m 0) (m 1) (m 2) = hi ∧
    ∀ i j k, (p (i + 1) j k = p i j k + ![s 0, 0, 0]) ∧ (p i (j + 1) k = p i j k + ![0, s 1, 0]) ∧ (p i j (k + 1) = p i j k + ![0, 0, s 2])

end Caribou.Spec

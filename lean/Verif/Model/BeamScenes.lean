import Mathlib.Algebra.Order.Floor.Semiring
import Mathlib.Algebra.Order.Field.Basic
import Mathlib.Data.Fin.VecNotation

/-!
# The beam of the benchmark scenes

The same lines are in `scenes/conjugate_gradient_benchmark.py`, `Benchmark/SofaCaribou/Solver/beam_cg_linear_solvers.py`, `beam_direct_linear_solvers.py`,
`Benchmark/SofaCaribou/Forcefield/RecomputeOrStore/beam_recompute_f.py` and the test script of the hyperelastic force field; they are cited from the first file.  Numbers are exact.
-/

set_option autoImplicit false

namespace Caribou

variable {K : Type*} [Field K] [LinearOrder K] [IsStrictOrderedRing K] [FloorSemiring K]

/-- `nx` and `nz`, `conjugate_gradient_benchmark.py:17-18`: `int(extent / cell_size) + 1`, for positive numbers. -/
def beamLines (extent cell : K) : ℕ := ⌊extent / cell⌋₊ + 1

/-- `eps`, `conjugate_gradient_benchmark.py:19`. -/
def beamMargin (cell : K) : K := cell / 10

/-- The coordinate of a node of `RegularGridTopology` along one axis, with `n` nodes from `a` to `b` (documented behaviour of SOFA). -/
def gridCoordinate (a b : K) (n i : ℕ) : K := a + i * ((b - a) / (n - 1 : ℕ))

/-- The nodes of the grid, `conjugate_gradient_benchmark.py:196`. -/
def beamNode (radius length cell : K) (i j k : ℕ) : Fin 3 → K :=
  ![gridCoordinate (-radius) radius (beamLines (2 * radius) cell) i, gridCoordinate (-radius) radius (beamLines (2 * radius) cell) j,
    gridCoordinate (-length / 2) (length / 2) (beamLines length cell) k]

/-- The points which `BoxROI` takes (documented behaviour of SOFA). -/
def boxTakes (lo hi p : Fin 3 → K) : Prop := ∀ d, lo d ≤ p d ∧ p d ≤ hi d

/-- `base_roi`, `conjugate_gradient_benchmark.py:220`. -/
def baseRoi (radius length cell : K) (p : Fin 3 → K) : Prop :=
  boxTakes ![-radius - beamMargin cell, -radius - beamMargin cell, -length / 2 - beamMargin cell] ![radius + beamMargin cell, radius + beamMargin cell, -length / 2 + beamMargin cell] p

/-- `top_roi`, `conjugate_gradient_benchmark.py:221`. -/
def topRoi (radius length cell : K) (p : Fin 3 → K) : Prop :=
  boxTakes ![-radius - beamMargin cell, -radius - beamMargin cell, length / 2 - beamMargin cell] ![radius + beamMargin cell, radius + beamMargin cell, length / 2 + beamMargin cell] p

end Caribou

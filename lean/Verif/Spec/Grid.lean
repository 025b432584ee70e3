import Mathlib.Algebra.BigOperators.Fin
import Mathlib.Algebra.Order.Field.Basic
import Mathlib.Algebra.BigOperators.Ring.Finset

/-!
# Regular grids: what indices and boxes mean
-/

set_option autoImplicit false

namespace Caribou.Spec

/-- Coordinates of a node of a grid with `n` cells per axis. -/
def IsNode {d : ℕ} (n : Fin d → ℕ) (c : Fin d → ℤ) : Prop := ∀ a, 0 ≤ c a ∧ c a ≤ n a

/-- Coordinates of a cell. -/
def IsCell {d : ℕ} (n : Fin d → ℕ) (c : Fin d → ℤ) : Prop := ∀ a, 0 ≤ c a ∧ c a < n a

instance {d : ℕ} (n : Fin d → ℕ) (c : Fin d → ℤ) : Decidable (IsCell n c) := by unfold IsCell; infer_instance
instance {d : ℕ} (n : Fin d → ℕ) (c : Fin d → ℤ) : Decidable (IsNode n c) := by unfold IsNode; infer_instance

/-- The number of nodes fits in a signed 64-bit integer. -/
def Fits {d : ℕ} (n : Fin d → ℕ) : Prop := ∏ a, ((n a : ℤ) + 1) ≤ 2 ^ 63

/-- The neighbour one step further along the axis `a`. -/
def next {d : ℕ} (a : Fin d) (c : Fin d → ℤ) : Fin d → ℤ := fun b => if b = a then c b + 1 else c b

section Field

variable {K : Type*} [Field K] [LinearOrder K]

/-- `p` is in the closed box `lo ≤ p ≤ hi`. -/
def InClosedBox {d : ℕ} (lo hi p : Fin d → K) : Prop := ∀ a, lo a ≤ p a ∧ p a ≤ hi a

/-- The point of the grid with anchor `o` and cell size `h` at real grid coordinates `x`. -/
def gridPoint {d : ℕ} (o h : Fin d → K) (x : Fin d → K) : Fin d → K := fun a => o a + x a * h a

/-- `p` is in the closed box of the cell `c`. -/
def InCell {d : ℕ} (o h : Fin d → K) (c : Fin d → ℤ) (p : Fin d → K) : Prop :=
  InClosedBox (gridPoint o h fun a => (c a : K)) (gridPoint o h fun a => (c a : K) + 1) p

/-- `p` is in the interior of the box of the cell `c` enlarged by `eps` times the size of the cell on each side. -/
def InCellOpen {d : ℕ} (o h : Fin d → K) (eps : K) (c : Fin d → ℤ) (p : Fin d → K) : Prop :=
  ∀ a, o a + ((c a : K) - eps) * h a < p a ∧ p a < o a + ((c a : K) + 1 + eps) * h a

/-- `p` is in the closed box of the whole grid. -/
def InGrid {d : ℕ} (o size : Fin d → K) (p : Fin d → K) : Prop := InClosedBox o (o + size) p

/-- `x` is in the bounding box of the points. -/
def InBoundingBox {d : ℕ} (ps : List (Fin d → K)) (x : Fin d → K) : Prop :=
  ∀ a, (∃ p ∈ ps, p a ≤ x a) ∧ ∃ p ∈ ps, x a ≤ p a

end Field

end Caribou.Spec

import Mathlib.LinearAlgebra.CrossProduct
import Mathlib.Analysis.Convex.Hull
import Verif.Spec.FictitiousSurface
import Verif.Spec.GridDrawing

/-!
# Pieces of surfaces in space
-/

set_option autoImplicit false

namespace Caribou.Spec

/-- The vector area of a triangle: its length is the area, its direction the side from which the triangle turns counterclockwise. -/
noncomputable def triangleVectorArea (t : Fin 3 → Fin 3 → ℝ) : Fin 3 → ℝ := (1 / 2 : ℝ) • crossProduct (t 1 - t 0) (t 2 - t 0)

/-- The vector area of a piece of surface made of triangles. -/
noncomputable def totalVectorArea (l : List (Fin 3 → Fin 3 → ℝ)) : Fin 3 → ℝ := (l.map triangleVectorArea).sum

/-- The diagonals of a quadrilateral meet: it is planar and convex. -/
def DiagonalsMeet (q : Fin 4 → Fin 3 → ℝ) : Prop := (segment ℝ (q 0) (q 2) ∩ segment ℝ (q 1) (q 3)).Nonempty

/-- All nodes are where an affine map of the plane takes the nodes of the canonical element. -/
def FlatShape {n m : ℕ} (node : Fin n → Fin 2 → ℝ) (X : Fin n → Fin m → ℝ) : Prop :=
  ∃ (A : Fin m → Fin 2 → ℝ) (b : Fin m → ℝ), ∀ i a, X i a = A a 0 * node i 0 + A a 1 * node i 1 + b a

end Caribou.Spec

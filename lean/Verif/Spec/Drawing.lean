import Mathlib.LinearAlgebra.Matrix.Determinant.Basic
import Mathlib.Data.Real.Basic

/-!
# Volumes enclosed by triangles
-/

set_option autoImplicit false

namespace Caribou.Spec

/-- The volume enclosed by a closed surface made of triangles which turn counterclockwise seen from outside. -/
noncomputable def enclosedVolume (triangles : List (Fin 3 → Fin 3 → ℝ)) : ℝ := (triangles.map fun t => (Matrix.of t).det / 6).sum

end Caribou.Spec

import Verif.Model.Elements
import Mathlib.LinearAlgebra.CrossProduct
import Mathlib.Analysis.Real.Sqrt

/-!
# `frame()` of tetrahedra, hexahedra and quads (real numbers: the code takes square roots)
-/

set_option autoImplicit false

namespace Caribou

/-- Eigen's `norm()`. -/
noncomputable def norm2 {m : ℕ} (v : Fin m → ℝ) : ℝ := Real.sqrt (∑ a, v a * v a)

/-- Eigen's `normalized()`: divides by the norm, and returns the vector unchanged if its norm is not positive. -/
noncomputable def normalized {m : ℕ} (v : Fin m → ℝ) : Fin m → ℝ :=
  if 0 < ∑ a, v a * v a then fun a => v a / norm2 v else v

/-- Matrix with the given columns (`m << u, v, w` with column vectors). -/
def columns3 {K : Type*} (u v w : Fin 3 → K) : Matrix (Fin 3) (Fin 3) K := Matrix.of fun a => ![u a, v a, w a]

/-- Matrix with the given columns (`m << u, v`). -/
def columns2 {K : Type*} (u v : Fin 2 → K) : Matrix (Fin 2) (Fin 2) K := Matrix.of fun a => ![u a, v a]

/-- The computation shared by `BaseTetrahedron::frame` (`BaseTetrahedron.h:86-99`) and `BaseHexahedron::frame`
(`BaseHexahedron.h:120-137`) from the two axes `a` and `b`. -/
noncomputable def frameOfAxes (a b : Fin 3 → ℝ) : Matrix (Fin 3) (Fin 3) ℝ :=
  let u := normalized a
  let v := normalized b
  let w := normalized (crossProduct u v)
  let v' := normalized (crossProduct w u)
  columns3 u v' w

/-- `BaseTetrahedron::frame`, `BaseTetrahedron.h:84-102`: axes from node 0 to nodes 1 and 2. -/
noncomputable def tetraFrame {n : ℕ} [NeZero n] (nodes : Fin n → Fin 3 → ℝ) : Matrix (Fin 3) (Fin 3) ℝ :=
  frameOfAxes (nodes 1 - nodes 0) (nodes 2 - nodes 0)

/-- `BaseHexahedron::frame(local_point)`, `BaseHexahedron.h:104-140`: axes from the point to its projections on the
faces `u = 1` and `v = 1`. -/
noncomputable def hexaFrame {n : ℕ} (E : Elem ℝ 3 n) (nodes : Fin n → Fin 3 → ℝ) (ξ : Fin 3 → ℝ) :
    Matrix (Fin 3) (Fin 3) ℝ :=
  let p := E.worldCoordinates nodes ξ
  frameOfAxes (E.worldCoordinates nodes ![1, ξ 1, ξ 2] - p) (E.worldCoordinates nodes ![ξ 0, 1, ξ 2] - p)

/-- `BaseQuad::frame(local_point)` in a 2D world, `BaseQuad.h:103-136`. -/
noncomputable def quadFrame2 {n : ℕ} (E : Elem ℝ 2 n) (nodes : Fin n → Fin 2 → ℝ) (ξ : Fin 2 → ℝ) :
    Matrix (Fin 2) (Fin 2) ℝ :=
  let p := E.worldCoordinates nodes ξ
  columns2 (normalized (E.worldCoordinates nodes ![1, ξ 1] - p)) (normalized (E.worldCoordinates nodes ![ξ 0, 1] - p))

/-- `BaseQuad::frame(local_point)` in a 3D world, `BaseQuad.h:103-136` (the `v` axis is not recomputed). -/
noncomputable def quadFrame3 {n : ℕ} (E : Elem ℝ 2 n) (nodes : Fin n → Fin 3 → ℝ) (ξ : Fin 2 → ℝ) :
    Matrix (Fin 3) (Fin 3) ℝ :=
  let p := E.worldCoordinates nodes ξ
  let u := normalized (E.worldCoordinates nodes ![1, ξ 1] - p)
  let v := normalized (E.worldCoordinates nodes ![ξ 0, 1] - p)
  columns3 u v (normalized (crossProduct u v))

end Caribou

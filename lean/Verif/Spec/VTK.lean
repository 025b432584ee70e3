import Verif.Model.VTK

/-!
# The VTK file format

Parametric coordinates of the points of the cells, from the documentation of the VTK classes (`vtkLine`, `vtkQuadraticEdge`,
..., `vtkQuadraticHexahedron`), and what an import has to preserve.
-/

set_option autoImplicit false

namespace Caribou.Spec

variable {K : Type*} [Field K]

/-- Number of parametric directions of a cell. -/
def vtkDim : VTKKind → ℕ
  | .line | .quadraticEdge => 1
  | .quad | .quadraticQuad | .triangle | .quadraticTriangle => 2
  | .tetra | .quadraticTetra | .hexahedron | .quadraticHexahedron => 3
  | .other _ => 0

/-- Parametric coordinates of the points, in `[0,1]`, in the order in which a VTK file lists them. -/
def vtkParametric : (k : VTKKind) → List (Fin (vtkDim k) → K)
  | .line => [![0], ![1]]
  | .quadraticEdge => [![0], ![1], ![1/2]]
  | .quad => [![0, 0], ![1, 0], ![1, 1], ![0, 1]]
  | .quadraticQuad => [![0, 0], ![1, 0], ![1, 1], ![0, 1], ![1/2, 0], ![1, 1/2], ![1/2, 1], ![0, 1/2]]
  | .triangle => [![0, 0], ![1, 0], ![0, 1]]
  | .quadraticTriangle => [![0, 0], ![1, 0], ![0, 1], ![1/2, 0], ![1/2, 1/2], ![0, 1/2]]
  | .tetra => [![0, 0, 0], ![1, 0, 0], ![0, 1, 0], ![0, 0, 1]]
  | .quadraticTetra => [![0, 0, 0], ![1, 0, 0], ![0, 1, 0], ![0, 0, 1],
      ![1/2, 0, 0], ![1/2, 1/2, 0], ![0, 1/2, 0], ![0, 0, 1/2], ![1/2, 0, 1/2], ![0, 1/2, 1/2]]
  | .hexahedron => [![0, 0, 0], ![1, 0, 0], ![1, 1, 0], ![0, 1, 0], ![0, 0, 1], ![1, 0, 1], ![1, 1, 1], ![0, 1, 1]]
  | .quadraticHexahedron => [![0, 0, 0], ![1, 0, 0], ![1, 1, 0], ![0, 1, 0],
      ![0, 0, 1], ![1, 0, 1], ![1, 1, 1], ![0, 1, 1],
      ![1/2, 0, 0], ![1, 1/2, 0], ![1/2, 1, 0], ![0, 1/2, 0],
      ![1/2, 0, 1], ![1, 1/2, 1], ![1/2, 1, 1], ![0, 1/2, 1],
      ![0, 0, 1/2], ![1, 0, 1/2], ![1, 1, 1/2], ![0, 1, 1/2]]
  | .other _ => []

/-- The order of the points of the quadratic hexahedra of `unittest/Caribou/Topology/meshes/3D_hexahedron_quadratic.vtk`, a
file written by `meshio` 4.0.9: parametric coordinates of the points, read from the coordinates in that file.  It is not
the order of the VTK documentation. -/
def meshioHexahedron : List (Fin 3 → K) :=
  [![0, 0, 0], ![1, 0, 0], ![1, 1, 0], ![0, 1, 0], ![0, 0, 1], ![1, 0, 1], ![1, 1, 1], ![0, 1, 1],
    ![1/2, 0, 0], ![1, 1/2, 0], ![1/2, 0, 1], ![0, 1/2, 0],
    ![0, 1/2, 1], ![0, 0, 1/2], ![1, 1/2, 1], ![1/2, 1, 1],
    ![1, 0, 1/2], ![0, 1, 1/2], ![1/2, 1, 0], ![1, 1, 1/2]]

/-- The point of the reference element of Caribou with given parametric coordinates: simplices share the reference domain,
the other elements use `[-1,1]`. -/
def toReference (k : VTKKind) (r : Fin (vtkDim k) → K) : Fin (vtkDim k) → K :=
  match k with
  | .triangle | .quadraticTriangle | .tetra | .quadraticTetra => r
  | _ => fun c => 2 * r c - 1

/-- The points of a cell in the reference element of Caribou, in the order of VTK. -/
def vtkPoints (k : VTKKind) : List (Fin (vtkDim k) → K) := (vtkParametric k).map (toReference k)

/-- The same for the order of the sample mesh. -/
def meshioPoints : List (Fin 3 → K) := meshioHexahedron.map fun r c => 2 * r c - 1

/-- The coordinates along an axis are not all the same. -/
def Varies {K : Type*} (points : List (Fin 3 → K)) (axis : Fin 3) : Prop :=
  ∃ p ∈ points, ∃ q ∈ points, p axis ≠ q axis

end Caribou.Spec

import Verif.Model.PyFactories

/-!
# What is expected of the functions of Python which make elements
-/

set_option autoImplicit false

namespace Caribou.Spec

/-- The class of elements that a name and an order stand for. -/
def factoryType : PyFactory → Order → ElementType
  | .segment, .linear => .segment1 | .segment, .quadratic => .segment2
  | .triangle, .linear => .triangle1 | .triangle, .quadratic => .triangle2
  | .quad, .linear => .quad1 | .quad, .quadratic => .quad2
  | .tetrahedron, .linear => .tetra1 | .tetrahedron, .quadratic => .tetra2
  | .hexahedron, .linear => .hexa1 | .hexahedron, .quadratic => .hexa2
  | .rectangularHexahedron, .linear => .rectHexa1 | .rectangularHexahedron, .quadratic => .rectHexa2

/-- The dimensions of the elements of a name. -/
def factoryDims : PyFactory → List ℕ
  | .segment => [1, 2, 3]
  | .triangle | .quad => [2, 3]
  | .tetrahedron | .hexahedron | .rectangularHexahedron => [3]

/-- The dimension that an enumerator stands for. -/
def dimOf : PyDim → ℕ
  | .d1 => 1 | .d2 => 2 | .d3 => 3

/-- The class of an element. -/
def madeType : PyMade → ElementType
  | .iso T _ _ => T
  | .rect .linear _ => .rectHexa1
  | .rect .quadratic _ => .rectHexa2

/-- The dimension of an element. -/
def madeDim : PyMade → ℕ
  | .iso _ m _ => m
  | .rect _ _ => 3

/-- A coordinate of the image of a local point. -/
noncomputable def madeWorld (e : PyMade) (ξ : ℕ → ℝ) (a : ℕ) : ℝ :=
  match e with
  | .iso T _ rows => ∑ i : Fin T.numNodes, (rows.getD i []).getD a 0 * T.elem.L (fun j => ξ j) i
  | .rect _ h => if ha : a < 3 then h.worldCoordinates (fun j => ξ j) ⟨a, ha⟩ else 0

/-- The image of a local point by the interpolation of nodes. -/
noncomputable def interpolated (T : ElementType) (rows : List (List ℝ)) (ξ : ℕ → ℝ) (a : ℕ) : ℝ :=
  ∑ i : Fin T.numNodes, (rows.getD i []).getD a 0 * T.elem.L (fun j => ξ j) i

end Caribou.Spec

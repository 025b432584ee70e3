import Verif.Model.Elements
import Mathlib.Analysis.Real.Sqrt

/-!
# Gauss tables, declared Gauss counts, `contains_local`
-/

set_option autoImplicit false

namespace Caribou

/-- `GaussNode` (`Element.h:48-51`): a local position and a weight. -/
structure GaussNode (d : ℕ) where
  position : Fin d → ℝ
  weight : ℝ

/-- `1/sqrt(3)` of the Gauss tables. -/
noncomputable def g3 : ℝ := 1 / Real.sqrt 3

/-- `get_gauss_nodes` of `Segment<_, Linear>`, `Segment.h:85-90`. -/
noncomputable def gaussSegment1 : List (GaussNode 1) := [⟨![0], 2⟩]

/-- `Segment.h:172-178`. -/
noncomputable def gaussSegment2 : List (GaussNode 1) := [⟨![-g3], 1⟩, ⟨![g3], 1⟩]

/-- `Triangle.h:102-108`. -/
noncomputable def gaussTriangle1 : List (GaussNode 2) := [⟨![1/3, 1/3], 1/2⟩]

/-- `Triangle.h:245-253`. -/
noncomputable def gaussTriangle2 : List (GaussNode 2) :=
  [⟨![2/3, 1/6], 1/6⟩, ⟨![1/6, 2/3], 1/6⟩, ⟨![1/6, 1/6], 1/6⟩]

/-- `Quad.h:117-126`, repeated at `Quad.h:287-296` and `RectangularQuad.h:132-141,284-293`. -/
noncomputable def gaussQuad : List (GaussNode 2) :=
  [⟨![-g3, -g3], 1⟩, ⟨![g3, -g3], 1⟩, ⟨![g3, g3], 1⟩, ⟨![-g3, g3], 1⟩]

/-- `Tetrahedron.h:124-130`. -/
noncomputable def gaussTetra1 : List (GaussNode 3) := [⟨![1/4, 1/4, 1/4], 1/6⟩]

/-- The literal `0.1381966011250105` of `Tetrahedron.h:301-310`, as an exact decimal. -/
noncomputable def tetraA : ℝ := 1381966011250105 / 10000000000000000

/-- The literal `0.5854101966249685` of `Tetrahedron.h:301-310`, as an exact decimal. -/
noncomputable def tetraB : ℝ := 5854101966249685 / 10000000000000000

/-- `Tetrahedron.h:301-310`. -/
noncomputable def gaussTetra2 : List (GaussNode 3) :=
  [⟨![tetraA, tetraA, tetraA], 1/24⟩, ⟨![tetraA, tetraA, tetraB], 1/24⟩,
   ⟨![tetraA, tetraB, tetraA], 1/24⟩, ⟨![tetraB, tetraA, tetraA], 1/24⟩]

/-- `Hexahedron.h:152-165`, repeated at `Hexahedron.h:412-425` and `RectangularHexahedron.h:162-175,386-399`. -/
noncomputable def gaussHexa : List (GaussNode 3) :=
  [⟨![-g3, -g3, -g3], 1⟩, ⟨![g3, -g3, -g3], 1⟩, ⟨![-g3, g3, -g3], 1⟩, ⟨![g3, g3, -g3], 1⟩,
   ⟨![-g3, -g3, g3], 1⟩, ⟨![g3, -g3, g3], 1⟩, ⟨![-g3, g3, g3], 1⟩, ⟨![g3, g3, g3], 1⟩]

namespace ElementType

/-- `Element::gauss_nodes` of every class. -/
noncomputable def gauss : (T : ElementType) → List (GaussNode T.dim)
  | segment1 => gaussSegment1 | segment2 => gaussSegment2
  | triangle1 => gaussTriangle1 | triangle2 => gaussTriangle2
  | quad1 => gaussQuad | quad2 => gaussQuad | rectQuad1 => gaussQuad | rectQuad2 => gaussQuad
  | tetra1 => gaussTetra1 | tetra2 => gaussTetra2
  | hexa1 => gaussHexa | hexa2 => gaussHexa | rectHexa1 => gaussHexa | rectHexa2 => gaussHexa

/-- `Element::number_of_gauss_nodes`, i.e. `NumberOfGaussNodesAtCompileTime` of the traits: `Segment.h:17,99`,
`Triangle.h:19,126`, `Quad.h:19,145`, `Tetrahedron.h:19,149`, `Hexahedron.h:18,186`, `RectangularQuad.h:21,160`,
`RectangularHexahedron.h:19,196`. -/
def numGauss : ElementType → ℕ
  | segment1 => 1 | segment2 => 2
  | triangle1 => 1 | triangle2 => 3
  | quad1 => 4 | quad2 => 4
  | tetra1 => 1 | tetra2 => 4
  | hexa1 => 8 | hexa2 => 8
  | rectQuad1 => 4 | rectQuad2 => 8
  | rectHexa1 => 8 | rectHexa2 => 4

end ElementType

section Contains

variable {K : Type*} [Field K] [LinearOrder K]

/-- The macro `IN_CLOSED_INTERVAL(a, x, b)`, `Config/macros.h.in`. -/
def inClosedInterval (a x b : K) : Bool := decide ((x - a) * (x - b) ≤ 0)

/-- `BaseSegment::get_contains_local`, `BaseSegment.h:66-69`. -/
def containsSegment (ξ : Fin 1 → K) (eps : K) : Bool := inClosedInterval (-1 - eps) (ξ 0) (1 + eps)

/-- `BaseTriangle::get_contains_local`, `BaseTriangle.h:88-92`. -/
def containsTriangle (ξ : Fin 2 → K) (eps : K) : Bool :=
  let u := ξ 0; let v := ξ 1
  decide (u > -eps) && decide (v > -eps) && decide (1 - u - v > -eps)

/-- `BaseQuad::get_contains_local`, `BaseQuad.h:148-153`. -/
def containsQuad (ξ : Fin 2 → K) (eps : K) : Bool :=
  inClosedInterval (-1 - eps) (ξ 0) (1 + eps) && inClosedInterval (-1 - eps) (ξ 1) (1 + eps)

/-- `BaseTetrahedron::get_contains_local`, `BaseTetrahedron.h:114-119`. -/
def containsTetra (ξ : Fin 3 → K) (eps : K) : Bool :=
  let u := ξ 0; let v := ξ 1; let w := ξ 2
  decide (u > -eps) && decide (v > -eps) && decide (w > -eps) && decide (1 - u - v - w > -eps)

/-- `BaseHexahedron::get_contains_local`, `BaseHexahedron.h:179-186`, repeated at
`BaseRectangularHexahedron.h:133-140`. -/
def containsHexa (ξ : Fin 3 → K) (eps : K) : Bool :=
  inClosedInterval (-1 - eps) (ξ 0) (1 + eps) && inClosedInterval (-1 - eps) (ξ 1) (1 + eps) &&
  inClosedInterval (-1 - eps) (ξ 2) (1 + eps)

/-- `Element::contains_local`, `Element.h:272-274`.  `RectangularQuad` has no `get_contains_local`: a call does not
compile, shown here as `none`. -/
def ElementType.containsLocal : (T : ElementType) → (Fin T.dim → K) → K → Option Bool
  | .segment1, ξ, eps => some (containsSegment ξ eps)
  | .segment2, ξ, eps => some (containsSegment ξ eps)
  | .triangle1, ξ, eps => some (containsTriangle ξ eps)
  | .triangle2, ξ, eps => some (containsTriangle ξ eps)
  | .quad1, ξ, eps => some (containsQuad ξ eps)
  | .quad2, ξ, eps => some (containsQuad ξ eps)
  | .tetra1, ξ, eps => some (containsTetra ξ eps)
  | .tetra2, ξ, eps => some (containsTetra ξ eps)
  | .hexa1, ξ, eps => some (containsHexa ξ eps)
  | .hexa2, ξ, eps => some (containsHexa ξ eps)
  | .rectQuad1, _, _ => none
  | .rectQuad2, _, _ => none
  | .rectHexa1, ξ, eps => some (containsHexa ξ eps)
  | .rectHexa2, ξ, eps => some (containsHexa ξ eps)

end Contains

end Caribou

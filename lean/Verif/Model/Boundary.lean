import Verif.Model.Elements

/-!
# Boundary elements

Side tables (`get_boundary_elements_nodes`) and edge tables (`edges`) of the element classes, and
`Element::boundary_element`.
-/

set_option autoImplicit false

namespace Caribou

variable {K : Type*} [Field K]

/-- `Triangle.h:110-117`. -/
def triangle1Sides : Fin 3 → Fin 2 → Fin 3 :=
  ![![0, 1],
    ![1, 2],
    ![2, 0]]

/-- `Triangle.h:255-262`. -/
def triangle2Sides : Fin 3 → Fin 3 → Fin 6 :=
  ![![0, 1, 3],
    ![1, 2, 4],
    ![2, 0, 5]]

/-- `Quad.h:128-136`, repeated at `RectangularQuad.h:143-151`. -/
def quad1Sides : Fin 4 → Fin 2 → Fin 4 :=
  ![![0, 1],
    ![1, 2],
    ![2, 3],
    ![3, 0]]

/-- `Quad.h:298-306`, repeated at `RectangularQuad.h:295-303`. -/
def quad2Sides : Fin 4 → Fin 3 → Fin 8 :=
  ![![0, 1, 4],
    ![1, 2, 5],
    ![2, 3, 6],
    ![3, 0, 7]]

/-- `Tetrahedron.h:132-140`. -/
def tetra1Sides : Fin 4 → Fin 3 → Fin 4 :=
  ![![0, 2, 1],
    ![0, 1, 3],
    ![0, 3, 2],
    ![3, 1, 2]]

/-- `Tetrahedron.h:312-320`. -/
def tetra2Sides : Fin 4 → Fin 6 → Fin 10 :=
  ![![0, 2, 1, 6, 5, 4],
    ![0, 1, 3, 4, 8, 7],
    ![0, 3, 2, 7, 9, 6],
    ![3, 1, 2, 8, 5, 9]]

/-- `Hexahedron.h:167-177`, repeated at `RectangularHexahedron.h:177-187`. -/
def hexa1Sides : Fin 6 → Fin 4 → Fin 8 :=
  ![![0, 3, 2, 1],
    ![0, 4, 7, 3],
    ![1, 2, 6, 5],
    ![0, 1, 5, 4],
    ![2, 3, 7, 6],
    ![4, 5, 6, 7]]

/-- `Hexahedron.h:427-437`. -/
def hexa2Sides : Fin 6 → Fin 8 → Fin 20 :=
  ![![0, 3, 2, 1, 11, 10, 9, 8],
    ![0, 4, 7, 3, 16, 15, 19, 11],
    ![1, 2, 6, 5, 9, 18, 13, 17],
    ![0, 1, 5, 4, 8, 17, 12, 16],
    ![2, 3, 7, 6, 10, 19, 14, 18],
    ![4, 5, 6, 7, 12, 13, 14, 15]]

/-- `RectangularHexahedron.h:401-411`. -/
def rectHexa2Sides : Fin 6 → Fin 8 → Fin 20 :=
  ![![0, 3, 2, 1, 9, 13, 11, 8],
    ![0, 4, 7, 3, 10, 17, 15, 9],
    ![1, 2, 6, 5, 11, 14, 18, 12],
    ![0, 1, 5, 4, 8, 12, 16, 10],
    ![2, 3, 7, 6, 13, 15, 19, 14],
    ![4, 5, 6, 7, 16, 18, 19, 17]]

/-- `Tetrahedron.h:85-95`. -/
def tetra1Edges : Fin 6 → Fin 2 → Fin 4 :=
  ![![0, 1],
    ![1, 2],
    ![2, 0],
    ![0, 3],
    ![3, 1],
    ![3, 2]]

/-- `Tetrahedron.h:243-253`. -/
def tetra2Edges : Fin 6 → Fin 3 → Fin 10 :=
  ![![0, 1, 4],
    ![1, 2, 5],
    ![2, 0, 6],
    ![0, 3, 7],
    ![3, 1, 8],
    ![3, 2, 9]]

/-- `Hexahedron.h:94-110`, repeated at `RectangularHexahedron.h:92-108`. -/
def hexa1Edges : Fin 12 → Fin 2 → Fin 8 :=
  ![![0, 1],
    ![1, 2],
    ![2, 3],
    ![3, 0],
    ![4, 5],
    ![5, 6],
    ![6, 7],
    ![7, 4],
    ![0, 4],
    ![1, 5],
    ![2, 6],
    ![3, 7]]

/-- `Hexahedron.h:321-337`, repeated at `RectangularHexahedron.h:282-298`. -/
def hexa2Edges : Fin 12 → Fin 3 → Fin 20 :=
  ![![0, 1, 8],
    ![1, 2, 9],
    ![2, 3, 10],
    ![3, 0, 11],
    ![4, 5, 12],
    ![5, 6, 13],
    ![6, 7, 14],
    ![7, 4, 15],
    ![0, 4, 16],
    ![1, 5, 17],
    ![2, 6, 18],
    ![3, 7, 19]]

/-- The element classes with a boundary (`traits<...>::BoundaryElementType`, `Element.h:19-33`). -/
inductive BoundedType
  | triangle1 | triangle2 | quad1 | quad2 | tetra1 | tetra2 | hexa1 | hexa2
  | rectQuad1 | rectQuad2 | rectHexa1 | rectHexa2
  deriving DecidableEq

namespace BoundedType

/-- The class itself. -/
def type : BoundedType → ElementType
  | triangle1 => .triangle1 | triangle2 => .triangle2 | quad1 => .quad1 | quad2 => .quad2
  | tetra1 => .tetra1 | tetra2 => .tetra2 | hexa1 => .hexa1 | hexa2 => .hexa2
  | rectQuad1 => .rectQuad1 | rectQuad2 => .rectQuad2 | rectHexa1 => .rectHexa1 | rectHexa2 => .rectHexa2

/-- `BoundaryElementType` of the traits (`Triangle.h:21,128`, `Quad.h:21,147`, `Tetrahedron.h:21,151`,
`Hexahedron.h:20,188`, `RectangularQuad.h:23,162`, `RectangularHexahedron.h:21,198`). -/
def sideType : BoundedType → ElementType
  | triangle1 | quad1 | rectQuad1 => .segment1
  | triangle2 | quad2 | rectQuad2 => .segment2
  | tetra1 => .triangle1 | tetra2 => .triangle2
  | hexa1 => .quad1 | hexa2 => .quad2
  | rectHexa1 => .rectQuad1 | rectHexa2 => .rectQuad2

/-- `NumberOfBoundaryElementsAtCompileTime` of the traits. -/
def numSides : BoundedType → ℕ
  | triangle1 | triangle2 => 3
  | quad1 | quad2 | rectQuad1 | rectQuad2 => 4
  | tetra1 | tetra2 => 4
  | hexa1 | hexa2 | rectHexa1 | rectHexa2 => 6

/-- `Element::boundary_elements_node_indices`, `Element.h:100-103`. -/
def sides : (B : BoundedType) → Fin B.numSides → Fin B.sideType.numNodes → Fin B.type.numNodes
  | triangle1 => triangle1Sides | triangle2 => triangle2Sides
  | quad1 => quad1Sides | quad2 => quad2Sides
  | tetra1 => tetra1Sides | tetra2 => tetra2Sides
  | hexa1 => hexa1Sides | hexa2 => hexa2Sides
  | rectQuad1 => quad1Sides | rectQuad2 => quad2Sides
  | rectHexa1 => hexa1Sides | rectHexa2 => rectHexa2Sides

/-- The node positions handed to the constructor of the boundary element by `Element::boundary_element`,
`Element.h:118-127`.  For the rectangular hexahedra the constructor (`RectangularQuad.h:75-89,213-229`) then keeps
only centre, size and frame; see `Verif.Model.Rectangular`. -/
def boundaryNodes (B : BoundedType) {m : ℕ} (nodes : Fin B.type.numNodes → Fin m → K) (i : Fin B.numSides) :
    Fin B.sideType.numNodes → Fin m → K :=
  fun j => nodes (B.sides i j)

end BoundedType

end Caribou

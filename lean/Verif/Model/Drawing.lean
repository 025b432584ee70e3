import Verif.Model.Hyperelastic
import Verif.Model.Boundary

/-!
# Drawing of the force fields

The vertices which `draw` hands over to `drawTriangles`: `CaribouForcefield<Element>::draw` (`CaribouForcefield.inl:198-339`) with
`triangulate_face` (`CaribouForcefield[Tetrahedron].cpp`, `CaribouForcefield[Hexahedron].cpp`), `HexahedronElasticForce::draw` and
`TetrahedronElasticForce::draw`.  The display flags, the wire frame mode and the colours are left out; the vertices are drawn when the
flag `showForceFields` is set.
-/

set_option autoImplicit false

namespace Caribou

/-- Three corners. -/
abbrev DrawnTriangle := Fin 3 → Fin 3 → ℝ

namespace SolidType

/-- The local coordinates of the centre, `BaseTetrahedron.h:112` and `BaseHexahedron.h:177`. -/
noncomputable def centre : SolidType → Fin 3 → ℝ
  | tetra1 => ![1/4, 1/4, 1/4] | tetra2 => ![1/4, 1/4, 1/4] | hexa1 => ![0, 0, 0] | hexa2 => ![0, 0, 0]

/-- `triangulate_face`, `CaribouForcefield[Tetrahedron].cpp:40-46` and `:73-79`, `CaribouForcefield[Hexahedron].cpp:40-50` and `:77-87`: the
nodes of the triangles of every face. -/
def faceTriangles : (T : SolidType) → List (List (Fin 3 → Fin T.numNodes))
  | tetra1 => List.ofFn fun f => [![tetra1Sides f 0, tetra1Sides f 1, tetra1Sides f 2]]
  | tetra2 => List.ofFn fun f => [![tetra2Sides f 0, tetra2Sides f 1, tetra2Sides f 2]]
  | hexa1 => List.ofFn fun f => [![hexa1Sides f 0, hexa1Sides f 1, hexa1Sides f 2], ![hexa1Sides f 2, hexa1Sides f 3, hexa1Sides f 0]]
  | hexa2 => List.ofFn fun f => [![hexa2Sides f 0, hexa2Sides f 1, hexa2Sides f 2], ![hexa2Sides f 2, hexa2Sides f 3, hexa2Sides f 0]]

/-- The nodes moved towards the centre, `CaribouForcefield.inl:291-297`. -/
noncomputable def shrunk (T : SolidType) (scale : ℝ) (X : Fin T.numNodes → Fin 3 → ℝ) (i : Fin T.numNodes) : Fin 3 → ℝ :=
  let c := T.elem.worldCoordinates X T.centre
  c + scale • (X i - c)

/-- What an element adds to every group, `CaribouForcefield.inl:313-318`. -/
noncomputable def drawElement (T : SolidType) (scale : ℝ) (X : Fin T.numNodes → Fin 3 → ℝ) : List (List DrawnTriangle) :=
  T.faceTriangles.map fun l => l.map fun t k => T.shrunk scale X (t k)

/-- The groups of triangles, `CaribouForcefield.inl:277-321`: the group `f` holds the face `f` of all elements. -/
noncomputable def draw (T : SolidType) (scale : ℝ) {N M : ℕ} (idx : Fin M → Fin T.numNodes → Fin N) (x : Fin N → Fin 3 → ℝ) :
    List (List DrawnTriangle) :=
  (List.finRange M).foldl (fun groups e => List.zipWith (· ++ ·) groups (T.drawElement scale fun i => x (idx e i)))
    (T.faceTriangles.map fun _ => [])

end SolidType

/-- The triangles of `HexahedronElasticForce::draw`, `HexahedronElasticForce.cpp:647-687`, in the order of the groups. -/
def hexaForceTriangles : List (Fin 3 → Fin 8) :=
  [![0, 1, 2], ![0, 2, 3], ![4, 5, 6], ![4, 6, 7], ![2, 3, 7], ![2, 7, 6], ![0, 1, 5], ![0, 5, 4], ![0, 3, 7], ![0, 7, 4], ![1, 2, 6],
    ![1, 6, 5]]

/-- `HexahedronElasticForce::draw`, one element, `HexahedronElasticForce.cpp:621-688`.  All of it is drawn a second time in grey
(lines 698-775). -/
noncomputable def hexaForceDraw (X : Fin 8 → Fin 3 → ℝ) : List DrawnTriangle :=
  let centre := (125 / 1000 : ℝ) • (X 0 + X 1 + X 2 + X 3 + X 4 + X 6 + X 5 + X 7)
  let p : Fin 8 → Fin 3 → ℝ := fun i => X i - (15 / 100 : ℝ) • (X i - centre)
  hexaForceTriangles.map fun t k => p (t k)

/-- The triangles of `TetrahedronElasticForce::draw`, `TetrahedronElasticForce.cpp:407-421`. -/
def tetraForceTriangles : List (Fin 3 → Fin 4) := [![0, 1, 2], ![1, 2, 3], ![2, 3, 0], ![3, 0, 1]]

/-- The vertex drawn for node `i`, `TetrahedronElasticForce.cpp:401-405`. -/
noncomputable def tetraForceVertex (X : Fin 4 → Fin 3 → ℝ) (i : Fin 4) : Fin 3 → ℝ :=
  (666667 / 1000000 : ℝ) • (X i + (125 / 1000 : ℝ) • (X 0 + X 1 + X 2 + X 3))

/-- `TetrahedronElasticForce::draw`, one element. -/
noncomputable def tetraForceDraw (X : Fin 4 → Fin 3 → ℝ) : List DrawnTriangle :=
  tetraForceTriangles.map fun t k => tetraForceVertex X (t k)

end Caribou

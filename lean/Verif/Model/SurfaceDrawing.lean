import Verif.Model.Traction

/-!
# Drawing of the surface force fields

`CaribouForcefield<Element>::draw` (`CaribouForcefield.inl:198-339`) for the triangles and the quads, with `triangulate_face` of
`CaribouForcefield[Triangle].cpp` and `CaribouForcefield[Quad].cpp`.  The display flags, the wire frame mode and the colour are left out.
-/

set_option autoImplicit false

namespace Caribou

namespace SurfaceType

/-- The local coordinates of the centre, `BaseTriangle.h:86` and `BaseQuad.h:146`. -/
noncomputable def centre : SurfaceType → Fin 2 → ℝ
  | triangle1 => ![1/3, 1/3] | triangle2 => ![1/3, 1/3] | quad1 => ![0, 0] | quad2 => ![0, 0]

/-- `triangulate_face`, `CaribouForcefield[Triangle].cpp:43-48`, `:73-78`, `:107-112`, `:137-142` and `CaribouForcefield[Quad].cpp:43-52`,
`:77-86`, `:115-124`, `:149-158`: the nodes of the triangles. -/
def drawnNodes : (T : SurfaceType) → List (Fin 3 → Fin T.numNodes)
  | triangle1 => [(![0, 1, 2] : Fin 3 → Fin 3)]
  | triangle2 => [(![0, 1, 2] : Fin 3 → Fin 6)]
  | quad1 => [(![0, 1, 2] : Fin 3 → Fin 4), (![2, 3, 0] : Fin 3 → Fin 4)]
  | quad2 => [(![0, 1, 2] : Fin 3 → Fin 8), (![2, 3, 0] : Fin 3 → Fin 8)]

/-- The nodes moved towards the centre, `CaribouForcefield.inl:291-297`. -/
noncomputable def shrunk (T : SurfaceType) {m : ℕ} (scale : ℝ) (X : Fin T.numNodes → Fin m → ℝ) (i : Fin T.numNodes) : Fin m → ℝ :=
  let c := T.elem.worldCoordinates X T.centre
  c + scale • (X i - c)

/-- What an element in space adds, `CaribouForcefield.inl:305-308`. -/
noncomputable def drawElement (T : SurfaceType) (scale : ℝ) (X : Fin T.numNodes → Fin 3 → ℝ) : List (Fin 3 → Fin 3 → ℝ) :=
  T.drawnNodes.map fun t k => T.shrunk scale X (t k)

/-- What an element in the plane adds: the third coordinate is zero (`triangles_nodes.emplace_back(n[0], n[1], 0)`). -/
noncomputable def drawElement2 (T : SurfaceType) (scale : ℝ) (X : Fin T.numNodes → Fin 2 → ℝ) : List (Fin 3 → Fin 3 → ℝ) :=
  T.drawnNodes.map fun t k => ![T.shrunk scale X (t k) 0, T.shrunk scale X (t k) 1, 0]

/-- The group of triangles, `CaribouForcefield.inl:254-260` and `:277-321`. -/
noncomputable def draw (T : SurfaceType) (scale : ℝ) {N M : ℕ} (idx : Fin M → Fin T.numNodes → Fin N) (x : Fin N → Fin 3 → ℝ) :
    List (Fin 3 → Fin 3 → ℝ) :=
  (List.finRange M).foldl (fun group e => group ++ T.drawElement scale fun i => x (idx e i)) []

/-- The same in the plane. -/
noncomputable def draw2 (T : SurfaceType) (scale : ℝ) {N M : ℕ} (idx : Fin M → Fin T.numNodes → Fin N) (x : Fin N → Fin 2 → ℝ) :
    List (Fin 3 → Fin 3 → ℝ) :=
  (List.finRange M).foldl (fun group e => group ++ T.drawElement2 scale fun i => x (idx e i)) []

end SurfaceType

end Caribou

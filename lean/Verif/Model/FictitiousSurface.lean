import Verif.Model.FictitiousSparse
import Verif.Model.Intersect

/-!
# Fictitious grid: immersion of a triangle mesh

`tag_intersected_cells` and the branch without iso-surface of `subdivide_intersected_cells` for `Vec3Types`
(`SofaCaribou/Topology/FictitiousGrid.cpp`), and the whole of `create_grid` (`FictitiousGrid.inl:291-351`).
-/

set_option autoImplicit false

namespace Caribou.FictitiousGrid

/-- `d_surface_positions` and `d_surface_triangles`. -/
structure SurfaceMesh where
  positions : List (Fin 3 → ℝ)
  triangles : List (Fin 3 → ℕ)

namespace SurfaceMesh

/-- The corners of a triangle, `FictitiousGrid.cpp:62-78` and `FictitiousGrid.cpp:289-296`.  Indices out of range are not read by
the code before the first pass has checked them; here they give the origin. -/
def corners (S : SurfaceMesh) (t : Fin 3 → ℕ) : Fin 3 → Fin 3 → ℝ := fun i => S.positions.getD (t i) 0

end SurfaceMesh

/-- What the first pass computes: `p_cells_types`, `p_triangles_of_cell` and `outside_triangles`. -/
structure SurfaceTags where
  types : ℤ → CellType
  triangles : ℤ → List ℕ
  outside : List ℕ

/-- `cell_at` in three dimensions for the cell of a box, `Grid.h:199-212` (the rotation is the identity). -/
def Box.hexa (e : Box 3 ℝ) : RectHexa ℝ := ⟨e.center, e.size, 1⟩

/-- `p_cells_types[cell] = Type::Boundary` and `p_triangles_of_cell[cell].emplace_back(triangle_index)`,
`FictitiousGrid.cpp:98-99` and `FictitiousGrid.cpp:107-108`. -/
def SurfaceTags.add (s : SurfaceTags) (cell : ℤ) (triangle : ℕ) : SurfaceTags :=
  { s with
    types := Function.update s.types cell .boundary
    triangles := Function.update s.triangles cell (s.triangles cell ++ [triangle]) }

/-- The test on one of several enclosing cells, `FictitiousGrid.cpp:101-110`. -/
noncomputable def tagCell (g : Grid 3 ℝ) (nodes : Fin 3 → Fin 3 → ℝ) (triangle : ℕ) (s : SurfaceTags) (cell : ℤ) : SurfaceTags :=
  if (gridBox g cell).hexa.intersectsTriangle nodes 0 then s.add cell triangle else s

/-- The loop of `tag_intersected_cells` on the triangles, `FictitiousGrid.cpp:59-112`.  The second result tells whether the loop
came to its end; an error message makes the function return.  `Undefined` is also the type left in the cells by
`p_cells_types.resize`, `FictitiousGrid.inl:312` (first initialisation). -/
noncomputable def tagTriangles (g : Grid 3 ℝ) (S : SurfaceMesh) : List (Fin 3 → ℕ) → ℕ → SurfaceTags → SurfaceTags × Bool
  | [], _, s => (s, true)
  | t :: rest, index, s =>
    let nodes := S.corners t
    if (List.finRange 3).any fun i => decide (t i ≥ S.positions.length) then (s, false)
    else if (List.finRange 3).any fun i => !g.contains (nodes i) (gridEps ℝ) then
      tagTriangles g S rest (index + 1) { s with outside := s.outside ++ [index] }
    else
      match g.cellsEnclosing (nodes 0) [nodes 1, nodes 2] with
      | [] => (s, false)
      | [cell] => tagTriangles g S rest (index + 1) (s.add cell index)
      | cells => tagTriangles g S rest (index + 1) (cells.foldl (tagCell g nodes index) s)

/-- `tag_intersected_cells`, `FictitiousGrid.cpp:47-127`, on a grid which is initialised for the first time. -/
noncomputable def tagIntersectedCells (g : Grid 3 ℝ) (S : SurfaceMesh) : SurfaceTags × Bool :=
  tagTriangles g S S.triangles 0 ⟨fun _ => .undef, fun _ => [], []⟩

/-- The test of `subdivide_intersected_cells` on an element, `FictitiousGrid.cpp:287-307`; `triangles` is
`p_triangles_of_cell[cell_index]`. -/
noncomputable def classifySurface (S : SurfaceMesh) (triangles : List ℕ) (e : Box 3 ℝ) : CellType × Bool :=
  if triangles.any fun i => e.hexa.intersectsTriangle (S.corners (S.triangles.getD i 0)) 0 then (.boundary, true) else (.undef, false)

/-- `subdivide_intersected_cells` for a triangle mesh, `FictitiousGrid.cpp:220-329`. -/
noncomputable def subdivideSurface (g : Grid 3 ℝ) (S : SurfaceMesh) (levels : ℕ) (tags : SurfaceTags) :
    ℤ → CellTree 3 (CellData ℝ) := fun i =>
  subdivide (classifySurface S (tags.triangles i)) levels (gridBox g i) 1

section Retype

variable {D : ℕ} {K : Type*}

/-- The type stored in the leaf at an address (`Undefined` when there is no leaf). -/
def leafType (cells : ℤ → CellTree D (CellData K)) (c : CellRef D) : CellType :=
  match (cells c.top).find c.path with
  | some (.leaf data) => data.type
  | _ => .undef

/-- The tree after the types of its leaves were written through pointers (`c->data->type = …`, `FictitiousGrid.inl:534-536` and
`FictitiousGrid.inl:557-559`); `type` gives the type of every leaf by its path. -/
def CellTree.retype (type : List (Fin (2 ^ D)) → CellType) : CellTree D (CellData K) → List (Fin (2 ^ D)) → CellTree D (CellData K)
  | .leaf data, path => .leaf { data with type := type path }
  | .node ch, path => .node fun i => CellTree.retype type (ch i) (i :: path)

end Retype

/-- The grid after `create_grid`: the trees of cells, the regions and the sparse grid. -/
structure ImmersedGrid where
  cells : ℤ → CellTree 3 (CellData ℝ)
  regions : List (Region (CellRef 3))
  sparse : SparseGrid 3 ℝ

/-- `create_grid` from step 2 on, for a triangle mesh in three dimensions, `FictitiousGrid.inl:328-350`, after a first pass with the
result `tags`; an exception of `create_regions_from_same_type_cells` or of `validate_grid` leaves the function.  The loops on cells
have as many passes as there are leaves (see C62). -/
noncomputable def createGridFrom (g : Grid 3 ℝ) (S : SurfaceMesh) (levels : ℕ) (threshold : ℝ) (tags : SurfaceTags) : Outcome ImmersedGrid :=
  let cells := subdivideSurface g S levels tags
  let leaves := allLeaves cells g.numberOfCells.toNat
  match createRegions (leafType cells) (fun c s => getNeighbors g cells c s.1 s.2) (sides 3) leaves.length leaves with
  | .ok s =>
    let tagged := tagRegions g ⟨s.regions, leafType cells⟩
    let final : ℤ → CellTree 3 (CellData ℝ) := fun i => (cells i).retype (fun path => tagged.type ⟨path, i⟩) []
    let result : ImmersedGrid := ⟨final, tagged.regions, createSparseGrid g final threshold⟩
    if validateGrid g final tagged.regions then .ok result else .throws result
  | .throws _ => .throws ⟨cells, [], createSparseGrid g cells threshold⟩
  | .hangs => .hangs
  | .undefined => .undefined

/-- `create_grid` from step 1 on, `FictitiousGrid.inl:321-350`, on a component which is initialised for the first time. -/
noncomputable def createGrid (g : Grid 3 ℝ) (S : SurfaceMesh) (levels : ℕ) (threshold : ℝ) : Outcome ImmersedGrid :=
  createGridFrom g S levels threshold (tagIntersectedCells g S).1

/-- The grid built by `create_grid` from the data `n` (numbers of nodes, at least 1), `min` and `max`,
`FictitiousGrid.inl:294-310`. -/
noncomputable def gridOfCorners (n : Fin 3 → ℕ) (first second : Fin 3 → ℝ) : Grid 3 ℝ :=
  ⟨fun a => min (first a) (second a), fun a => n a - 1, fun a => |first a - second a|⟩

/-- The bounding box of the surface nodes, `FictitiousGrid.inl:264-280`, one axis: `(min[c], max[c])`. -/
noncomputable def surfaceBounds (lowest highest : ℝ) (positions : List (Fin 3 → ℝ)) (a : Fin 3) : ℝ × ℝ :=
  positions.foldl (fun s p => (if p a < s.1 then p a else s.1, if p a > s.2 then p a else s.2)) (highest, lowest)

end Caribou.FictitiousGrid

import Verif.Model.FictitiousSurface
import Verif.Model.FictitiousGauss

/-!
# Fictitious grid: the component over several initialisations, volume ratios, implicit surfaces

`FictitiousGrid::init` and `create_grid` with the members which survive between two calls, `cell_volume_ratio_distribution`, and
`create_grid` with an implicit surface.
-/

set_option autoImplicit false

namespace Caribou.FictitiousGrid

/-! ### Several initialisations -/

/-- `FictitiousGrid<Vec3Types>` without implicit surface: the data (`min` and `max` are `none` until they are set) and the members which
are not recomputed from scratch.  A vector is given by its size and its entries. -/
structure GridComponent where
  n : Fin 3 → ℕ
  min : Option (Fin 3 → ℝ)
  max : Option (Fin 3 → ℝ)
  mesh : SurfaceMesh
  levels : ℕ
  threshold : ℝ
  grid : Option (Grid 3 ℝ)
  typesSize : ℤ
  types : ℤ → CellType
  trianglesSize : ℤ
  triangles : ℤ → List ℕ
  result : Option ImmersedGrid

/-- `std::vector::resize(count, value)` for a vector of `size` entries. -/
def resized {α : Type*} (size : ℤ) (entries : ℤ → α) (count : ℤ) (value : α) : ℤ → α :=
  fun i => if 0 ≤ i ∧ i < size ∧ i < count then entries i else value

/-- The entries `0 ≤ i < count`, the only ones that exist. -/
def clipped {α : Type*} (count : ℤ) (entries : ℤ → α) (value : α) : ℤ → α := fun i => if 0 ≤ i ∧ i < count then entries i else value

/-- Whether the loop of `FictitiousGrid.cpp:291-309` on the triangles of a cell reads `surface_triangles` or `surface_positions` out of
range before it comes to a triangle which intersects the element. -/
noncomputable def readsOutside (S : SurfaceMesh) (e : Box 3 ℝ) : List ℕ → Bool
  | [] => false
  | i :: rest =>
    match S.triangles[i]? with
    | none => true
    | some t =>
      if (List.finRange 3).any fun k => decide (t k ≥ S.positions.length) then true
      else if e.hexa.intersectsTriangle (S.corners t) 0 then false
      else readsOutside S e rest

/-- The same for a cell and the subcells visited below it, `FictitiousGrid.cpp:253-333`. -/
noncomputable def subdivisionReadsOutside (S : SurfaceMesh) (triangles : List ℕ) : ℕ → Box 3 ℝ → Bool
  | 0, e => readsOutside S e triangles
  | remaining + 1, e =>
    readsOutside S e triangles ||
      if (classifySurface S triangles e).2 then
        (List.finRange 8).any fun i => subdivisionReadsOutside S triangles remaining (e.child i)
      else false

/-- The first pass, `FictitiousGrid.inl:311` and `FictitiousGrid.cpp:47-127`: both vectors are resized, hence keep the entries of the
previous initialisation, and the triangles are appended. -/
noncomputable def GridComponent.firstPass (c : GridComponent) (g : Grid 3 ℝ) : SurfaceTags :=
  let count := g.numberOfCells
  let tags := (tagTriangles g c.mesh c.mesh.triangles 0
    ⟨resized c.typesSize c.types count .undef, resized c.trianglesSize c.triangles count [], []⟩).1
  ⟨clipped count tags.types .undef, clipped count tags.triangles [], tags.outside⟩

/-- The grid made from the data, `FictitiousGrid.inl:294-309`; the corners are null when they were never set. -/
noncomputable def GridComponent.gridOfData (c : GridComponent) : Grid 3 ℝ := gridOfCorners c.n (c.min.getD 0) (c.max.getD 0)

/-- `create_grid`, `FictitiousGrid.inl:291-351`.  The trees, the regions and the sparse grid are rebuilt (lines 315-318, 426, 661, 689). -/
noncomputable def GridComponent.createGrid (c : GridComponent) : Outcome GridComponent :=
  let g := c.gridOfData
  let count := g.numberOfCells
  let tags := c.firstPass g
  let next : GridComponent :=
    { c with grid := some g, typesSize := count, types := tags.types, trianglesSize := count, triangles := tags.triangles }
  if (indices count).any fun i => subdivisionReadsOutside c.mesh (tags.triangles i) c.levels (gridBox g i) then .undefined
  else
    match createGridFrom g c.mesh c.levels c.threshold tags with
    | .ok r => .ok { next with result := some r }
    | .throws r => .throws { next with result := some r }
    | .hangs => .hangs
    | .undefined => .undefined

/-- The bounds of the grid, `FictitiousGrid.inl:259-283`: unless both corners are set, both are set to the bounding box of the surface.
`lowest` and `highest` are the limits of the floating point numbers. -/
noncomputable def GridComponent.bounded (lowest highest : ℝ) (c : GridComponent) : GridComponent :=
  if c.min.isSome && c.max.isSome then c
  else { c with
    min := some fun a => (surfaceBounds lowest highest c.mesh.positions a).1
    max := some fun a => (surfaceBounds lowest highest c.mesh.positions a).2 }

/-- `init`, `FictitiousGrid.inl:81-287`, with triangles and positions given in the data and no implicit surface. -/
noncomputable def GridComponent.init (lowest highest : ℝ) (c : GridComponent) : Outcome GridComponent :=
  (c.bounded lowest highest).createGrid

/-- What a program does with the component: writing data, `init` (or `reinit`), and the public method `create_grid`. -/
inductive GridOp
  | setMesh (S : SurfaceMesh)
  | setN (n : Fin 3 → ℕ)
  | setMin (p : Fin 3 → ℝ)
  | setMax (p : Fin 3 → ℝ)
  | setLevels (k : ℕ)
  | setThreshold (t : ℝ)
  | init
  | createGrid

/-- One operation. -/
noncomputable def GridComponent.step (lowest highest : ℝ) (c : GridComponent) : GridOp → Outcome GridComponent
  | .setMesh S => .ok { c with mesh := S }
  | .setN n => .ok { c with n := n }
  | .setMin p => .ok { c with min := some p }
  | .setMax p => .ok { c with max := some p }
  | .setLevels k => .ok { c with levels := k }
  | .setThreshold t => .ok { c with threshold := t }
  | .init => c.init lowest highest
  | .createGrid => c.createGrid

/-- A sequence of operations; an exception ends it. -/
noncomputable def GridComponent.run (lowest highest : ℝ) (c : GridComponent) : List GridOp → Outcome GridComponent
  | [] => .ok c
  | o :: l =>
    match c.step lowest highest o with
    | .ok c' => c'.run lowest highest l
    | .throws r => .throws r
    | .hangs => .hangs
    | .undefined => .undefined

/-! ### Volume ratios -/

section Ratios

variable {D : ℕ} {K : Type*} [Field K] [LinearOrder K] [FloorRing K]

/-- `volume_ratios[ratio].emplace_back(cell_id)` in a `std::map`, which is sorted by its keys. -/
def insertRatio (ratio : K) (cell : ℤ) : List (K × List ℤ) → List (K × List ℤ)
  | [] => [(ratio, [cell])]
  | (r, cells) :: rest =>
    if ratio < r then (ratio, [cell]) :: (r, cells) :: rest
    else if ratio = r then (r, cells ++ [cell]) :: rest
    else (r, cells) :: insertRatio ratio cell rest

/-- The ratio of a cell, `FictitiousGrid.inl:1051-1066`; `none` for `continue`.  `std::round` is `round` for ratios, which are not
negative. -/
def cellRatio (types : ℤ → CellType) (cells : ℤ → CellTree D (CellData K)) (decimals : ℕ) (i : ℤ) : Option K :=
  match types i with
  | .outside => some 0
  | .inside => some 1
  | .boundary => some (if decimals = 0 then cellWeight (cells i) else (round (cellWeight (cells i) * 10 ^ decimals) : K) / 10 ^ decimals)
  | .undef => none

/-- `cell_volume_ratio_distribution`, `FictitiousGrid.inl:1040-1071`. -/
def volumeRatios (g : Grid D K) (types : ℤ → CellType) (cells : ℤ → CellTree D (CellData K)) (decimals : ℕ) : List (K × List ℤ) :=
  (indices g.numberOfCells).foldl (fun m i =>
    match cellRatio types cells decimals i with
    | some r => insertRatio r i m
    | none => m) []

end Ratios

/-! ### Implicit surfaces -/

section Iso

variable {K : Type*} [Field K] [LinearOrder K]

/-- The nodes of a cell or subcell, `e.node(i)`, `RectangularQuad.h` and `RectangularHexahedron.h` (the rotation is the identity). -/
def Box.nodes : {D : ℕ} → Box D K → List (Fin D → K)
  | 2, e => List.ofFn fun i : Fin 4 => e.world (quad1.node i)
  | 3, e => List.ofFn fun i : Fin 8 => e.world (hexa1.node i)
  | _, _ => []

/-- `subdivide_intersected_cells` with an implicit surface, `FictitiousGrid.cpp:128-221` and `FictitiousGrid.cpp:223-336`. -/
def subdivideIso {D : ℕ} (g : Grid D K) (iso : (Fin D → K) → K) (levels : ℕ) : ℤ → CellTree D (CellData K) := fun i =>
  subdivide (fun e => classifyIso (e.nodes.map iso)) levels (gridBox g i) 1

/-- The grid after `create_grid` with an implicit surface: `p_cells_types`, the trees, the regions and the sparse grid. -/
structure IsoGrid (D : ℕ) (K : Type*) where
  types : ℤ → CellType
  cells : ℤ → CellTree D (CellData K)
  regions : List (Region (CellRef D))
  sparse : SparseGrid D K

/-- `create_grid` with an implicit surface, `FictitiousGrid.inl:291-351`, up to the reference `p_triangles_of_cell[cell_index]` of line
240 of `FictitiousGrid.cpp` (see `createGridIso3`).  `types` is `p_cells_types` after its `resize`. -/
def createGridIso {D : ℕ} (g : Grid D K) (iso : (Fin D → K) → K) (levels : ℕ) (threshold : K) (types : ℤ → CellType) :
    Outcome (IsoGrid D K) :=
  match tagFromIso g iso types with
  | .ok types =>
    let cells := subdivideIso g iso levels
    let leaves := allLeaves cells g.numberOfCells.toNat
    match createRegions (leafType cells) (fun c s => getNeighbors g cells c s.1 s.2) (sides D) leaves.length leaves with
    | .ok s =>
      let tagged := tagRegions g ⟨s.regions, leafType cells⟩
      let final : ℤ → CellTree D (CellData K) := fun i => (cells i).retype (fun path => tagged.type ⟨path, i⟩) []
      let result : IsoGrid D K := ⟨types, final, tagged.regions, createSparseGrid g final threshold⟩
      if validateGrid g final tagged.regions then .ok result else .throws result
    | .throws _ => .throws ⟨types, cells, [], createSparseGrid g cells threshold⟩
    | .hangs => .hangs
    | .undefined => .undefined
  | _ => .undefined

/-- The same in three dimensions with the reference `p_triangles_of_cell[cell_index]`, taken in a vector of `trianglesSize` entries which
only `tag_intersected_cells` resizes (the reference is not used afterwards). -/
def createGridIso3 (trianglesSize : ℤ) (g : Grid 3 K) (iso : (Fin 3 → K) → K) (levels : ℕ) (threshold : K) (types : ℤ → CellType) :
    Outcome (IsoGrid 3 K) :=
  match tagFromIso g iso types with
  | .ok _ => if trianglesSize < g.numberOfCells then .undefined else createGridIso g iso levels threshold types
  | _ => .undefined

end Iso

end Caribou.FictitiousGrid

import Verif.Model.Grid
import Mathlib.Logic.Function.Basic

/-!
# Fictitious grid: cells, subdivision and neighbours

`SofaCaribou/Topology/FictitiousGrid.{h,inl,cpp}`.

A `Cell` of the code is a node of a quadtree (2D) or octree (3D): it has an index in its parent, a pointer to its parent and
either data (leaf) or `2^D` children.  The model keeps the trees as values, `CellTree`, and the pointers `Cell *` as
addresses, `CellRef`: the indices met when going up from the cell to the top of its tree, followed by the index of the top
cell in `p_cells`.
-/

set_option autoImplicit false

namespace Caribou.FictitiousGrid

/-- `FictitiousGrid::Type`, `FictitiousGrid.h:89-94`. -/
inductive CellType where
  | undef
  | inside
  | outside
  | boundary
deriving DecidableEq, Repr

/-- The underlying values, `FictitiousGrid.h:89-94`. -/
def CellType.value : CellType → ℤ
  | undef => -2 ^ 63
  | inside => 1
  | outside => 2
  | boundary => 4

/-- `CellData`, `FictitiousGrid.h:97-105`.  `region_id` and `boundary_of_region` are only touched by the clustering of
cells and are part of its own state (`Model/FictitiousRegions.lean`). -/
structure CellData (K : Type*) where
  type : CellType
  weight : K

/-- `Cell`, `FictitiousGrid.h:108-115`: a leaf with its data, or a cell with `2^D` children. -/
inductive CellTree (D : ℕ) (α : Type*) where
  | leaf (data : α)
  | node (childs : Fin (2 ^ D) → CellTree D α)

/-- A pointer to a cell: `path` lists the indices of the cell, of its parent, of the parent of its parent… up to a child of
a grid cell, `top` is the index of this grid cell in `p_cells`. -/
structure CellRef (D : ℕ) where
  path : List (Fin (2 ^ D))
  top : ℤ
deriving DecidableEq

/-- `subcell_coordinates`, `FictitiousGrid.cpp:21-39`.  (There is no such table in other dimensions.) -/
def subcellCoordinates : (D : ℕ) → Fin (2 ^ D) → Fin D → ℤ
  | 2 => ![![0, 0], ![1, 0], ![0, 1], ![1, 1]]
  | 3 => ![![0, 0, 0], ![1, 0, 0], ![0, 1, 0], ![1, 1, 0], ![0, 0, 1], ![1, 0, 1], ![0, 1, 1], ![1, 1, 1]]
  | _ => fun _ _ => 0

/-- The index of a child from its coordinates, `FictitiousGrid.inl:882-885`.  The access `(*p->childs)[index]` is only in
range for coordinates in `{0, 1}`; the model wraps around. -/
def subcellIndex : (D : ℕ) → (Fin D → ℤ) → Fin (2 ^ D)
  | 2, c => Fin.ofNat 4 (c 0 + c 1 * 2).toNat
  | 3, c => Fin.ofNat 8 (c 0 + c 1 * 2 + c 2 * 2 * 2).toNat
  | D, _ => Fin.ofNat (2 ^ D) 0

/-- An axis aligned rectangle or rectangular hexahedron: a `CellElement` with the identity as rotation (all elements built
here use the two argument constructor, `BaseRectangularHexahedron.h:49`, `BaseRectangularQuad.h`). -/
structure Box (D : ℕ) (K : Type*) where
  center : Fin D → K
  size : Fin D → K

section Field

variable {D : ℕ} {K : Type*} [Field K]

/-- `CellElement::world_coordinates` with the identity as rotation, `BaseRectangularHexahedron.h:80-82` and
`BaseRectangularQuad.h:75-76`. -/
def Box.world (e : Box D K) (ξ : Fin D → K) : Fin D → K := fun a => e.center a + ξ a * (e.size a / 2)

/-- The local coordinates of the centres of the children in `get_subcells_elements`, `FictitiousGrid.inl:757-773`. -/
def subcellCenter : (D : ℕ) → Fin (2 ^ D) → Fin D → K
  | 2 => ![![-1/2, -1/2], ![1/2, -1/2], ![-1/2, 1/2], ![1/2, 1/2]]
  | 3 => ![![-1/2, -1/2, -1/2], ![1/2, -1/2, -1/2], ![-1/2, 1/2, -1/2], ![1/2, 1/2, -1/2],
           ![-1/2, -1/2, 1/2], ![1/2, -1/2, 1/2], ![-1/2, 1/2, 1/2], ![1/2, 1/2, 1/2]]
  | _ => fun _ _ => 0

/-- `get_subcells_elements`, `FictitiousGrid.inl:752-776`. -/
def Box.child (e : Box D K) (i : Fin (2 ^ D)) : Box D K := ⟨e.world (subcellCenter D i), fun a => e.size a / 2⟩

/-- `p_grid->cell_at(index)`, `Grid.h:76-89` and `Grid.h:199-212`: centre and size of a cell of the grid. -/
def gridBox (g : Grid D K) (index : ℤ) : Box D K := ⟨g.cellCenter (g.cellCoordinatesAt index), g.H⟩

/-- The element of a subcell: the elements of the children taken from the top cell downwards, as stored in the queue of
`subdivide_intersected_cells`, `FictitiousGrid.cpp:158` and `FictitiousGrid.cpp:209-214`. -/
def refBox (g : Grid D K) : List (Fin (2 ^ D)) → ℤ → Box D K
  | [], top => gridBox g top
  | i :: up, top => (refBox g up top).child i

/-- `subdivide_intersected_cells` for one cell of the grid, `FictitiousGrid.cpp:147-216` (2D) and
`FictitiousGrid.cpp:238-328` (3D).  `classify` is the test of the code on the element: the type given to the cell and
`subdivide_the_cell`.  `remaining` is `number_of_subdivision - level`.  The cells are visited breadth first with a queue;
the result does not depend on the order of the visits and is defined by recursion. -/
def subdivide (classify : Box D K → CellType × Bool) : ℕ → Box D K → K → CellTree D (CellData K)
  | 0, e, weight => .leaf ⟨(classify e).1, weight⟩
  | remaining + 1, e, weight =>
    if (classify e).2 then .node fun i => subdivide classify remaining (e.child i) (weight / 2 ^ D)
    else .leaf ⟨(classify e).1, weight⟩

end Field

namespace CellTree

variable {D : ℕ} {α : Type*}

/-- Number of cells of a tree. -/
def count : CellTree D α → ℕ
  | leaf _ => 1
  | node ch => 1 + ((List.finRange (2 ^ D)).map fun i => (ch i).count).sum

/-- The cell below `t` at the end of a path (deepest index first). -/
def find (t : CellTree D α) : List (Fin (2 ^ D)) → Option (CellTree D α)
  | [] => some t
  | i :: up =>
    match t.find up with
    | some (node ch) => some (ch i)
    | _ => none

/-- The queue of `get_leaf_cells`, `FictitiousGrid.inl:788-802`, with at most `fuel` visits. -/
def leafQueue : ℕ → List (List (Fin (2 ^ D)) × CellTree D α) → List (List (Fin (2 ^ D)) × α)
  | 0, _ => []
  | _, [] => []
  | fuel + 1, (path, leaf data) :: queue => (path, data) :: leafQueue fuel queue
  | fuel + 1, (path, node ch) :: queue =>
    leafQueue fuel (queue ++ (List.finRange (2 ^ D)).map fun i => (i :: path, ch i))

/-- `get_leaf_cells`, `FictitiousGrid.inl:778-806`: the leaves below a cell, as paths going up to it, with their data.  The
loop visits every cell once, hence the fuel. -/
def leafCells (t : CellTree D α) : List (List (Fin (2 ^ D)) × α) := leafQueue t.count [([], t)]

end CellTree

/-! ### Neighbours -/

section Neighbors

variable {D : ℕ} {α : Type*}

/-- `static_cast<int>`. -/
def toI32 (x : ℤ) : ℤ := Int.bmod x (2 ^ 32)

/-- The loop going up, `FictitiousGrid.inl:842-852`: whether a suitable parent was found, the path of `p` after the loop
(meaningless when none was found, `p` is then null) and the stack of coordinates.  `IN_CLOSED_INTERVAL(0, x, 1)` is
`(x - 0) * (x - 1) <= 0`, `Config/macros.h.in:4`. -/
def climb (axis : Fin D) (direction : ℤ) :
    List (Fin (2 ^ D)) → List (Fin D → ℤ) → Bool × List (Fin (2 ^ D)) × List (Fin D → ℤ)
  | [], path => (false, [], path)
  | index :: up, path =>
    let coordinates := subcellCoordinates D index
    if (coordinates axis + direction - 0) * (coordinates axis + direction - 1) ≤ 0 then (true, up, coordinates :: path)
    else climb axis direction up (coordinates :: path)

/-- The coordinates of the child followed when going down, `FictitiousGrid.inl:877-885`. -/
def opposite (axis : Fin D) (direction : ℤ) (coordinates : Fin D → ℤ) : Fin D → ℤ :=
  let new := Int.tmod (coordinates axis - direction) 2
  Function.update coordinates axis (new * new)

/-- The loop going down, `FictitiousGrid.inl:876-888`. -/
def descend (axis : Fin D) (direction : ℤ) :
    List (Fin D → ℤ) → List (Fin (2 ^ D)) → CellTree D α → List (Fin (2 ^ D)) × CellTree D α
  | [], p, t => (p, t)
  | _ :: _, p, .leaf data => (p, .leaf data)
  | coordinates :: path, p, .node ch =>
    let index := subcellIndex D (opposite axis direction coordinates)
    descend axis direction path (index :: p) (ch index)

/-- The leaves facing the queried cell, `FictitiousGrid.inl:892-915`: the cell itself if it is a leaf, otherwise the leaves
reached through children with the coordinate `search_axis`.  The stack of the code visits the children from the last one
and the subtree of a child before the next child. -/
def facing (axis : Fin D) (searchAxis : ℤ) : CellTree D α → List (Fin (2 ^ D)) → List (List (Fin (2 ^ D)))
  | .leaf _, p => [p]
  | .node ch, p => (List.finRange (2 ^ D)).reverse.flatMap fun i =>
      if subcellCoordinates D i axis = searchAxis then facing axis searchAxis (ch i) (i :: p) else []

/-- `get_neighbors(cell, axis, direction)` from the cell `p` (its tree, its path and its top cell) where the descent
starts, `FictitiousGrid.inl:873-916`. -/
def collect (axis : Fin D) (direction : ℤ) (path : List (Fin D → ℤ)) (start : List (Fin (2 ^ D))) (t : CellTree D α)
    (top : ℤ) : List (CellRef D) :=
  let r := descend axis direction path start t
  (facing axis (if direction < 0 then 1 else 0) r.2 r.1).map fun p => ⟨p, top⟩

variable {K : Type*} [Field K]

/-- `get_neighbors(cell, axis, direction)`, `FictitiousGrid.inl:829-918`.  Dereferencing an address without cell gives no
neighbour in the model. -/
def getNeighbors (g : Grid D K) (cells : ℤ → CellTree D α) (cell : CellRef D) (axis : Fin D) (direction : ℤ) :
    List (CellRef D) :=
  let r := climb axis direction cell.path []
  if r.1 then
    match (cells cell.top).find r.2.1 with
    | some p => collect axis direction r.2.2 r.2.1 p cell.top
    | none => []
  else
    let coordinates := g.cellCoordinatesAt cell.top
    let new := toI32 (coordinates axis + direction)
    let upper := toI32 (toU64 ((g.n axis : ℤ) - 1))
    if 0 ≤ new ∧ new ≤ upper then
      let top := g.cellIndexAt (Function.update coordinates axis (coordinates axis + direction))
      collect axis direction r.2.2 [] (cells top) top
    else []

/-- `get_neighbors(cell)`, `FictitiousGrid.inl:808-827`. -/
def getAllNeighbors (g : Grid D K) (cells : ℤ → CellTree D α) (cell : CellRef D) : List (CellRef D) :=
  (List.finRange D).flatMap fun axis => [-1, 1].flatMap fun direction => getNeighbors g cells cell axis direction

end Neighbors

end Caribou.FictitiousGrid

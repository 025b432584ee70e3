import Verif.Model.FictitiousGrid
import Verif.Model.Mesh

/-!
# Fictitious grid: regions of cells and their types

`create_regions_from_same_type_cells`, `tag_outside_cells`, `tag_inside_cells`, `validate_grid` and `get_cell_weight`.
The first one only uses the type of the leaf cells and `get_neighbors`: it is modelled for any type `C` of cell pointers and
any neighbour function.
-/

set_option autoImplicit false

namespace Caribou.FictitiousGrid

/-- `Region`, `FictitiousGrid.h:119-122`. -/
structure Region (C : Type*) where
  type : CellType
  cells : List C

/-- The data of `create_regions_from_same_type_cells`: `region_id` and `boundary_of_region` of every leaf cell, the regions
completed so far, the cells of the region being filled and the queue `cluster_cells`. -/
structure Clustering (C : Type*) where
  regionId : C → ℤ
  boundary : C → Bool
  regions : List (Region C)
  current : List C
  queue : List C

section Clustering

variable {C S : Type*} [DecidableEq C]

/-- One neighbour of a cluster cell, `FictitiousGrid.inl:457-475`: `none` is the `std::runtime_error`. -/
def visitNeighbor (type : C → CellType) (regionType : CellType) (region : ℤ) (cell : C) (s : Clustering C) (neighbor : C) :
    Option (Clustering C) :=
  if type neighbor ≠ regionType then some { s with boundary := Function.update s.boundary cell true }
  else if s.regionId neighbor ≠ -1 ∧ s.regionId neighbor ≠ region then none
  else if s.regionId neighbor = -1 then
    some { s with
      regionId := Function.update s.regionId neighbor region
      current := s.current ++ [neighbor]
      queue := s.queue ++ [neighbor] }
  else some s

/-- One axis and direction, `FictitiousGrid.inl:451-476`. -/
def visitSide (type : C → CellType) (neighbors : C → S → List C) (regionType : CellType) (region : ℤ) (cell : C)
    (s : Clustering C) (side : S) : Option (Clustering C) :=
  if (neighbors cell side).length = 0 then some { s with boundary := Function.update s.boundary cell true }
  else (neighbors cell side).foldlM (visitNeighbor type regionType region cell) s

/-- The loop on the cells of the cluster, `FictitiousGrid.inl:441-479`, with at most `fuel` iterations (`hangs` when they do
not suffice). -/
def cluster (type : C → CellType) (neighbors : C → S → List C) (sides : List S) (regionType : CellType) (region : ℤ) :
    ℕ → Clustering C → Outcome (Clustering C)
  | 0, s => match s.queue with
    | [] => .ok s
    | _ :: _ => .hangs
  | fuel + 1, s => match s.queue with
    | [] => .ok s
    | cell :: queue =>
      match sides.foldlM (visitSide type neighbors regionType region cell) { s with queue := queue } with
      | some s' => cluster type neighbors sides regionType region fuel s'
      | none => .throws s

/-- One leaf cell, `FictitiousGrid.inl:423-480`. -/
def processLeaf (type : C → CellType) (neighbors : C → S → List C) (sides : List S) (fuel : ℕ) (s : Clustering C) (c : C) :
    Outcome (Clustering C) :=
  if s.regionId c > -1 then .ok s
  else
    let region : ℤ := s.regions.length
    match cluster type neighbors sides (type c) region fuel
        { s with regionId := Function.update s.regionId c region, current := [c], queue := [c] } with
    | .ok s' => .ok { s' with regions := s'.regions ++ [⟨type c, s'.current⟩] }
    | o => o

/-- The loop on the leaf cells, `FictitiousGrid.inl:422-481`. -/
def processLeaves (type : C → CellType) (neighbors : C → S → List C) (sides : List S) (fuel : ℕ) :
    List C → Clustering C → Outcome (Clustering C)
  | [], s => .ok s
  | c :: leaves, s =>
    match processLeaf type neighbors sides fuel s c with
    | .ok s' => processLeaves type neighbors sides fuel leaves s'
    | o => o

/-- `create_regions_from_same_type_cells`, `FictitiousGrid.inl:404-487`: all leaves start with `region_id = -1` and
`boundary_of_region = false` (`FictitiousGrid.cpp:201`, `FictitiousGrid.cpp:312`). -/
def createRegions (type : C → CellType) (neighbors : C → S → List C) (sides : List S) (fuel : ℕ) (leaves : List C) :
    Outcome (Clustering C) :=
  processLeaves type neighbors sides fuel leaves ⟨fun _ => -1, fun _ => false, [], [], []⟩

/-- The loops on the axes and the directions, `FictitiousGrid.inl:447-449`. -/
def sides (D : ℕ) : List (Fin D × ℤ) := (List.finRange D).flatMap fun axis => [(axis, -1), (axis, 1)]

/-- The queue of all leaf cells, `FictitiousGrid.inl:414-419`. -/
def allLeaves {D : ℕ} {α : Type*} (cells : ℤ → CellTree D α) (numberOfCells : ℕ) : List (CellRef D) :=
  (List.range numberOfCells).flatMap fun i : ℕ => (cells i).leafCells.map fun x => ⟨x.1, (i : ℤ)⟩

end Clustering

/-! ### Types of the regions -/

section Tag

variable {D : ℕ} {K : Type*}

/-- `is_boundary_of_face` while going up to the top cell, `FictitiousGrid.inl:505-519`.  The six bits are `(axis, side)`,
those of the axes below `D` are updated. -/
def climbBits : List (Fin (2 ^ D)) → (Fin 3 × Bool → Bool) → (Fin 3 × Bool → Bool)
  | [], b => b
  | index :: up, b =>
    climbBits up fun f =>
      if h : f.1.val < D then
        b f && decide (subcellCoordinates D index ⟨f.1.val, h⟩ = if f.2 then 1 else 0)
      else b f

/-- `is_boundary_of_face` after the test on the grid, `FictitiousGrid.inl:505-527`.  All bits are set at the start
(`std::bitset<6>().flip()`). -/
def boundaryBits (g : Grid D K) (c : CellRef D) : Fin 3 × Bool → Bool := fun f =>
  if h : f.1.val < D then
    climbBits c.path (fun _ => true) f &&
      (if f.2 then decide (g.cellCoordinatesAt c.top ⟨f.1.val, h⟩ % 2 ^ 32 = toU64 ((g.n ⟨f.1.val, h⟩ : ℤ) - 1))
        else decide (g.cellCoordinatesAt c.top ⟨f.1.val, h⟩ = 0))
  else climbBits c.path (fun _ => true) f

/-- `is_boundary_of_face.any()`, `FictitiousGrid.inl:532`. -/
def anyBit (b : Fin 3 × Bool → Bool) : Bool := (List.finRange 3).any fun a => b (a, false) || b (a, true)

variable {C : Type*} [DecidableEq C]

/-- Types of the regions and types stored in the leaf cells. -/
structure Tagging (C : Type*) where
  regions : List (Region C)
  type : C → CellType

/-- `c->data->type = …` for all cells of a list. -/
def setTypes (cells : List C) (t : CellType) (type : C → CellType) : C → CellType := fun c => if c ∈ cells then t else type c

/-- One region in `tag_outside_cells`, `FictitiousGrid.inl:498-540`: `touches` is the test on one cell. -/
def tagOutsideRegion (touches : C → Bool) (s : Tagging C) (r : Region C) : Tagging C :=
  if r.type ≠ .undef then { s with regions := s.regions ++ [r] }
  else if r.cells.any touches then ⟨s.regions ++ [⟨.outside, r.cells⟩], setTypes r.cells .outside s.type⟩
  else { s with regions := s.regions ++ [r] }

/-- `tag_outside_cells`, `FictitiousGrid.inl:489-543`. -/
def tagOutside (touches : C → Bool) (s : Tagging C) : Tagging C := s.regions.foldl (tagOutsideRegion touches) ⟨[], s.type⟩

/-- One region in `tag_inside_cells`, `FictitiousGrid.inl:551-560`. -/
def tagInsideRegion (s : Tagging C) (r : Region C) : Tagging C :=
  if r.type ≠ .undef then { s with regions := s.regions ++ [r] }
  else ⟨s.regions ++ [⟨.inside, r.cells⟩], setTypes r.cells .inside s.type⟩

/-- `tag_inside_cells`, `FictitiousGrid.inl:545-565`. -/
def tagInside (s : Tagging C) : Tagging C := s.regions.foldl tagInsideRegion ⟨[], s.type⟩

/-- The test of `tag_outside_cells` on a cell of the grid, `FictitiousGrid.inl:504-532`. -/
def touchesBorder (g : Grid D K) (c : CellRef D) : Bool := anyBit (boundaryBits g c)

/-- The two tagging passes, `FictitiousGrid.inl:337-341`. -/
def tagRegions (g : Grid D K) (s : Tagging (CellRef D)) : Tagging (CellRef D) := tagInside (tagOutside (touchesBorder g) s)

end Tag

/-! ### Volumes -/

section Volume

variable {D : ℕ} {K : Type*} [Field K]

/-- `get_cell_weight`, `FictitiousGrid.inl:920-935`. -/
def cellWeight : CellTree D (CellData K) → K
  | .leaf data => if data.type = .inside ∨ data.type = .boundary then data.weight else 0
  | .node ch => ((List.finRange (2 ^ D)).map fun i => cellWeight (ch i)).foldl (· + ·) 0

/-- `cell->is_leaf()`, `FictitiousGrid.h:114`. -/
def isLeafRef (cells : ℤ → CellTree D (CellData K)) (c : CellRef D) : Bool :=
  match (cells c.top).find c.path with
  | some (.leaf _) => true
  | _ => false

/-- `cell->data->weight` for a leaf. -/
def leafWeight (cells : ℤ → CellTree D (CellData K)) (c : CellRef D) : K :=
  match (cells c.top).find c.path with
  | some (.leaf data) => data.weight
  | _ => 0

variable [LinearOrder K]

/-- `validate_grid`, `FictitiousGrid.inl:567-615`: whether no exception is thrown.  A cell of a region which is not a leaf
gives the first exception, a volume different from the one of the grid the second one. -/
def validateGrid (g : Grid D K) (cells : ℤ → CellTree D (CellData K)) (regions : List (Region (CellRef D))) : Bool :=
  let all := regions.flatMap fun r => r.cells
  let volume := (all.map fun c => leafWeight cells c * ∏ a, g.H a).foldl (· + ·) 0
  let gridVolume := ∏ a, g.size a
  all.all (isLeafRef cells) && !decide (|volume - gridVolume| > gridVolume * (1 / 10 ^ 8))

end Volume

end Caribou.FictitiousGrid

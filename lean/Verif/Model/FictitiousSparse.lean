import Verif.Model.FictitiousRegions

/-!
# Fictitious grid: the sparse grid

`create_sparse_grid`, `SofaCaribou/Topology/FictitiousGrid.inl:617-750`.
-/

set_option autoImplicit false

namespace Caribou.FictitiousGrid

variable {D : ℕ} {K : Type*}

/-- `p_grid->node_indices_of(cell_id)`, `Grid.h:91-112` (2D) and `Grid.h:214-239` (3D), in order. -/
def elementNodes [Field K] : {D : ℕ} → Grid D K → ℤ → List ℤ
  | 2, g, cell => List.ofFn (g.nodeIndicesOf2 (g.cellCoordinatesAt cell))
  | 3, g, cell => List.ofFn (g.nodeIndicesOf3 (g.cellCoordinatesAt cell))
  | _, _, _ => []

/-- The indices `0, 1, …, count - 1` of the loops of `create_sparse_grid`. -/
def indices (count : ℤ) : List ℤ := (List.range count.toNat).map fun i : ℕ => (i : ℤ)

/-- The result of the first loop: `use_cell` and `use_node`. -/
structure Used where
  cell : ℤ → Bool
  node : ℤ → Bool

/-- One pass of the first loop, `FictitiousGrid.inl:634-656`.  The statistics printed at the end are left out. -/
def markCell [Field K] [LinearOrder K] (g : Grid D K) (cells : ℤ → CellTree D (CellData K)) (threshold : K) (s : Used) (id : ℤ) :
    Used :=
  let outside := match cells id with
    | .leaf data => decide (data.type = .outside)
    | .node _ => false
  if !outside && decide (cellWeight (cells id) ≥ threshold) then
    ⟨Function.update s.cell id true, (elementNodes g id).foldl (fun u n => Function.update u n true) s.node⟩
  else s

/-- The first loop, `FictitiousGrid.inl:625-656`. -/
def markCells [Field K] [LinearOrder K] (g : Grid D K) (cells : ℤ → CellTree D (CellData K)) (threshold : K) : Used :=
  (indices g.numberOfCells).foldl (markCell g cells threshold) ⟨fun _ => false, fun _ => false⟩

/-- A renumbering: `p_*_index_in_grid` and `p_*_index_in_sparse_grid`. -/
structure Numbering where
  inGrid : List ℤ
  inSparse : ℤ → ℤ

/-- One pass of the loops filling the two vectors, `FictitiousGrid.inl:669-681` (nodes) and `FictitiousGrid.inl:698-733`
(cells): the new entry is `(signed) size() - 1` with the size after insertion. -/
def number (used : ℤ → Bool) (s : Numbering) (id : ℤ) : Numbering :=
  if used id then ⟨s.inGrid ++ [id], Function.update s.inSparse id (toI32 (s.inGrid.length + 1) - 1)⟩ else s

/-- The whole loop; the second vector is filled with `-1` before. -/
def numberAll (used : ℤ → Bool) (count : ℤ) : Numbering := (indices count).foldl (number used) ⟨[], fun _ => -1⟩

/-- The sparse grid: numbering of the nodes and of the cells, positions and elements. -/
structure SparseGrid (D : ℕ) (K : Type*) where
  nodes : Numbering
  cells : Numbering
  positions : List (Fin D → K)
  elements : List (List ℤ)

/-- `create_sparse_grid`, `FictitiousGrid.inl:617-735`.  `static_cast<sofa::Index>` converts to an unsigned 32-bit integer. -/
def createSparseGrid [Field K] [LinearOrder K] (g : Grid D K) (cells : ℤ → CellTree D (CellData K)) (threshold : K) :
    SparseGrid D K :=
  let used := markCells g cells threshold
  let nodes := numberAll used.node g.numberOfNodes
  let kept := numberAll used.cell g.numberOfCells
  ⟨nodes, kept, nodes.inGrid.map g.node,
    kept.inGrid.map fun id => (elementNodes g id).map fun n => nodes.inSparse n % 2 ^ 32⟩

end Caribou.FictitiousGrid

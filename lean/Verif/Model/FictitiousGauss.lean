import Verif.Model.FictitiousSparse
import Verif.Model.Canonical

/-!
# Fictitious grid: integration points of a cell, type of a point, tagging from an implicit surface

`SofaCaribou/Topology/FictitiousGrid.inl`.
-/

set_option autoImplicit false

namespace Caribou.FictitiousGrid

variable {D : ℕ}

/-- `CellElement::gauss_nodes()`: `CellElement` is `RectangularQuad<_2D, Linear>` or `RectangularHexahedron<Linear>`. -/
noncomputable def gaussTable : (D : ℕ) → List (GaussNode D)
  | 2 => gaussQuad
  | 3 => gaussHexa
  | _ => []

/-- The factor of the weight of a leaf, `FictitiousGrid.inl:962-967`. -/
noncomputable def leafFactor (data : CellData ℝ) : ℝ := if data.type = .inside ∨ data.type = .boundary then data.weight else 0

/-- One pass of `FictitiousGrid.inl:970-974`: point `i` of the element with the weight of the child `i`. -/
noncomputable def coarsePoint (ch : Fin (2 ^ D) → CellTree D (CellData ℝ)) (i : Fin (2 ^ D)) (gn : GaussNode D) :
    (Fin D → ℝ) × ℝ :=
  (gn.position, gn.weight * ((2 ^ D : ℝ) * cellWeight (ch i)))

/-- `get_gauss_cells_impl`, `FictitiousGrid.inl:954-988`.  Here `NumberOfGaussNodesAtCompileTime = 2^D`. -/
noncomputable def gaussCells (maximumLevel : ℕ) : CellTree D (CellData ℝ) → Box D ℝ → ℕ → List ((Fin D → ℝ) × ℝ)
  | .leaf data, _, _ => (gaussTable D).map fun gn => (gn.position, gn.weight * leafFactor data)
  | .node ch, e, l =>
    if l ≥ maximumLevel then
      ((List.finRange (2 ^ D)).zip (gaussTable D)).map fun x => coarsePoint ch x.1 x.2
    else
      (List.finRange (2 ^ D)).flatMap fun i =>
        (gaussCells maximumLevel (ch i) (e.child i) (l + 1)).map fun x => ((e.child i).world x.1, x.2)

/-- `CellElement()`: centre at the origin and sizes 2, `BaseRectangularHexahedron.h:45` and `BaseRectangularQuad.h:39`. -/
def unitBox (D : ℕ) (K : Type*) [Field K] : Box D K := ⟨fun _ => 0, fun _ => 2⟩

/-- `get_gauss_nodes_of_cell`, `FictitiousGrid.inl:937-999`, for the cell of the grid with index `top`: local positions and
weights.  The determinant of the jacobian of a cell with the identity as rotation is the product of its half sizes. -/
noncomputable def gaussNodesOfCell (g : Grid D ℝ) (cells : ℤ → CellTree D (CellData ℝ)) (maximumLevel : ℕ) (top : ℤ) :
    List ((Fin D → ℝ) × ℝ) :=
  (gaussCells maximumLevel (cells top) (unitBox D ℝ) 0).map fun x => (x.1, x.2 * ∏ a, (g.H a / 2))

/-! ### Type of a point -/

/-- The two's complement representation of `static_cast<INTEGER_TYPE>` of a type. -/
def CellType.bits (t : CellType) : ℕ := (toU64 t.value).toNat

section Types

variable {K : Type*} [Field K] [LinearOrder K] [FloorRing K]

/-- `get_type_at`, `FictitiousGrid.inl:1001-1038`, with `types` for `p_cells_types`.  The value carried by `throws` is
meaningless. -/
def getTypeAt (g : Grid D K) (types : ℤ → CellType) (p : Fin D → K) : Outcome CellType :=
  if g.contains p (gridEps K) then
    let cells := g.cellsAround p
    if cells.length = 1 then .ok (types (cells.headD 0))
    else
      let flags := cells.foldl (fun t c => t ||| (types c).bits) 0
      if flags &&& CellType.boundary.bits ≠ 0 then .ok .boundary
      else if flags &&& CellType.inside.bits ≠ 0 ∧ flags &&& CellType.outside.bits ≠ 0 then .ok .boundary
      else .throws .undef
  else .ok .outside

end Types

/-! ### Implicit surfaces -/

section Iso

variable {K : Type*} [Field K] [LinearOrder K]

/-- Type of a node, `FictitiousGrid.inl:373-379`. -/
def isoType (t : K) : CellType := if t < 0 then .inside else if t > 0 then .outside else .boundary

/-- `types[(UNSIGNED_INTEGER_TYPE) node_types[node_index]]++` on an array of three integers, `FictitiousGrid.inl:388`. -/
def countType : Outcome (ℕ → ℕ) → CellType → Outcome (ℕ → ℕ)
  | .ok counts, t =>
    let i := (toU64 t.value).toNat
    if i < 3 then .ok (Function.update counts i (counts i + 1)) else .undefined
  | o, _ => o

/-- Type of a cell from the types of its nodes, `FictitiousGrid.inl:383-397`. -/
def tagFromNodes (nodeTypes : List CellType) : Outcome CellType :=
  match nodeTypes.foldl countType (.ok fun _ => 0) with
  | .ok counts =>
    if counts CellType.inside.bits = nodeTypes.length then .ok .inside
    else if counts CellType.outside.bits = nodeTypes.length then .ok .outside
    else .ok .boundary
  | _ => .undefined

/-- One pass of the loop on the cells, `FictitiousGrid.inl:383-398`. -/
def tagCellFromIso (g : Grid D K) (iso : (Fin D → K) → K) (o : Outcome (ℤ → CellType)) (cell : ℤ) : Outcome (ℤ → CellType) :=
  match o, tagFromNodes ((elementNodes g cell).map fun n => isoType (iso (g.node n))) with
  | .ok types, .ok t => .ok (Function.update types cell t)
  | _, _ => .undefined

/-- `tag_intersected_cells_from_implicit_surface`, `FictitiousGrid.inl:353-402`. -/
def tagFromIso (g : Grid D K) (iso : (Fin D → K) → K) (types : ℤ → CellType) : Outcome (ℤ → CellType) :=
  (indices g.numberOfCells).foldl (tagCellFromIso g iso) (.ok types)

/-- The classification of a cell or subcell during the subdivision when there is an implicit surface,
`FictitiousGrid.cpp:170-198` (2D) and `FictitiousGrid.cpp:262-291` (3D), from the iso values at its nodes: the type and
whether it must be subdivided. -/
def classifyIso (values : List K) : CellType × Bool :=
  let types := values.foldl (fun (c : ℕ × ℕ × ℕ) t =>
    if t < 0 then (c.1 + 1, c.2.1, c.2.2) else if t > 0 then (c.1, c.2.1 + 1, c.2.2) else (c.1, c.2.1, c.2.2 + 1)) (0, 0, 0)
  if types.1 = values.length then (.inside, false)
  else if types.2.1 = values.length then (.outside, false)
  else (.boundary, true)

end Iso

end Caribou.FictitiousGrid

import Verif.Model.FictitiousRegions
import Verif.Model.FictitiousSurface
import Verif.Model.Boundary

/-!
# Fictitious grid: drawing

`populate_drawing_vectors`, `draw` and `computeBBox` of `SofaCaribou/Topology/FictitiousGrid.{h,inl}`.  What is modelled are the calls of
`draw` to the drawing tool (filled cells with their colour, lines) and their points.  The vectors `p_drawing_nodes_vector` and
`p_drawing_edges_vector` are filled (`FictitiousGrid.inl:1088-1108`) but only used in lines which are commented out; they are left out, as
are the state of the lighting, the messages and the clock.
-/

set_option autoImplicit false

namespace Caribou.FictitiousGrid

/-- The vectors used by `draw`, `FictitiousGrid.h`: for every region the nodes of its cells, and the end points of their edges. -/
structure DrawVectors (K : Type*) where
  cells : List (List (Fin 3 → K))
  edges : List (List (Fin 3 → K))

/-- A call to the drawing tool: `drawQuads` (2D) or `drawHexahedra` (3D) with a colour (the three numerators over 255), `drawLines`. -/
inductive DrawCall (K : Type*) where
  | quads (points : List (Fin 3 → K)) (colour : ℕ × ℕ × ℕ)
  | hexahedra (points : List (Fin 3 → K)) (colour : ℕ × ℕ × ℕ)
  | lines (points : List (Fin 3 → K))

section Field

variable {D : ℕ} {K : Type*} [Field K]

/-- The points handed over to SOFA have three coordinates, `FictitiousGrid.inl:1128-1132`. -/
def point3 : (D : ℕ) → (Fin D → K) → Fin 3 → K
  | 2, p => ![p 0, p 1, 0]
  | 3, p => ![p 0, p 1, p 2]
  | _, _ => 0

/-- `e.node(i)`, `RectangularQuad.h` and `RectangularHexahedron.h`, with the identity as rotation. -/
def Box.nodeAt : {D : ℕ} → Box D K → Fin (2 ^ D) → Fin D → K
  | 2, e, i => e.world (quad1.node i)
  | 3, e, i => e.world (hexa1.node i)
  | _, e, _ => e.center

/-- `e.edges()`, `BaseRectangularQuad.h:59-61` and `RectangularHexahedron.h:92-108`. -/
def cellEdges : (D : ℕ) → List (Fin (2 ^ D) × Fin (2 ^ D))
  | 2 => [(0, 1), (1, 2), (2, 3), (3, 0)]
  | 3 => [(0, 1), (1, 2), (2, 3), (3, 0), (4, 5), (5, 6), (6, 7), (7, 4), (0, 4), (1, 5), (2, 6), (3, 7)]
  | _ => []

/-- A node moved towards the centre, `FictitiousGrid.inl:1127` and `FictitiousGrid.inl:1135-1136`. -/
def Box.drawn (e : Box D K) (scale : K) (i : Fin (2 ^ D)) : Fin 3 → K :=
  point3 D fun a => e.center a + (e.nodeAt i a - e.center a) * scale

/-- A leaf cell on the border of its region, `FictitiousGrid.inl:1123-1145`: its nodes and the end points of its edges are appended to
the vectors of its region.  An access outside of the vectors is undefined. -/
def drawLeaf (e : Box D K) (scale : K) (region : ℤ) (v : DrawVectors K) : Outcome (DrawVectors K) :=
  if 0 ≤ region ∧ region < v.cells.length ∧ region < v.edges.length then
    .ok ⟨v.cells.modify region.toNat fun l => l ++ (List.finRange (2 ^ D)).map (e.drawn scale),
      v.edges.modify region.toNat fun l => l ++ (cellEdges D).flatMap fun x => [e.drawn scale x.1, e.drawn scale x.2]⟩
  else .undefined

/-- The queue of one cell of the grid, `FictitiousGrid.inl:1114-1148`, with at most `fuel` visits; `region` and `border` are `region_id` and
`boundary_of_region` of the leaves by their path. -/
def drawQueue {α : Type*} (scale : K) (region : List (Fin (2 ^ D)) → ℤ) (border : List (Fin (2 ^ D)) → Bool) :
    ℕ → List (List (Fin (2 ^ D)) × CellTree D α × Box D K) → DrawVectors K → Outcome (DrawVectors K)
  | 0, _, v => .ok v
  | _ + 1, [], v => .ok v
  | fuel + 1, (path, .node ch, e) :: queue, v =>
    drawQueue scale region border fuel (queue ++ (List.finRange (2 ^ D)).map fun i => (i :: path, ch i, e.child i)) v
  | fuel + 1, (path, .leaf _, e) :: queue, v =>
    if border path then
      match drawLeaf e scale (region path) v with
      | .ok v' => drawQueue scale region border fuel queue v'
      | o => o
    else drawQueue scale region border fuel queue v

/-- The loop on the cells of the grid, `FictitiousGrid.inl:1110-1149`. -/
def drawTrees {α : Type*} (g : Grid D K) (cells : ℤ → CellTree D α) (scale : K) (region : CellRef D → ℤ) (border : CellRef D → Bool) :
    List ℕ → DrawVectors K → Outcome (DrawVectors K)
  | [], v => .ok v
  | i :: rest, v =>
    match drawQueue scale (fun p => region ⟨p, i⟩) (fun p => border ⟨p, i⟩) (cells i).count [([], cells i, gridBox g i)] v with
    | .ok v' => drawTrees g cells scale region border rest v'
    | o => o

/-- `populate_drawing_vectors`, `FictitiousGrid.inl:1073-1153`. -/
def populateDrawing {α : Type*} (g : Grid D K) (cells : ℤ → CellTree D α) (scale : K) (region : CellRef D → ℤ) (border : CellRef D → Bool)
    (numberOfRegions : ℕ) : Outcome (DrawVectors K) :=
  drawTrees g cells scale region border (List.range g.numberOfCells.toNat) ⟨List.replicate numberOfRegions [], List.replicate numberOfRegions []⟩

/-- `kelly_colors_hex`, `FictitiousGrid.inl:1155-1178`. -/
def kellyColours : List ℕ :=
  [0xFFFFB300, 0xFF803E75, 0xFFFF6800, 0xFFA6BDD7, 0xFFC10020, 0xFFCEA262, 0xFF817066, 0xFF007D34, 0xFFF6768E, 0xFF00538A, 0xFFFF7A5C,
    0xFF53377A, 0xFFFF8E00, 0xFFB32851, 0xFFF4C800, 0xFF7F180D, 0xFF93AA00, 0xFF593315, 0xFFF13A13, 0xFF232C16]

/-- `cell_color`, `FictitiousGrid.inl:1203-1208`: the conversions to `unsigned char` keep eight bits. -/
def cellColour (region : ℕ) : ℕ × ℕ × ℕ :=
  let hex := kellyColours.getD (region % 20) 0
  (hex / 2 ^ 16 % 256, hex / 2 ^ 8 % 256, hex % 256)

/-- The data of the component which `draw` uses, `FictitiousGrid.h:309-312`, and the grid with its vectors once it exists. -/
structure GridView (D : ℕ) (K : Type*) where
  scale : K
  drawBoundary : Bool
  drawOutside : Bool
  drawInside : Bool
  content : Option (List (Region (CellRef D)) × DrawVectors K)

/-- The condition of `draw` on a region, `FictitiousGrid.inl:1199-1201`. -/
def GridView.wants (v : GridView D K) : CellType → Bool
  | .boundary => v.drawBoundary
  | .outside => v.drawOutside
  | .inside => v.drawInside
  | .undef => false

/-- One region, `FictitiousGrid.inl:1199-1219`. -/
def GridView.drawRegion (v : GridView D K) (wireframe : Bool) (region : ℕ) (type : CellType) (cells edges : List (Fin 3 → K)) :
    List (DrawCall K) :=
  if v.wants type then
    (if wireframe then [] else if D = 2 then [.quads cells (cellColour region)] else [.hexahedra cells (cellColour region)]) ++ [.lines edges]
  else []

/-- The loop of `draw` on the regions, `FictitiousGrid.inl:1198-1220`; accesses outside of `p_regions` or of the second vector are
undefined. -/
def GridView.drawRegions (v : GridView D K) (wireframe : Bool) (regions : List (Region (CellRef D))) (edges : List (List (Fin 3 → K))) :
    ℕ → List (List (Fin 3 → K)) → Outcome (List (DrawCall K))
  | _, [] => .ok []
  | i, cells :: rest =>
    match regions[i]?, edges[i]? with
    | some r, some l =>
      match v.drawRegions wireframe regions edges (i + 1) rest with
      | .ok calls => .ok (v.drawRegion wireframe i r.type cells l ++ calls)
      | o => o
    | _, _ => .undefined

/-- `draw`, `FictitiousGrid.inl:1180-1223`. -/
def GridView.draw (v : GridView D K) (wireframe : Bool) : Outcome (List (DrawCall K)) :=
  match v.content with
  | none => .ok []
  | some (regions, vectors) => v.drawRegions wireframe regions vectors.edges 0 vectors.cells

/-- `create_grid` after the subdivision, `FictitiousGrid.inl:332-350`: the regions, their types and the vectors.  `cells` are the trees
after `subdivide_intersected_cells`; that the types of their leaves are overwritten by steps 3 and 4 does not matter for the drawing,
which reads their shape only.  (`validate_grid` is left out: it does not throw on these regions, C60_validate.  `create_sparse_grid`
does not touch the data used here.) -/
def GridView.create (v : GridView D K) (g : Grid D K) (cells : ℤ → CellTree D (CellData K)) : Outcome (GridView D K) :=
  let leaves := allLeaves cells g.numberOfCells.toNat
  match createRegions (leafType cells) (fun c s => getNeighbors g cells c s.1 s.2) (sides D) leaves.length leaves with
  | .ok s =>
    let tagged := tagRegions g ⟨s.regions, leafType cells⟩
    match populateDrawing g cells v.scale s.regionId s.boundary tagged.regions.length with
    | .ok vectors => .ok { v with content := some (tagged.regions, vectors) }
    | .throws vectors => .throws { v with content := some (tagged.regions, vectors) }
    | .hangs => .hangs
    | .undefined => .undefined
  | .throws s => .throws { v with content := some (s.regions, ⟨[], []⟩) }
  | .hangs => .hangs
  | .undefined => .undefined

/-- `computeBBox`, `FictitiousGrid.h:257-273`: the two corners of `f_bbox`, `none` when it is left as it was.  (The constructor of SOFA's
`TBoundingBox` keeps the two corners as they are.) -/
def gridBBox (onlyVisible : Bool) (first second : Fin D → K) : Option ((Fin 3 → K) × (Fin 3 → K)) :=
  if onlyVisible = false then none
  else if D = 2 then some (point3 D first + ![0, 0, -1], point3 D second + ![0, 0, 1])
  else some (point3 D first, point3 D second)

end Field

end Caribou.FictitiousGrid

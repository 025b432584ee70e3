import Verif.Model.Elements
import Verif.Model.Mesh
import Mathlib.Data.Fintype.Card

/-!
# `VTKReader` of `src/Caribou/Topology/IO`

What the VTK library returns for a file is the input: a list of points, a list of cells (type and point ids) and the list
of the cell types it reports.  Coordinates are elements of a type with decidable equality (no NaN).
-/

set_option autoImplicit false

namespace Caribou

/-- The cell types for which the reader has a builder, `VTKReader.cpp:38-75`, and the others. -/
inductive VTKKind
  | line | quadraticEdge | quad | quadraticQuad | triangle | quadraticTriangle
  | tetra | quadraticTetra | hexahedron | quadraticHexahedron
  | other (code : ℕ)
deriving DecidableEq

/-- The element class of a cell type, `VTKReader.cpp:38-76`; the types of dimension two are registered when
`Dimension > 1`, those of dimension three when `Dimension > 2`. -/
def vtkElement (D : ℕ) : VTKKind → Option ElementType
  | .line => some .segment1
  | .quadraticEdge => some .segment2
  | .quad => if 1 < D then some .quad1 else none
  | .quadraticQuad => if 1 < D then some .quad2 else none
  | .triangle => if 1 < D then some .triangle1 else none
  | .quadraticTriangle => if 1 < D then some .triangle2 else none
  | .tetra => if 2 < D then some .tetra1 else none
  | .quadraticTetra => if 2 < D then some .tetra2 else none
  | .hexahedron => if 2 < D then some .hexa1 else none
  | .quadraticHexahedron => if 2 < D then some .hexa2 else none
  | .other _ => none

/-- The assignments `reordered_indices.col(dst) = indices.col(src)` of `VTKReader.cpp:63-73`, as pairs `(dst, src)`. -/
def vtkAssignments : List (ℕ × ℕ) :=
  [(10, 18), (12, 10), (13, 14), (14, 15), (15, 12), (16, 13), (17, 16), (18, 19), (19, 17)]

/-- One of these assignments on one row. -/
def vtkAssign (indices reordered : List ℕ) (p : ℕ × ℕ) : List ℕ := reordered.set p.1 (indices.getD p.2 0)

/-- The node indices of an element from the point ids of its cell: unchanged for `register_element_type<Element>`
(`VTKReader.h:40-45`), the lambda `VTKReader.cpp:59-75` for quadratic hexahedra. -/
def vtkReorder (k : VTKKind) (indices : List ℕ) : List ℕ :=
  match k with
  | .quadraticHexahedron => vtkAssignments.foldl (vtkAssign indices) indices
  | _ => indices

variable {K : Type*} [DecidableEq K]

/-- One pass of the loop `VTKReader.cpp:243-249`: `is_all_the_same` after comparing `v` with the first point. -/
def sameStep (first : Fin 3 → K) (same : Fin 3 → Bool) (v : Fin 3 → K) : Fin 3 → Bool :=
  fun axis => if first axis ≠ v axis then false else same axis

/-- The loop `VTKReader.cpp:261-265` which lists the axes not marked. -/
def varyingAxes (same : Fin 3 → Bool) : List (Fin 3) := [0, 1, 2].filter fun axis => !same axis

/-- `extract_axes_from_3D_vectors<Dimension>`, `VTKReader.cpp:230-268`.  `GetPoint(0)` of an empty point set is
undefined. -/
def extractAxes (D : ℕ) (points : List (Fin 3 → K)) : Outcome (List (Fin 3)) :=
  if D = 3 then .ok [0, 1, 2]
  else match points with
    | [] => .undefined
    | p :: rest =>
      let same := rest.foldl (sameStep p) (fun _ => true)
      if (varyingAxes same).length ≠ D then .throws [] else .ok (varyingAxes same)

/-- A cell: its type and the ids of its points. -/
structure VTKCell where
  kind : VTKKind
  ids : List ℕ
deriving DecidableEq

/-- The output of `vtkUnstructuredGridReader`: the points, the cells, and the cell types listed by `GetCellTypes`. -/
structure VTKGrid (K : Type*) where
  points : List (Fin 3 → K)
  cells : List VTKCell
  types : List VTKKind

/-- A domain added to the imported mesh: its name, element class and table of node indices. -/
structure ImportedDomain where
  name : String
  element : ElementType
  table : List (List ℕ)

/-- The imported mesh. -/
structure ImportedMesh (K : Type*) (D : ℕ) where
  nodes : List (Fin D → K)
  domains : List ImportedDomain

/-- A node from a point, `VTKReader.cpp:116-121`. -/
def importNode (D : ℕ) (axes : List (Fin 3)) (v : Fin 3 → K) : Fin D → K := fun a => v (axes.getD a.val 0)

/-- The cells of one type in the order of the file, `VTKReader.cpp:131` and 145-152. -/
def cellsOfKind (g : VTKGrid K) (k : VTKKind) : List (List ℕ) :=
  (g.cells.filter fun c => c.kind = k).map (·.ids)

/-- One pass of the loop on the types, `VTKReader.cpp:128-157`; the name is given at `VTKReader.h:42` and
`VTKReader.cpp:74`: `"domain_" + std::to_string(m.number_of_domains()+1)`. -/
def importType (g : VTKGrid K) (D : ℕ) (domains : List ImportedDomain) (k : VTKKind) : List ImportedDomain :=
  if (cellsOfKind g k).isEmpty then domains
  else match vtkElement D k with
    | none => domains
    | some T => domains ++ [⟨"domain_" ++ toString (domains.length + 1), T, (cellsOfKind g k).map (vtkReorder k)⟩]

/-- `VTKReader::Read` followed by `VTKReader::mesh`, `VTKReader.cpp:80-160`. -/
def readMesh (D : ℕ) (g : VTKGrid K) : Outcome (ImportedMesh K D) :=
  match extractAxes D g.points with
  | .ok axes =>
    if g.points.isEmpty then .ok ⟨[], []⟩
    else .ok ⟨g.points.map (importNode D axes), g.types.foldl (importType g D) []⟩
  | .throws _ => .throws ⟨[], []⟩
  | .hangs => .hangs
  | .undefined => .undefined

end Caribou

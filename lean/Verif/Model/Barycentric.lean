import Verif.Model.HashGrid
import Verif.Model.LocalCoordinates
import Verif.Model.Canonical

/-!
# `BarycentricContainer` of `src/Caribou/Topology`

The container elements are those of a domain: node positions of the mesh and one row of node indices per element.
-/

set_option autoImplicit false

namespace Caribou

/-- A `Domain` attached to a `Mesh`, seen from the container: positions of the nodes of the mesh, and node indices of the
elements (`Domain.h:286-292`), for elements with `n` nodes in dimension `m`.  Indices are assumed to be in range. -/
structure MeshDomain (K : Type*) (m n : ℕ) where
  numNodes : ℕ
  position : Fin numNodes → Fin m → K
  numElements : ℕ
  indices : Fin numElements → Fin n → Fin numNodes

namespace MeshDomain

variable {K : Type*} {m n : ℕ}

/-- `Domain::element(id).nodes()`, `Domain.h:317-340`, for the elements that store the node positions they are built from. -/
def element (D : MeshDomain K m n) (e : Fin D.numElements) : Fin n → Fin m → K := fun i => D.position (D.indices e i)

end MeshDomain

/-- What the container uses of the element class: `local_coordinates(p)` and `contains_local(ξ)`, given the nodes, and
the shape functions. -/
structure ElementOps (K : Type*) (m d n : ℕ) where
  localCoordinates : (Fin n → Fin m → K) → (Fin m → K) → Fin d → K
  containsLocal : (Fin n → Fin m → K) → (Fin d → K) → Bool
  L : (Fin d → K) → Fin n → K

/-- `BarycentricPoint`, `BarycentricContainer.h:44-51`; `elementIndex = none` stands for the index `-1`. -/
structure BarycentricPoint (K : Type*) (d N : ℕ) where
  elementIndex : Option (Fin N)
  localCoordinates : Fin d → K

section

variable {K : Type*} [Field K] [LinearOrder K] [FloorRing K] {m d n : ℕ}

/-- The isoparametric element classes (segment, triangle, quad, tetrahedron, hexahedron): `Element.h:169-171` and
`Element.h:272` with its default `eps = 1e-10`.  (`containsLocal` is defined for all of them; the `none` case of the rectangular
quad, which does not compile, is mapped to `false`.) -/
noncomputable def ElementType.ops (T : ElementType) (m : ℕ) : ElementOps K m T.dim T.numNodes where
  localCoordinates nodes p := localCoordinatesDefault T.elem nodes p
  containsLocal _ ξ := (T.containsLocal ξ (1 / 10 ^ 10)).getD false
  L := T.elem.L

namespace MeshDomain

/-- `H_mean` after the loop and the division, `BarycentricContainer.h:91-100`. -/
def meanSize (D : MeshDomain K m n) (a : Fin m) : K :=
  (∑ e, (maxCoeff (D.element e) a - minCoeff (D.element e) a)) / (D.numElements : K)

/-- `H_mean.maxCoeff()`, `BarycentricContainer.h:103`. -/
def cellSize (D : MeshDomain K m n) : K :=
  match List.ofFn D.meanSize with
  | [] => 0
  | x :: xs => xs.foldl max x

/-- The hash grid built by the constructor, `BarycentricContainer.h:102-107`. -/
def hashGrid (D : MeshDomain K m n) : HashGrid m K :=
  (List.finRange D.numElements).foldl (fun g e => g.add (D.element e) e) (HashGrid.empty D.cellSize)

/-- The loop over the candidates, `BarycentricContainer.h:126-136`.  The candidates are identifiers of elements; one that
is not an element of the domain (there is none, see `HashGrid.get`) is skipped. -/
def findElement (ops : ElementOps K m d n) (D : MeshDomain K m n) (p : Fin m → K) : List ℕ → BarycentricPoint K d D.numElements
  | [] => ⟨none, 0⟩
  | id :: rest =>
    if h : id < D.numElements then
      let nodes := D.element ⟨id, h⟩
      let ξ := ops.localCoordinates nodes p
      if ops.containsLocal nodes ξ then ⟨some ⟨id, h⟩, ξ⟩ else findElement ops D p rest
    else findElement ops D p rest

/-- `barycentric_point(p)`, `BarycentricContainer.h:121-137`. -/
def barycentricPoint (ops : ElementOps K m d n) (D : MeshDomain K m n) (p : Fin m → K) : BarycentricPoint K d D.numElements :=
  findElement ops D p (D.hashGrid.get p)

/-- `closest_elements(p)`, `BarycentricContainer.h:142-155`. -/
def closestElements (ops : ElementOps K m d n) (D : MeshDomain K m n) (p : Fin m → K) : List (Fin D.numElements × (Fin d → K)) :=
  (D.hashGrid.get p).filterMap fun id =>
    if h : id < D.numElements then some (⟨id, h⟩, ops.localCoordinates (D.element ⟨id, h⟩) p) else none

/-- State of the container after `set_embedded_points`: `p_barycentric_points` and `p_outside_nodes`. -/
structure Embedded (K : Type*) (d N : ℕ) where
  points : List (BarycentricPoint K d N)
  outside : List ℕ

/-- One iteration of the loop, `BarycentricContainer.h:276-283`; `node_id` is the number of points treated so far. -/
def embedStep (ops : ElementOps K m d n) (D : MeshDomain K m n) (s : Embedded K d D.numElements × ℕ) (p : Fin m → K) :
    Embedded K d D.numElements × ℕ :=
  let bp := D.barycentricPoint ops p
  (⟨s.1.points ++ [bp], if bp.elementIndex.isNone then s.1.outside ++ [s.2] else s.1.outside⟩, s.2 + 1)

/-- `set_embedded_points`, `BarycentricContainer.h:259-284`. -/
def setEmbeddedPoints (ops : ElementOps K m d n) (D : MeshDomain K m n) (points : List (Fin m → K)) : Embedded K d D.numElements :=
  (points.foldl (embedStep ops D) (⟨[], []⟩, 0)).1

/-- The constructors, `BarycentricContainer.h:69-108`: `none` stands for the exception thrown for a domain without elements. -/
def container (ops : ElementOps K m d n) (D : MeshDomain K m n) (points : List (Fin m → K)) : Option (Embedded K d D.numElements) :=
  if D.numElements = 0 then none else some (D.setEmbeddedPoints ops points)

/-- `interpolate(container_field_values, embedded_field_values)`, `BarycentricContainer.h:174-231`, for fields with `k` columns:
the rows written (`none`: the row is left as it was).  The checks of the sizes (179-195) are in the types, except the number of
output rows, which is the number of embedded points here.  A negative element index is skipped at line 204 whenever the list
of outside nodes is not empty; when it is empty no index is negative (`C35`). -/
def interpolate (ops : ElementOps K m d n) (D : MeshDomain K m n) (s : Embedded K d D.numElements) {k : ℕ}
    (values : Fin D.numNodes → Fin k → K) : List (Option (Fin k → K)) :=
  s.points.map fun bp => bp.elementIndex.map fun e => fun a => ∑ i, values (D.indices e i) a * ops.L bp.localCoordinates i

end MeshDomain

end

end Caribou

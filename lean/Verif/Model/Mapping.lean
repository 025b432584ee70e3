import Verif.Model.Barycentric
import Verif.Model.EigenMatrix

/-!
# `CaribouBarycentricMapping` of `src/SofaCaribou/Mapping`

Simplifications: the topology is given and has a domain, the parent object has one node per node of the mesh of the domain
(the code does not check it: other sizes are undefined behaviour), scalars of parent and mapped objects are the same field.
The storage order of the mapping matrix is a parameter (the code is written for both and uses column-major).
-/

set_option autoImplicit false

namespace Caribou

variable {K : Type*} [Field K] {m d n : ℕ}

/-- The members `p_barycentric_container` and `p_J`, `CaribouBarycentricMapping.h:79-80`. -/
structure BarycentricMapping (K : Type*) (d N : ℕ) where
  container : Option (MeshDomain.Embedded K d N)
  J : SMatrix K

namespace BarycentricMapping

/-- The triplets of one mapped node, `CaribouBarycentricMapping.inl:110-118` (a node in no element, of which there is none
when this is called, has no triplets). -/
def pointEntries (ops : ElementOps K m d n) (D : MeshDomain K m n) (bp : BarycentricPoint K d D.numElements) (i : ℕ) :
    List (ℕ × ℕ × K) :=
  match bp.elementIndex with
  | none => []
  | some e => (List.finRange n).map fun j => (i, (D.indices e j).val, ops.L bp.localCoordinates j)

/-- The triplets of the mapping matrix, `CaribouBarycentricMapping.inl:109-119`. -/
def entries (ops : ElementOps K m d n) (D : MeshDomain K m n) (s : MeshDomain.Embedded K d D.numElements) : List (ℕ × ℕ × K) :=
  s.points.zipIdx.flatMap fun bp => pointEntries ops D bp.1 bp.2

/-- `init`, `CaribouBarycentricMapping.inl:64-122`, from the sizes to the mapping matrix; `none` stands for the exception of the
constructor of the container. -/
def init [LinearOrder K] [FloorRing K] (rowMajor : Bool) (ops : ElementOps K m d n) (D : MeshDomain K m n)
    (rest : List (Fin m → K)) (M : BarycentricMapping K d D.numElements) : Option (BarycentricMapping K d D.numElements) :=
  if D.numNodes = 0 then some M
  else if rest.length = 0 then some M
  else (D.container ops rest).map fun s =>
    if s.outside.isEmpty then ⟨some s, (SMatrix.empty rowMajor rest.length D.numNodes).setFromTriplets (entries ops D s)⟩
    else ⟨some s, M.J⟩

/-- The container used by the other methods after their sanity check, `CaribouBarycentricMapping.inl:133-135`. -/
def ready {N : ℕ} (M : BarycentricMapping K d N) : Option (MeshDomain.Embedded K d N) :=
  M.container.filter fun s => s.outside.isEmpty

/-- `apply` and `applyJ`, `CaribouBarycentricMapping.inl:129-188`: the rows written (`none`: left as it was). -/
def applyJ (ops : ElementOps K m d n) (D : MeshDomain K m n) (M : BarycentricMapping K d D.numElements) {k : ℕ}
    (v : Fin D.numNodes → Fin k → K) : List (Option (Fin k → K)) :=
  match M.ready with
  | none => []
  | some s => s.points.map fun bp => bp.elementIndex.map fun e => fun a => ∑ i, v (D.indices e i) a * ops.L bp.localCoordinates i

/-- `applyJT` on forces, `CaribouBarycentricMapping.inl:191-220`. -/
def applyJT {N k : ℕ} (M : BarycentricMapping K d N) (out : ℕ → Fin k → K) (f : ℕ → Fin k → K) : ℕ → Fin k → K :=
  match M.ready with
  | none => out
  | some _ => fun node a => out node a + ∑ i ∈ Finset.range M.J.rows, M.J.coeff i node * f i a

/-- `output_row.addCol(node, value)`. -/
def addCol {k : ℕ} (row : ℕ → Fin k → K) (node : ℕ) (v : Fin k → K) : ℕ → Fin k → K :=
  fun n => if n = node then row n + v else row n

/-- The slot found by the binary search of lines 264-266, and its value. -/
def searchValue (l : List (Slot K)) (key : ℕ) : Option K :=
  (l[searchLower l key l.length 0 l.length]?).bind fun s => if s.1 = key then some s.2 else none

/-- The contribution of one entry of a constraint line, `CaribouBarycentricMapping.inl:252-271`. -/
def addEntry {k : ℕ} (J : SMatrix K) (row : ℕ → Fin k → K) (node : ℕ) (v : Fin k → K) : ℕ → Fin k → K :=
  if J.rowMajor then (J.vec node).used.foldl (fun row s => addCol row s.1 fun a => v a * s.2) row
  else (List.range J.outerSize).foldl (fun row j =>
    match searchValue (J.vec j).slots node with
    | none => row
    | some x => addCol row j fun a => v a * x) row

/-- `applyJT` on constraints, `CaribouBarycentricMapping.inl:223-274`: lines of the mapped constraint matrix are lists of
(mapped node, value); the output gives a row of values per line (a missing value is zero). -/
def applyJTConstraint {N k : ℕ} (M : BarycentricMapping K d N) (out : ℕ → ℕ → Fin k → K)
    (lines : List (ℕ × List (ℕ × (Fin k → K)))) : ℕ → ℕ → Fin k → K :=
  match M.ready with
  | none => out
  | some _ => lines.foldl (fun out line => fun r =>
      if r = line.1 then line.2.foldl (fun row e => addEntry M.J row e.1 e.2) (out r) else out r) out

end BarycentricMapping

end Caribou

import Mathlib.Algebra.BigOperators.Group.Finset.Basic
import Mathlib.Algebra.Field.Defs
import Mathlib.Data.Finset.Range
import Mathlib.Algebra.Group.Pi.Basic

/-!
# The system assembled from a scene of several bodies

`EigenSolver::assemble`, `StaticODESolver::assemble_system_matrix`, `assemble_rhs_vector` and `propagate_solution_increment`, with the
visitors `AssembleGlobalMatrix` and `ConstrainGlobalMatrix`, for any number of mechanical objects, some of them mapped to others.

Simplifications: mechanical objects are visited in some order in which the parent of a mapped object comes before it, and they are
numbered in this order; lists of bodies are kept in the reverse order, the last one visited first, so that the index of a body is the
number of those behind it.  A mapping has one input and one output and is mechanical.  Constraints are fixed degrees of freedom.
The matrices are plain ones (see `C57` for the wrapper).  The visitors of SOFA and `DefaultMultiMatrixAccessor` are part of SOFA, not of
the repository.
-/

set_option autoImplicit false

namespace Caribou

open Finset

/-- A mapping (SOFA, `BaseMapping`): the index of its input, `apply`, the matrix `J` of `applyJ` and `applyJT`, `areForcesMapped`,
`areMatricesMapped`, and whether `getJ` returns this matrix (the null pointer otherwise: `CaribouBarycentricMapping.h:43-72` does not
override it). -/
structure BodyLink (K : Type*) where
  parent : ℕ
  apply : (ℕ → K) → ℕ → K
  J : ℕ → ℕ → K
  mapsForces : Bool
  mapsMatrices : Bool
  givesJ : Bool

/-- A mechanical object: its number of degrees of freedom and the mapping of which it is the output (`none` for a top level one). -/
structure MechBody (K : Type*) where
  size : ℕ
  link : Option (BodyLink K)

/-- A force field of the body `body`: its forces and their derivative, as functions of the positions of the body. -/
structure BodyForce (K : Type*) where
  body : ℕ
  force : (ℕ → K) → ℕ → K
  stiff : (ℕ → K) → ℕ → ℕ → K

/-- A scene: the bodies, the force fields and the constraints (body and fixed degrees of freedom), in the order of the visits. -/
structure BodyScene (K : Type*) where
  bodies : List (MechBody K)
  forces : List (BodyForce K)
  fixed : List (ℕ × List ℕ)

namespace Bodies

variable {K : Type*}

/-- The body with index `k`. -/
def bodyAt : List (MechBody K) → ℕ → Option (MechBody K)
  | [], _ => none
  | b :: l, k => if k = l.length then some b else bodyAt l k

/-- `setupMatrices` of the accessor (SOFA), `EigenSolver.inl:59-61`: the position in the global system of the first degree of freedom
of the body `k`, the sizes of the top level bodies visited before. -/
def offset : List (MechBody K) → ℕ → ℕ
  | [], _ => 0
  | b :: l, k => offset l k + if b.link.isNone && decide (l.length < k) then b.size else 0

/-- `getGlobalDimension`, `EigenSolver.inl:50-51`. -/
def dimension (l : List (MechBody K)) : ℕ := offset l l.length

/-- Whether the visitors `AssembleGlobalMatrix` and `ConstrainGlobalMatrix` go to the body `k`: they stop at the mappings whose matrices
are not mapped, `AssembleGlobalMatrix.cpp:14-16`, `ConstrainGlobalMatrix.cpp:16-18`. -/
def visited : List (MechBody K) → ℕ → Bool
  | [], _ => false
  | b :: l, k =>
    if k = l.length then
      match b.link with
      | none => true
      | some m => m.mapsMatrices && visited l m.parent
    else visited l k

/-- Whether `MechanicalComputeForceVisitor` goes to the body `k`: it stops at the mappings whose forces are not mapped (SOFA). -/
def forceVisited : List (MechBody K) → ℕ → Bool
  | [], _ => false
  | b :: l, k =>
    if k = l.length then
      match b.link with
      | none => true
      | some m => m.mapsForces && forceVisited l m.parent
    else forceVisited l k

variable [Field K]

/-- The accessor: the global matrix, and the matrices of the mapped bodies which were asked for. -/
structure State (K : Type*) where
  global : ℕ → ℕ → K
  mapped : ℕ → Option (ℕ → ℕ → K)

/-- Adding the matrix of a body with `n` degrees of freedom at the diagonal position `o`. -/
def addBlock (o n : ℕ) (M G : ℕ → ℕ → K) : ℕ → ℕ → K := fun i j =>
  G i j + if o ≤ i ∧ i < o + n ∧ o ≤ j ∧ j < o + n then M (i - o) (j - o) else 0

/-- `getMatrix` of the accessor (SOFA) followed by an addition: to the global matrix for a top level body, to a matrix of its own, made
at the first call, for a mapped one. -/
def addTo (l : List (MechBody K)) (k : ℕ) (M : ℕ → ℕ → K) (s : State K) : State K :=
  match bodyAt l k with
  | none => s
  | some b =>
    match b.link with
    | none => { s with global := addBlock (offset l k) b.size M s.global }
    | some _ => { s with mapped := Function.update s.mapped k (some ((s.mapped k).getD 0 + M)) }

/-- `AssembleGlobalMatrix`, `AssembleGlobalMatrix.cpp:9-12`, with `kFactor = c`; `pos k` are the positions of the body `k`. -/
def assemble (l : List (MechBody K)) (c : K) (pos : ℕ → ℕ → K) (forces : List (BodyForce K)) (s : State K) : State K :=
  (forces.filter fun f => visited l f.body).foldl (fun s f => addTo l f.body (fun i j => c * f.stiff (pos f.body) i j) s) s

/-- Clearing the rows and the columns `p` and writing one on the diagonal. -/
def clearRows (p : ℕ → Bool) (M : ℕ → ℕ → K) : ℕ → ℕ → K := fun i j => if p i || p j then (if i = j then 1 else 0) else M i j

/-- The degrees of freedom `dofs` of a body whose first one is at the position `o`. -/
def fixedAt (o : ℕ) (dofs : List ℕ) (i : ℕ) : Bool := decide (o ≤ i) && decide (i - o ∈ dofs)

/-- `applyConstraint` of a constraint of the body `k` (SOFA), called at `ConstrainGlobalMatrix.cpp:11-14`. -/
def constrainOne (l : List (MechBody K)) (k : ℕ) (dofs : List ℕ) (s : State K) : State K :=
  match bodyAt l k with
  | none => s
  | some b =>
    match b.link with
    | none => { s with global := clearRows (fixedAt (offset l k) dofs) s.global }
    | some _ => { s with mapped := Function.update s.mapped k (some (clearRows (fixedAt 0 dofs) ((s.mapped k).getD 0))) }

/-- `ConstrainGlobalMatrix`, `ConstrainGlobalMatrix.cpp:11-18`. -/
def constrain (l : List (MechBody K)) (fixed : List (ℕ × List ℕ)) (s : State K) : State K :=
  (fixed.filter fun c => visited l c.1).foldl (fun s c => constrainOne l c.1 c.2 s) s

/-- The product `Jᵀ M J` for a mapped body with `n` degrees of freedom. -/
def pullMatrix (n : ℕ) (J M : ℕ → ℕ → K) : ℕ → ℕ → K := fun a c => ∑ i ∈ range n, ∑ j ∈ range n, J i a * M i j * J j c

/-- `computeGlobalMatrix` of the accessor (SOFA), called at `EigenSolver.inl:95-97`, `StaticODESolver.cpp:87-89`: the mappings from the
last one to the first one; only those which map matrices and whose `getJ` is not null were registered. -/
def pullUp : List (MechBody K) → State K → State K
  | [], s => s
  | b :: l, s =>
    match b.link with
    | none => pullUp l s
    | some m =>
      if m.mapsMatrices && m.givesJ then
        match s.mapped l.length with
        | none => pullUp l s
        | some M => pullUp l (addTo l m.parent (pullMatrix b.size m.J M) s)
      else pullUp l s

/-- The positions of all bodies, when those of the top level bodies are in the global vector `x`:
`propagate_solution_increment`, `StaticODESolver.cpp:99-125`, copies the global vector into the top level bodies (107), then calls `apply`
on the mappings, in the order of the visits (124). -/
def positions : List (MechBody K) → (ℕ → K) → ℕ → ℕ → K
  | [], _, _ => 0
  | b :: l, x, k =>
    if k = l.length then
      match b.link with
      | none => fun i => x (dimension l + i)
      | some m => m.apply (positions l x m.parent)
    else positions l x k

/-- The second half of `MechanicalComputeForceVisitor` (SOFA), `StaticODESolver.cpp:45-47`: `applyJT` from the last mapping to the
first one. -/
def pullForces : List (MechBody K) → (ℕ → ℕ → K) → ℕ → ℕ → K
  | [], f => f
  | b :: l, f =>
    match b.link with
    | none => pullForces l f
    | some m =>
      if m.mapsForces then
        pullForces l (Function.update f m.parent (f m.parent + fun a => ∑ i ∈ range b.size, m.J i a * f l.length i))
      else pullForces l f

/-- `MechanicalMultiVectorToBaseVectorVisitor` (SOFA), `StaticODESolver.cpp:55-57`: the vectors of the top level bodies one after the
other. -/
def gather : List (MechBody K) → (ℕ → ℕ → K) → ℕ → K
  | [], _ => 0
  | b :: l, f =>
    match b.link with
    | none => fun i => if dimension l ≤ i ∧ i < dimension l + b.size then f l.length (i - dimension l) else gather l f i
    | some _ => gather l f

end Bodies

namespace BodyScene

variable {K : Type*} [Field K]

/-- The matrix assembled for the positions `x` of the top level bodies: `EigenSolver::assemble`, `EigenSolver.inl:31-109`, and
`StaticODESolver::assemble_system_matrix`, `StaticODESolver.cpp:61-96` (with `c = -1`). -/
def matrix (S : BodyScene K) (c : K) (x : ℕ → K) : ℕ → ℕ → K :=
  let pos := Bodies.positions S.bodies x
  (Bodies.pullUp S.bodies (Bodies.constrain S.bodies S.fixed (Bodies.assemble S.bodies c pos S.forces ⟨0, fun _ => none⟩))).global

/-- The forces of all bodies after `addForce` of every force field, `StaticODESolver.cpp:38-46`. -/
def bodyForces (S : BodyScene K) (x : ℕ → K) : ℕ → ℕ → K := fun k i =>
  ((S.forces.filter fun f => Bodies.forceVisited S.bodies f.body && decide (f.body = k)).map fun f =>
    f.force (Bodies.positions S.bodies x k) i).sum

/-- `projectResponse` of the constraints, `StaticODESolver.cpp:49-53`. -/
def project (S : BodyScene K) (f : ℕ → ℕ → K) : ℕ → ℕ → K := fun k i =>
  if S.fixed.any fun c => decide (c.1 = k) && decide (i ∈ c.2) then 0 else f k i

/-- The vector assembled by `assemble_rhs_vector`, `StaticODESolver.cpp:34-58`. -/
def rhs (S : BodyScene K) (x : ℕ → K) : ℕ → K :=
  Bodies.gather S.bodies (S.project (Bodies.pullForces S.bodies (S.bodyForces x)))

end BodyScene

end Caribou

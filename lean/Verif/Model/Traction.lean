import Verif.Model.Canonical
import Verif.Model.Frame
import Verif.Model.Mesh

/-!
# Model of `TractionForcefield` and of `CaribouForcefield::computeBBox`

Nodes are numbered by `Fin N`, elements by `Fin M`, the nodes of an element by `Fin n`; vectors of the world are
`Fin D → ℝ` with `D = 2` or `D = 3`.  The elements are the surface elements for which the force field is instantiated
(`TractionForcefield[Triangle].cpp`, `TractionForcefield[Quad].cpp`).  SOFA's default constructor of a vector sets it to
zero.  The mechanical state exists and its number of nodes `N` does not change; the vector `f` given to `addForce` has
`N` entries.
-/

set_option autoImplicit false

namespace Caribou

/-- The surface elements for which the force field is instantiated. -/
inductive SurfaceType
  | triangle1 | triangle2 | quad1 | quad2
deriving DecidableEq

namespace SurfaceType

/-- `Element::NumberOfNodesAtCompileTime`. -/
def numNodes : SurfaceType → ℕ
  | triangle1 => 3 | triangle2 => 6 | quad1 => 4 | quad2 => 8

/-- The geometry element. -/
noncomputable def elem : (T : SurfaceType) → Elem ℝ 2 T.numNodes
  | triangle1 => Caribou.triangle1 | triangle2 => Caribou.triangle2 | quad1 => Caribou.quad1 | quad2 => Caribou.quad2

/-- The quadrature of the element. -/
noncomputable def gauss : SurfaceType → List (GaussNode 2)
  | triangle1 => gaussTriangle1 | triangle2 => gaussTriangle2 | quad1 => gaussQuad | quad2 => gaussQuad

end SurfaceType

/-- `TractionForcefield::GaussNode`, `TractionForcefield.h:57-61`. -/
structure TNode (n : ℕ) where
  weight : ℝ
  detJ : ℝ
  N : Fin n → ℝ

/-- `detJ` of a surface element in 3D, `TractionForcefield.inl:259-260`. -/
noncomputable def areaFactor3 (J : Matrix (Fin 3) (Fin 2) ℝ) : ℝ :=
  |norm2 (crossProduct (fun a => J a 0) (fun a => J a 1))|

/-- `detJ` of a surface element in 2D, `TractionForcefield.inl:261-263`. -/
noncomputable def areaFactor2 (J : Matrix (Fin 2) (Fin 2) ℝ) : ℝ := |J.det|

/-- `get_gauss_nodes`, `TractionForcefield.inl:247-276`, for the element with nodes `X`. -/
noncomputable def getTractionNodes {n D : ℕ} (E : Elem ℝ 2 n) (gauss : List (GaussNode 2))
    (areaFactor : Matrix (Fin D) (Fin 2) ℝ → ℝ) (X : Fin n → Fin D → ℝ) : List (TNode n) :=
  gauss.map fun g => ⟨g.weight, areaFactor (E.jacobian X g.position), E.L g.position⟩

/-- The data fields `traction`, `slope` and `number_of_steps_before_increment`, `TractionForcefield.inl:21-35`. -/
structure TractionData (D : ℕ) where
  traction : Fin D → ℝ
  slope : ℝ
  steps : ℕ

/-- The members of the force field, `TractionForcefield.h:121-130`.  `nodal` is the content of `nodal_forces`: `none` is
the empty vector, `some` a vector with one entry per node (the code resizes it to nothing else). -/
structure TractionState (D N n M : ℕ) where
  idx : Fin M → Fin n → Fin N
  qnodes : Fin M → List (TNode n)
  nodal : Option (Fin N → Fin D → ℝ)
  totalLoad : ℝ
  current : Fin D → ℝ
  counter : ℕ
  constant : Bool

namespace TractionState

variable {D N n M : ℕ}

/-- A force field after construction, `TractionForcefield.inl:19-47`, on the mesh with indices `idx`. -/
def fresh (D : ℕ) (idx : Fin M → Fin n → Fin N) : TractionState D N n M where
  idx := idx
  qnodes _ := []
  nodal := none
  totalLoad := 0
  current := 0
  counter := 0
  constant := false

/-- `increment_load`, `TractionForcefield.inl:134-181`.  Writing into an empty `nodal_forces` is undefined behaviour
(every element has nodes and integration points, so the write happens as soon as there is an element). -/
noncomputable def incrementLoad (s : TractionState D N n M) (t : Fin D → ℝ) : Outcome (TractionState D N n M) :=
  let load : Fin D → ℝ := ∑ e, ((s.qnodes e).map fun g => ∑ i, g.N i • ((g.weight * g.detJ) • t)).sum
  match s.nodal with
  | none => if M = 0 then .ok { s with totalLoad := s.totalLoad + norm2 load } else .undefined
  | some f =>
    .ok { s with
      nodal := some fun p => f p + ∑ e, ((s.qnodes e).map fun g =>
        ∑ i, if s.idx e i = p then g.N i • ((g.weight * g.detJ) • t) else 0).sum
      totalLoad := s.totalLoad + norm2 load }

/-- `init`, `TractionForcefield.inl:50-73`, together with `initialize_elements` (200-243).  `eps` is `EPSILON`,
`nodesOf` is `get_gauss_nodes`, `X0` the rest positions.  Entries already in `nodal_forces` stay (`resize`, 62). -/
noncomputable def init (s : TractionState D N n M) (d : TractionData D) (eps : ℝ)
    (nodesOf : (Fin n → Fin D → ℝ) → List (TNode n)) (X0 : Fin N → Fin D → ℝ) : Outcome (TractionState D N n M) :=
  let constant := if d.slope > -eps ∧ d.slope < eps then true else s.constant
  let s' := { s with
    constant := constant
    nodal := some (match s.nodal with | some f => f | none => 0)
    counter := d.steps
    qnodes := fun e => nodesOf fun i => X0 (s.idx e i) }
  if constant then s'.incrementLoad d.traction else .ok s'

/-- `reset`, `TractionForcefield.inl:76-86`. -/
def reset (s : TractionState D N n M) (d : TractionData D) : TractionState D N n M :=
  { s with counter := d.steps, nodal := none, totalLoad := 0, current := 0 }

/-- `handleEvent` with an `AnimateBeginEvent`, `TractionForcefield.inl:89-131`. -/
noncomputable def handleEvent (s : TractionState D N n M) (d : TractionData D) : Outcome (TractionState D N n M) :=
  if s.constant then .ok s
  else if norm2 s.current ≥ norm2 d.traction then .ok s
  else
    let counter := s.counter + 1
    if counter < d.steps then .ok { s with counter := counter }
    else
      let increment := d.slope • d.traction
      let increment := if norm2 (s.current + increment) > norm2 d.traction then d.traction - s.current else increment
      { s with counter := 0, current := s.current + increment }.incrementLoad increment

/-- `addForce`, `TractionForcefield.inl:184-198`: reads one entry of `nodal_forces` per entry of `f`. -/
noncomputable def addForce (s : TractionState D N n M) (f : Fin N → Fin D → ℝ) : Outcome (Fin N → Fin D → ℝ) :=
  match s.nodal with
  | none => if N = 0 then .ok f else .undefined
  | some g => .ok fun p => f p + g p

/-- `getPotentialEnergy`, `TractionForcefield.h:94-98`: an error message, then zero. -/
def getPotentialEnergy (_ : TractionState D N n M) (_ : Fin N → Fin D → ℝ) : ℝ := 0

end TractionState

/-- The body of the loops of `computeBBox` for one position and one axis, `CaribouForcefield.inl:121-122` (also
`TetrahedronElasticForce.cpp:361-362` and `HexahedronElasticForce.cpp`): the state is the pair (min, max). -/
def bboxStep {K : Type*} [LinearOrder K] (s : K × K) (x : K) : K × K :=
  if x > s.2 then (s.1, x) else if x < s.1 then (x, s.2) else s

/-- `CaribouForcefield::computeBBox`, `CaribouForcefield.inl:106-127`: for every axis the pair (min, max) given to the
bounding box; `lowest` and `highest` are the extreme values of `Real`.  The loop reads the coordinates 0, 1 and 2 of
every position (120-122) whatever the dimension `D` of the positions: reading past the end is undefined. -/
def computeBBox {K : Type*} [LinearOrder K] {D : ℕ} (lowest highest : K) (x : List (Fin D → K)) :
    Outcome (Fin 3 → K × K) :=
  if h : 3 ≤ D then
    .ok fun c => (x.map fun p => p (Fin.castLE h c)).foldl bboxStep (highest, lowest)
  else if x = [] then .ok fun _ => (highest, lowest)
  else .undefined

end Caribou

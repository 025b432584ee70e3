import Verif.Model.Corotational
import Verif.Model.Mesh
import Verif.Model.Drawing

/-!
# The life cycle of the corotational components

The formulas of `TetrahedronElasticForce` and `HexahedronElasticForce` are those of `Model/Corotational.lean`, where all vectors have the
right sizes.  Here are the vectors as the components keep them, the objects of the scene which they read at every call, and the tests which
they make before they read.  A null pointer which is read and an index outside of a vector are undefined behaviour.  Messages, timers and the
parallel loops are left out.
-/

set_option autoImplicit false

namespace Caribou

/-- The two classes. -/
inductive CorotClass
  | tetra | hexa
deriving DecidableEq

namespace CorotClass

/-- `NumberOfNodes`. -/
def nodes : CorotClass → ℕ
  | tetra => 4 | hexa => 8

/-- The frame used for the rotations, `TetrahedronElasticForce.cpp:192`, `HexahedronElasticForce.cpp:252`. -/
noncomputable def frame : (c : CorotClass) → (Fin c.nodes → Fin 3 → ℝ) → Mat3
  | tetra => fun x => tetraFrame (n := 4) x
  | hexa => fun x => hexaFrame hexa1 x 0

end CorotClass

/-- The data `corotated`, `youngModulus`, `poissonRatio` and `integration_method` (of the hexahedra), `TetrahedronElasticForce.cpp:37-54`,
`HexahedronElasticForce.cpp:55-89`. -/
structure CorotData where
  corotated : Bool
  young : ℝ
  poisson : ℝ
  method : IntegrationMethod

/-- What the components read in the scene: the elements of every topology, the topologies of the node of the component, and the mechanical
state with the rest positions and the positions. -/
structure CorotScene (n : ℕ) where
  topologies : ℕ → List (Fin n → ℕ)
  here : List ℕ
  state : Option (List (Fin 3 → ℝ) × List (Fin 3 → ℝ))

/-- The members, `TetrahedronElasticForce.h:124-135`, `HexahedronElasticForce.h:187-205`: the link `topology_container`, the vectors
`p_quadrature_nodes`, `p_initial_rotation`, `p_current_rotation`, `p_stiffness_matrices`, and `p_K` when `K_is_up_to_date`. -/
structure CorotComponent (C : CorotClass) where
  link : Option ℕ
  qnodes : List (List (QNode C.nodes))
  initialRotation : List Mat3
  currentRotation : List Mat3
  Ke : List (ElemMat C.nodes)
  K : Option ((N : ℕ) × (Dof N → Dof N → ℝ))

/-- All nodes of the elements are in a vector of the given size. -/
def NodesBelow {n : ℕ} (elements : List (Fin n → ℕ)) (size : ℕ) : Prop := ∀ e ∈ elements, ∀ i, e i < size

instance {n : ℕ} (elements : List (Fin n → ℕ)) (size : ℕ) : Decidable (NodesBelow elements size) :=
  inferInstanceAs (Decidable (∀ e ∈ elements, ∀ i, e i < size))

/-- The vector of a component or of the state read at the indices below `N`. -/
def readAt (x : List (Fin 3 → ℝ)) (N : ℕ) : Fin N → Fin 3 → ℝ := fun i => x.getD i 0

namespace CorotComponent

variable {C : CorotClass}

/-- A component which was just created with the attribute `topology_container`. -/
def created (link : Option ℕ) : CorotComponent C := ⟨link, [], [], [], [], none⟩

/-- `d_topology_container.get()`. -/
def elements (s : CorotComponent C) (scene : CorotScene C.nodes) : Option (List (Fin C.nodes → ℕ)) :=
  match s.link with
  | none => none
  | some k => some (scene.topologies k)

/-- The vectors as functions of the elements.  What is missing is replaced by what `resize` puts in (`TetrahedronElasticForce.cpp:115-116`,
`HexahedronElasticForce.cpp:141,195-197`). -/
def view (s : CorotComponent C) (els : List (Fin C.nodes → ℕ)) (N : ℕ) (h : NodesBelow els N) : CorotState N C.nodes els.length where
  idx e i := ⟨els.get e i, h _ (List.get_mem els e) i⟩
  initialRotation e := s.initialRotation.getD e 1
  currentRotation e := s.currentRotation.getD e 1
  qnodes e := s.qnodes.getD e []
  Ke e := s.Ke.getD e 0
  cachedK := none

/-- The vectors after a call which changed the functions to `v`. -/
def store (s : CorotComponent C) {N M : ℕ} (v : CorotState N C.nodes M) : CorotComponent C :=
  { s with
    qnodes := List.ofFn v.qnodes
    initialRotation := List.ofFn v.initialRotation
    currentRotation := List.ofFn v.currentRotation
    Ke := List.ofFn v.Ke }

end CorotComponent

/-- The computations of `reinit`. -/
noncomputable def CorotClass.reinitState {N M : ℕ} (d : CorotData) (X : Fin N → Fin 3 → ℝ) :
    (C : CorotClass) → CorotState N C.nodes M → CorotState N C.nodes M
  | .tetra, v => CorotState.reinitTetra v d.corotated d.young d.poisson X
  | .hexa, v => CorotState.reinitHexa v d.corotated d.young d.poisson d.method X

namespace CorotComponent

/-- What `reinit` of the tetrahedra empties before it tests the indices, `TetrahedronElasticForce.cpp:97-98`. -/
def emptied : (C : CorotClass) → CorotComponent C → CorotComponent C
  | .tetra, s => { s with qnodes := [], Ke := [] }
  | .hexa, s => s

variable {C : CorotClass}

/-- `reinit`, `TetrahedronElasticForce.cpp:82-147`, `HexahedronElasticForce.cpp:116-211`.  The test `node_id > X.size()-1` never succeeds
when there are no rest positions, because the difference of the unsigned numbers is the largest one. -/
noncomputable def reinit (s : CorotComponent C) (d : CorotData) (scene : CorotScene C.nodes) : Outcome (CorotComponent C) :=
  match s.elements scene, scene.state with
  | some els, some (X, _) =>
    if els = [] then .ok s
    else if X ≠ [] ∧ ¬NodesBelow els X.length then .ok (emptied C s)
    else if h : NodesBelow els X.length then
      .ok { (emptied C s).store (CorotClass.reinitState d (readAt X X.length) C ((emptied C s).view els X.length h)) with K := none }
    else .undefined
  | _, _ => .ok s

/-- `init`, `TetrahedronElasticForce.cpp:56-80`, `HexahedronElasticForce.cpp:91-114`. -/
noncomputable def init (s : CorotComponent C) (d : CorotData) (scene : CorotScene C.nodes) : Outcome (CorotComponent C) :=
  let s := match s.link, scene.here with
    | none, [k] => { s with link := some k }
    | _, _ => s
  s.reinit d scene

/-- `addForce`, `TetrahedronElasticForce.cpp:149-224`, `HexahedronElasticForce.cpp:213-287`: the new component and the new forces. -/
noncomputable def addForce (s : CorotComponent C) (d : CorotData) (scene : CorotScene C.nodes) (x f : List (Fin 3 → ℝ)) :
    Outcome (CorotComponent C × List (Fin 3 → ℝ)) :=
  match s.elements scene, scene.state with
  | some els, some (X, _) =>
    if s.Ke.length ≠ els.length then .ok (s, f)
    else if h : NodesBelow els f.length ∧ NodesBelow els x.length ∧ NodesBelow els X.length ∧ els.length ≤ s.initialRotation.length ∧
        els.length ≤ s.currentRotation.length then
      let r := (s.view els f.length h.1).addForce d.corotated C.frame (readAt X f.length) (readAt x f.length) (readAt f f.length)
      .ok ({ s with currentRotation := List.ofFn r.1.currentRotation ++ s.currentRotation.drop els.length }, List.ofFn r.2)
    else .undefined
  | _, _ => .ok (s, f)

/-- `addDForce`, `TetrahedronElasticForce.cpp:226-282`, `HexahedronElasticForce.cpp:289-345`; `k` is `kFactorIncludingRayleighDamping`. -/
noncomputable def addDForce (s : CorotComponent C) (scene : CorotScene C.nodes) (k : ℝ) (dx df : List (Fin 3 → ℝ)) :
    Outcome (List (Fin 3 → ℝ)) :=
  match s.elements scene, scene.state with
  | some els, some _ =>
    if s.Ke.length ≠ els.length then .ok df
    else if h : NodesBelow els df.length ∧ NodesBelow els dx.length ∧ els.length ≤ s.currentRotation.length then
      .ok (List.ofFn ((s.view els df.length h.1).addDForce k (readAt dx df.length) (readAt df df.length)))
    else .undefined
  | _, _ => .ok df

/-- `addKToMatrix`, `TetrahedronElasticForce.cpp:284-349`, `HexahedronElasticForce.cpp:347-409`, for a matrix with the degrees of freedom of `N`
nodes.  The sizes are not compared. -/
noncomputable def addKToMatrix (s : CorotComponent C) (scene : CorotScene C.nodes) (k : ℝ) {N : ℕ} (A : Dof N → Dof N → ℝ) :
    Outcome (Dof N → Dof N → ℝ) :=
  match s.elements scene with
  | some els =>
    if h : NodesBelow els N ∧ els.length ≤ s.currentRotation.length ∧ els.length ≤ s.Ke.length then
      .ok ((s.view els N h.1).addKToMatrix k A)
    else .undefined
  | none => .ok A

/-- `HexahedronElasticForce::K()`, `HexahedronElasticForce.cpp:487-548`. -/
noncomputable def getK (s : CorotComponent .hexa) (scene : CorotScene 8) :
    Outcome (CorotComponent .hexa × (N : ℕ) × (Dof N → Dof N → ℝ)) :=
  match s.K with
  | some K => .ok (s, K)
  | none =>
    match scene.state with
    | none => .undefined
    | some (X, _) =>
      match s.elements scene with
      | none => .ok ({ s with K := some ⟨X.length, 0⟩ }, ⟨X.length, 0⟩)
      | some els =>
        if h : NodesBelow els X.length ∧ els.length ≤ s.currentRotation.length ∧ els.length ≤ s.Ke.length then
          let K := (s.view els X.length h.1).assembleK
          .ok ({ s with K := some ⟨X.length, K⟩ }, ⟨X.length, K⟩)
        else .undefined

/-- The triangles of one element in `draw`. -/
noncomputable def _root_.Caribou.CorotClass.drawn : (C : CorotClass) → (Fin C.nodes → Fin 3 → ℝ) → List DrawnTriangle
  | .tetra => tetraForceDraw
  | .hexa => hexaForceDraw

/-- `draw`, `TetrahedronElasticForce.cpp:373-440`, `HexahedronElasticForce.cpp:602-780`; `flag` is the flag `showForceFields`.  The mechanical state
is not tested. -/
noncomputable def draw (s : CorotComponent C) (scene : CorotScene C.nodes) (flag : Bool) : Outcome (List DrawnTriangle) :=
  match s.elements scene with
  | none => .ok []
  | some els =>
    if !flag then .ok []
    else match scene.state with
      | none => .undefined
      | some (_, x) => if NodesBelow els x.length then .ok (els.flatMap fun e => C.drawn fun i => x.getD (e i) 0) else .undefined

/-- `computeBBox`, `TetrahedronElasticForce.cpp:351-371`, `HexahedronElasticForce.cpp:579-600`: the positions which it reads (the box made of
them is the subject of C51).  The mechanical state is not tested. -/
def boxPositions (_s : CorotComponent C) (scene : CorotScene C.nodes) (onlyVisible : Bool) : Outcome (List (Fin 3 → ℝ)) :=
  if !onlyVisible then .ok []
  else match scene.state with
    | none => .undefined
    | some (_, x) => .ok x

end CorotComponent

end Caribou

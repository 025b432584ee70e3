import Verif.Model.Mesh

/-!
# How components find their topology, material and linear solver

`CaribouForcefield::init` and `canCreate`, the material of `HyperelasticForcefield::init`, and `NewtonRaphsonSolver::init`.  The context
is the list of the objects of the node, in the order of the scene; objects are told apart by their identifier.
-/

set_option autoImplicit false

namespace Caribou

/-- Shapes of the elements for which `CaribouForcefield` is instantiated. -/
inductive ElementShape
  | triangle | quad | tetrahedron | hexahedron
deriving DecidableEq

/-- Template parameter `Element` of `CaribouForcefield`: `planar` is `_2D` (triangles and quads only). -/
structure FieldElement where
  shape : ElementShape
  planar : Bool
  quadratic : Bool
deriving DecidableEq

/-- `templateName`, `CaribouTopology[Triangle].cpp:17-39`, `CaribouTopology[Quad].cpp:17-39`, `CaribouTopology[Tetrahedron].cpp:17-26`,
`CaribouTopology[Hexahedron].cpp:17-26`, in lower case (solid elements have no planar version). -/
def FieldElement.lowerName (E : FieldElement) : String :=
  match E.shape, E.planar, E.quadratic with
  | .triangle, true, false => "triangle_2d"
  | .triangle, true, true => "triangle6_2d"
  | .triangle, false, false => "triangle"
  | .triangle, false, true => "triangle6"
  | .quad, true, false => "quad_2d"
  | .quad, true, true => "quad8_2d"
  | .quad, false, false => "quad"
  | .quad, false, true => "quad8"
  | .tetrahedron, _, false => "tetrahedron"
  | .tetrahedron, _, true => "tetrahedron10"
  | .hexahedron, _, false => "hexahedron"
  | .hexahedron, _, true => "hexahedron20"

/-- An object of the scene: a `CaribouTopology<E>` with its elements; a `BaseMeshTopology`, with the results of the casts to
`TriangleSetTopologyContainer` and so on, and its data `triangles`, `quads`, `tetrahedra`, `hexahedra` (`none` when `findData` returns
the null pointer); or something else. -/
inductive SceneObject
  | topology (id : ℕ) (type : FieldElement) (elements : List (List ℕ))
  | mesh (id : ℕ) (isA : ElementShape → Bool) (data : ElementShape → Option (List (List ℕ)))
  | other (id : ℕ)

/-- `mesh_is_compatible`, `CaribouForcefield[Triangle].cpp:31,61,96,126` and the same functions for quads, tetrahedra and hexahedra. -/
def meshIsCompatible (E : FieldElement) (isA : ElementShape → Bool) : Bool := !E.quadratic && isA E.shape

/-- Cast to `CaribouTopology<Element>`. -/
def SceneObject.asTopology (E : FieldElement) : SceneObject → Option (List (List ℕ))
  | .topology _ type elements => if type = E then some elements else none
  | _ => none

/-- Cast to `BaseMeshTopology` followed by `mesh_is_compatible`. -/
def SceneObject.isCompatibleMesh (E : FieldElement) : SceneObject → Bool
  | .mesh _ isA _ => meshIsCompatible E isA
  | _ => false

/-- `get_indices_from`, `CaribouForcefield[Triangle].cpp:26,56,90,120` and the same functions for the other shapes. -/
def indicesFrom (E : FieldElement) (data : ElementShape → Option (List (List ℕ))) : Option (List (List ℕ)) :=
  if E.quadratic then none else data E.shape

/-- What `init` leaves: the link `topology`, the elements of `p_topology` (`none` for a null pointer) and whether the user was warned. -/
structure TopologyLookup where
  link : Option SceneObject
  elements : Option (List (List ℕ))
  warned : Bool

/-- The second part of `CaribouForcefield::init`, `CaribouForcefield.inl:80-100`, for the link `link`.  A topology made from a mesh without
the right data has no elements. -/
def bindTopology (E : FieldElement) (warned : Bool) (link : Option SceneObject) : TopologyLookup :=
  match link with
  | none => ⟨none, none, warned⟩
  | some o =>
    let elements := match o with
      | .mesh _ _ data => some ((indicesFrom E data).getD [])
      | o => o.asTopology E
    ⟨some o, elements, warned || (elements.getD []).isEmpty⟩

/-- `CaribouForcefield::init`, `CaribouForcefield.inl:32-101`.  `msg_info` evaluates its arguments when `printLog` is set. -/
def initTopology (E : FieldElement) (hasState printLog : Bool) (link : Option SceneObject) (context : List SceneObject) :
    Outcome TopologyLookup :=
  if !hasState then .ok ⟨link, none, true⟩
  else match link with
    | some o => .ok (bindTopology E false (some o))
    | none =>
      let caribou := context.filter fun o => (o.asTopology E).isSome
      let sofa := context.filter fun o => o.isCompatibleMesh E
      if caribou.isEmpty && sofa.isEmpty then .ok (bindTopology E true none)
      else if caribou.length + sofa.length > 1 then
        if printLog then .undefined else .ok (bindTopology E true none)
      else .ok (bindTopology E false (if !caribou.isEmpty then caribou.head? else sofa.head?))

/-- `CaribouForcefield::canCreate`, `CaribouForcefield.inl:133-195`: `template` is the lower case of the attribute (empty when absent),
`path` the attribute `topology`, which `context->get` resolves to the object `target` (possibly none); `parent` is the answer of the
base class.  The result has the attribute `topology` of the description after the call. -/
def canCreate (E : FieldElement) (template : String) (path : Option (Option SceneObject)) (parent : Bool) (context : List SceneObject) :
    Bool × Option (Option SceneObject) :=
  if template = E.lowerName then (parent, path)
  else if template ≠ "" then (false, path)
  else match path with
    | some target =>
      match target with
      | none => (false, path)
      | some o => if (o.asTopology E).isNone && !o.isCompatibleMesh E then (false, path) else (parent, path)
    | none =>
      match context.find? fun o => (o.asTopology E).isSome || o.isCompatibleMesh E with
      | none => (false, none)
      | some o => if parent then (true, some (some o)) else (false, none)

/-- The life of a component described in a scene file: `canCreate`, then `init` with the link given by the attribute `topology`. -/
def createAndInit (E : FieldElement) (template : String) (path : Option (Option SceneObject)) (parent printLog : Bool)
    (context : List SceneObject) : Option (Outcome TopologyLookup) :=
  match canCreate E template path parent context with
  | (false, _) => none
  | (true, p) => some (initTopology E true printLog (p.getD none) context)

/-- The material of `HyperelasticForcefield::init`, `HyperelasticForcefield.inl:42-54`: the link after it and whether the user was
warned; `materials` are those of the context. -/
def initMaterial {α : Type*} (link : Option α) (materials : List α) : Option α × Bool :=
  match link with
  | some m => (some m, false)
  | none =>
    match materials with
    | [] => (none, true)
    | [m] => (some m, false)
    | _ => (none, true)

/-- A linear solver of the scene: its identifier and whether the cast to `SofaCaribou::solver::LinearSolver` succeeds. -/
structure SceneSolver where
  id : ℕ
  caribou : Bool
deriving DecidableEq

/-- Messages of `NewtonRaphsonSolver::init` above the level of information. -/
inductive LookupMessage
  | silent | warning | error
deriving DecidableEq

/-- `has_valid_linear_solver`, `NewtonRaphsonSolver.cpp:476-481`. -/
def hasValidSolver (link : Option SceneSolver) : Bool :=
  match link with
  | some s => s.caribou
  | none => false

/-- `NewtonRaphsonSolver::init`, `NewtonRaphsonSolver.cpp:419-470`. -/
def initLinearSolver (link : Option SceneSolver) (solvers : List SceneSolver) : Option SceneSolver × LookupMessage :=
  if hasValidSolver link then (link, .silent)
  else match solvers.filter (·.caribou) with
    | [] => (link, .error)
    | [s] => (some s, .silent)
    | s :: _ => (some s, .warning)

end Caribou

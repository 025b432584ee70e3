import Verif.Model.Lookup

/-!
# How components are created from their description in a scene

`CaribouBarycentricMapping::canCreate`, `EigenSolver::canCreate`, `HyperelasticMaterial::canCreate`, the registrations of
`CaribouTopology`, `CaribouBarycentricMapping` and the direct solvers, and the parts of SOFA which call them: the object factory, paths
and links.

Simplifications: an attribute `topology` which is not empty begins with `@`; the file names and the errors which are logged are left
out; nodes have one parent.  The parts of SOFA (`sofaCreate`, `SceneContext.get`, `SceneContext.getUp`) are those of the library
against which the code is compiled; they are not in the repository.
-/

set_option autoImplicit false

namespace Caribou

/-- `templateName`, `CaribouTopology[Triangle].cpp:17-39`, `CaribouTopology[Quad].cpp:17-39`, `CaribouTopology[Tetrahedron].cpp:17-26`,
`CaribouTopology[Hexahedron].cpp:17-26`; those of the mappings are the same, `CaribouBarycentricMapping.h:65-67`. -/
def FieldElement.name (E : FieldElement) : String :=
  match E.shape, E.planar, E.quadratic with
  | .triangle, true, false => "Triangle_2D"
  | .triangle, true, true => "Triangle6_2D"
  | .triangle, false, false => "Triangle"
  | .triangle, false, true => "Triangle6"
  | .quad, true, false => "Quad_2D"
  | .quad, true, true => "Quad8_2D"
  | .quad, false, false => "Quad"
  | .quad, false, true => "Quad8"
  | .tetrahedron, _, false => "Tetrahedron"
  | .tetrahedron, _, true => "Tetrahedron10"
  | .hexahedron, _, false => "Hexahedron"
  | .hexahedron, _, true => "Hexahedron20"

/-- A node of the scene graph: its name, its objects with their names and its children. -/
inductive SceneNode
  | mk (name : String) (objects : List (String × SceneObject)) (children : List SceneNode)

/-- Name of a node. -/
def SceneNode.name : SceneNode → String
  | .mk n _ _ => n

/-- Objects of a node, in the order of the scene. -/
def SceneNode.objects : SceneNode → List (String × SceneObject)
  | .mk _ o _ => o

/-- Children of a node. -/
def SceneNode.children : SceneNode → List SceneNode
  | .mk _ _ k => k

/-- One part of a path: `..`, `.` or a name. -/
inductive PathStep
  | up | here | name (s : String)
deriving DecidableEq

/-- A path, without the `@`: whether it begins with `/`, and its parts. -/
structure LinkPath where
  absolute : Bool
  steps : List PathStep

/-- The node of a component, with its ancestors, nearest first. -/
structure SceneContext where
  node : SceneNode
  above : List SceneNode

namespace SceneContext

/-- `getRootContext` (SOFA). -/
def root (c : SceneContext) : SceneContext := ⟨c.above.getLastD c.node, []⟩

/-- The parts of `Node::getObject(class, path)` (SOFA): `..` stays at the root, children come before objects, and a path which ends at
a node gives the first object of the class in this node. -/
def getSteps (cast : SceneObject → Bool) : List PathStep → SceneContext → Option SceneObject
  | [], c => (c.node.objects.map Prod.snd).find? cast
  | .here :: l, c => getSteps cast l c
  | .up :: l, c =>
    match c.above with
    | [] => getSteps cast l c
    | p :: r => getSteps cast l ⟨p, r⟩
  | .name s :: l, c =>
    match c.node.children.find? fun k => k.name = s with
    | some k => getSteps cast l ⟨k, c.node :: c.above⟩
    | none => if l = [] then ((c.node.objects.find? fun o => o.1 = s).map Prod.snd).filter cast else none

/-- `context->get<T>(path)` (SOFA), and the object of class `T` to which the link `path` of a component of this node is bound. -/
def get (cast : SceneObject → Bool) (path : LinkPath) (c : SceneContext) : Option SceneObject :=
  getSteps cast path.steps (if path.absolute then c.root else c)

/-- `context->get<T>()` (SOFA): the node, then its ancestors. -/
def getUp (cast : SceneObject → Bool) (c : SceneContext) : Option SceneObject :=
  ((c.node :: c.above).flatMap fun n => n.objects.map Prod.snd).find? cast

end SceneContext

/-- Cast to `CaribouTopology<E>`. -/
def SceneObject.isTopology (E : FieldElement) (o : SceneObject) : Bool := (o.asTopology E).isSome

/-- `ObjectFactory::createObject` (SOFA): `creators` are the classes registered under the name of the component, in the order of the
names of their templates.  The class of the requested template comes first (the default class when there is none); when it refuses, or
when there is no such class, all classes are tried. -/
def sofaCreate {α : Type*} (creators : List (String × α)) (default : Option α) (template : String) (can : α → Bool) : Option α :=
  let first := match creators.lookup template with
    | some a => some a
    | none => default
  match first.filter can with
  | some a => some a
  | none => (creators.map Prod.snd).find? can

/-- The attributes `template` (empty when absent) and `topology` of a mapping. -/
structure MappingDescription where
  template : String
  topology : Option LinkPath

/-- The search in the scene, `CaribouBarycentricMapping.inl:336-352` and, in `init`, `CaribouBarycentricMapping.inl:35-47`. -/
def mappingSearch (E : FieldElement) (c : SceneContext) : Option SceneObject :=
  let fromParent := match c.above with
    | [] => none
    | p :: r => SceneContext.getUp (SceneObject.isTopology E) ⟨p, r⟩
  match fromParent with
  | some o => some o
  | none => c.getUp (SceneObject.isTopology E)

/-- `CaribouBarycentricMapping::canCreate`, `CaribouBarycentricMapping.inl:299-363`; `parent` is the answer of the base class.  The path
is looked for from the root. -/
def mappingCanCreate (E : FieldElement) (d : MappingDescription) (parent : Bool) (c : SceneContext) : Bool :=
  if d.template.toLower = E.name.toLower then parent
  else if d.template ≠ "" then false
  else match d.topology with
    | some path => if (c.root.get (SceneObject.isTopology E) path).isSome then parent else false
    | none => if (mappingSearch E c).isSome then parent else false

/-- The classes `CaribouBarycentricMapping` registered, `CaribouBarycentricMapping[Hexahedron].cpp:34-36` and
`CaribouBarycentricMapping[Tetrahedron].cpp:34-36`. -/
def mappingCreators : List (String × FieldElement) :=
  [("Hexahedron", ⟨.hexahedron, false, false⟩), ("Hexahedron20", ⟨.hexahedron, false, true⟩),
    ("Tetrahedron", ⟨.tetrahedron, false, false⟩), ("Tetrahedron10", ⟨.tetrahedron, false, true⟩)]

/-- A mapping created from its description: its element type and the topology it uses after `init`,
`CaribouBarycentricMapping.inl:32-60`: the one of its link, or else the one found in the scene. -/
def createMapping (d : MappingDescription) (parent : Bool) (c : SceneContext) : Option (FieldElement × Option SceneObject) :=
  match sofaCreate mappingCreators none d.template (fun E => mappingCanCreate E d parent c) with
  | none => none
  | some E =>
    let link := match d.topology with
      | none => none
      | some path => c.get (SceneObject.isTopology E) path
    match link with
    | some o => some (E, some o)
    | none => some (E, mappingSearch E c)

/-- The classes `CaribouTopology` registered, `CaribouTopology[Hexahedron].cpp:41-43`, `CaribouTopology[Quad].cpp:53-58`,
`CaribouTopology[Tetrahedron].cpp:41-43`, `CaribouTopology[Triangle].cpp:53-58`. -/
def topologyCreators : List (String × FieldElement) :=
  [("Hexahedron", ⟨.hexahedron, false, false⟩), ("Hexahedron20", ⟨.hexahedron, false, true⟩), ("Quad", ⟨.quad, false, false⟩),
    ("Quad8", ⟨.quad, false, true⟩), ("Quad8_2D", ⟨.quad, true, true⟩), ("Quad_2D", ⟨.quad, true, false⟩),
    ("Tetrahedron", ⟨.tetrahedron, false, false⟩), ("Tetrahedron10", ⟨.tetrahedron, false, true⟩),
    ("Triangle", ⟨.triangle, false, false⟩), ("Triangle6", ⟨.triangle, false, true⟩), ("Triangle6_2D", ⟨.triangle, true, true⟩),
    ("Triangle_2D", ⟨.triangle, true, false⟩)]

/-- A `CaribouTopology` created from the attribute `template`: the class has no `canCreate`, the one of `BaseObject` (SOFA) accepts
everything. -/
def createTopology (template : String) : Option FieldElement := sofaCreate topologyCreators none template fun _ => true

/-- The library behind a direct solver, `LDLTSolver.inl:24-39`, `LLTSolver.inl:24-39`, `LUSolver.inl:24-42`. -/
inductive DirectBackend
  | eigen | pardiso
deriving DecidableEq

/-- `BackendName`, `LDLTSolver.inl:31,37`, `LLTSolver.inl:30,36`, `LUSolver.inl:30,38`. -/
def DirectBackend.name : DirectBackend → String
  | .eigen => "Eigen"
  | .pardiso => "Pardiso"

/-- `EigenSolver::canCreate`, `EigenSolver.inl:233-253`: the answer and the attribute `backend` after the call. -/
def solverCanCreate (b : DirectBackend) (requested : String) : Bool × String :=
  if requested ≠ "" then (decide (requested = b.name), requested) else (true, b.name)

/-- The classes registered for a direct solver, `LDLTSolver.cpp:9-14`, `LLTSolver.cpp:9-14`, `LUSolver.cpp:9-14`: the second one only
with MKL.  The names of their templates stand for the types of the C++ code. -/
def solverCreators (mkl : Bool) : List (String × DirectBackend) :=
  ("SimplicialSolver", .eigen) :: if mkl then [("PardisoSolver", .pardiso)] else []

/-- The item of the data `backend` selected by the constructor, `LDLTSolver.inl:92-107`, `LLTSolver.inl:91-106`, `LUSolver.inl:103-118`. -/
def DirectBackend.item (b : DirectBackend) : ℕ := if b.name.toLower = "pardiso" then 1 else 0

/-- Reading an `OptionsGroup` from an attribute (SOFA): an unknown name changes nothing. -/
def readOption (names : List String) (item : ℕ) (value : String) : ℕ :=
  if value ∈ names then names.idxOf value else item

/-- A direct solver created without the attribute `template`: its backend and the name shown by its data `backend`. -/
def createSolver (mkl : Bool) (requested : String) : Option (DirectBackend × String) :=
  match sofaCreate (solverCreators mkl) (some .eigen) "" (fun b => (solverCanCreate b requested).1) with
  | none => none
  | some b =>
    let names := ["Eigen", "Pardiso"]
    some (b, names.getD (readOption names b.item (solverCanCreate b requested).2) "")

/-- `HyperelasticMaterial::canCreate`, `HyperelasticMaterial.h:74-93`: `name` is `DataTypes::Name()`, `state` the name of the data type
of the mechanical state of the context (`none` without state). -/
def materialCanCreate (name requested : String) (state : Option String) : Bool :=
  if requested = name then true
  else if requested ≠ "" then false
  else decide (state = some name)

/-- The materials are registered for `Vec3Types`, `HyperelasticMaterial.cpp:13-21`, whose name is `Vec3d` (SOFA). -/
def createMaterial (requested : String) (state : Option String) : Bool :=
  (sofaCreate [("Vec3d", "Vec3d")] none requested fun name => materialCanCreate name requested state).isSome

end Caribou

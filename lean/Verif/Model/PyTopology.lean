import Verif.Model.Mesh
import Mathlib.Algebra.Ring.Defs
import Mathlib.Algebra.BigOperators.Group.List.Basic

/-!
# Meshes, domains and barycentric containers seen from Python

`src/Caribou/Python/Topology/Mesh.cpp`, `Domain.h` and `BarycentricContainer.h`, on the memory of `Model/Mesh.lean`.

A session is a list of statements `x = call` and `del x`.  CPython frees an object as soon as nothing refers to it, and
everything the bindings return is held by the variables alone: no `py::keep_alive` is used in these files.

* A mesh is moved into its Python object (`py::cast(M(nodes))`, `Mesh.cpp:46-48`, default holder `std::unique_ptr`), so that
  the C++ mesh dies with the last variable that holds it.  pybind11 keeps one Python object per C++ object, so that
  `Domain::mesh()` returns the object which already exists.
* A domain is held by `std::unique_ptr<D, py::nodelete>` (`Domain.h:17`) and returned with `return_value_policy::reference`
  (34, 39, 53, 68): the Python object is a bare pointer.
* `element_indices` returns an `Eigen::Map` (`Topology/Domain.h:286-292`) with the default policy (`Domain.h:26`), which
  pybind11 turns into a numpy array on the memory of the domain, without owner.
* `embed` returns a container by value (`BarycentricContainer.h:62-64`), which stores a pointer to the domain.
* Elements, positions, and interpolated values are copied.

Simplifications: all meshes of a session have the same dimension `m` (meshes of different dimensions do not interact);
addresses are never reused, so that a dangling pointer is recognised; node indices are integers (numpy also casts floating
point numbers); `domains()`, `canonical_dimension`, `number_of_nodes_per_elements` and keyword arguments are left out; where a
point lies in a domain (`local_coordinates`, `contains_local`) is a parameter, the subject of C33 and C34.
-/

set_option autoImplicit false

namespace Caribou

/-- The element type given to `add_domain` (`geometry::traits<Element>`): world dimension and number of nodes. -/
structure PyElement where
  dim : ℕ
  nodes : ℕ
deriving DecidableEq

/-- A Python value. -/
inductive PyObj (K : Type*) where
  /-- The owner of a mesh. -/
  | mesh (a : ℕ)
  /-- A pointer to a domain. -/
  | domain (d : ℕ)
  /-- A numpy array on the row `e` of the table of a domain. -/
  | indices (d e : ℕ)
  /-- A container: pointer to its domain, and for every embedded point the element with the values of its shape functions. -/
  | container (d : ℕ) (points : List (Option (ℕ × List K)))
  /-- An element: the coordinates of its nodes (`none` for a coordinate never written). -/
  | element (rows : List (List (Option K)))
  /-- A numpy array with positions. -/
  | positions (rows : List (List K))
  /-- An array of integers. -/
  | integers (l : List ℕ)
  /-- Interpolated values (`none` for a row never written). -/
  | field (rows : List (Option (List K)))
  /-- `None`. -/
  | nothing
deriving DecidableEq

/-- The state of a Python program: the C++ memory, the type of every domain, the variables, and the next address. -/
structure PySession (K : Type*) (m : ℕ) where
  world : World K m
  kinds : ℕ → PyElement
  vars : List (String × PyObj K)
  next : ℕ

/-- The calls of the bindings. -/
inductive PyCall (K : Type*) (m : ℕ) where
  /-- `Mesh(nodes)`. -/
  | newMesh (nodes : List (Fin m → K))
  /-- The value of another variable. -/
  | name (x : String)
  /-- `mesh.add_domain(name, element_type, node_indices)`, with the number of columns of the array; `none` for the overload
  without a name. -/
  | addDomain (mesh : String) (name : Option String) (kind : PyElement) (cols : ℕ) (table : List (List ℤ))
  /-- `mesh.domain(name)`. -/
  | domainNamed (mesh : String) (name : String)
  /-- `mesh.domain(i)`. -/
  | domainAt (mesh : String) (i : ℕ)
  /-- `mesh.positions(indices)`. -/
  | positions (mesh : String) (indices : List ℕ)
  /-- `domain.mesh()`. -/
  | meshOf (domain : String)
  /-- `domain.number_of_elements()`. -/
  | size (domain : String)
  /-- `domain.element(e)`. -/
  | element (domain : String) (e : ℕ)
  /-- `domain.element_indices(e)`. -/
  | elementIndices (domain : String) (e : ℕ)
  /-- `array.copy()` of such an array: reads its memory. -/
  | readIndices (array : String)
  /-- `domain.embed(points)`, with the number of columns of the array. -/
  | embed (domain : String) (cols : ℕ) (points : List (List K))
  /-- `container.interpolate(values)` of `rows` values with `cols` components. -/
  | interpolate (container : String) (rows cols : ℕ) (values : ℕ → ℕ → K)

/-- A statement. -/
inductive PyStmt (K : Type*) (m : ℕ) where
  | assign (x : String) (call : PyCall K m)
  | del (x : String)

variable {K : Type*} {m : ℕ}

/-- `np.array → Eigen::Matrix<unsigned int, …>`, pybind11 `eigen.h` through `PyArray_CopyInto` (unsafe casting): an integer is
taken modulo `2^32`. -/
def toUnsigned (z : ℤ) : ℕ := (z % 4294967296).toNat

/-- One row of `Domain::element(e)`, `Topology/Domain.h:328-336`: the first `Dimension` coordinates of `mesh()->node(i)`, the
dimension being that of the element. -/
def pyRow (M : MeshObj K m) (dim i : ℕ) : Outcome (List (Option K)) :=
  match M.node i with
  | .ok n => .ok ([n 0, n 1, n 2].take dim)
  | _ => .undefined

/-- The loop of `Domain::element(e)`, `Topology/Domain.h:326-337`. -/
def pyRows (M : MeshObj K m) (dim : ℕ) : List ℕ → Outcome (List (List (Option K)))
  | [] => .ok []
  | i :: rest =>
    match pyRow M dim i, pyRows M dim rest with
    | .ok p, .ok ps => .ok (p :: ps)
    | _, _ => .undefined

namespace PySession

/-- The value of a variable. -/
def lookup (s : PySession K m) (x : String) : Option (PyObj K) := (s.vars.find? (fun v => v.1 == x)).map (·.2)

/-- A mesh is held by a variable. -/
def holds (vars : List (String × PyObj K)) (a : ℕ) : Bool :=
  vars.any fun v => match v.2 with
    | .mesh a' => a == a'
    | _ => false

/-- Reference counting: the value `old` is no longer held by the variable that held it; a mesh held by no other variable is
deleted, with its domains (`Topology/Mesh.h:143`). -/
def release (s : PySession K m) (old : Option (PyObj K)) : Outcome (PySession K m) :=
  match old with
  | some (.mesh a) =>
    if holds s.vars a then .ok s
    else match s.world.deleteMesh a with
      | .ok w => .ok { s with world := w }
      | _ => .undefined
  | _ => .ok s

/-- `x = value`. -/
def bind (s : PySession K m) (x : String) (v : PyObj K) : Outcome (PySession K m) :=
  let old := s.lookup x
  { s with vars := (x, v) :: s.vars.filter (fun y => y.1 ≠ x) }.release old

/-- `Domain::element(e)` of the domain at `d`, `Topology/Domain.h:317-340` through `Python/Topology/Domain.h:22-24`.  A freed
domain or mesh is undefined behaviour. -/
def readElement (s : PySession K m) (d e : ℕ) : Outcome (List (List (Option K))) :=
  match s.world.domain d with
  | none => .undefined
  | some D =>
    match s.world.elementIndices D e D.view.cols, D.mesh with
    | .ok is, .attached a =>
      match s.world.mesh a with
      | none => .undefined
      | some M => pyRows M (s.kinds d).dim is
    | _, _ => .undefined

/-- The row `e` of the table of the domain at `d`. -/
def readIndices (s : PySession K m) (d e : ℕ) : Outcome (List ℕ) :=
  match s.world.domain d with
  | none => .undefined
  | some D => s.world.elementIndices D e D.view.cols

/-- The elements `0, …, n-1` of a domain (the loops of the constructor of a container, `BarycentricContainer.h:88-104`). -/
def readElements (s : PySession K m) (d : ℕ) : ℕ → Outcome (List (List (List (Option K))))
  | 0 => .ok []
  | n + 1 =>
    match s.readElements d n, s.readElement d n with
    | .ok l, .ok x => .ok (l ++ [x])
    | _, _ => .undefined

/-- `add_domain`, `Python/Topology/Mesh.cpp:37-44` and `Python/Topology/Domain.h:30-68`.  The overload for matrices with the
right number of columns is tried first; the other one throws.  The domain is built without mesh and given to
`BaseMesh::add_domain(domain, name)` (`Topology/Mesh.h:414-439`) or to the overload without a name (444-448). -/
def addDomain (fmt : ℕ → String) (s : PySession K m) (a : ℕ) (name : Option String) (kind : PyElement) (cols : ℕ) (table : List (List ℤ)) :
    Outcome (PySession K m × PyObj K) :=
  if cols ≠ kind.nodes then .throws (s, .nothing)
  else
    let d := s.next
    let w := s.world.construct d .null (.copied d cols (table.map fun r => r.map toUnsigned))
    let r := match name with
      | some name => w.addPtr a d name
      | none => w.addPtrAnonymous fmt a d
    match r with
    | .ok w => .ok ({ s with world := w, kinds := Function.update s.kinds d kind, next := d + 1 }, .domain d)
    | .throws w => .throws ({ s with world := w, next := d + 1 }, .nothing)
    | .hangs => .hangs
    | .undefined => .undefined

variable [CommRing K]

/-- One interpolated value, `BarycentricContainer.h:190-217` for a located point: the element and its node indices are read
from the domain, the values at its nodes are weighted by the shape functions. -/
def interpolateAt (s : PySession K m) (d rows cols : ℕ) (values : ℕ → ℕ → K) (e : ℕ) (shape : List K) : Outcome (List K) :=
  match s.readElement d e, s.readIndices d e with
  | .ok _, .ok is =>
    if is.all (fun i => i < rows) then
      .ok ((List.range cols).map fun c => ((shape.zip is).map fun x => x.1 * values x.2 c).sum)
    else .undefined
  | _, _ => .undefined

/-- The loop of `BarycentricContainer::interpolate`, `BarycentricContainer.h:182-218`: a point outside is skipped, and its row
of the output, allocated by the binding (`Python/Topology/BarycentricContainer.h:18-27`) without being initialised, is left
as it is. -/
def interpolateAll (s : PySession K m) (d rows cols : ℕ) (values : ℕ → ℕ → K) : List (Option (ℕ × List K)) → Outcome (List (Option (List K)))
  | [] => .ok []
  | p :: rest =>
    match p with
    | none =>
      match s.interpolateAll d rows cols values rest with
      | .ok l => .ok (none :: l)
      | o => o
    | some (e, shape) =>
      match s.interpolateAt d rows cols values e shape, s.interpolateAll d rows cols values rest with
      | .ok v, .ok l => .ok (some v :: l)
      | _, _ => .undefined

/-- The value of a call.  `throws` is a Python exception (unknown variable, argument of another type, or a C++ exception).
`locate` finds the element of a domain that contains a point, with the values of its shape functions there. -/
def eval (fmt : ℕ → String) (locate : List (List (List (Option K))) → List K → Option (ℕ × List K)) (s : PySession K m) :
    PyCall K m → Outcome (PySession K m × PyObj K)
  | .newMesh nodes =>
    .ok ({ s with world := s.world.setMesh s.next (some ⟨nodes, []⟩), next := s.next + 1 }, .mesh s.next)
  | .name x =>
    match s.lookup x with
    | some v => .ok (s, v)
    | none => .throws (s, .nothing)
  | .addDomain x name kind cols table =>
    match s.lookup x with
    | some (.mesh a) => s.addDomain fmt a name kind cols table
    | _ => .throws (s, .nothing)
  | .domainNamed x name =>
    match s.lookup x with
    | some (.mesh a) =>
      -- `Mesh.cpp:25`; a null pointer is `None`
      match s.world.lookup a name with
      | some d => .ok (s, .domain d)
      | none => .ok (s, .nothing)
    | _ => .throws (s, .nothing)
  | .domainAt x i =>
    match s.lookup x with
    | some (.mesh a) =>
      -- `Mesh.cpp:24`
      match s.world.mesh a with
      | none => .undefined
      | some M =>
        match M.domains[i]? with
        | some e => .ok (s, .domain e.2)
        | none => .undefined
    | _ => .throws (s, .nothing)
  | .positions x idx =>
    match s.lookup x with
    | some (.mesh a) =>
      -- `Mesh.cpp:28-36`
      match s.world.mesh a with
      | none => .undefined
      | some M =>
        match M.positions idx with
        | .ok l => .ok (s, .positions (l.map List.ofFn))
        | _ => .undefined
    | _ => .throws (s, .nothing)
  | .meshOf x =>
    match s.lookup x with
    | some (.domain d) =>
      -- `Python/Topology/Domain.h:27`
      match s.world.domain d with
      | none => .undefined
      | some D =>
        match D.mesh with
        | .attached a => .ok (s, .mesh a)
        | .null => .ok (s, .nothing)
        | .indeterminate => .undefined
    | _ => .throws (s, .nothing)
  | .size x =>
    match s.lookup x with
    | some (.domain d) =>
      match s.world.domain d with
      | none => .undefined
      | some D => .ok (s, .integers [D.view.rows])
    | _ => .throws (s, .nothing)
  | .element x e =>
    match s.lookup x with
    | some (.domain d) =>
      match s.readElement d e with
      | .ok rows => .ok (s, .element rows)
      | _ => .undefined
    | _ => .throws (s, .nothing)
  | .elementIndices x e =>
    match s.lookup x with
    | some (.domain d) =>
      -- the map is made without reading the memory it designates
      match s.world.domain d with
      | none => .undefined
      | some _ => .ok (s, .indices d e)
    | _ => .throws (s, .nothing)
  | .readIndices x =>
    match s.lookup x with
    | some (.indices d e) =>
      match s.readIndices d e with
      | .ok l => .ok (s, .integers l)
      | _ => .undefined
    | _ => .throws (s, .nothing)
  | .embed x cols points =>
    match s.lookup x with
    | some (.domain d) =>
      -- `BarycentricContainer.h:80-104`, `set_embedded_points`, 251-278
      match s.world.domain d with
      | none => .undefined
      | some D =>
        if D.view.rows = 0 then .throws (s, .nothing)
        else match s.readElements d D.view.rows with
          | .ok elements =>
            if cols ≠ (s.kinds d).dim then .throws (s, .nothing)
            else .ok (s, .container d (points.map (locate elements)))
          | _ => .undefined
    | _ => .throws (s, .nothing)
  | .interpolate x rows cols values =>
    match s.lookup x with
    | some (.container d points) =>
      match s.world.domain d with
      | none => .undefined
      | some D =>
        match D.mesh with
        | .attached a =>
          match s.world.mesh a with
          | none => .undefined
          | some M =>
            -- `BarycentricContainer.h:162-170`
            if rows ≠ M.nodes.length then .throws (s, .nothing)
            else match s.interpolateAll d rows cols values points with
              | .ok l => .ok (s, .field l)
              | _ => .undefined
        | _ => .undefined
    | _ => .throws (s, .nothing)

/-- A statement. -/
def step (fmt : ℕ → String) (locate : List (List (List (Option K))) → List K → Option (ℕ × List K)) (s : PySession K m) :
    PyStmt K m → Outcome (PySession K m)
  | .assign x call =>
    match s.eval fmt locate call with
    | .ok (s', v) => s'.bind x v
    | .throws (s', _) => .throws s'
    | .hangs => .hangs
    | .undefined => .undefined
  | .del x =>
    match s.lookup x with
    | none => .throws s
    | some v => { s with vars := s.vars.filter (fun y => y.1 ≠ x) }.release (some v)

/-- A program: exceptions are caught and the next statement is executed. -/
def run (fmt : ℕ → String) (locate : List (List (List (Option K))) → List K → Option (ℕ × List K)) (s : PySession K m) :
    List (PyStmt K m) → Outcome (PySession K m)
  | [] => .ok s
  | c :: rest =>
    match s.step fmt locate c with
    | .ok s' => s'.run fmt locate rest
    | .throws s' => s'.run fmt locate rest
    | .hangs => .hangs
    | .undefined => .undefined

/-- A fresh interpreter. -/
def start (K : Type*) (m : ℕ) : PySession K m := ⟨World.initial K m, fun _ => ⟨0, 0⟩, [], 0⟩

end PySession

end Caribou

import Verif.Model.Grid

/-!
# Regular grids used from Python

`Caribou.Topology.Grid2D` and `Grid3D`, `Python/Topology/Grid.cpp`.  Three classes are declared for each dimension, each one derived from
the one before: `BaseGrid`, `BaseMultidimensionalGrid` and `Grid`.

What is assumed of pybind11: the functions given to one class under one name are tried in the order of the definitions, the first one which
accepts the arguments is called and `TypeError` is raised when there is none; functions of a base class with the same name are not tried
(`cpp_function::initialize_generic`: "Never append a method to an overload chain of a parent class; instead, hide the parent's overloads in
this case"); a returned object whose C++ class is not registered raises `TypeError`.

Simplifications: arguments are positional (no keywords); arrays and lists have one index; arrays of one number used as a number or as a
boolean, and `None` used as a boolean, are left out.  pybind11 tries all functions without conversions first and with conversions next; no
two functions of a class with the same name accept the same arguments, so that one attempt is modelled.
-/

set_option autoImplicit false

namespace Caribou

/-- A value of Python given as an argument. -/
inductive PyVal (K : Type*)
  | int (z : ℤ)
  | float (x : K)
  | flag (b : Bool)
  /-- List or array of integers. -/
  | ints (l : List ℤ)
  /-- List or array of floating point numbers. -/
  | floats (l : List K)

/-- What a call gives: a value, or an exception. -/
inductive PyRes (α : Type*)
  | ok (a : α)
  | attributeError
  | typeError
  deriving DecidableEq

/-- The entries of a list of the right length. -/
def listFn {α : Type*} (d : ℕ) (l : List α) : Option (Fin d → α) :=
  if h : l.length = d then some fun i => l.get (i.cast h.symm) else none

/-- The integer fits in `signed long long int`. -/
def fits64 (z : ℤ) : Bool := decide (-2 ^ 63 ≤ z) && decide (z < 2 ^ 63)

section Arguments

variable {d : ℕ} {K : Type*} [Field K]

/-- Argument for `WorldCoordinates` or `Dimensions`, `Eigen::Matrix<FLOATING_POINT_TYPE, d, 1>` (`BaseGrid.h:41-49`). -/
def asPoint (d : ℕ) : PyVal K → Option (Fin d → K)
  | .ints l => listFn d (l.map (Int.cast : ℤ → K))
  | .floats l => listFn d l
  | _ => none

/-- Argument for an index, `INTEGER_TYPE` (`BaseGrid.h:45-47`): pybind11 refuses floating point numbers, and integers which do not fit; a
boolean is an integer of Python. -/
def asIndex : PyVal K → Option ℤ
  | .int z => if fits64 z then some z else none
  | .flag b => some (if b then 1 else 0)
  | _ => none

/-- Argument for `bool`. -/
def asFlag [DecidableEq K] : PyVal K → Option Bool
  | .flag b => some b
  | .int z => some (decide (z ≠ 0))
  | .float x => some (decide (x ≠ 0))
  | _ => none

/-- Argument for `FLOATING_POINT_TYPE`. -/
def asNumber : PyVal K → Option K
  | .float x => some x
  | .int z => some (z : K)
  | .flag b => some (if b then 1 else 0)
  | _ => none

variable [LinearOrder K] [FloorRing K]

/-- Argument for `GridCoordinates`, `Eigen::Matrix<INTEGER_TYPE, d, 1>` (`BaseGrid.h:42-51`): the array is copied by numpy without a check
(`PyArray_CopyInto`), which truncates floating point numbers. -/
def asCoordinates (d : ℕ) : PyVal K → Option (Fin d → ℤ)
  | .ints l => if l.all fits64 then listFn d l else none
  | .floats l => listFn d (l.map truncate)
  | _ => none

/-- Argument for `Subdivisions`, `Eigen::Matrix<UNSIGNED_INTEGER_TYPE, d, 1>` (`BaseGrid.h:43-49`), copied in the same way: a negative
integer becomes a number above `2^63`. -/
def asSubdivisions (d : ℕ) : PyVal K → Option (Fin d → ℕ)
  | .ints l => if l.all fits64 then listFn d (l.map fun z => (toU64 z).toNat) else none
  | .floats l => listFn d (l.map fun x => (toU64 (truncate x)).toNat)
  | _ => none

end Arguments

/-- The names of the functions, `Python/Topology/Grid.cpp:25-80`. -/
inductive GridName
  | numberOfCells | numberOfNodes | anchorPosition | subdivisions | cellSize | size
  | cellIndexContaining | cellCoordinatesAt | cellsAround | node | contains
  | nodeIndexAt | nodeCoordinatesAt | cellIndexAt
  | nodeIndicesOf | cellAt | numberOfEdges | edge | numberOfFaces | face
  deriving DecidableEq

/-- A C++ function of a grid with its arguments. -/
inductive GridCall (d : ℕ) (K : Type*)
  | numberOfCells | numberOfNodes | anchorPosition | subdivisions | cellSize | size
  | cellIndexContaining (p : Fin d → K) (testForBoundary : Bool)
  | cellCoordinatesOfPoint (p : Fin d → K) (testForBoundary : Bool)
  | cellsAround (p : Fin d → K)
  | nodeAtCoordinates (c : Fin d → ℤ)
  | contains (p : Fin d → K) (epsilon : K)
  | nodeIndexAt (c : Fin d → ℤ)
  | nodeCoordinatesAt (i : ℤ)
  | node (i : ℤ)
  | cellIndexAt (c : Fin d → ℤ)
  | cellCoordinatesAt (i : ℤ)
  | nodeIndicesOf (c : Fin d → ℤ)
  | nodeIndicesOfIndex (i : ℤ)
  | cellAt (c : Fin d → ℤ)
  | cellAtIndex (i : ℤ)
  | numberOfEdges
  | edge (i : ℤ)
  | numberOfFaces
  | face (i : ℤ)

/-- A value returned by C++. -/
inductive GridVal (d : ℕ) (K : Type*)
  | int (z : ℤ)
  | flag (b : Bool)
  | point (p : Fin d → K)
  | coordinates (c : Fin d → ℤ)
  /-- List of node or cell indices. -/
  | indices (l : List ℤ)
  | quad (q : RectQuad K 2)
  | hexa (h : RectHexa K)

/-- Declared classes, the base class last: the order in which Python looks a name up. -/
inductive GridClass
  | grid | dimensional | base
  deriving DecidableEq

section Bindings

variable {d : ℕ} {K : Type*} [Field K] [LinearOrder K] [FloorRing K]

/-- Parameter lists: none when the C++ function refuses the arguments. -/
def take0 (f : GridCall d K) : List (PyVal K) → Option (GridCall d K)
  | [] => some f
  | _ => none

/-- A function of one parameter. -/
def take1 {α : Type*} (as : PyVal K → Option α) (f : α → GridCall d K) : List (PyVal K) → Option (GridCall d K)
  | [x] => (as x).map f
  | _ => none

/-- A function of two parameters, the second one with a default value or not. -/
def take2 {α β : Type*} (as : PyVal K → Option α) (bs : PyVal K → Option β) (default : Option β) (f : α → β → GridCall d K) :
    List (PyVal K) → Option (GridCall d K)
  | [x] => (as x).bind fun a => default.map fun b => f a b
  | [x, y] => (as x).bind fun a => (bs y).map fun b => f a b
  | _ => none

/-- The functions given to a class under a name, in the order of the definitions: `BaseGrid` `Grid.cpp:25-36`, `BaseMultidimensionalGrid`
`Grid.cpp:49-54`, `Grid` `Grid.cpp:70-82`. -/
def gridOverloads : GridClass → GridName → List (List (PyVal K) → Option (GridCall d K))
  | .base, .numberOfCells => [take0 .numberOfCells]
  | .base, .numberOfNodes => [take0 .numberOfNodes]
  | .base, .anchorPosition => [take0 .anchorPosition]
  | .base, .subdivisions => [take0 .subdivisions]
  | .base, .cellSize => [take0 .cellSize]
  | .base, .size => [take0 .size]
  | .base, .cellIndexContaining => [take2 (asPoint d) asFlag (some true) .cellIndexContaining]
  | .base, .cellCoordinatesAt =>
    [take1 (asPoint d) fun p => .cellCoordinatesOfPoint p false, take2 (asPoint d) asFlag none .cellCoordinatesOfPoint]
  | .base, .cellsAround => [take1 (asPoint d) .cellsAround]
  | .base, .node => [take1 (asCoordinates d) .nodeAtCoordinates]
  | .base, .contains => [take2 (asPoint d) asNumber (some (gridEps K)) .contains]
  | .dimensional, .nodeIndexAt => [take1 (asCoordinates d) .nodeIndexAt]
  | .dimensional, .nodeCoordinatesAt => [take1 asIndex .nodeCoordinatesAt]
  | .dimensional, .node => [take1 asIndex .node]
  | .dimensional, .cellIndexAt => [take1 (asCoordinates d) .cellIndexAt]
  | .dimensional, .cellCoordinatesAt => [take1 asIndex .cellCoordinatesAt]
  | .grid, .nodeIndicesOf => [take1 (asCoordinates d) .nodeIndicesOf, take1 asIndex .nodeIndicesOfIndex]
  | .grid, .cellAt => [take1 (asCoordinates d) .cellAt, take1 asIndex .cellAtIndex]
  | .grid, .numberOfEdges => if 1 < d then [take0 .numberOfEdges] else []
  | .grid, .edge => if 1 < d then [take1 asIndex .edge] else []
  | .grid, .numberOfFaces => if d = 3 then [take0 .numberOfFaces] else []
  | .grid, .face => if d = 3 then [take1 asIndex .face] else []
  | _, _ => []

/-- The classes from one on to its bases. -/
def GridClass.mro : GridClass → List GridClass
  | .grid => [.grid, .dimensional, .base]
  | .dimensional => [.dimensional, .base]
  | .base => [.base]

/-- The name is looked up in a class, then in its bases. -/
def lookupName (name : GridName) : List GridClass → List (List (PyVal K) → Option (GridCall d K))
  | [] => []
  | cls :: rest =>
    match gridOverloads cls name with
    | [] => lookupName name rest
    | fs => fs

/-- The first function which accepts the arguments. -/
def firstAccepting (args : List (PyVal K)) : List (List (PyVal K) → Option (GridCall d K)) → Option (GridCall d K)
  | [] => none
  | f :: fs =>
    match f args with
    | some c => some c
    | none => firstAccepting args fs

/-- The C++ function called by `cls.name(grid, args)`; `grid.name(args)` is the case of the class `Grid`. -/
def resolveCall (cls : GridClass) (name : GridName) (args : List (PyVal K)) : PyRes (GridCall d K) :=
  match lookupName (d := d) (K := K) name cls.mro with
  | [] => .attributeError
  | fs =>
    match firstAccepting args fs with
    | some c => .ok c
    | none => .typeError

end Bindings

namespace Grid

variable {K : Type*} [Field K]

/-- `node_indices_of(GridCoordinates)` of `Grid<2>` and `Grid<3>`, `Grid.h:100-112,222-239`. -/
def nodeIndicesList : {d : ℕ} → Grid d K → (Fin d → ℤ) → List ℤ
  | 2, g, c => List.ofFn (g.nodeIndicesOf2 c)
  | 3, g, c => List.ofFn (g.nodeIndicesOf3 c)
  | _, _, _ => []

/-- `cell_at(GridCoordinates)`, `Grid.h:83-89,206-212`. -/
def cellVal : {d : ℕ} → Grid d K → (Fin d → ℤ) → GridVal d K
  | 2, g, c => .quad (g.cellAt2 c)
  | 3, g, c => .hexa (g.cellAt3 c)
  | _, _, _ => .indices []

/-- `number_of_edges`, `Grid.h:118-143,249-275`. -/
def edgeCount : {d : ℕ} → Grid d K → ℕ
  | 2, g => g.numberOfEdges2
  | 3, g => g.numberOfEdges3
  | _, _ => 0

/-- `edge`, `Grid.h:145-187,277-324`: two node indices.  A negative index is out of the model (read as zero). -/
def edgeList : {d : ℕ} → Grid d K → ℤ → List ℤ
  | 2, g, i => [((g.edge2 i.toNat).1 : ℤ), ((g.edge2 i.toNat).2 : ℤ)]
  | 3, g, i => [((g.edge3 i.toNat).1 : ℤ), ((g.edge3 i.toNat).2 : ℤ)]
  | _, _, _ => []

/-- `number_of_faces`, `Grid.h:326-352`. -/
def faceCount : {d : ℕ} → Grid d K → ℕ
  | 3, g => g.numberOfFaces3
  | _, _ => 0

/-- `face`, `Grid.h:354-433`.  A negative index is out of the model (read as zero). -/
def faceList : {d : ℕ} → Grid d K → ℤ → List ℤ
  | 3, g, i => List.ofFn (g.face3 i.toNat)
  | _, _, _ => []

variable [LinearOrder K] [FloorRing K]

/-- The C++ functions: `BaseGrid.h:75-306`, `BaseMultidimensionalGrid.h:46-158`, `Grid.h:83-433`. -/
def run {d : ℕ} (g : Grid d K) : GridCall d K → GridVal d K
  | .numberOfCells => .int g.numberOfCells
  | .numberOfNodes => .int g.numberOfNodes
  | .anchorPosition => .point g.anchor
  | .subdivisions => .coordinates fun a => (g.n a : ℤ)
  | .cellSize => .point g.H
  | .size => .point g.size
  | .cellIndexContaining p t => .int (g.cellIndexContaining p t)
  | .cellCoordinatesOfPoint p t => .coordinates (g.cellCoordinatesOfPoint p t)
  | .cellsAround p => .indices (g.cellsAround p)
  | .nodeAtCoordinates c => .point (g.nodeAtCoordinates c)
  | .contains p e => .flag (g.contains p e)
  | .nodeIndexAt c => .int (g.nodeIndexAt c)
  | .nodeCoordinatesAt i => .coordinates (g.nodeCoordinatesAt i)
  | .node i => .point (g.node i)
  | .cellIndexAt c => .int (g.cellIndexAt c)
  | .cellCoordinatesAt i => .coordinates (g.cellCoordinatesAt i)
  | .nodeIndicesOf c => .indices (g.nodeIndicesList c)
  | .nodeIndicesOfIndex i => .indices (g.nodeIndicesList (g.cellCoordinatesAt i))
  | .cellAt c => g.cellVal c
  | .cellAtIndex i => g.cellVal (g.cellCoordinatesAt i)
  | .numberOfEdges => .int g.edgeCount
  | .edge i => .indices (g.edgeList i)
  | .numberOfFaces => .int g.faceCount
  | .face i => .indices (g.faceList i)

/-- The value as given to Python.  The class `RectangularHexahedron<Linear>` is registered by the module `Caribou.Geometry`
(`Python/Geometry/RectangularHexahedron.cpp:25-36`), which `Caribou.Topology` does not import; `RectangularQuad` is registered nowhere. -/
def toPython {d : ℕ} (geometry : Bool) : GridVal d K → PyRes (GridVal d K)
  | .quad _ => .typeError
  | .hexa h => if geometry then .ok (.hexa h) else .typeError
  | v => .ok v

/-- `cls.name(grid, args)`, once `Caribou.Geometry` has been imported or not. -/
def pyCallAs {d : ℕ} (g : Grid d K) (geometry : Bool) (cls : GridClass) (name : GridName) (args : List (PyVal K)) : PyRes (GridVal d K) :=
  match resolveCall (d := d) cls name args with
  | .ok c => toPython geometry (g.run c)
  | .attributeError => .attributeError
  | .typeError => .typeError

/-- `grid.name(args)`. -/
def pyCall {d : ℕ} (g : Grid d K) (geometry : Bool) (name : GridName) (args : List (PyVal K)) : PyRes (GridVal d K) :=
  g.pyCallAs geometry .grid name args

/-- `Grid2D(anchor_position, n, size)` and `Grid3D(…)`, `Grid.cpp:69`. -/
def pyMake (d : ℕ) : List (PyVal K) → PyRes (Grid d K)
  | [o, n, s] =>
    match asPoint d o, asSubdivisions d n, asPoint d s with
    | some o, some n, some s => .ok ⟨o, n, s⟩
    | _, _, _ => .typeError
  | _ => .typeError

end Grid

end Caribou

import Verif.Model.HashGrid
import Verif.Model.PyGrid

/-!
# Hash grids used from Python

`Python/Topology/HashGrid.cpp`: one class per type of element, and the function `HashGrid` which picks the class.

What is assumed of pybind11: a parameter of a C++ class only accepts objects of the Python class registered for it or for a class derived from
it (none of the six classes of elements derives from another one); an unsigned parameter refuses negative integers; looking for a class which
is not registered raises `RuntimeError` (`get_type_info` with `throw_if_missing`).
-/

set_option autoImplicit false

namespace Caribou

/-- The classes of elements of the hash grids, `HashGrid.cpp:32-37`. -/
inductive HashElement
  | tetra1 | tetra2 | hexa1 | hexa2 | rect1 | rect2
  deriving DecidableEq

/-- The number of nodes of an element of the class: `Tetrahedron.h:18,148`, `Hexahedron.h:17,185`,
`RectangularHexahedron.h:18,195`. -/
def HashElement.nodeCount : HashElement → ℕ
  | .tetra1 => 4
  | .tetra2 => 10
  | .hexa1 => 8
  | .hexa2 => 20
  | .rect1 => 8
  | .rect2 => 20

/-- The name of the class of the hash grid, as its kind of element and its number: `HashGrid.cpp:32-37`. -/
def HashElement.className : HashElement → String × ℕ
  | .tetra1 => ("Tetrahedron", 4)
  | .tetra2 => ("Tetrahedron", 10)
  | .hexa1 => ("Hexahedron", 20)
  | .hexa2 => ("Hexahedron", 8)
  | .rect1 => ("RectangularHexahedron", 8)
  | .rect2 => ("RectangularHexahedron", 20)

/-- An element of Python. -/
structure PyHashElem (K : Type*) where
  cls : HashElement
  nodes : Fin cls.nodeCount → Fin 3 → K

/-- A hash grid of Python: its class and its content. -/
structure PyHashGrid (K : Type*) where
  element : HashElement
  grid : HashGrid 3 K

/-- The first argument of the function `HashGrid`: one of the six classes of elements, or anything else (for instance the function
`Caribou.Geometry.Tetrahedron`, which makes elements but is not their class). -/
inductive PyClassArg
  | cls (e : HashElement)
  | other
  deriving DecidableEq

/-- What the function `HashGrid` gives. -/
inductive PyHashRes (K : Type*)
  | made (h : PyHashGrid K)
  | none
  | typeError
  | runtimeError

section

variable {K : Type*} [Field K]

/-- Argument for `UNSIGNED_INTEGER_TYPE`. -/
def asUnsigned : PyVal K → Option ℕ
  | .int z => if 0 ≤ z ∧ z < 2 ^ 64 then some z.toNat else none
  | .flag b => some (if b then 1 else 0)
  | _ => none

/-- `HashGrid(element_type, cell_size, number_of_elements = 0)`, `HashGrid.cpp:39-62`: the classes of elements are registered by
`Caribou.Geometry`, looked for in the order of the tests. -/
def pyHashGrid (geometry : Bool) (cls : PyClassArg) (cellSize : PyVal K) (count : Option (PyVal K)) : PyHashRes K :=
  match asNumber cellSize, count.map asUnsigned with
  | some s, .none | some s, .some (some _) =>
    if geometry then
      match cls with
      | .cls e => .made ⟨e, HashGrid.empty s⟩
      | .other => .none
    else .runtimeError
  | _, _ => .typeError

variable [LinearOrder K] [FloorRing K]

/-- `hash_grid.add(element, id)`, `HashGrid.cpp:25`: the hash grid afterwards, or `TypeError`. -/
def PyHashGrid.add (h : PyHashGrid K) (e : PyHashElem K) (id : PyVal K) : PyRes (PyHashGrid K) :=
  if e.cls = h.element then
    match asUnsigned id with
    | some i => .ok { h with grid := h.grid.add e.nodes i }
    | none => .typeError
  else .typeError

/-- A sequence of calls to `add`, exceptions caught. -/
def PyHashGrid.addAll (h : PyHashGrid K) : List (PyHashElem K × PyVal K) → PyHashGrid K
  | [] => h
  | (e, id) :: rest =>
    match h.add e id with
    | .ok h' => h'.addAll rest
    | _ => h.addAll rest

/-- `hash_grid.get(p)`, `HashGrid.cpp:26`. -/
def PyHashGrid.get (h : PyHashGrid K) (p : PyVal K) : PyRes (List ℕ) :=
  match asPoint 3 p with
  | some p => .ok (h.grid.get p)
  | none => .typeError

end

end Caribou

import Verif.Model.Rectangular

/-!
# Making elements from Python

The functions `Segment`, `Triangle`, `Quad`, `Tetrahedron`, `Hexahedron` and `RectangularHexahedron` of the Python module
`Caribou.Geometry` are sets of C++ functions with the same name.  pybind11 calls the first one, in the order of the definitions, which
accepts the arguments.

Simplifications: arguments are positional (no keywords); numbers and arrays are those of double precision, or are converted without
rounding.  pybind11 tries all functions without conversions first and with conversions next; both attempts accept the same shapes, so that
one attempt is modelled.  Arrays of one number used as a number are left out.
-/

set_option autoImplicit false

namespace Caribou

noncomputable section

/-- The enumeration `Dimension` of the module, `Config/Caribou.cpp:13-17`. -/
inductive PyDim
  | d1 | d2 | d3
  deriving DecidableEq

/-- An argument. -/
inductive PyArg
  | dimension (d : PyDim)
  | order (o : Order)
  | number (x : ℝ)
  /-- Array with one index. -/
  | vector (v : List ℝ)
  /-- Array with two indices, `cols` numbers in each row. -/
  | matrix (cols : ℕ) (rows : List (List ℝ))

/-- The type of a parameter of a C++ function. -/
inductive PyParam
  | dimension
  | order
  /-- `py::arg("order") = Order::Linear`. -/
  | orderDefault
  /-- `FLOATING_POINT_TYPE`. -/
  | number
  /-- `Eigen::Matrix<FLOATING_POINT_TYPE, n, 1>`. -/
  | column (n : ℕ)
  /-- `Eigen::Matrix<FLOATING_POINT_TYPE, n, m>` with more than one column. -/
  | table (n m : ℕ)

/-- The argument as converted by pybind11 for a parameter, none when the parameter refuses it.  A column accepts an array with one index and
`n` entries, and an array of `n` rows and one column; a table accepts an array of this shape only (`EigenProps::conformable` of
pybind11). -/
def PyParam.convert : PyParam → PyArg → Option PyArg
  | .dimension, .dimension d => some (.dimension d)
  | .order, .order o => some (.order o)
  | .orderDefault, .order o => some (.order o)
  | .number, .number x => some (.number x)
  | .column n, .vector v => if v.length = n then some (.vector v) else none
  | .column n, .matrix c rows => if c = 1 ∧ rows.length = n then some (.vector (rows.map fun r => r.headD 0)) else none
  | .table n m, .matrix c rows => if c = m ∧ rows.length = n then some (.matrix c rows) else none
  | _, _ => none

/-- The arguments as received by a C++ function, none when it refuses them. -/
def bindArgs : List PyParam → List PyArg → Option (List PyArg)
  | [], [] => some []
  | .orderDefault :: ps, [] => (bindArgs ps []).map fun l => .order .linear :: l
  | p :: ps, a :: as =>
    match p.convert a with
    | none => none
    | some b => (bindArgs ps as).map fun l => b :: l
  | _, _ => none

/-- An element returned to Python: its class and dimension with its nodes, or a rectangular hexahedron. -/
inductive PyMade
  | iso (type : ElementType) (dim : ℕ) (nodes : List (List ℝ))
  | rect (o : Order) (h : RectHexa ℝ)

/-- The rows of an array as nodes. -/
def rowsFn (n m : ℕ) (rows : List (List ℝ)) : Fin n → Fin m → ℝ := fun i a => (rows.getD i []).getD a 0

/-- Nodes as rows. -/
def fnRows {n m : ℕ} (nodes : Fin n → Fin m → ℝ) : List (List ℝ) := List.ofFn fun i => List.ofFn (nodes i)

/-- The nodes given to a function: the rows of a table, or one point after the other. -/
def argRows : List PyArg → List (List ℝ)
  | [] => []
  | .matrix _ rows :: l => rows ++ argRows l
  | .vector v :: l => v :: argRows l
  | _ :: l => argRows l

/-- The entries of a column, or numbers, as nodes of a segment of dimension one, `Segment.cpp:102-109,130-137`. -/
def argNumbers : List PyArg → List (List ℝ)
  | [] => []
  | .vector v :: l => (v.map fun x => [x]) ++ argNumbers l
  | .number x :: l => [x] :: argNumbers l
  | _ :: l => argNumbers l

/-- The order received. -/
def argOrder : List PyArg → Order
  | [] => .linear
  | .order o :: _ => o
  | _ :: l => argOrder l

/-- The dimension received. -/
def argDim : List PyArg → PyDim
  | [] => .d1
  | .dimension d :: _ => d
  | _ :: l => argDim l

/-- The default constructors: the canonical nodes, completed with zeros (`Segment.h:52-63,133-147`, `Triangle.h:66-76,173-189`,
`Quad.h:74-86,204-224`, `Tetrahedron.h:73-78,203-214`, `Hexahedron.h:78-87,260-282`). -/
def canonicalRows (T : ElementType) (m : ℕ) : List (List ℝ) :=
  fnRows (m := m) fun i a => if h : a.1 < T.dim then (T.elem (K := ℝ)).node i ⟨a.1, h⟩ else 0

/-- A C++ function: the types of its parameters and what it returns. -/
structure PyOverload where
  params : List PyParam
  build : List PyArg → PyMade

/-- The element of a dimension made from the nodes given, `BaseTriangle.h:37-53` and the same in the other classes
(`construct_from_nodes`, `BaseTriangle.h:96-107`: row after row). -/
def ofNodes (T : ElementType) (m : ℕ) : List PyArg → PyMade := fun l => .iso T m (argRows l)

/-- Linear nodes with an order: the quadratic element is made from the linear one, `Triangle.cpp:95-120`, `Triangle.h:192-208`. -/
def triangleOfOrder (m : ℕ) (l : List PyArg) : PyMade :=
  match argOrder l with
  | .linear => .iso .triangle1 m (argRows l)
  | .quadratic => .iso .triangle2 m (fnRows (triangle2OfLinear (rowsFn 3 m (argRows l))))

/-- `Quad.cpp:91-120`, `Quad.h:227-245`. -/
def quadOfOrder (m : ℕ) (l : List PyArg) : PyMade :=
  match argOrder l with
  | .linear => .iso .quad1 m (argRows l)
  | .quadratic => .iso .quad2 m (fnRows (quad2OfLinear (rowsFn 4 m (argRows l))))

/-- `Tetrahedron.cpp:62-74`, `Tetrahedron.h:217-237`. -/
def tetraOfOrder (l : List PyArg) : PyMade :=
  match argOrder l with
  | .linear => .iso .tetra1 3 (argRows l)
  | .quadratic => .iso .tetra2 3 (fnRows (tetra2OfLinear (rowsFn 4 3 (argRows l))))

/-- `Hexahedron.cpp:62-76`, `RectangularHexahedron.cpp:96-104`, `Hexahedron.h:285-315`. -/
def hexaOfOrder (l : List PyArg) : PyMade :=
  match argOrder l with
  | .linear => .iso .hexa1 3 (argRows l)
  | .quadratic => .iso .hexa2 3 (fnRows (hexa2OfLinear (rowsFn 8 3 (argRows l))))

/-- The functions with the name `Segment`, `Segment.cpp:58-155`. -/
def segmentOverloads : List PyOverload :=
  [⟨[], fun _ => .iso .segment1 1 (canonicalRows .segment1 1)⟩,
   ⟨[.dimension], fun l => match argDim l with
      | .d1 => .iso .segment1 1 (canonicalRows .segment1 1)
      | .d2 => .iso .segment1 2 (canonicalRows .segment1 2)
      | .d3 => .iso .segment1 3 (canonicalRows .segment1 3)⟩,
   ⟨[.order], fun l => match argOrder l with
      | .linear => .iso .segment1 1 (canonicalRows .segment1 1)
      | .quadratic => .iso .segment2 1 (canonicalRows .segment2 1)⟩,
   ⟨[.dimension, .order], fun l => match argDim l, argOrder l with
      | .d1, .linear => .iso .segment1 1 (canonicalRows .segment1 1)
      | .d1, .quadratic => .iso .segment2 1 (canonicalRows .segment2 1)
      | .d2, .linear => .iso .segment1 2 (canonicalRows .segment1 2)
      | .d2, .quadratic => .iso .segment2 2 (canonicalRows .segment2 2)
      | .d3, .linear => .iso .segment1 3 (canonicalRows .segment1 3)
      | .d3, .quadratic => .iso .segment2 3 (canonicalRows .segment2 3)⟩,
   ⟨[.column 2], fun l => .iso .segment1 1 (argNumbers l)⟩,
   ⟨[.number, .number], fun l => .iso .segment1 1 (argNumbers l)⟩,
   ⟨[.table 2 2], ofNodes .segment1 2⟩,
   ⟨[.column 2, .column 2], ofNodes .segment1 2⟩,
   ⟨[.table 2 3], ofNodes .segment1 3⟩,
   ⟨[.column 3, .column 3], ofNodes .segment1 3⟩,
   ⟨[.column 3], fun l => .iso .segment2 1 (argNumbers l)⟩,
   ⟨[.number, .number, .number], fun l => .iso .segment2 1 (argNumbers l)⟩,
   ⟨[.table 3 2], ofNodes .segment2 2⟩,
   ⟨[.column 2, .column 2, .column 2], ofNodes .segment2 2⟩,
   ⟨[.table 3 3], ofNodes .segment2 3⟩,
   ⟨[.column 3, .column 3, .column 3], ofNodes .segment2 3⟩]

/-- The functions without nodes of `Triangle.cpp:60-92` and `Quad.cpp:56-88`: any dimension other than `_2D` is three. -/
def surfaceDefaults (T1 T2 : ElementType) : List PyOverload :=
  [⟨[], fun _ => .iso T1 2 (canonicalRows T1 2)⟩,
   ⟨[.dimension], fun l => if argDim l = .d2 then .iso T1 2 (canonicalRows T1 2) else .iso T1 3 (canonicalRows T1 3)⟩,
   ⟨[.order], fun l => match argOrder l with
      | .linear => .iso T1 2 (canonicalRows T1 2)
      | .quadratic => .iso T2 2 (canonicalRows T2 2)⟩,
   ⟨[.dimension, .order], fun l =>
      if argDim l = .d2 then
        match argOrder l with
        | .linear => .iso T1 2 (canonicalRows T1 2)
        | .quadratic => .iso T2 2 (canonicalRows T2 2)
      else
        match argOrder l with
        | .linear => .iso T1 3 (canonicalRows T1 3)
        | .quadratic => .iso T2 3 (canonicalRows T2 3)⟩]

/-- The functions with the name `Triangle`, `Triangle.cpp:60-145`. -/
def triangleOverloads : List PyOverload :=
  surfaceDefaults .triangle1 .triangle2 ++
  [⟨[.table 3 2, .orderDefault], triangleOfOrder 2⟩,
   ⟨List.replicate 3 (.column 2) ++ [.orderDefault], triangleOfOrder 2⟩,
   ⟨[.table 3 3, .orderDefault], triangleOfOrder 3⟩,
   ⟨List.replicate 3 (.column 3) ++ [.orderDefault], triangleOfOrder 3⟩,
   ⟨[.table 6 2], ofNodes .triangle2 2⟩,
   ⟨List.replicate 6 (.column 2), ofNodes .triangle2 2⟩,
   ⟨[.table 6 3], ofNodes .triangle2 3⟩,
   ⟨List.replicate 6 (.column 3), ofNodes .triangle2 3⟩]

/-- The functions with the name `Quad`, `Quad.cpp:56-144`. -/
def quadOverloads : List PyOverload :=
  surfaceDefaults .quad1 .quad2 ++
  [⟨[.table 4 2, .orderDefault], quadOfOrder 2⟩,
   ⟨List.replicate 4 (.column 2) ++ [.orderDefault], quadOfOrder 2⟩,
   ⟨[.table 4 3, .orderDefault], quadOfOrder 3⟩,
   ⟨List.replicate 4 (.column 3) ++ [.orderDefault], quadOfOrder 3⟩,
   ⟨[.table 8 2], ofNodes .quad2 2⟩,
   ⟨List.replicate 8 (.column 2), ofNodes .quad2 2⟩,
   ⟨[.table 8 3], ofNodes .quad2 3⟩,
   ⟨List.replicate 8 (.column 3), ofNodes .quad2 3⟩]

/-- The functions without nodes of `Tetrahedron.cpp:50-60` and `Hexahedron.cpp:50-60`. -/
def solidDefaults (T1 T2 : ElementType) : List PyOverload :=
  [⟨[], fun _ => .iso T1 3 (canonicalRows T1 3)⟩,
   ⟨[.order], fun l => match argOrder l with
      | .linear => .iso T1 3 (canonicalRows T1 3)
      | .quadratic => .iso T2 3 (canonicalRows T2 3)⟩]

/-- The functions with the name `Tetrahedron`, `Tetrahedron.cpp:50-88`. -/
def tetraOverloads : List PyOverload :=
  solidDefaults .tetra1 .tetra2 ++
  [⟨[.table 4 3, .orderDefault], tetraOfOrder⟩,
   ⟨List.replicate 4 (.column 3) ++ [.orderDefault], tetraOfOrder⟩,
   ⟨[.table 10 3], ofNodes .tetra2 3⟩,
   ⟨List.replicate 10 (.column 3), ofNodes .tetra2 3⟩]

/-- The functions with the name `Hexahedron`, `Hexahedron.cpp:50-96`. -/
def hexaOverloads : List PyOverload :=
  solidDefaults .hexa1 .hexa2 ++
  [⟨[.table 8 3, .orderDefault], hexaOfOrder⟩,
   ⟨List.replicate 8 (.column 3) ++ [.orderDefault], hexaOfOrder⟩,
   ⟨[.table 20 3], ofNodes .hexa2 3⟩,
   ⟨List.replicate 20 (.column 3), ofNodes .hexa2 3⟩]

/-- Centre, size and rotation received by the functions of `RectangularHexahedron.cpp:69-92`; the values of the constructors of
`BaseRectangularHexahedron.h:45-57` when they are not given. -/
def rectOfArgs : List PyArg → RectHexa ℝ
  | [.order _, .vector c] => ⟨fun i => c.getD i 0, fun _ => 2, 1⟩
  | [.order _, .vector c, .vector H] => ⟨fun i => c.getD i 0, fun i => H.getD i 0, 1⟩
  | [.order _, .vector c, .vector H, .matrix _ R] => ⟨fun i => c.getD i 0, fun i => H.getD i 0, Matrix.of (rowsFn 3 3 R)⟩
  | _ => .default

/-- The functions with the name `RectangularHexahedron`, `RectangularHexahedron.cpp:57-125`.  The ones which are given points return a
`Hexahedron` (lines 103-104 and 121). -/
def rectOverloads : List PyOverload :=
  [⟨[], fun _ => .rect .linear .default⟩,
   ⟨[.order], fun l => .rect (argOrder l) .default⟩,
   ⟨[.order, .column 3], fun l => .rect (argOrder l) (rectOfArgs l)⟩,
   ⟨[.order, .column 3, .column 3], fun l => .rect (argOrder l) (rectOfArgs l)⟩,
   ⟨[.order, .column 3, .column 3, .table 3 3], fun l => .rect (argOrder l) (rectOfArgs l)⟩,
   ⟨[.table 8 3, .orderDefault], fun l => .rect (argOrder l) (.ofHexa hexa1 (rowsFn 8 3 (argRows l)))⟩,
   ⟨List.replicate 8 (.column 3) ++ [.orderDefault], hexaOfOrder⟩,
   ⟨[.table 20 3], fun l => .rect .quadratic (.ofHexa hexa2 (rowsFn 20 3 (argRows l)))⟩,
   ⟨List.replicate 20 (.column 3), ofNodes .hexa2 3⟩]

/-- The names of the module `Caribou.Geometry` which make elements. -/
inductive PyFactory
  | segment | triangle | quad | tetrahedron | hexahedron | rectangularHexahedron
  deriving DecidableEq

/-- The functions of a name. -/
def PyFactory.overloads : PyFactory → List PyOverload
  | .segment => segmentOverloads
  | .triangle => triangleOverloads
  | .quad => quadOverloads
  | .tetrahedron => tetraOverloads
  | .hexahedron => hexaOverloads
  | .rectangularHexahedron => rectOverloads

/-- The first function which accepts the arguments is called; none is the `TypeError` of pybind11. -/
def dispatch : List PyOverload → List PyArg → Option PyMade
  | [], _ => none
  | f :: fs, args =>
    match bindArgs f.params args with
    | some l => some (f.build l)
    | none => dispatch fs args

/-- A call from Python. -/
def PyFactory.call (f : PyFactory) (args : List PyArg) : Option PyMade := dispatch f.overloads args

end

end Caribou

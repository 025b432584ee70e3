import Verif.Model.Rectangular
import Verif.Model.Canonical
import Mathlib.Algebra.Order.Floor.Ring
import Mathlib.Data.Int.Order.Lemmas

/-!
# Regular grids

`Topology/Grid/Internal/BaseGrid.h`, `BaseUnidimensionalGrid.h`, `BaseMultidimensionalGrid.h` and `Topology/Grid/Grid.h`.

Indices and grid coordinates are `signed long long int`, the subdivisions `unsigned long long int`
(`Config/config.h.in:25-26`): a product of the two is computed modulo `2^64` and stored back in a signed integer.  This is
modelled with `toU64` and `toI64`.  Floating point numbers are elements of an ordered field with a floor; the conversion of
a floating point number outside the range of 64-bit integers (undefined in C++) is modelled by the unbounded integer.
-/

set_option autoImplicit false

namespace Caribou

/-- Conversion to `unsigned long long int`. -/
def toU64 (x : ℤ) : ℤ := x % 2 ^ 64

/-- Conversion to `signed long long int`. -/
def toI64 (x : ℤ) : ℤ := Int.bmod x (2 ^ 64)

/-- Member variables of `BaseGrid`, `BaseGrid.h:411-418`; constructor `BaseGrid.h:69-73`. -/
structure Grid (d : ℕ) (K : Type*) where
  /-- `m_anchor_position` -/
  anchor : Fin d → K
  /-- `m_number_of_subdivisions` -/
  n : Fin d → ℕ
  /-- `m_size` -/
  size : Fin d → K

/-- `static_cast<Int>` of a floating point number: truncation toward zero. -/
def truncate {K : Type*} [Field K] [LinearOrder K] [FloorRing K] (x : K) : ℤ := if 0 ≤ x then ⌊x⌋ else ⌈x⌉

/-- `std::round`: nearest integer, halfway cases away from zero. -/
def roundAway {K : Type*} [Field K] [LinearOrder K] [FloorRing K] (x : K) : ℤ :=
  if 0 ≤ x then ⌊x + 1 / 2⌋ else ⌈x - 1 / 2⌉

/-- `EPSILON` for double precision, `Config/config.h.in`. -/
def gridEps (K : Type*) [Field K] : K := 1 / 10 ^ 19

namespace Grid

variable {d : ℕ} {K : Type*}

/-- `number_of_cells`, `BaseGrid.h:75-81`. -/
def numberOfCells (g : Grid d K) : ℤ := toU64 (∏ a, (g.n a : ℤ))

/-- `number_of_nodes`, `BaseGrid.h:83-91`. -/
def numberOfNodes (g : Grid d K) : ℤ := toU64 (∏ a, ((g.n a : ℤ) + 1))

/-- `node_index_at`: `BaseUnidimensionalGrid.h:44-48` (1D) and `BaseMultidimensionalGrid.h:46-64` (2D, 3D). -/
def nodeIndexAt : {d : ℕ} → Grid d K → (Fin d → ℤ) → ℤ
  | 1, _, c => c 0
  | 2, g, c => toI64 (c 1 * (g.n 0 + 1) + c 0)
  | 3, g, c => toI64 (c 2 * (g.n 1 + 1) * (g.n 0 + 1) + c 1 * (g.n 0 + 1) + c 0)
  | _, _, _ => 0

/-- `node_coordinates_at`: `BaseUnidimensionalGrid.h:50-55` (1D) and `BaseMultidimensionalGrid.h:66-86` (2D, 3D). -/
def nodeCoordinatesAt : {d : ℕ} → Grid d K → ℤ → (Fin d → ℤ)
  | 1, _, index => fun _ => index
  | 2, g, index =>
    let j := toU64 index / toU64 (g.n 0 + 1)
    let i := toU64 (index - j * (g.n 0 + 1))
    ![toI64 i, toI64 j]
  | 3, g, index =>
    let k := toU64 index / toU64 ((g.n 0 + 1) * (g.n 1 + 1))
    let j := toU64 (index - k * (g.n 0 + 1) * (g.n 1 + 1)) / toU64 (g.n 0 + 1)
    let i := toU64 (index - (k * (g.n 0 + 1) * (g.n 1 + 1) + j * (g.n 0 + 1)))
    ![toI64 i, toI64 j, toI64 k]
  | _, _, _ => fun _ => 0

/-- `cell_index_at`: `BaseUnidimensionalGrid.h:67-74` (1D) and `BaseMultidimensionalGrid.h:116-136` (2D, 3D). -/
def cellIndexAt : {d : ℕ} → Grid d K → (Fin d → ℤ) → ℤ
  | 1, _, c => c 0
  | 2, g, c => toI64 (c 1 * g.n 0 + c 0)
  | 3, g, c => toI64 (c 2 * g.n 1 * g.n 0 + c 1 * g.n 0 + c 0)
  | _, _, _ => 0

/-- `cell_coordinates_at(index)`: `BaseUnidimensionalGrid.h:76-81` (1D) and `BaseMultidimensionalGrid.h:138-158` (2D, 3D). -/
def cellCoordinatesAt : {d : ℕ} → Grid d K → ℤ → (Fin d → ℤ)
  | 1, _, index => fun _ => index
  | 2, g, index =>
    let j := toU64 index / toU64 (g.n 0)
    let i := toU64 (index - j * g.n 0)
    ![toI64 i, toI64 j]
  | 3, g, index =>
    let k := toU64 index / toU64 (g.n 0 * g.n 1)
    let j := toU64 (index - k * g.n 0 * g.n 1) / toU64 (g.n 0)
    let i := toU64 (index - (k * g.n 0 * g.n 1 + j * g.n 0))
    ![toI64 i, toI64 j, toI64 k]
  | _, _, _ => fun _ => 0

section Field

variable [Field K]

/-- `H`, `BaseGrid.h:108-113`. -/
def H (g : Grid d K) : Fin d → K := fun a => g.size a / g.n a

/-- `node(GridCoordinates)`, `BaseGrid.h:274-280`. -/
def nodeAtCoordinates (g : Grid d K) (c : Fin d → ℤ) : Fin d → K := fun a => g.anchor a + (c a : K) * g.H a

/-- `node(NodeIndex)`: `BaseUnidimensionalGrid.h:57-65` (1D) and `BaseMultidimensionalGrid.h:88-114` (2D, 3D).  The
divisions written there are those of `node_coordinates_at`. -/
def node (g : Grid d K) (index : ℤ) : Fin d → K := g.nodeAtCoordinates (g.nodeCoordinatesAt index)

/-- `node_indices_of(GridCoordinates)` for `Grid<2>`, `Grid.h:100-112`. -/
def nodeIndicesOf2 (g : Grid 2 K) (c : Fin 2 → ℤ) : Fin 4 → ℤ :=
  let e1 : Fin 2 → ℤ := ![1, 0]
  let e2 : Fin 2 → ℤ := ![0, 1]
  ![g.nodeIndexAt c, g.nodeIndexAt (c + e1), g.nodeIndexAt (c + e1 + e2), g.nodeIndexAt (c + e2)]

/-- `node_indices_of(GridCoordinates)` for `Grid<3>`, `Grid.h:222-239`. -/
def nodeIndicesOf3 (g : Grid 3 K) (c : Fin 3 → ℤ) : Fin 8 → ℤ :=
  let e1 : Fin 3 → ℤ := ![1, 0, 0]
  let e2 : Fin 3 → ℤ := ![0, 1, 0]
  let e3 : Fin 3 → ℤ := ![0, 0, 1]
  ![g.nodeIndexAt c, g.nodeIndexAt (c + e1), g.nodeIndexAt (c + e1 + e2), g.nodeIndexAt (c + e2),
    g.nodeIndexAt (c + e3), g.nodeIndexAt (c + e1 + e3), g.nodeIndexAt (c + e1 + e2 + e3), g.nodeIndexAt (c + e2 + e3)]

/-- `node_indices_of(CellIndex)` for `Grid<1>`, `Grid.h:59-66`. -/
def nodeIndicesOf1 (_g : Grid 1 K) (index : ℤ) : Fin 2 → ℤ := ![index, index + 1]

/-- Nodes of `cell_at(CellIndex)` for `Grid<1>`, `Grid.h:43-49`. -/
def cellNodes1 (g : Grid 1 K) (index : ℤ) : Fin 2 → Fin 1 → K := ![g.node index, g.node (index + 1)]

/-- `center` in `cell_at(GridCoordinates)`, `Grid.h:87` and `Grid.h:210`. -/
def cellCenter (g : Grid d K) (c : Fin d → ℤ) : Fin d → K := fun a => g.anchor a + (c a : K) * g.H a + g.H a / 2

/-- `cell_at(GridCoordinates)` for `Grid<2>`, `Grid.h:83-89`: the two argument constructor of `RectangularQuad` sets the
rotation to the identity. -/
def cellAt2 (g : Grid 2 K) (c : Fin 2 → ℤ) : RectQuad K 2 := ⟨g.cellCenter c, g.H, 1⟩

/-- `cell_at(GridCoordinates)` for `Grid<3>`, `Grid.h:206-212`. -/
def cellAt3 (g : Grid 3 K) (c : Fin 3 → ℤ) : RectHexa K := ⟨g.cellCenter c, g.H, 1⟩

/-- `Grid<2>::number_of_edges`, `Grid.h:121-146`.  Edge and face numbers are natural numbers: overflow of 64-bit integers
is not modelled for them. -/
def numberOfEdges2 (g : Grid 2 K) : ℕ := (2 * g.n 0 + 1) * g.n 1 + g.n 0

/-- `Grid<2>::edge`, `Grid.h:148-187`. -/
def edge2 (g : Grid 2 K) (index : ℕ) : ℕ × ℕ :=
  let nx := g.n 0
  let perRow := 2 * nx + 1
  let row := index / perRow
  let onRow := index % perRow
  if onRow < nx then
    let n0 := row * (nx + 1) + onRow
    (n0, n0 + 1)
  else
    let n0 := row * (nx + 1) + onRow - nx
    (n0, n0 + (nx + 1))

/-- `Grid<3>::number_of_edges`, `Grid.h:247-275`. -/
def numberOfEdges3 (g : Grid 3 K) : ℕ :=
  let nx := g.n 0
  let ny := g.n 1
  let nz := g.n 2
  let perRow := 2 * nx + 1
  let perSlice := perRow * ny + nx
  let between := (nx + 1) * (ny + 1)
  (nz + 1) * perSlice + nz * between

/-- `Grid<3>::edge`, `Grid.h:277-324`.  The comparison `index_on_slice > nb_edges_per_slice - 1` on unsigned numbers
underflows for a grid without cells in the first two directions; the model is meant for at least one cell per direction. -/
def edge3 (g : Grid 3 K) (index : ℕ) : ℕ × ℕ :=
  let nx := g.n 0
  let ny := g.n 1
  let perRow := 2 * nx + 1
  let perSlice := perRow * ny + nx
  let between := (nx + 1) * (ny + 1)
  let slice := index / (perSlice + between)
  let onSlice := index % (perSlice + between)
  let corner := slice * (nx + 1) * (ny + 1)
  if onSlice > perSlice - 1 then
    let n0 := corner + (onSlice - perSlice)
    (n0, n0 + between)
  else
    let row := onSlice / perRow
    let onRow := onSlice % perRow
    if onRow < nx then
      let n0 := corner + row * (nx + 1) + onRow
      (n0, n0 + 1)
    else
      let n0 := corner + row * (nx + 1) + onRow - nx
      (n0, n0 + (nx + 1))

/-- `Grid<3>::number_of_faces`, `Grid.h:326-352`. -/
def numberOfFaces3 (g : Grid 3 K) : ℕ :=
  let nx := g.n 0
  let ny := g.n 1
  let nz := g.n 2
  (nz + 1) * (nx * ny) + nz * ((nx + 1) * ny + nx * (ny + 1))

/-- `Grid<3>::face`, `Grid.h:354-433`. -/
def face3 (g : Grid 3 K) (index : ℕ) : Fin 4 → ℤ :=
  let nx := g.n 0
  let ny := g.n 1
  let perRow := nx
  let perSlice := nx * ny
  let between := (nx + 1) * ny + nx * (ny + 1)
  let slice := index / (perSlice + between)
  let corner := slice * (nx + 1) * (ny + 1)
  let onSlice := index % (perSlice + between)
  let e1 : Fin 3 → ℤ := ![1, 0, 0]
  let e2 : Fin 3 → ℤ := ![0, 1, 0]
  let e3 : Fin 3 → ℤ := ![0, 0, 1]
  if onSlice < perSlice then
    let row := onSlice / perRow
    let onRow := onSlice % perRow
    let n0 := corner + row * (nx + 1) + onRow
    let c := g.nodeCoordinatesAt (n0 : ℤ)
    ![g.nodeIndexAt c, g.nodeIndexAt (c + e1), g.nodeIndexAt (c + e1 + e2), g.nodeIndexAt (c + e2)]
  else
    let inbetween := onSlice - perSlice
    let xz := perRow * (ny + 1)
    if inbetween < xz then
      let row := inbetween / perRow
      let onRow := inbetween % perRow
      let n0 := corner + row * (nx + 1) + onRow
      let c := g.nodeCoordinatesAt (n0 : ℤ)
      ![g.nodeIndexAt c, g.nodeIndexAt (c + e1), g.nodeIndexAt (c + e1 + e3), g.nodeIndexAt (c + e3)]
    else
      let yz := inbetween - xz
      let n0 := corner + yz
      let c := g.nodeCoordinatesAt (n0 : ℤ)
      ![g.nodeIndexAt c, g.nodeIndexAt (c + e2), g.nodeIndexAt (c + e2 + e3), g.nodeIndexAt (c + e3)]

end Field

section Order

variable [Field K] [LinearOrder K]

/-- `contains`, `BaseGrid.h:282-306`. -/
def contains (g : Grid d K) (p : Fin d → K) (eps : K) : Bool :=
  (List.finRange d).all fun a =>
    !(decide ((p a - g.anchor a) / g.size a < 0 - eps) || decide ((p a - g.anchor a) / g.size a > 1 + eps))

variable [FloorRing K]

/-- `cell_coordinates_at(WorldCoordinates, test_for_boundary)`, `BaseGrid.h:240-262` (and `264-272`, the same as `false`). -/
def cellCoordinatesOfPoint (g : Grid d K) (p : Fin d → K) (testForBoundary : Bool) : Fin d → ℤ := fun a =>
  let h := g.H a
  let upper := g.anchor a + (g.n a : K) * h
  let q := if testForBoundary && inClosedInterval (-(h / 1000000)) (p a - upper) (h / 1000000) then p a - h / 10 else p a
  truncate ((q - g.anchor a) / h)

/-- `cell_index_containing`, `BaseGrid.h:127-131`. -/
def cellIndexContaining (g : Grid d K) (p : Fin d → K) (testForBoundary : Bool) : ℤ :=
  g.cellIndexAt (g.cellCoordinatesOfPoint p testForBoundary)

/-- `absolute`, `BaseGrid.h:160`. -/
def absolute (g : Grid d K) (p : Fin d → K) (a : Fin d) : K := (p a - g.anchor a) / g.H a

/-- `close_to_axis`, `BaseGrid.h:163-175`. -/
def closeToAxis (g : Grid d K) (p : Fin d → K) (a : Fin d) : Bool :=
  let distance := g.absolute p a - (roundAway (g.absolute p a) : K)
  decide (distance * distance < gridEps K * gridEps K)

/-- `axis_indices[axis]`, `BaseGrid.h:192-212`. -/
def axisIndices (g : Grid d K) (p : Fin d → K) (a : Fin d) : List ℤ :=
  if g.closeToAxis p a then
    let below := ⌊(roundAway (g.absolute p a) : K) - 1 / 2⌋
    let above := ⌊(roundAway (g.absolute p a) : K) + 1 / 2⌋
    (if below ≥ 0 then [below] else []) ++ (if above ≤ (g.n a : ℤ) - 1 then [above] else [])
  else
    let index := ⌊g.absolute p a⌋
    if 0 ≤ index ∧ index ≤ (g.n a : ℤ) - 1 then [index] else []

/-- The nested loops of `BaseGrid.h:214-229`: first axis outermost. -/
def axisProduct : {d : ℕ} → Grid d K → (Fin d → List ℤ) → List ℤ
  | 1, g, l => (l 0).map fun i => g.cellIndexAt ![i]
  | 2, g, l => (l 0).flatMap fun i => (l 1).map fun j => g.cellIndexAt ![i, j]
  | 3, g, l => (l 0).flatMap fun i => (l 1).flatMap fun j => (l 2).map fun k => g.cellIndexAt ![i, j, k]
  | _, _, _ => []

/-- `cells_around`, `BaseGrid.h:140-233`. -/
def cellsAround (g : Grid d K) (p : Fin d → K) : List ℤ :=
  if (List.finRange d).all (fun a => !g.closeToAxis p a) then
    let index := g.cellIndexAt fun a => ⌊g.absolute p a⌋
    if 0 ≤ index ∧ index ≤ g.numberOfCells - 1 then [index] else []
  else
    axisProduct g (g.axisIndices p)

/-- `min_between`, `BaseGrid.h:327-343`. -/
def minBetween (g : Grid d K) (cells : List ℤ) (m : Fin d → ℤ) : Fin d → ℤ :=
  cells.foldl (fun lower index => fun a =>
    min (max (min (g.cellCoordinatesAt index a) (lower a)) 0) ((g.n a : ℤ) - 1)) m

/-- `max_between`, `BaseGrid.h:346-363`. -/
def maxBetween (g : Grid d K) (cells : List ℤ) (m : Fin d → ℤ) : Fin d → ℤ :=
  cells.foldl (fun upper index => fun a =>
    min (max (max (g.cellCoordinatesAt index a) (upper a)) 0) ((g.n a : ℤ) - 1)) m

/-- The integers `lo, lo + 1, …, hi`: `for (i = lo; i <= hi; ++i)`. -/
def interval (lo hi : ℤ) : List ℤ := (List.range (hi + 1 - lo).toNat).map fun i : ℕ => lo + (i : ℤ)

/-- The nested loops of `BaseGrid.h:388-404`: first axis innermost. -/
def boxCells : {d : ℕ} → Grid d K → (Fin d → ℤ) → (Fin d → ℤ) → List ℤ
  | 1, g, lo, hi => (interval (lo 0) (hi 0)).map fun i => g.cellIndexAt ![i]
  | 2, g, lo, hi => (interval (lo 1) (hi 1)).flatMap fun j => (interval (lo 0) (hi 0)).map fun i => g.cellIndexAt ![i, j]
  | 3, g, lo, hi =>
    (interval (lo 2) (hi 2)).flatMap fun k => (interval (lo 1) (hi 1)).flatMap fun j =>
      (interval (lo 0) (hi 0)).map fun i => g.cellIndexAt ![i, j, k]
  | _, _, _, _ => []

/-- `cells_enclosing(first, rest...)`, `BaseGrid.h:308-407`. -/
def cellsEnclosing (g : Grid d K) (first : Fin d → K) (rest : List (Fin d → K)) : List ℤ :=
  let lower := rest.foldl (fun l p => g.minBetween (g.cellsAround p) l)
    (g.minBetween (g.cellsAround first) fun a => (g.n a : ℤ) - 1)
  let upper := rest.foldl (fun u p => g.maxBetween (g.cellsAround p) u)
    (g.maxBetween (g.cellsAround first) fun _ => 0)
  if (first :: rest).any (fun p => g.contains p (gridEps K)) then g.boxCells lower upper else []

end Order

end Grid

end Caribou

import Verif.Model.Grid

/-!
# `HashGrid` and `BarycentricContainer` of `src/Caribou/Topology`

World coordinates are exact; the conversions of cell coordinates to 64-bit integers are assumed not to overflow (cell
coordinates are unbounded integers).  The `std::unordered_map` is a function from cell coordinates to the list stored
there (empty when there is no entry): its keys are compared with `(a - b).norm() == 0`, i.e. componentwise equality.
-/

set_option autoImplicit false

namespace Caribou

/-- `colwise().minCoeff()` of a matrix with one node per row (`0` for a matrix without rows, where Eigen asserts). -/
def minCoeff {K : Type*} [Field K] [LinearOrder K] {n d : ℕ} (X : Fin n → Fin d → K) (a : Fin d) : K :=
  match List.ofFn fun i => X i a with
  | [] => 0
  | x :: xs => xs.foldl min x

/-- `colwise().maxCoeff()`. -/
def maxCoeff {K : Type*} [Field K] [LinearOrder K] {n d : ℕ} (X : Fin n → Fin d → K) (a : Fin d) : K :=
  match List.ofFn fun i => X i a with
  | [] => 0
  | x :: xs => xs.foldl max x

/-- `std::set<Index>::emplace`: sorted insertion, nothing happens when the value is present. -/
def setInsert (x : ℕ) : List ℕ → List ℕ
  | [] => [x]
  | y :: ys => if x < y then x :: y :: ys else if x = y then y :: ys else y :: setInsert x ys

/-- `HashGrid<Element>`, `HashGrid.h:20-165`: cell size and table. -/
structure HashGrid (d : ℕ) (K : Type*) where
  cellSize : K
  table : (Fin d → ℤ) → List ℕ

namespace HashGrid

variable {d : ℕ} {K : Type*} [Field K] [LinearOrder K] [FloorRing K]

/-- Constructors, `HashGrid.h:31-35` (`reserve` has no visible effect). -/
def empty (cellSize : K) : HashGrid d K := ⟨cellSize, fun _ => []⟩

/-- Nested loops over the coordinates listed per axis, first axis outermost: `HashGrid.h:46-61` and `105-119`. -/
def cellProduct : {d : ℕ} → (Fin d → List ℤ) → List (Fin d → ℤ)
  | 1, l => (l 0).map fun i => ![i]
  | 2, l => (l 0).flatMap fun i => (l 1).map fun j => ![i, j]
  | 3, l => (l 0).flatMap fun i => (l 1).flatMap fun j => (l 2).map fun k => ![i, j, k]
  | _, _ => []

/-- The cells visited by `add`, `HashGrid.h:43-61`. -/
def cellsOf {n : ℕ} (g : HashGrid d K) (nodes : Fin n → Fin d → K) : List (Fin d → ℤ) :=
  cellProduct fun a => Grid.interval ⌊minCoeff nodes a * 1 / g.cellSize⌋ ⌊maxCoeff nodes a * 1 / g.cellSize⌋

/-- `p_hash_table[cell].emplace_back(id)`. -/
def append (id : ℕ) (table : (Fin d → ℤ) → List ℕ) (cell : Fin d → ℤ) : (Fin d → ℤ) → List ℕ :=
  fun c => if c = cell then table c ++ [id] else table c

/-- `add(e, id)`, `HashGrid.h:42-62`. -/
def add {n : ℕ} (g : HashGrid d K) (nodes : Fin n → Fin d → K) (id : ℕ) : HashGrid d K :=
  { g with table := (g.cellsOf nodes).foldl (append id) g.table }

/-- `close_to_axis[axis]`, `HashGrid.h:80-83`; `absolute = p / p_cell_size` and `rounded` at 70-72. -/
def closeToAxis (g : HashGrid d K) (p : Fin d → K) (a : Fin d) : Bool :=
  let distance := p a / g.cellSize - (roundAway (p a / g.cellSize) : K)
  decide (distance * distance < gridEps K * gridEps K)

/-- `axis_indices[axis]`, `HashGrid.h:91-103`. -/
def axisIndices (g : HashGrid d K) (p : Fin d → K) (a : Fin d) : List ℤ :=
  if g.closeToAxis p a then
    [⌊(roundAway (p a / g.cellSize) : K) - 1 / 2⌋, ⌊(roundAway (p a / g.cellSize) : K) + 1 / 2⌋]
  else [⌊p a / g.cellSize⌋]

/-- The cells looked at by `get`, `HashGrid.h:85-121`. -/
def cellsNear (g : HashGrid d K) (p : Fin d → K) : List (Fin d → ℤ) :=
  if (List.finRange d).all (fun a => !g.closeToAxis p a) then [fun a => ⌊p a / g.cellSize⌋]
  else cellProduct (g.axisIndices p)

/-- `get(p)`, `HashGrid.h:69-134`: the returned `std::set`, as the increasing list that iteration over it visits. -/
def get (g : HashGrid d K) (p : Fin d → K) : List ℕ :=
  (g.cellsNear p).foldl (fun elements cell => (g.table cell).foldl (fun s id => setInsert id s) elements) []

end HashGrid

end Caribou

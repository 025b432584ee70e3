import Mathlib.Data.Rat.Defs
import Mathlib.Algebra.Order.Ring.Rat

/-!
# The tables of the benchmarks of the direct solvers

`extract_newton_steps` and `pretty_print_methods` of `Benchmark/SofaCaribou/Solver/beam_direct_linear_solvers.py` and
`fat_direct_linear_solvers.py` (lines of the second one are cited).  Durations are exact; only the column `Total` is modelled, `Build` and `Solve`
are made in the same way.  Widths and number formats are left out.  `none` is a Python exception.
-/

set_option autoImplicit false

namespace Caribou

/-- The record of a Newton iteration: whether it has the keys `MBKBuild` and `MBKSolve`, and its `total_time`. -/
structure DirectRow where
  built : Bool
  solved : Bool
  total : ℚ

/-- The record of a solver in a time step: without the key `StaticODESolver::Solve`, or with the records of its Newton iterations. -/
inductive DirectRecord where
  | absent
  | rows (l : List DirectRow)

/-- What is printed for one value, `fat_direct_linear_solvers.py:98`: `-`, the string `0` or a number. -/
inductive TableCell where
  | dash
  | zero
  | number (v : ℚ)
deriving DecidableEq

/-- `fat_direct_linear_solvers.py:55-59`: durations under `1e-4` become the string `0`. -/
def durationCell (v : ℚ) : TableCell := if v < 1 / 10000 then .zero else .number v

/-- `extract_newton_steps`, `fat_direct_linear_solvers.py:39-62`.  Without an iteration there is no key `NewtonStep`, which is tested in `fat_direct_linear_solvers.py:40`
(`guarded`) but not in `beam_direct_linear_solvers.py:37`.  With one iteration the value is a dictionary instead of a list of dictionaries
(documented behaviour of `Timer.getRecords`); the loop goes over its keys, none of which contains both `MBKBuild` and `MBKSolve`. -/
def directSteps (guarded : Bool) : DirectRecord → Option (List TableCell)
  | .absent => some []
  | .rows [] => if guarded then some [] else none
  | .rows [_] => some []
  | .rows (a :: b :: l) => some (((a :: b :: l).filter fun r => r.built && r.solved).map fun r => durationCell r.total)

/-- `fat_direct_linear_solvers.py:76-78`: the value is appended to the list of the name in the dictionary, which keeps the order of insertion. -/
def columnAdd (name : String) (v : TableCell) : List (String × List TableCell) → List (String × List TableCell)
  | [] => [(name, [v])]
  | c :: cs => if c.1 = name then (c.1, c.2 ++ [v]) :: cs else c :: columnAdd name v cs

/-- The loop over the Newton steps of a method, `fat_direct_linear_solvers.py:72-78`. -/
def columnValues (name : String) : List TableCell → List (String × List TableCell) → List (String × List TableCell)
  | [], cs => cs
  | v :: l, cs => columnValues name l (columnAdd name v cs)

/-- The loop over the methods, `fat_direct_linear_solvers.py:69-82`. -/
def columnsOf : List (String × List TableCell) → List (String × List TableCell) → List (String × List TableCell)
  | [], cs => cs
  | m :: ms, cs => columnsOf ms (columnValues m.1 m.2 cs)

/-- `pretty_print_methods`, `fat_direct_linear_solvers.py:64-99`: the names in the header and the lines of cells; one line for each number under the
maximum of the numbers of Newton steps (71, 96). -/
def printTable (methods : List (String × List TableCell)) : List String × List (List TableCell) :=
  let columns := columnsOf methods []
  let lines := methods.foldl (fun n m => max n m.2.length) 0
  (columns.map (·.1), (List.range lines).map fun it => columns.map fun c => if it ≥ c.2.length then .dash else c.2.getD it .dash)

/-- The controller at the end of a time step, `fat_direct_linear_solvers.py:128-150`, for the methods of its records. -/
def directTable (guarded : Bool) (records : List (String × DirectRecord)) : Option (List String × List (List TableCell)) :=
  (records.mapM fun (m : String × DirectRecord) => (directSteps guarded m.2).map fun l => (m.1, l)).map printTable

end Caribou

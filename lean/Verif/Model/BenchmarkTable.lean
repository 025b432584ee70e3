import Mathlib.Data.Rat.Defs
import Mathlib.Algebra.Order.Ring.Rat
import Mathlib.Algebra.BigOperators.Group.List.Basic

/-!
# The table of the benchmark of the stored tensors

`Benchmark/SofaCaribou/Forcefield/RecomputeOrStore/beam_recompute_f.py`: the durations are taken out of the records of the timer and averaged.  Durations are exact; only the column `Total time` is modelled,
the others are made in the same way.  `none` is a Python exception.
-/

set_option autoImplicit false

namespace Caribou

/-- The record of a Newton iteration: whether it has the keys `MBKSolve` (the solver reached the linear solve) and `UpdateForce`, and its `total_time`. -/
structure NewtonRow where
  solved : Bool
  forced : Bool
  total : ℚ

/-- The record of a solver in a time step: without the key `StaticODESolver::Solve`, or with the records of its Newton iterations. -/
inductive SolveRecord
  | absent
  | rows (l : List NewtonRow)

/-- `beam_recompute_f.py:257-261`: durations under `1e-4` become zero. -/
def tinyToZero (v : ℚ) : ℚ := if -(1 / 10000) < v ∧ v < 1 / 10000 then 0 else v

/-- `extract_newton_steps`, `beam_recompute_f.py:212-264`.  Without an iteration there is no key `NewtonStep`; with one iteration the value is a dictionary instead of a list of dictionaries (documented behaviour
of `Timer.getRecords`), the loop goes over its keys, none of which contains both `MBKBuild` and `MBKSolve`; `newton_record['UpdateForce']` raises if there is none. -/
def extractRows : SolveRecord → Option (List ℚ)
  | .absent => some []
  | .rows [] => none
  | .rows [_] => some []
  | .rows (a :: b :: l) => ((a :: b :: l).filter fun r => r.solved).mapM fun r => if r.forced then some (tinyToZero r.total) else none

/-- The lists `fields['Total time']['methods'][name]['steps']` by their name; a name which is missing has no list. -/
abbrev TableRows := String → List (List ℚ)

/-- `beam_recompute_f.py:158-160`: the value is put in the list of the step, which is made if it is the next one. -/
def tableAdd (stepId : ℕ) (name : String) (v : ℚ) (t : TableRows) : Option TableRows :=
  let rows := if stepId = (t name).length then t name ++ [[]] else t name
  if stepId < rows.length then some (Function.update t name (rows.modify stepId fun l => l ++ [v])) else none

/-- The loop over the Newton steps of a method, `beam_recompute_f.py:152-160`. -/
def tableMethod (stepId : ℕ) (name : String) : List ℚ → TableRows → Option TableRows
  | [], t => some t
  | v :: l, t => (tableAdd stepId name v t).bind (tableMethod stepId name l)

/-- The loop over the methods of a time step, `beam_recompute_f.py:149-160`. -/
def tableStep (stepId : ℕ) : List (String × List ℚ) → TableRows → Option TableRows
  | [], t => some t
  | m :: l, t => (tableMethod stepId m.1 m.2 t).bind (tableStep stepId l)

/-- The loop over the time steps, `beam_recompute_f.py:148-160`. -/
def tableSteps : ℕ → List (List (String × List ℚ)) → TableRows → Option TableRows
  | _, [], t => some t
  | i, s :: l, t => (tableStep i s t).bind (tableSteps (i + 1) l)

/-- `values[values >= 0].mean()`, `beam_recompute_f.py:205-206`; `none` is `nan`. -/
def printedMean (rows : List (List ℚ)) : Option ℚ :=
  let values := rows.flatten.filter fun v => decide (0 ≤ v)
  if values = [] then none else some (values.sum / values.length)

/-- The controller and `pretty_print_methods`, `beam_recompute_f.py:30-60,142-210`: the mean of each name. -/
def benchmarkMeans (steps : List (List (String × SolveRecord))) : Option (String → Option ℚ) :=
  (steps.mapM fun (s : List (String × SolveRecord)) => s.mapM fun m => (extractRows m.2).map fun l => (m.1, l)).bind fun d => (tableSteps 0 d fun _ => []).map fun t name => printedMean (t name)

end Caribou

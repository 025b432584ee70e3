import Mathlib.Data.Rat.Defs
import Mathlib.Algebra.Order.Ring.Rat

/-!
# The durations shown by the scene of the conjugate gradients

`extract_newton_steps` of `scenes/conjugate_gradient_benchmark.py`, the columns `Update global matrix`, `Total solve time` and `Mean CG iteration time`.  Durations are exact
rational numbers.  `none` as a result is a Python exception.
-/

set_option autoImplicit false

namespace Caribou

/-- A step which the timer of SOFA has measured: its name, the names of the values which were set in it, the time which was spent in it outside of other
steps, and the steps which were made in it. -/
inductive TimedStep where
  | mk (name : String) (values : List String) (own : ℚ) (steps : List TimedStep)

namespace TimedStep

/-- The name of a step. -/
def name : TimedStep → String
  | mk n _ _ _ => n

/-- The names of the values which were set in a step. -/
def values : TimedStep → List String
  | mk _ v _ _ => v

/-- The steps which were made directly in a step. -/
def steps : TimedStep → List TimedStep
  | mk _ _ _ l => l

mutual
/-- `record['total_time']`: the time from the begin of the step to its end (documented behaviour of `Timer.getRecords`). -/
def total : TimedStep → ℚ
  | mk _ _ own l => own + totals l
/-- The sum of the durations of several steps. -/
def totals : List TimedStep → ℚ
  | [] => 0
  | s :: l => total s + totals l
end

/-- The steps with a name directly in a step: `record[name]` does not exist if there are none, is a dictionary if there is one and a list if there are several (documented
behaviour of `Timer.getRecords`).  Steps and values are supposed to have different names. -/
def named (n : String) (s : TimedStep) : List TimedStep := s.steps.filter fun c => decide (c.name = n)

end TimedStep

/-- The three columns; `none` for the mean is the dash. -/
structure TimeRow where
  update : ℚ
  solve : ℚ
  mean : Option ℚ

/-- `MBKSolve` after `scenes/conjugate_gradient_benchmark.py:60-65`.  The outer `none` is an exception: a list has no key, or a value is missing.  The inner one
stands for a list, in which none of the later keys is found. -/
def sofaInside (solve : TimedStep) : Option (Option TimedStep) :=
  match solve.named "PCGLinearSolver::solve" with
  | [c] => if "PCG iterations" ∈ c.values then some (some c) else none
  | _ :: _ :: _ => none
  | [] => match solve.named "CG-Solve" with
    | [] => some (some solve)
    | [c] => if "CG iterations" ∈ solve.values then some (some c) else none
    | _ :: _ :: _ => if "CG iterations" ∈ solve.values then some none else none

/-- `MBKSolve` after the lines 67-68. -/
def caribouInside : Option TimedStep → Option TimedStep
  | none => none
  | some s => match s.named "ConjugateGradient::solve" with
    | [] => some s
    | [c] => some c
    | _ :: _ :: _ => none

/-- `update_matrix_time`, lines 70-72 and 83-85: several updates are a list, which has no key `total_time`. -/
def updateTime (s : TimedStep) : Option ℚ :=
  match s.named "HyperelasticForcefield::update_stiffness" with
  | [] => some 0
  | [c] => some c.total
  | _ :: _ :: _ => none

/-- The mean of the durations of several steps, lines 75-80 and 88-91: a single step is a dictionary, and the loop over its keys raises. -/
def meanTime : List TimedStep → Option (Option ℚ)
  | [] => some none
  | [_] => none
  | l => some (some (TimedStep.totals l / l.length))

/-- The three columns for the steps `MBKBuild` and `MBKSolve` of a Newton iteration, lines 53-54 and 60-91. -/
def sceneTimes (build solve : TimedStep) : Option TimeRow :=
  match sofaInside solve with
  | none => none
  | some s => match caribouInside s with
    | none => some ⟨build.total, solve.total, none⟩
    | some c =>
      let means := if "nb_iterations" ∈ c.values then c.named "cg_iteration" else c.named "HyperelasticForcefield::addDForce"
      if "nb_iterations" ∈ c.values ∨ means ≠ [] then
        match updateTime c, meanTime means with
        | some u, some m => some ⟨build.total + u, solve.total - u, m⟩
        | _, _ => none
      else some ⟨build.total, solve.total, none⟩

end Caribou

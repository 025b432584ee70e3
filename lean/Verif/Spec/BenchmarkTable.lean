import Verif.Model.BenchmarkTable

/-!
# Specification vocabulary for the table of the benchmark
-/

set_option autoImplicit false

namespace Caribou.Spec

/-- The durations of all iterations of the method in a time step. -/
def measuredIn (name : String) (step : List (String × SolveRecord)) : List ℚ :=
  step.flatMap fun m => match m.2 with
    | .absent => []
    | .rows l => if m.1 = name then l.map NewtonRow.total else []

/-- The mean of a list of numbers. -/
def IsMean (l : List ℚ) (x : ℚ) : Prop := l ≠ [] ∧ x * l.length = l.sum

/-- The values of a name in a step. -/
def valuesOf (name : String) (step : List (String × List ℚ)) : List ℚ := step.flatMap fun m => if m.1 = name then m.2 else []

/-- No step without values of a name comes before one with values of it. -/
def NoGap (d : List (List (String × List ℚ))) : Prop := ∀ q a r name, d = q ++ a :: r → valuesOf name a ≠ [] → ∀ b ∈ q, valuesOf name b ≠ []

/-- A duration as it is shown: the very short ones are zero. -/
def shown (v : ℚ) : ℚ := if v < 1 / 10000 then 0 else v

/-- A record with several complete iterations. -/
def Complete (r : SolveRecord) : Prop := ∃ l, r = .rows l ∧ 2 ≤ l.length ∧ ∀ x ∈ l, x.solved = true ∧ x.forced = true ∧ 0 ≤ x.total

end Caribou.Spec

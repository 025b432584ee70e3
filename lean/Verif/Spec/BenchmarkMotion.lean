import Mathlib.Analysis.InnerProductSpace.PiL2

/-!
# Specification vocabulary for a moved point
-/

set_option autoImplicit false

namespace Caribou.Spec

/-- The distance of two points. -/
noncomputable def pointDistance {ι : Type*} [Fintype ι] (a b : ι → ℝ) : ℝ := dist (WithLp.toLp 2 a : EuclideanSpace ℝ ι) (WithLp.toLp 2 b)

/-- A point goes with a velocity from a start to a goal in steps of length `h`: it is at the goal after some step and stays there, and covers the distance `velocity * h` in each step before. -/
def ReachesGoal {ι : Type*} [Fintype ι] (path : ℕ → ι → ℝ) (start goal : ι → ℝ) (velocity h : ℝ) : Prop :=
  path 0 = start ∧ ∃ n, (∀ k, n ≤ k → path k = goal) ∧ ∀ k, k < n → pointDistance (path (k + 1)) (path k) = velocity * h

end Caribou.Spec

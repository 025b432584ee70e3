import Mathlib.Analysis.Real.Sqrt
import Mathlib.Algebra.BigOperators.Group.Finset.Basic

/-!
# The moving points of the benchmark `fat_direct_linear_solvers.py`

Files are given relative to `Benchmark/SofaCaribou/Solver`.  Numbers are real; one moving point (all of them get the same increment).
-/

set_option autoImplicit false

namespace Caribou

variable {ι : Type*} [Fintype ι]

/-- `np.linalg.norm`, `fat_direct_linear_solvers.py:157`. -/
noncomputable def npNorm (d : ι → ℝ) : ℝ := Real.sqrt (∑ i, d i * d i)

/-- `motion_time` of `get_motion_per_dt`, `fat_direct_linear_solvers.py:156-157`. -/
noncomputable def motionTime (start goal : ι → ℝ) (velocity : ℝ) : ℝ := npNorm (fun i => goal i - start i) / velocity

/-- `motion_delta` of `get_motion_per_dt`, `fat_direct_linear_solvers.py:156-158`.  Points which do not move give not-a-number in numpy, which is never added since their time is zero. -/
noncomputable def motionDelta (start goal : ι → ℝ) (dt velocity : ℝ) : ι → ℝ := fun i => (goal i - start i) * dt / motionTime start goal velocity

/-- The controller and the position of a point, `fat_direct_linear_solvers.py:102-107`. -/
structure MotionState (ι : Type*) where
  time : ℝ
  position : ι → ℝ

/-- One step of the simulation with the time step `h`: `onAnimateBeginEvent` and `onAnimateEndEvent`, `fat_direct_linear_solvers.py:115-122`.  The comparison of real numbers is not computable. -/
noncomputable def motionStep (delta : ι → ℝ) (duration h : ℝ) (s : MotionState ι) : MotionState ι :=
  ⟨s.time + h, if s.time < duration then fun i => s.position i + delta i else s.position⟩

/-- The scene after some steps: the increment for the time step `dt` and the duration of `get_motion_per_dt`, `fat_direct_linear_solvers.py:185`, then steps of `h` (the `dt` of the scene). -/
noncomputable def motionAfter (start goal : ι → ℝ) (dt velocity h : ℝ) : ℕ → MotionState ι
  | 0 => ⟨0, start⟩
  | n + 1 => motionStep (motionDelta start goal dt velocity) (motionTime start goal velocity) h (motionAfter start goal dt velocity h n)

end Caribou

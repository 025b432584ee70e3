import Verif.Spec.BackwardEuler
import Mathlib.Analysis.Calculus.Deriv.Basic
import Mathlib.Topology.MetricSpace.Thickening
import Mathlib.LinearAlgebra.Matrix.NonsingularInverse

/-!
# Specification vocabulary for the motion computed by time steps
-/

set_option autoImplicit false

namespace Caribou.Spec

variable {ι : Type*} [Fintype ι]

/-- The solver component, the positions and the velocities after `k` time steps from `c`, `x` and `v`. -/
noncomputable def afterSteps (n : NewtonParams ℝ) (p : BEParams ℝ) (S : BEScene ℝ ι) (solver : Matrix ι ι ℝ → (ι → ℝ) → Option (ι → ℝ)) (c : NewtonState ℝ)
    (x v : ι → ℝ) : ℕ → NewtonState ℝ × (ι → ℝ) × (ι → ℝ)
  | 0 => (c, x, v)
  | k + 1 =>
    let s := afterSteps n p S solver c x v k
    let r := beSolve n p S solver s.1 s.2.1 s.2.2
    (r.1, r.2.x, r.2.v)

/-- `q` is a motion of the scene on `[0, T]`, with the velocity `q'` and the acceleration `q''`: the mass times the acceleration is the force minus the damping. -/
structure IsMotion (rm rk : ℝ) (S : BEScene ℝ ι) (T : ℝ) (q q' q'' : ℝ → ι → ℝ) : Prop where
  velocity : ∀ t ∈ Set.Icc 0 T, HasDerivAt q (q' t) t
  acceleration : ∀ t ∈ Set.Icc 0 T, HasDerivAt q' (q'' t) t
  balance : ∀ t ∈ Set.Icc 0 T, S.M.mulVec (q'' t) = S.force (q t) - (damping ⟨0, rm, rk⟩ S (q t)).mulVec (q' t)

/-- Near the motion the forces are bounded by `φ`, they and the damping do not change faster than `κ` and `δ` times the distance, and the stiffness is bounded by `κ`. -/
structure TameNear (rm rk : ℝ) (S : BEScene ℝ ι) (T : ℝ) (q : ℝ → ι → ℝ) (ρ φ κ δ : ℝ) : Prop where
  bound : ∀ t ∈ Set.Icc 0 T, ∀ x, ‖x - q t‖ ≤ ρ → ‖S.force x‖ ≤ φ
  stiff : ∀ t ∈ Set.Icc 0 T, ∀ x, ‖x - q t‖ ≤ ρ → ∀ u, ‖(S.stiff x).mulVec u‖ ≤ κ * ‖u‖
  force : ∀ t ∈ Set.Icc 0 T, ∀ x, ‖x - q t‖ ≤ ρ → ∀ y, ‖y - q t‖ ≤ ρ → ‖S.force x - S.force y‖ ≤ κ * ‖x - y‖
  damping : ∀ t ∈ Set.Icc 0 T, ∀ x, ‖x - q t‖ ≤ ρ → ∀ y, ‖y - q t‖ ≤ ρ → ∀ u,
    ‖(damping ⟨0, rm, rk⟩ S x).mulVec u - (damping ⟨0, rm, rk⟩ S y).mulVec u‖ ≤ δ * ‖x - y‖ * ‖u‖

/-- A time step from `x` and `v` is skipped: the solver is content with the forces at the beginning of the time step. -/
def Skipped (n : NewtonParams ℝ) (p : BEParams ℝ) (S : BEScene ℝ ι) (x v : ι → ℝ) : Prop :=
  0 < n.absolute ∧ dotProduct (unbalanced p S x v 0) (unbalanced p S x v 0) ≤ n.absolute * n.absolute

/-- The linear solver finds the solution of every system with an invertible matrix. -/
def SolvesAll [DecidableEq ι] (solver : Matrix ι ι ℝ → (ι → ℝ) → Option (ι → ℝ)) : Prop :=
  ∀ A f, IsUnit A → ∃ u, solver A f = some u ∧ A.mulVec u = f

end Caribou.Spec

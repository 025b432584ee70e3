import Verif.Model.FenicsScript
import Verif.Spec.SmallLoads

/-!
# Specification vocabulary for the comparison with the reference computation
-/

set_option autoImplicit false

namespace Caribou.Spec

variable {ι κ : Type*} [Fintype ι] [DecidableEq ι] [Fintype κ]

/-- The scene of the plugin and the forms of the script describe one mechanical problem: nothing is mapped, the held degrees of freedom are the same, and the displacement `u` of the script
stands for the positions `X + u` of the plugin. -/
structure SameProblem (X : ι → ℝ) (S : StaticScene ℝ ι κ) (P : Fenics.Problem ι) : Prop where
  nothingMapped : IsEmpty κ
  held : S.fixed = P.fixed
  residual : ∀ u, S.force (X + u) = -P.R u
  jacobian : ∀ u, S.stiff (X + u) = -P.J u

/-- The plugin solves the steps one after the other from positions `x`, reports convergence for all of them after at least one iteration, and the forces left by the first iteration of a step
are never exactly zero.  The last positions are `y`. -/
inductive AllStepsConverge (n : NewtonParams ℝ) (solver : Matrix ι ι ℝ → (ι → ℝ) → Option (ι → ℝ)) :
    List (StaticScene ℝ ι κ) → NewtonState ℝ → (ι → ℝ) → (ι → ℝ) → Prop
  | done (c : NewtonState ℝ) (x : ι → ℝ) : AllStepsConverge n solver [] c x x
  | step (S : StaticScene ℝ ι κ) (Ss : List (StaticScene ℝ ι κ)) (c : NewtonState ℝ) (x y : ι → ℝ) (r : ℝ)
    (converged : (staticSolve n S solver c x).1.converged = true)
    (first : (staticSolve n S solver c x).1.residuals.head? = some (some r)) (left : r ≠ 0)
    (rest : AllStepsConverge n solver Ss (staticSolve n S solver c x).1 (staticSolve n S solver c x).2.x y) : AllStepsConverge n solver (S :: Ss) c x y

end Caribou.Spec

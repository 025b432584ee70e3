import Verif.Spec.SmallLoads

set_option autoImplicit false

namespace Caribou.Spec

variable {ι κ : Type*} [Fintype ι] [Fintype κ]

/-- The positions after each time step of a static simulation from positions `x`, with the load, the settings and the state of the solver at each time step. -/
noncomputable def loadHistory [DecidableEq ι] (set : ℕ → NewtonParams ℝ × NewtonState ℝ) (loads : ℕ → ι → ℝ) (S : StaticScene ℝ ι κ) (solver : Matrix ι ι ℝ → (ι → ℝ) → Option (ι → ℝ))
    (x : ι → ℝ) : ℕ → NewtonState ℝ × (ι → ℝ)
  | 0 => ((set 0).2, x)
  | k + 1 =>
    let r := staticSolve (set k).1 (withLoad S (loads k)) solver (set k).2 (loadHistory set loads S solver x k).2
    (r.1, r.2.x)

end Caribou.Spec

import Verif.Model.LegacyScene
import Verif.Spec.LegacyStatic

/-!
# Specification vocabulary for the comparison of the two static solvers
-/

set_option autoImplicit false

namespace Caribou.Spec

variable {K : Type*}

/-- The two static solvers have the same number of iterations and thresholds; the legacy one does not give up when the residual grows, which the other one cannot do. -/
structure SameSettings (n : NewtonParams K) (p : LegacyParams K) : Prop where
  iterations : n.iterations = p.iterations
  correction : n.correction = p.correction
  residual : n.residual = p.residual
  eps : n.eps = p.eps
  growing : p.growing = false

/-- What a static solve shows to its user: the squared residuals, whether it has converged, and the positions of the two mechanical objects. -/
structure StaticOutcome (K ι κ : Type*) where
  residuals : List (Option K)
  converged : Bool
  x : ι → K
  y : κ → K

variable {ι κ : Type*} [Field K] [LinearOrder K] [Fintype ι] [Fintype κ] [DecidableEq ι]

/-- The outcome of `StaticODESolver`. -/
def newOutcome (n : NewtonParams K) (S : StaticScene K ι κ) (solver : Matrix ι ι K → (ι → K) → Option (ι → K)) (st : NewtonState K) (x : ι → K) : StaticOutcome K ι κ :=
  let r := staticSolve n S solver st x
  ⟨r.1.residuals, r.1.converged, r.2.x, r.2.y⟩

/-- The outcome of `LegacyStaticODESolver`; `dx` is what a former call left. -/
def legacyOutcome (p : LegacyParams K) (S : StaticScene K ι κ) (solver : Matrix ι ι K → (ι → K) → Option (ι → K)) (dx x : ι → K) : StaticOutcome K ι κ :=
  let r := legacySolve p (legacyScene S solver) dx ⟨x, S.map x, 0⟩
  ⟨r.residuals, r.converged, r.world.x, r.world.y⟩

end Caribou.Spec

import Verif.Model.LegacyCG
import Verif.Spec.CGStatic

/-!
# Specification vocabulary for the legacy static solver with the conjugate gradient
-/

set_option autoImplicit false

namespace Caribou.Spec

/-- The records of an iteration show that the linear solver had nothing to do, or ended with a residual below its threshold. -/
def Settled {K : Type*} [Field K] [LinearOrder K] (c : CGParams K) (e : CGEntry K) : Prop :=
  e.residuals = [] ∨ ∃ n r, e.rhs = some n ∧ e.residuals.getLast? = some (some r) ∧ r < max (c.tolerance ^ 2 * n) c.zero

end Caribou.Spec

import Verif.Model.PyAssemble
import Verif.Spec.EigenSolver

/-!
# What a script which assembles the system relies on
-/

set_option autoImplicit false

namespace Caribou.Spec

/-- The event is a solve. -/
def IsSolve {K : Type*} : PyEvent K → Bool
  | .solve .. => true
  | .assemble _ => false

/-- The simulation without the calls of the script. -/
def withoutScript {K : Type*} (es : List (PyEvent K)) : List (PyEvent K) := es.filter IsSolve

/-- The method uses an incomplete factorization. -/
def Incomplete (m : PrecondMethod) : Prop := m = .incompleteCholesky ∨ m = .incompleteLU

/-- The system of a solve has the size `n`, as have the objects; what a script assembles is not restricted. -/
def SolvesSize {K : Type*} (n : ℕ) : PyEvent K → Prop
  | .solve M _ objects _ _ => M.dim = n ∧ SizedObjects objects ∧ n = globalDimension objects
  | .assemble _ => True

end Caribou.Spec

import Verif.Spec.HeldBody
import Verif.Spec.CorotEnergy
import Verif.Model.Newton

/-!
# Specification vocabulary for the forces of the supports
-/

set_option autoImplicit false

namespace Caribou.Spec

/-- The sum of the forces `f`. -/
def resultant {N : ℕ} (f : Fin N → Fin 3 → ℝ) : Fin 3 → ℝ := ∑ p, f p

/-- The forces the supports have to bring: at the coordinates they hold, what balances the force `r` which the body and the loads leave there, and nothing at the others. -/
def supportForce {N : ℕ} (fixed : Fin N → Fin 3 → Bool) (r : Fin N → Fin 3 → ℝ) : Fin N → Fin 3 → ℝ := fun p a => if fixed p a then -r p a else 0

/-- The forces left at the coordinates which are free. -/
def leftForce {N : ℕ} (fixed : Fin N → Fin 3 → Bool) (r : Fin N → Fin 3 → ℝ) : Fin N → Fin 3 → ℝ := fun p a => if fixed p a then 0 else r p a

/-- A small rigid motion of the nodes `X`: the translation `c` and the rotation around the vector `w`. -/
def smallMotion {N : ℕ} (X : Fin N → Fin 3 → ℝ) (c w : Fin 3 → ℝ) : Fin N → Fin 3 → ℝ := fun p => c + crossProduct w (X p)

/-- The elements form one piece which has all nodes. -/
def OnePiece {N n M : ℕ} (idx : Fin M → Fin n → Fin N) (X : Fin N → Fin 3 → ℝ) : Prop :=
  (∀ e e', SamePiece idx X e e') ∧ ∀ p, ∃ e i, idx e i = p

end Caribou.Spec

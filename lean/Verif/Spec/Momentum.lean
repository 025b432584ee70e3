import Mathlib.Data.Matrix.Mul
import Mathlib.Data.Real.Basic
import Verif.Model.BackwardEuler
import Verif.Model.Hyperelastic

/-!
# Specification vocabulary for the momentum of a body
-/

set_option autoImplicit false

namespace Caribou.Spec

/-- Total of a vector of the degrees of freedom along an axis. -/
def totalAlong {N : ℕ} (a : Fin 3) (u : Dof N → ℝ) : ℝ := ∑ p, u (p, a)

/-- Total momentum along an axis. -/
def momentum {N : ℕ} (M : Matrix (Dof N) (Dof N) ℝ) (a : Fin 3) (v : Dof N → ℝ) : ℝ := totalAlong a (M.mulVec v)

/-- A matrix whose products have no total along the axis, as that of forces acting between the nodes. -/
def IsInternal {N : ℕ} (a : Fin 3) (B : Matrix (Dof N) (Dof N) ℝ) : Prop := ∀ d, ∑ p, B (p, a) d = 0

/-- A scene with a force field, constant loads, a mass and a damping matrix. -/
def bodyScene {N : ℕ} (M B : Matrix (Dof N) (Dof N) ℝ) (load : Dof N → ℝ)
    (force : (Fin N → Fin 3 → ℝ) → Fin N → Fin 3 → ℝ) (tangent : (Fin N → Fin 3 → ℝ) → Dof N → Dof N → ℝ) :
    BEScene ℝ (Dof N) where
  M := M
  B := B
  force x := fun d => force (fun p a => x (p, a)) d.1 d.2 + load d
  stiff x := Matrix.of (tangent fun p a => x (p, a))

end Caribou.Spec

import Verif.Model.Elements
import Mathlib.Analysis.Calculus.FDeriv.Basic
import Mathlib.Analysis.Normed.Group.Constructions
import Mathlib.Analysis.Normed.Operator.Basic

/-!
# Specification vocabulary for the accuracy of an interpolation

Lengths are measured with the maximum of the absolute values of the coordinates.
-/

set_option autoImplicit false

namespace Caribou.Spec

/-- `f'` is the derivative of `f` on the convex set `S`, and changes there by at most `B` times the distance. -/
structure SmoothOn {D : ℕ} {V : Type*} [NormedAddCommGroup V] [NormedSpace ℝ V] (S : Set (Fin D → ℝ)) (f : (Fin D → ℝ) → V)
    (f' : (Fin D → ℝ) → (Fin D → ℝ) →L[ℝ] V) (B : ℝ) : Prop where
  convex : Convex ℝ S
  deriv : ∀ x ∈ S, HasFDerivAt f (f' x) x
  lipschitz : ∀ x ∈ S, ∀ y ∈ S, ‖f' x - f' y‖ ≤ B * ‖x - y‖

/-- A bound of the sum of the absolute values of the shape functions. -/
noncomputable def shapeBound : ElementType → ℝ
  | .segment2 => 5 / 4
  | .triangle2 => 7 / 3
  | .quad2 | .rectQuad2 => 3
  | .tetra2 => 5 / 2
  | .hexa2 | .rectHexa2 => 5
  | _ => 1

end Caribou.Spec

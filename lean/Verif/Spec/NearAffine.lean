import Verif.Spec.Convergence

/-!
# Specification vocabulary for elements which are not far from an affine image of the canonical element
-/

set_option autoImplicit false

namespace Caribou.Spec

/-- The nodes are at most `θ` away from an affine image of the nodes of the canonical element, measured along the directions of the canonical element (before applying `A`). -/
def NearAffine (T : ElementType) (X : Fin T.numNodes → Fin T.dim → ℝ) (c : Fin T.dim → ℝ) (A : Matrix (Fin T.dim) (Fin T.dim) ℝ) (θ : ℝ) : Prop :=
  ∃ u : Fin T.numNodes → Fin T.dim → ℝ, (∀ i, X i = c + A.mulVec (T.elem.node i + u i)) ∧ ∀ i j, |u i j| ≤ θ

/-- How much the shape functions of an element can vary: a bound of the sum of their slopes along one direction. -/
def slopeBound : ElementType → ℝ
  | .segment1 => 1
  | .segment2 => 4
  | .triangle1 => 2
  | .triangle2 => 10
  | .quad1 => 1
  | .quad2 => 6
  | .tetra1 => 2
  | .tetra2 => 10
  | .hexa1 => 1
  | .hexa2 => 9
  | .rectQuad1 => 1
  | .rectQuad2 => 6
  | .rectHexa1 => 1
  | .rectHexa2 => 9

end Caribou.Spec

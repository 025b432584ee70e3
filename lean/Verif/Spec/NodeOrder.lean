import Mathlib.Data.Real.Basic
import Mathlib.LinearAlgebra.Matrix.NonsingularInverse
import Mathlib.LinearAlgebra.Matrix.Notation

/-!
# Specification vocabulary: the orders in which the nodes of an element may be listed
-/

set_option autoImplicit false

namespace Caribou.Spec

/-- The affine map `ξ ↦ M ξ + c` takes node `i` of the reference element to its node `ρ i`. -/
def Realises {n : ℕ} (node : Fin n → Fin 3 → ℝ) (M : Matrix (Fin 3) (Fin 3) ℝ) (c : Fin 3 → ℝ) (ρ : Equiv.Perm (Fin n)) : Prop :=
  ∀ i, M.mulVec (node i) + c = node (ρ i)

/-- Another order of the nodes which describes the same element: a symmetry of the reference element (rotations and reflections of the
cube, any order of the vertices of the tetrahedron with the nodes of the edges following). -/
def Listing {n : ℕ} (node : Fin n → Fin 3 → ℝ) (ρ : Equiv.Perm (Fin n)) : Prop := ∃ M c, Realises node M c ρ

/-- The same without reflections: the orientation of the element is kept. -/
def DirectListing {n : ℕ} (node : Fin n → Fin 3 → ℝ) (ρ : Equiv.Perm (Fin n)) : Prop := ∃ M c, 0 < M.det ∧ Realises node M c ρ

end Caribou.Spec

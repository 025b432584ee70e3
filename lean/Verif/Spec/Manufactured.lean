import Verif.Spec.Patch

/-!
# Specification vocabulary for the loads of a boundary
-/

set_option autoImplicit false

namespace Caribou.Spec

/-- The elements of a surface are different sides of the boundary of the mesh, listed in the direction of the mesh (from any corner), and
the sides of the boundary at the node `p` are among them. -/
def CoversBoundaryAt {n m S N M K : ℕ} [NeZero m] (sides : Fin S → Fin m → Fin n) (idx : Fin M → Fin n → Fin N) (surface : Fin K → Fin m → Fin N)
    (p : Fin N) : Prop :=
  ∃ side : Fin K → Fin M × Fin S, Function.Injective side ∧
    (∀ k, ¬IsShared sides idx (side k) ∧ ∃ r, ∀ i, surface k i = sideNodes sides idx (side k) (r + i)) ∧
    ∀ s, ¬IsShared sides idx s → (∃ c, sideNodes sides idx s c = p) → ∃ k, side k = s

end Caribou.Spec

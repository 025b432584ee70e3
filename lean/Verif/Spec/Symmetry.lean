import Verif.Spec.NodeOrder
import Verif.Spec.Frame
import Verif.Model.Grid

/-!
# Specification vocabulary for symmetric bodies
-/

set_option autoImplicit false

namespace Caribou.Spec

/-- The body is symmetric: the isometry `x ↦ Q x + c` takes the node `p` to the node `π p` and every element to an element, the nodes of which are listed in some order. -/
structure BodySymmetry {N M n : ℕ} (node : Fin n → Fin 3 → ℝ) (idx : Fin M → Fin n → Fin N) (X : Fin N → Fin 3 → ℝ) (π : Equiv.Perm (Fin N))
    (Q : Matrix (Fin 3) (Fin 3) ℝ) (c : Fin 3 → ℝ) : Prop where
  isometry : OrthonormalCols Q
  nodes : ∀ p, X (π p) = Q.mulVec (X p) + c
  elements : ∃ σ : Equiv.Perm (Fin M), ∀ e, ∃ ρ : Equiv.Perm (Fin n), Listing node ρ ∧ ∀ i, idx (σ e) (ρ i) = π (idx e i)

/-- Forces or displacements on the nodes, moved by the isometry. -/
def carried {N : ℕ} (π : Equiv.Perm (Fin N)) (Q : Matrix (Fin 3) (Fin 3) ℝ) (v : Fin N → Fin 3 → ℝ) : Fin N → Fin 3 → ℝ := fun p => Q.mulVec (v (π.symm p))

/-- Positions of the nodes, moved by the isometry. -/
def placed {N : ℕ} (π : Equiv.Perm (Fin N)) (Q : Matrix (Fin 3) (Fin 3) ℝ) (c : Fin 3 → ℝ) (x : Fin N → Fin 3 → ℝ) : Fin N → Fin 3 → ℝ :=
  fun p => Q.mulVec (x (π.symm p)) + c

/-- The mirror image of a vector in the plane across the axis `a`. -/
def mirrored (a : Fin 3) (v : Fin 3 → ℝ) : Fin 3 → ℝ := Function.update v a (-v a)

/-- The node `q` is the mirror image of the node `p` in the middle plane of the box of the grid across the axis `a`. -/
def MirrorNodes (g : Grid 3 ℝ) (a : Fin 3) (p q : Fin g.numberOfNodes.toNat) : Prop :=
  g.node q a - (g.anchor a + g.size a / 2) = -(g.node p a - (g.anchor a + g.size a / 2)) ∧ ∀ b, b ≠ a → g.node q b = g.node p b

end Caribou.Spec

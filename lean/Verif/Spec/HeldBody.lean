import Verif.Model.Hyperelastic
import Mathlib.LinearAlgebra.AffineSpace.FiniteDimensional
import Mathlib.Logic.Relation

/-!
# Specification vocabulary for bodies which cannot move rigidly
-/

set_option autoImplicit false

namespace Caribou.Spec

/-- Two elements glued together: they share three nodes which are not aligned (a face of a solid element). -/
def Glued {N n M : ℕ} (idx : Fin M → Fin n → Fin N) (X : Fin N → Fin 3 → ℝ) (e e' : Fin M) : Prop :=
  ∃ p q r : Fin N, (∀ s ∈ [p, q, r], s ∈ Set.range (idx e) ∧ s ∈ Set.range (idx e')) ∧ ¬Collinear ℝ {X p, X q, X r}

/-- Two elements of the same piece: one can go from one to the other through glued elements. -/
def SamePiece {N n M : ℕ} (idx : Fin M → Fin n → Fin N) (X : Fin N → Fin 3 → ℝ) : Fin M → Fin M → Prop :=
  Relation.ReflTransGen (Glued idx X)

/-- A node of the piece of element `e`. -/
def InPiece {N n M : ℕ} (idx : Fin M → Fin n → Fin N) (X : Fin N → Fin 3 → ℝ) (e : Fin M) (p : Fin N) : Prop :=
  ∃ e', SamePiece idx X e e' ∧ p ∈ Set.range (idx e')

/-- Every node is fixed or belongs to a piece three fixed nodes of which are not aligned. -/
def WellHeld {N n M : ℕ} (idx : Fin M → Fin n → Fin N) (X : Fin N → Fin 3 → ℝ) (fixed : Fin N → Bool) : Prop :=
  ∀ s, fixed s = true ∨ ∃ e, s ∈ Set.range (idx e) ∧ ∃ p q r : Fin N,
    (∀ t ∈ [p, q, r], InPiece idx X e t ∧ fixed t = true) ∧ ¬Collinear ℝ {X p, X q, X r}

/-- The nodes `X` are the image of the canonical ones by an affine map which has an inverse: every linear tetrahedron which is not
flat, the quadratic tetrahedra with straight edges and mid-edge nodes in the middle, the parallelepipeds. -/
def AffineShape {n : ℕ} (node X : Fin n → Fin 3 → ℝ) : Prop :=
  ∃ (A : Matrix (Fin 3) (Fin 3) ℝ) (b : Fin 3 → ℝ), A.det ≠ 0 ∧ ∀ i, X i = A.mulVec (node i) + b

end Caribou.Spec

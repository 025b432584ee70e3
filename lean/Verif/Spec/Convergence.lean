import Verif.Props.Quadrature

/-!
# Specification vocabulary for the convergence of the integrals computed on meshes
-/

set_option autoImplicit false

namespace Caribou.Spec

open MeasureTheory

/-- Elements on which the quadrature weights add up to the volume (C83): those of any shape, but the quadratic solids must be affine images
of the canonical element. -/
def WellMeasured (T : ElementType) (X : Fin T.numNodes → Fin T.dim → ℝ) : Prop :=
  (T ≠ .tetra2 ∧ T ≠ .hexa2 ∧ T ≠ .rectHexa2) ∨
    ∃ (c : Fin T.dim → ℝ) (A : Matrix (Fin T.dim) (Fin T.dim) ℝ), ∀ i, X i = c + A.mulVec (T.elem.node i)

/-- The elements `idx` with the nodes at `X` are a mesh of the body `Ω` of mesh size `h`: none is folded, they fill the body, two of them have no volume in
common, and no element is larger than `h`. -/
structure MeshOf (T : ElementType) {N M : ℕ} (idx : Fin M → Fin T.numNodes → Fin N) (X : Fin N → Fin T.dim → ℝ) (Ω : Set (Fin T.dim → ℝ)) (h : ℝ) : Prop where
  unfolded : ∀ e, Unfolded T fun i => X (idx e i)
  measured : ∀ e, WellMeasured T fun i => X (idx e i)
  fills : (⋃ e, elementRegion T fun i => X (idx e i)) = Ω
  apart : ∀ e e', e ≠ e' → volume ((elementRegion T fun i => X (idx e i)) ∩ elementRegion T fun i => X (idx e' i)) = 0
  size : ∀ e, ∀ x ∈ elementRegion T (fun i => X (idx e i)), ∀ y ∈ elementRegion T (fun i => X (idx e i)), ‖x - y‖ ≤ h

end Caribou.Spec

import Verif.Spec.CorotEnergy
import Verif.Spec.Stability
import Verif.Spec.Consistency
import Verif.Model.CorotComponent
import Mathlib.MeasureTheory.Integral.Bochner.Set

/-!
# Specification vocabulary for the quality of a linear static solution
-/

set_option autoImplicit false

namespace Caribou.Spec

open MeasureTheory

/-- The work per volume of the stress of a displacement with the gradient `G` on a displacement with the gradient `H`, in an isotropic
material with the Lamé parameters `l` and `mu`. -/
noncomputable def strainWork (l mu : ℝ) (G H : Mat3) : ℝ := l * (G.trace * H.trace) + 2 * mu * ddot (symPart G) (symPart H)

variable {n N M : ℕ}

/-- The integral over the body made of the elements `idx` with the nodes at `X`, of a quantity given at the local positions (in `R`) of the elements. -/
noncomputable def overElements (E : Elem ℝ 3 n) (R : Set (Fin 3 → ℝ)) (idx : Fin M → Fin n → Fin N) (X : Fin N → Fin 3 → ℝ)
    (f : Fin M → (Fin 3 → ℝ) → ℝ) : ℝ :=
  ∑ e, ∫ ξ in R, |(E.jacobian (fun i => X (idx e i)) ξ : Mat3).det| * f e ξ

/-- `G` is the gradient of the field interpolated from the values `V` at the nodes: by the chain rule, its product with the derivative of the position
by the local position is the derivative of the field by the local position. -/
def FieldGradient (E : Elem ℝ 3 n) (R : Set (Fin 3 → ℝ)) (idx : Fin M → Fin n → Fin N) (X V : Fin N → Fin 3 → ℝ)
    (G : Fin M → (Fin 3 → ℝ) → Mat3) : Prop :=
  ∀ e, ∀ ξ ∈ R, (E.jacobian (fun i => V (idx e i)) ξ : Mat3) = G e ξ * (E.jacobian (fun i => X (idx e i)) ξ : Mat3)

/-- The principle of virtual work for the displacement with the gradient `u'` and for the loads `F` at the nodes: the work of the
stress on every displacement of the mesh which leaves the points `fixed` in place is the work of the loads. -/
def WeakSolution (l mu : ℝ) (E : Elem ℝ 3 n) (R : Set (Fin 3 → ℝ)) (idx : Fin M → Fin n → Fin N) (X : Fin N → Fin 3 → ℝ) (fixed : Set (Fin N))
    (F : Fin N → Fin 3 → ℝ) (u' : (Fin 3 → ℝ) → Mat3) : Prop :=
  ∀ V G, (∀ p ∈ fixed, V p = 0) → FieldGradient E R idx X V G →
    overElements E R idx X (fun e ξ => strainWork l mu (u' (E.worldCoordinates (fun i => X (idx e i)) ξ)) (G e ξ)) = power F V

/-- Twice the energy of the difference between a displacement with the gradient `u'` and one of the mesh with the gradient `G`. -/
noncomputable def energyError (l mu : ℝ) (E : Elem ℝ 3 n) (R : Set (Fin 3 → ℝ)) (idx : Fin M → Fin n → Fin N) (X : Fin N → Fin 3 → ℝ)
    (u' : (Fin 3 → ℝ) → Mat3) (G : Fin M → (Fin 3 → ℝ) → Mat3) : ℝ :=
  overElements E R idx X fun e ξ => strainWork l mu (u' (E.worldCoordinates (fun i => X (idx e i)) ξ) - G e ξ)
    (u' (E.worldCoordinates (fun i => X (idx e i)) ξ) - G e ξ)

/-- The integral of the square of the difference between the strains of a displacement with the gradient `u'` and of one of the mesh with the
gradient `G`. -/
noncomputable def strainError (E : Elem ℝ 3 n) (R : Set (Fin 3 → ℝ)) (idx : Fin M → Fin n → Fin N) (X : Fin N → Fin 3 → ℝ)
    (u' : (Fin 3 → ℝ) → Mat3) (G : Fin M → (Fin 3 → ℝ) → Mat3) : ℝ :=
  overElements E R idx X fun e ξ => ddot (symPart (u' (E.worldCoordinates (fun i => X (idx e i)) ξ) - G e ξ))
    (symPart (u' (E.worldCoordinates (fun i => X (idx e i)) ξ) - G e ξ))

/-- The elements are affine images of the canonical element, none is inverted, and those of a mesh of size `h` are not flattened. -/
def Straight (E : Elem ℝ 3 n) (idx : Fin M → Fin n → Fin N) (X : Fin N → Fin 3 → ℝ) (σ h : ℝ) : Prop :=
  ∀ e, ∃ (c : Fin 3 → ℝ) (A : Mat3), 0 < A.det ∧ (∀ a b, |A⁻¹ a b| * h ≤ σ) ∧ ∀ i, X (idx e i) = c + A.mulVec (E.node i)

/-- The matrix of the derivatives of a displacement. -/
noncomputable def derivMatrix (u' : (Fin 3 → ℝ) → (Fin 3 → ℝ) →L[ℝ] (Fin 3 → ℝ)) (x : Fin 3 → ℝ) : Mat3 := Matrix.of fun a b => u' x (Pi.single b 1) a

/-- The element of the class. -/
noncomputable def _root_.Caribou.CorotClass.elem : (C : CorotClass) → Elem ℝ 3 C.nodes
  | .tetra => tetra1
  | .hexa => hexa1

/-- The local positions of the points of the element of the class. -/
def _root_.Caribou.CorotClass.canonical : CorotClass → Set (Fin 3 → ℝ)
  | .tetra => canonicalSet .simplex 3
  | .hexa => canonicalSet .cube 3

/-- The elements `idx` of the class with the nodes at `X` are a mesh of the body `Ω` of mesh size `h`. -/
def _root_.Caribou.CorotClass.MeshOf {N M : ℕ} (Ω : Set (Fin 3 → ℝ)) (h : ℝ) (X : Fin N → Fin 3 → ℝ) :
    (C : CorotClass) → (Fin M → Fin C.nodes → Fin N) → Prop
  | .tetra, idx => Spec.MeshOf .tetra1 idx X Ω h
  | .hexa, idx => Spec.MeshOf .hexa1 idx X Ω h

end Caribou.Spec

import Verif.Spec.Convergence
import Verif.Spec.Accuracy
import Verif.Model.Hyperelastic
import Verif.Spec.Material

/-!
# Specification vocabulary for the consistency of the hyperelastic force field
-/

set_option autoImplicit false

namespace Caribou.Spec

/-- The solids `idx` with the nodes at `X` are a mesh of the body `Ω` of mesh size `h`. -/
def SolidMeshOf (T : SolidType) {N M : ℕ} (idx : Fin M → Fin T.numNodes → Fin N) (X : Fin N → Fin 3 → ℝ) (Ω : Set (Fin 3 → ℝ)) (h : ℝ) : Prop :=
  match T, idx with
  | .tetra1, idx => MeshOf .tetra1 idx X Ω h
  | .tetra2, idx => MeshOf .tetra2 idx X Ω h
  | .hexa1, idx => MeshOf .hexa1 idx X Ω h
  | .hexa2, idx => MeshOf .hexa2 idx X Ω h

/-- Elements of mesh size `h` are not flattened: at the integration points the inverse of the Jacobian is at most `σ / h`. -/
def ShapeRegular (T : SolidType) {N M : ℕ} (idx : Fin M → Fin T.numNodes → Fin N) (X : Fin N → Fin 3 → ℝ) (σ h : ℝ) : Prop :=
  ∀ e, ∀ g ∈ T.gauss, (T.elem.jacobian (fun i => X (idx e i)) g.position : Mat3).det ≠ 0 ∧
    ∀ a b, |(T.elem.jacobian (fun i => X (idx e i)) g.position : Mat3)⁻¹ a b| * h ≤ σ

/-- The matrix of a derivative. -/
noncomputable def gradientMatrix (A : (Fin 3 → ℝ) →L[ℝ] (Fin 3 → ℝ)) : Mat3 := fun a b => A (Pi.single b 1) a

/-- The energy density, the stress and its derivative are continuous wherever the deformation is not inverted. -/
def ContinuousMaterial (mat : Material) : Prop :=
  ∀ F : Mat3, 0 < F.det → ContinuousAt (fun G : Mat3 => mat.energy G.det (G.transpose * G)) F ∧
    ContinuousAt (fun G : Mat3 => mat.stress G.det (G.transpose * G)) F ∧
    ContinuousAt (fun G : Mat3 => mat.jacobian G.det (G.transpose * G)) F

/-- The second variation of the energy density at `F`, for the variations `D` and `H`. -/
noncomputable def secondVariation (mat : Material) (F D H : Mat3) : ℝ :=
  ddot (D * mat.stress F.det (F.transpose * F)) H +
    voigtStrain ((1 / 2 : ℝ) • (H.transpose * F + F.transpose * H)) ⬝ᵥ
      (mat.jacobian F.det (F.transpose * F)).mulVec (voigtStrain ((1 / 2 : ℝ) • (D.transpose * F + F.transpose * D)))

end Caribou.Spec

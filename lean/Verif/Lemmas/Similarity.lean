import Verif.Spec.Similarity
import Verif.Props.Hyperelastic
import Verif.Props.HyperObjectivity

/-!
# Similar elements
-/

set_option autoImplicit false
set_option linter.all false

namespace Caribou

open Spec

theorem ortho_comm {Q : Mat3} (hQ : OrthonormalCols Q) : Q * Q.transpose = 1 := mul_eq_one_comm.mp hQ

theorem ortho_inv {Q : Mat3} (hQ : OrthonormalCols Q) : Q⁻¹ = Q.transpose := Matrix.inv_eq_left_inv hQ

theorem ortho_det_sq {Q : Mat3} (hQ : OrthonormalCols Q) : Q.det * Q.det = 1 := by
  have h := congrArg Matrix.det (show Q.transpose * Q = 1 from hQ)
  rwa [Matrix.det_mul, Matrix.det_transpose, Matrix.det_one] at h

theorem ortho_abs {Q : Mat3} (hQ : OrthonormalCols Q) : |Q.det| = 1 := by
  have h := ortho_det_sq hQ
  rcases mul_self_eq_one_iff.1 h with h | h <;> simp [h]

theorem smul_ortho_inv {Q : Mat3} (hQ : OrthonormalCols Q) {s : ℝ} (hs : s ≠ 0) : (s • Q)⁻¹ = s⁻¹ • Q.transpose := by
  refine Matrix.inv_eq_left_inv ?_
  rw [Matrix.smul_mul, Matrix.mul_smul, smul_smul, inv_mul_cancel₀ hs, one_smul]
  exact hQ

theorem jacobian_similar {n : ℕ} (E : Elem ℝ 3 n) (hE : ∀ ξ j, ∑ i, E.dL ξ i j = 0) (X : Fin n → Fin 3 → ℝ) (s : ℝ) (Q : Mat3)
    (c : Fin 3 → ℝ) (ξ : Fin 3 → ℝ) :
    (E.jacobian (fun i => similar s Q c (X i)) ξ : Mat3) = (s • Q) * (E.jacobian X ξ : Mat3) := by
  ext a j
  have h := hE ξ j
  have e : ∀ i, similar s Q c (X i) a * E.dL ξ i j = (s • Q).mulVec (X i) a * E.dL ξ i j + c a * E.dL ξ i j := by
    intro i
    simp only [similar, Pi.add_apply, Matrix.smul_mulVec]
    ring
  simp only [Elem.jacobian, Matrix.mul_apply]
  rw [Finset.sum_congr rfl fun i _ => e i, Finset.sum_add_distrib, ← Finset.mul_sum, h, mul_zero, add_zero]
  simp only [Matrix.mulVec, dotProduct, Finset.sum_mul, Finset.mul_sum]
  rw [Finset.sum_comm]
  exact Finset.sum_congr rfl fun k _ => Finset.sum_congr rfl fun i _ => by ring

/-- The quadrature node of the similar element. -/
noncomputable def QNode.similar {n : ℕ} (s : ℝ) (Q : Mat3) (d : ℝ) (q : QNode n) : QNode n :=
  ⟨q.weight, d * q.detJ, fun i => s⁻¹ • Q.mulVec (q.dN i)⟩

theorem dN_similar {n : ℕ} (E : Elem ℝ 3 n) (hE : ∀ ξ j, ∑ i, E.dL ξ i j = 0) (X : Fin n → Fin 3 → ℝ) {s : ℝ} (hs : 0 < s) {Q : Mat3}
    (hQ : OrthonormalCols Q) (c : Fin 3 → ℝ) (g : GaussNode 3) (i : Fin n) :
    (gaussNodeOf E (fun i => Spec.similar s Q c (X i)) g).dN i = s⁻¹ • Q.mulVec ((gaussNodeOf E X g).dN i) := by
  funext b
  rw [gaussNodeOf_dN, jacobian_similar E hE, Matrix.mul_inv_rev, smul_ortho_inv hQ hs.ne']
  simp only [Pi.smul_apply, Matrix.mulVec, dotProduct, gaussNodeOf_dN, Matrix.mul_apply, Matrix.smul_apply, Matrix.transpose_apply, smul_eq_mul,
    Finset.mul_sum]
  rw [Finset.sum_comm]
  exact Finset.sum_congr rfl fun k _ => Finset.sum_congr rfl fun i _ => by ring

theorem gaussNodeOf_similar {n : ℕ} (E : Elem ℝ 3 n) (hE : ∀ ξ j, ∑ i, E.dL ξ i j = 0) (X : Fin n → Fin 3 → ℝ) {s : ℝ} (hs : 0 < s)
    {Q : Mat3} (hQ : OrthonormalCols Q) (c : Fin 3 → ℝ) (g : GaussNode 3) :
    gaussNodeOf E (fun i => Spec.similar s Q c (X i)) g = (gaussNodeOf E X g).similar s Q (s ^ 3) := by
  have e1 : (gaussNodeOf E (fun i => Spec.similar s Q c (X i)) g).detJ = s ^ 3 * (gaussNodeOf E X g).detJ := by
    show |Matrix.det (E.jacobian (fun i => Spec.similar s Q c (X i)) g.position : Mat3)| = s ^ 3 * |Matrix.det (E.jacobian X g.position : Mat3)|
    rw [jacobian_similar E hE, Matrix.det_mul, Matrix.det_smul, abs_mul, abs_mul, ortho_abs hQ, Fintype.card_fin,
      abs_of_pos (pow_pos hs 3), mul_one]
  have e2 : (gaussNodeOf E (fun i => Spec.similar s Q c (X i)) g).dN = fun i => s⁻¹ • Q.mulVec ((gaussNodeOf E X g).dN i) :=
    funext fun i => dN_similar E hE X hs hQ c g i
  exact congrArg₂ (fun d N => (⟨g.weight, d, N⟩ : QNode n)) e1 e2

theorem signedGaussNodeOf_similar {n : ℕ} (E : Elem ℝ 3 n) (hE : ∀ ξ j, ∑ i, E.dL ξ i j = 0) (X : Fin n → Fin 3 → ℝ) {s : ℝ} (hs : 0 < s)
    {Q : Mat3} (hQ : IsRotation Q) (c : Fin 3 → ℝ) (g : GaussNode 3) :
    signedGaussNodeOf E (fun i => Spec.similar s Q c (X i)) g = (signedGaussNodeOf E X g).similar s Q (s ^ 3) := by
  have e1 : (signedGaussNodeOf E (fun i => Spec.similar s Q c (X i)) g).detJ = s ^ 3 * (signedGaussNodeOf E X g).detJ := by
    show Matrix.det (E.jacobian (fun i => Spec.similar s Q c (X i)) g.position : Mat3) = s ^ 3 * Matrix.det (E.jacobian X g.position : Mat3)
    rw [jacobian_similar E hE, Matrix.det_mul, Matrix.det_smul, hQ.2, Fintype.card_fin, mul_one]
  have e2 : (signedGaussNodeOf E (fun i => Spec.similar s Q c (X i)) g).dN = fun i => s⁻¹ • Q.mulVec ((signedGaussNodeOf E X g).dN i) :=
    funext fun i => dN_similar E hE X hs hQ.1 c g i
  exact congrArg₂ (fun d N => (⟨g.weight, d, N⟩ : QNode n)) e1 e2

theorem deformationGradient_similar {n : ℕ} (dN x : Fin n → Fin 3 → ℝ) (h0 : ∀ b, ∑ i, dN i b = 0) {s : ℝ} (hs : 0 < s) (Q : Mat3)
    (c : Fin 3 → ℝ) :
    deformationGradient (fun i => s⁻¹ • Q.mulVec (dN i)) (fun i => Spec.similar s Q c (x i)) = Q * deformationGradient dN x * Q.transpose := by
  have e : deformationGradient dN (fun i => Spec.similar s Q c (x i)) = (s • Q) * deformationGradient dN x := by
    have h := defGrad_affine dN x h0 (s • Q) c
    rw [← h]
    congr 1
    funext i
    simp only [Spec.similar, Matrix.smul_mulVec]
  have e2 : ∀ y : Fin n → Fin 3 → ℝ, deformationGradient (fun i => s⁻¹ • Q.mulVec (dN i)) y =
      s⁻¹ • (deformationGradient dN y * Q.transpose) := by
    intro y
    ext a b
    simp only [defGrad_apply, Matrix.smul_apply, Matrix.mul_apply, Matrix.transpose_apply, Pi.smul_apply, Matrix.mulVec, dotProduct,
      smul_eq_mul, Finset.mul_sum, Finset.sum_mul]
    rw [Finset.sum_comm]
    exact Finset.sum_congr rfl fun k _ => Finset.sum_congr rfl fun i _ => by ring
  rw [e2, e, Matrix.smul_mul, Matrix.smul_mul, smul_smul, inv_mul_cancel₀ hs.ne', one_smul]

theorem similar_gram {Q F : Mat3} (hQ : OrthonormalCols Q) :
    (Q * F * Q.transpose).transpose * (Q * F * Q.transpose) = Q * (F.transpose * F) * Q.transpose ∧
    (Q * F * Q.transpose).det = F.det := by
  have h1 : Q.transpose * Q = 1 := hQ
  constructor
  · simp only [Matrix.transpose_mul, Matrix.transpose_transpose, Matrix.mul_assoc]
    rw [← Matrix.mul_assoc Q.transpose Q, h1, Matrix.one_mul]
  · rw [Matrix.det_mul, Matrix.det_mul, Matrix.det_transpose]
    linear_combination F.det * ortho_det_sq hQ

theorem gaussForce_similar {n : ℕ} {mat mat' : Material} {m : ℝ} (hm : LawTimes m mat mat') (hi : IsotropicLaw mat) (q : QNode n)
    (h0 : ∀ b, ∑ i, q.dN i b = 0) (x : Fin n → Fin 3 → ℝ) {s : ℝ} (hs : 0 < s) {Q : Mat3} (hQ : OrthonormalCols Q) (c : Fin 3 → ℝ)
    (i : Fin n) :
    gaussForce mat' (q.similar s Q (s ^ 3)) (fun i => Spec.similar s Q c (x i)) i = (m * s ^ 2) • Q.mulVec (gaussForce mat q x i) := by
  simp only [gaussForce, QNode.similar, deformationGradient_similar q.dN x h0 hs Q c, (similar_gram hQ).1, (similar_gram hQ).2,
    (hm _ _).2, (hi _ _ Q hQ).2]
  have h1 : Q.transpose * Q = 1 := hQ
  generalize deformationGradient q.dN x = F
  generalize mat.stress F.det (F.transpose * F) = S
  have e : (Q * F * Q.transpose) * (Q * S * Q.transpose) = Q * F * S * Q.transpose := by
    simp only [Matrix.mul_assoc]
    rw [← Matrix.mul_assoc Q.transpose Q, h1, Matrix.one_mul]
  rw [Matrix.smul_mul, Matrix.mul_smul, e, Matrix.mulVec_smul, smul_smul, Matrix.smul_mulVec, Matrix.mulVec_mulVec, Matrix.mul_assoc, h1,
    Matrix.mul_one, Matrix.smul_mul, Matrix.smul_mulVec, Matrix.mulVec_smul, Matrix.mulVec_mulVec, smul_smul, smul_smul, Matrix.mul_assoc]
  congr 1
  field_simp

theorem energy_similar {n : ℕ} {mat mat' : Material} {m : ℝ} (hm : LawTimes m mat mat') (hi : IsotropicLaw mat) (q : QNode n)
    (h0 : ∀ b, ∑ i, q.dN i b = 0) (x0 x : Fin n → Fin 3 → ℝ) {s : ℝ} (hs : 0 < s) {Q : Mat3} (hQ : OrthonormalCols Q) (c : Fin 3 → ℝ) :
    ((q.similar s Q (s ^ 3)).detJ * (q.similar s Q (s ^ 3)).weight) *
      mat'.energy (strainF (q.similar s Q (s ^ 3)).dN fun i => Spec.similar s Q c (x i) - Spec.similar s Q c (x0 i)).det
        ((strainF (q.similar s Q (s ^ 3)).dN fun i => Spec.similar s Q c (x i) - Spec.similar s Q c (x0 i)).transpose *
          (strainF (q.similar s Q (s ^ 3)).dN fun i => Spec.similar s Q c (x i) - Spec.similar s Q c (x0 i))) =
    (m * s ^ 3) * ((q.detJ * q.weight) * mat.energy (strainF q.dN fun i => x i - x0 i).det
      ((strainF q.dN fun i => x i - x0 i).transpose * (strainF q.dN fun i => x i - x0 i))) := by
  have e : strainF (q.similar s Q (s ^ 3)).dN (fun i => Spec.similar s Q c (x i) - Spec.similar s Q c (x0 i)) =
      Q * strainF q.dN (fun i => x i - x0 i) * Q.transpose := by
    rw [strainF_eq, strainF_eq, Matrix.mul_add, Matrix.add_mul, Matrix.mul_one, ortho_comm hQ, defGrad_sub, defGrad_sub]
    simp only [QNode.similar]
    rw [deformationGradient_similar q.dN x h0 hs Q c, deformationGradient_similar q.dN x0 h0 hs Q c, Matrix.mul_sub, Matrix.sub_mul]
  rw [e, (similar_gram hQ).1, (similar_gram hQ).2, (hm _ _).1, (hi _ _ Q hQ).1]
  simp only [QNode.similar]
  ring

end Caribou

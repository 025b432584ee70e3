import Verif.Lemmas.Accuracy
import Verif.Props.Hyperelastic
import Verif.Lemmas.Similarity

/-!
# C121: interpolated fields and deformation gradients become exact when the elements become small
-/

set_option autoImplicit false

namespace Caribou

open Spec

variable {D m : ℕ}

theorem interpolate_smul {d n : ℕ} (E : Elem ℝ d n) (ξ : Fin d → ℝ) (v : Fin n → Fin m → ℝ) : E.interpolate ξ v = ∑ i, E.L ξ i • v i := by
  funext a
  rw [Finset.sum_apply]
  exact Finset.sum_congr rfl fun i _ => mul_comm _ _

theorem offsets_sum (T : ElementType) (X : Fin T.numNodes → Fin D → ℝ) (ξ : Fin T.dim → ℝ) :
    ∑ i, (T.elem (K := ℝ)).L ξ i • (X i - T.elem.worldCoordinates X ξ) = 0 := by
  simp only [smul_sub, Finset.sum_sub_distrib]
  rw [← Finset.sum_smul, C01_partition_of_unity, one_smul, sub_eq_zero]
  exact (interpolate_smul T.elem ξ X).symm

theorem interpolate_error (T : ElementType) (X : Fin T.numNodes → Fin D → ℝ) (ξ : Fin T.dim → ℝ) (f : (Fin D → ℝ) → Fin m → ℝ) (A : (Fin D → ℝ) →L[ℝ] (Fin m → ℝ)) :
    T.elem.interpolate ξ (fun i => f (X i)) - f (T.elem.worldCoordinates X ξ) = ∑ i, (T.elem (K := ℝ)).L ξ i •
      (f (X i) - f (T.elem.worldCoordinates X ξ) - A (X i - T.elem.worldCoordinates X ξ)) := by
  simp only [smul_sub (M := ℝ) (A := Fin m → ℝ), Finset.sum_sub_distrib]
  have h : ∑ i, (T.elem (K := ℝ)).L ξ i • A (X i - T.elem.worldCoordinates X ξ) = 0 := by
    simp only [← map_smul, ← map_sum]
    rw [offsets_sum, map_zero]
  rw [h, sub_zero, ← Finset.sum_smul, C01_partition_of_unity, one_smul, interpolate_smul]

theorem weighted_norm_le {V : Type*} [NormedAddCommGroup V] [NormedSpace ℝ V] {n : ℕ} (L : Fin n → ℝ) (r : Fin n → V) {c b : ℝ} (hb : 0 ≤ b) (hr : ∀ i, ‖r i‖ ≤ b)
    (hL : ∑ i, |L i| ≤ c) : ‖∑ i, L i • r i‖ ≤ c * b := by
  refine (norm_sum_le _ _).trans ((Finset.sum_le_sum fun i _ => ?_).trans ((Finset.sum_mul Finset.univ (fun i => |L i|) b).symm.le.trans (mul_le_mul_of_nonneg_right hL hb)))
  rw [norm_smul, Real.norm_eq_abs]
  exact mul_le_mul_of_nonneg_left (hr i) (abs_nonneg _)

/-- **C121 (interpolation).** The field interpolated from its values at the nodes differs from a field whose derivative changes by at most `B` times
the distance by at most a constant of the class times `B / 2` times the square of the size of the element. -/
theorem C121_interpolation (T : ElementType) (X : Fin T.numNodes → Fin D → ℝ) (ξ : Fin T.dim → ℝ) (hξ : T.shape.Mem ξ) (S : Set (Fin D → ℝ))
    (f : (Fin D → ℝ) → Fin m → ℝ) (f' : (Fin D → ℝ) → (Fin D → ℝ) →L[ℝ] (Fin m → ℝ)) (B h : ℝ) (hB : 0 ≤ B) (hf : SmoothOn S f f' B) (hX : ∀ i, X i ∈ S)
    (hx : T.elem.worldCoordinates X ξ ∈ S) (hh : ∀ i, ‖X i - T.elem.worldCoordinates X ξ‖ ≤ h) :
    ‖T.elem.interpolate ξ (fun i => f (X i)) - f (T.elem.worldCoordinates X ξ)‖ ≤ shapeBound T * (B / 2 * h ^ 2) := by
  rw [interpolate_error T X ξ f (f' (T.elem.worldCoordinates X ξ))]
  refine weighted_norm_le _ _ (by positivity) (fun i => (taylor1 hf hx (hX i)).trans ?_) (shape_abs T ξ hξ)
  exact mul_le_mul_of_nonneg_left (pow_le_pow_left₀ (norm_nonneg _) (hh i) 2) (by positivity)

/-- Elements have nodes. -/
def someNode (T : ElementType) : Fin T.numNodes := ⟨0, by cases T <;> decide⟩

/-- The second moments of the nodes around a point vanish for quadratic elements. -/
theorem offsets_sq_sum (T : ElementType) (hT : T.IsQuadratic) (ξ : Fin T.dim → ℝ) (j l : Fin T.dim) :
    ∑ i, (T.elem (K := ℝ)).L ξ i * (((T.elem (K := ℝ)).node i j - ξ j) * ((T.elem (K := ℝ)).node i l - ξ l)) = 0 := by
  have h := congrFun (C06_quadratic_reproduction (K := ℝ) T hT (m := 1) (fun _ => ξ j * ξ l)
    (fun _ k => -((if k = j then ξ l else 0) + if k = l then ξ j else 0)) (fun _ a b => if a = j ∧ b = l then 1 else 0) ξ) 0
  simp only [Elem.interpolate, quadraticFn] at h
  have hq : ∀ y : Fin T.dim → ℝ, ξ j * ξ l + ∑ k, -((if k = j then ξ l else 0) + if k = l then ξ j else 0) * y k +
      ∑ a, ∑ b, (if a = j ∧ b = l then (1 : ℝ) else 0) * (y a * y b) = (y j - ξ j) * (y l - ξ l) := by
    intro y
    have e1 : ∑ k, -((if k = j then ξ l else 0) + if k = l then ξ j else 0) * y k = -(ξ l * y j + ξ j * y l) := by
      simp only [neg_mul, add_mul, ite_mul, zero_mul, Finset.sum_neg_distrib, Finset.sum_add_distrib, Finset.sum_ite_eq', Finset.mem_univ, if_true]
    have e2 : ∑ a, ∑ b, (if a = j ∧ b = l then (1 : ℝ) else 0) * (y a * y b) = y j * y l := by
      rw [Finset.sum_eq_single j, Finset.sum_eq_single l]
      · simp
      · intro b _ hb
        simp [hb]
      · simp
      · intro a _ ha
        exact Finset.sum_eq_zero fun b _ => by simp [ha]
      · simp
    rw [e1, e2]
    ring
  simp only [hq] at h
  rw [sub_self, zero_mul] at h
  rw [← h]
  exact Finset.sum_congr rfl fun i _ => mul_comm _ _

theorem straight_offset (T : ElementType) (c : Fin D → ℝ) (g : Fin D → Fin T.dim → ℝ) (ξ : Fin T.dim → ℝ) (i : Fin T.numNodes) :
    (fun a => affineFn (c a) (g a) ((T.elem (K := ℝ)).node i)) - T.elem.worldCoordinates (fun i a => affineFn (c a) (g a) (T.elem.node i)) ξ =
      ∑ j, ((T.elem (K := ℝ)).node i j - ξ j) • fun a => g a j := by
  rw [C05_affine_geometry]
  funext a
  rw [Pi.sub_apply, Finset.sum_apply]
  simp only [affineFn, Pi.smul_apply, smul_eq_mul, sub_mul, Finset.sum_sub_distrib]
  have e : ∀ y : Fin T.dim → ℝ, ∑ j, g a j * y j = ∑ j, y j * g a j := fun y => Finset.sum_congr rfl fun j _ => mul_comm _ _
  rw [e, e]
  ring

/-- **C121 (quadratic elements).** On straight quadratic elements the error is of the third order, for fields whose second derivative changes by at
most `B` times the distance. -/
theorem C121_quadratic (T : ElementType) (hT : T.IsQuadratic) (c : Fin D → ℝ) (g : Fin D → Fin T.dim → ℝ) (X : Fin T.numNodes → Fin D → ℝ)
    (hX0 : X = fun i a => affineFn (c a) (g a) (T.elem.node i)) (ξ : Fin T.dim → ℝ) (hξ : T.shape.Mem ξ) (S : Set (Fin D → ℝ))
    (f : (Fin D → ℝ) → Fin m → ℝ) (f' : (Fin D → ℝ) → (Fin D → ℝ) →L[ℝ] (Fin m → ℝ)) (f'' : (Fin D → ℝ) → (Fin D → ℝ) →L[ℝ] (Fin D → ℝ) →L[ℝ] (Fin m → ℝ))
    (B h : ℝ) (hB : 0 ≤ B) (hf : ∀ x ∈ S, HasFDerivAt f (f' x) x) (hf' : SmoothOn S f' f'' B) (hX : ∀ i, X i ∈ S)
    (hx : T.elem.worldCoordinates X ξ ∈ S) (hh : ∀ i, ‖X i - T.elem.worldCoordinates X ξ‖ ≤ h) :
    ‖T.elem.interpolate ξ (fun i => f (X i)) - f (T.elem.worldCoordinates X ξ)‖ ≤ shapeBound T * (B / 6 * h ^ 3) := by
  set x := T.elem.worldCoordinates X ξ with hxdef
  have hzero : ∑ i, (T.elem (K := ℝ)).L ξ i • ((1 / 2 : ℝ) • f'' x (X i - x) (X i - x)) = 0 := by
    have hv : ∀ i, X i - x = ∑ j, ((T.elem (K := ℝ)).node i j - ξ j) • fun a => g a j := by
      intro i
      rw [hxdef, hX0]
      exact straight_offset T c g ξ i
    have h1 : ∀ i, f'' x (X i - x) (X i - x) = ∑ j, ∑ l, (((T.elem (K := ℝ)).node i j - ξ j) * ((T.elem (K := ℝ)).node i l - ξ l)) • f'' x (fun a => g a j) (fun a => g a l) := by
      intro i
      rw [hv i, map_sum, Finset.sum_comm]
      refine Finset.sum_congr rfl fun l _ => ?_
      rw [map_sum, ContinuousLinearMap.sum_apply]
      refine Finset.sum_congr rfl fun j _ => ?_
      rw [map_smul, map_smul, ContinuousLinearMap.smul_apply, smul_smul, mul_comm]
    simp only [h1, Finset.smul_sum, smul_smul]
    rw [Finset.sum_comm]
    refine Finset.sum_eq_zero fun j _ => ?_
    rw [Finset.sum_comm]
    refine Finset.sum_eq_zero fun l _ => ?_
    rw [← Finset.sum_smul]
    have h2 := offsets_sq_sum T hT ξ j l
    have h3 : ∑ i, (T.elem (K := ℝ)).L ξ i * (1 / 2 * (((T.elem (K := ℝ)).node i j - ξ j) * ((T.elem (K := ℝ)).node i l - ξ l))) = 0 := by
      have e : ∀ i, (T.elem (K := ℝ)).L ξ i * (1 / 2 * (((T.elem (K := ℝ)).node i j - ξ j) * ((T.elem (K := ℝ)).node i l - ξ l))) =
          1 / 2 * ((T.elem (K := ℝ)).L ξ i * (((T.elem (K := ℝ)).node i j - ξ j) * ((T.elem (K := ℝ)).node i l - ξ l))) := fun i => by ring
      simp only [e]
      rw [← Finset.mul_sum, h2, mul_zero]
    rw [h3, zero_smul]
  have herr : T.elem.interpolate ξ (fun i => f (X i)) - f x = ∑ i, (T.elem (K := ℝ)).L ξ i •
      (f (X i) - f x - f' x (X i - x) - (1 / 2 : ℝ) • f'' x (X i - x) (X i - x)) := by
    rw [hxdef, interpolate_error T X ξ f (f' (T.elem.worldCoordinates X ξ)), ← hxdef]
    conv_rhs => simp only [smul_sub _ (_ - _ - _) _, Finset.sum_sub_distrib]
    rw [hzero, sub_zero]
  rw [herr]
  refine weighted_norm_le _ _ (by have := (norm_nonneg _).trans (hh (someNode T)); positivity) (fun i => (taylor2 hf hf' hx (hX i)).trans ?_) (shape_abs T ξ hξ)
  exact mul_le_mul_of_nonneg_left (pow_le_pow_left₀ (norm_nonneg _) (hh i) 3) (by positivity)

/-! ### Deformation gradients -/

theorem gradient_error {n : ℕ} (dN X : Fin n → Fin 3 → ℝ) (h0 : ∀ b, ∑ i, dN i b = 0) (h1 : deformationGradient dN X = 1) (φ : (Fin 3 → ℝ) → Fin 3 → ℝ)
    (A : (Fin 3 → ℝ) →L[ℝ] (Fin 3 → ℝ)) (x : Fin 3 → ℝ) (a b : Fin 3) :
    deformationGradient dN (fun i => φ (X i)) a b - A (Pi.single b 1) a = ∑ i, dN i b • (φ (X i) - φ x - A (X i - x)) a := by
  have hs : ∑ i, dN i b • (X i - x) = Pi.single b 1 := by
    simp only [smul_sub, Finset.sum_sub_distrib]
    rw [← Finset.sum_smul, h0, zero_smul, sub_zero]
    funext k
    have h2 := congrFun (congrFun h1 k) b
    rw [defGrad_apply] at h2
    rw [Finset.sum_apply]
    simp only [Pi.smul_apply, smul_eq_mul]
    rw [Pi.single_apply, Finset.sum_congr rfl fun i _ => mul_comm _ _, h2, Matrix.one_apply]
  have h2 : A (Pi.single b 1) a = ∑ i, dN i b * A (X i - x) a := by
    rw [← hs, map_sum, Finset.sum_apply]
    simp only [map_smul, Pi.smul_apply, smul_eq_mul]
  rw [h2, defGrad_apply]
  simp only [Pi.sub_apply, smul_eq_mul, mul_sub, Finset.sum_sub_distrib]
  rw [← Finset.sum_mul, h0, zero_mul, sub_zero]
  congr 1
  exact Finset.sum_congr rfl fun i _ => mul_comm _ _

/-- **C121 (deformation gradient).** At every integration point the deformation gradient which the hyperelastic force field computes from the images of the
nodes by a motion differs from the derivative of the motion by at most the sum of the gradients of the shape functions times `B / 2` times the square of
the size of the element. -/
theorem C121_gradient (T : SolidType) (X : Fin T.numNodes → Fin 3 → ℝ) (g : GaussNode 3) (hJ : (T.elem.jacobian X g.position : Mat3).det ≠ 0)
    (S : Set (Fin 3 → ℝ)) (φ : (Fin 3 → ℝ) → Fin 3 → ℝ) (φ' : (Fin 3 → ℝ) → (Fin 3 → ℝ) →L[ℝ] (Fin 3 → ℝ)) (B h : ℝ) (hB : 0 ≤ B) (hφ : SmoothOn S φ φ' B)
    (hX : ∀ i, X i ∈ S) (hx : T.elem.worldCoordinates X g.position ∈ S) (hh : ∀ i, ‖X i - T.elem.worldCoordinates X g.position‖ ≤ h) (a b : Fin 3) :
    |deformationGradient (gaussNodeOf T.elem X g).dN (fun i => φ (X i)) a b - φ' (T.elem.worldCoordinates X g.position) (Pi.single b 1) a| ≤
      (∑ i, |(gaussNodeOf T.elem X g).dN i b|) * (B / 2 * h ^ 2) := by
  rw [gradient_error _ X (gaussNodeOf_sum T.elem T.dsum X g) (gaussNodeOf_grad T.elem X g hJ) φ (φ' (T.elem.worldCoordinates X g.position))
    (T.elem.worldCoordinates X g.position) a b, ← Real.norm_eq_abs]
  refine weighted_norm_le _ _ (by positivity) (fun i => ?_) le_rfl
  refine (norm_le_pi_norm _ a).trans ((taylor1 hφ hx (hX i)).trans ?_)
  exact mul_le_mul_of_nonneg_left (pow_le_pow_left₀ (norm_nonneg _) (hh i) 2) (by positivity)

/-- **C121 (refinement).** On elements of the same shape which are `s` times smaller the error of the deformation gradient is `s` times smaller. -/
theorem C121_refinement (T : SolidType) (X : Fin T.numNodes → Fin 3 → ℝ) (g : GaussNode 3) (hJ : (T.elem.jacobian X g.position : Mat3).det ≠ 0)
    (S : Set (Fin 3 → ℝ)) (φ : (Fin 3 → ℝ) → Fin 3 → ℝ) (φ' : (Fin 3 → ℝ) → (Fin 3 → ℝ) →L[ℝ] (Fin 3 → ℝ)) (B h : ℝ) (hB : 0 ≤ B) (hφ : SmoothOn S φ φ' B)
    (hh : ∀ i, ‖X i - T.elem.worldCoordinates X g.position‖ ≤ h) (s : ℝ) (hs : 0 < s) (c : Fin 3 → ℝ)
    (hX : ∀ i, s • X i + c ∈ S) (hx : s • T.elem.worldCoordinates X g.position + c ∈ S) (a b : Fin 3) :
    |deformationGradient (gaussNodeOf T.elem (fun i => s • X i + c) g).dN (fun i => φ (s • X i + c)) a b -
        φ' (s • T.elem.worldCoordinates X g.position + c) (Pi.single b 1) a| ≤
      s * ((∑ i, |(gaussNodeOf T.elem X g).dN i b|) * (B / 2 * h ^ 2)) := by
  have hsim : (fun i => s • X i + c) = fun i => Spec.similar s 1 c (X i) := by
    funext i
    simp [Spec.similar]
  have hw : T.elem.worldCoordinates (fun i => s • X i + c) g.position = s • T.elem.worldCoordinates X g.position + c := by
    have h1 : ∑ i, T.elem.L g.position i = 1 := by
      cases T
      · exact C01_partition_of_unity (K := ℝ) .tetra1 g.position
      · exact C01_partition_of_unity (K := ℝ) .tetra2 g.position
      · exact C01_partition_of_unity (K := ℝ) .hexa1 g.position
      · exact C01_partition_of_unity (K := ℝ) .hexa2 g.position
    refine (interpolate_smul T.elem g.position _).trans ?_
    simp only [smul_add, Finset.sum_add_distrib]
    rw [← Finset.sum_smul, h1, one_smul]
    congr 1
    refine Eq.trans ?_ (congrArg (s • ·) (interpolate_smul T.elem g.position X)).symm
    rw [Finset.smul_sum]
    exact Finset.sum_congr rfl fun i _ => smul_comm _ _ _
  have hdN : ∀ i, (gaussNodeOf T.elem (fun i => s • X i + c) g).dN i = s⁻¹ • (gaussNodeOf T.elem X g).dN i := by
    intro i
    rw [hsim, dN_similar T.elem T.dsum X hs (by simp [OrthonormalCols]) c g i, Matrix.one_mulVec]
  have hdet : (T.elem.jacobian (fun i => s • X i + c) g.position : Mat3).det ≠ 0 := by
    have h1 : (T.elem.jacobian (fun i => s • X i + c) g.position : Mat3) = s • (T.elem.jacobian X g.position : Mat3) := by
      rw [hsim, jacobian_similar T.elem T.dsum, Matrix.smul_mul, Matrix.one_mul]
    rw [h1, Matrix.det_smul]
    exact mul_ne_zero (pow_ne_zero _ hs.ne') hJ
  have h := C121_gradient T (fun i => s • X i + c) g hdet S φ φ' B (s * h) hB hφ hX (by rw [hw]; exact hx) (fun i => by
    rw [hw, add_sub_add_right_eq_sub, ← smul_sub, norm_smul, Real.norm_of_nonneg hs.le]
    exact mul_le_mul_of_nonneg_left (hh i) hs.le) a b
  rw [hw] at h
  refine h.trans (le_of_eq ?_)
  simp only [hdN, Pi.smul_apply, smul_eq_mul, abs_mul, abs_of_pos (inv_pos.mpr hs), ← Finset.mul_sum]
  field_simp

theorem offsets_sq_dsum (T : ElementType) (hT : T.IsQuadratic) (ξ : Fin T.dim → ℝ) (j l k : Fin T.dim) :
    ∑ i, (T.elem (K := ℝ)).dL ξ i k * (((T.elem (K := ℝ)).node i j - ξ j) * ((T.elem (K := ℝ)).node i l - ξ l)) = 0 := by
  have hL : ∀ y : Fin T.dim → ℝ, ∑ i, (T.elem (K := ℝ)).L y i * (((T.elem (K := ℝ)).node i j - ξ j) * ((T.elem (K := ℝ)).node i l - ξ l)) =
      (y j - ξ j) * (y l - ξ l) := by
    intro y
    have h2 := offsets_sq_sum T hT y j l
    have h1 : ∀ r, ∑ i, (T.elem (K := ℝ)).L y i * (T.elem (K := ℝ)).node i r = y r := fun r =>
      (Finset.sum_congr rfl fun i _ => mul_comm _ _).trans (elem_coord (K := ℝ) T y r)
    have h0 := C01_partition_of_unity (K := ℝ) T y
    have e : ∀ i, (T.elem (K := ℝ)).L y i * (((T.elem (K := ℝ)).node i j - ξ j) * ((T.elem (K := ℝ)).node i l - ξ l)) =
        (T.elem (K := ℝ)).L y i * (((T.elem (K := ℝ)).node i j - y j) * ((T.elem (K := ℝ)).node i l - y l)) +
          (y l - ξ l) * ((T.elem (K := ℝ)).L y i * (T.elem (K := ℝ)).node i j) + (y j - ξ j) * ((T.elem (K := ℝ)).L y i * (T.elem (K := ℝ)).node i l) +
          (ξ j * ξ l - y j * y l) * (T.elem (K := ℝ)).L y i := fun i => by ring
    simp only [e, Finset.sum_add_distrib, ← Finset.mul_sum]
    rw [h2, h1, h1, h0]
    ring
  have hd : HasDerivAt (fun t => ∑ i, (T.elem (K := ℝ)).L (Function.update ξ k t) i * (((T.elem (K := ℝ)).node i j - ξ j) * ((T.elem (K := ℝ)).node i l - ξ l)))
      (∑ i, (T.elem (K := ℝ)).dL ξ i k * (((T.elem (K := ℝ)).node i j - ξ j) * ((T.elem (K := ℝ)).node i l - ξ l))) (ξ k) :=
    HasDerivAt.fun_sum fun i _ => (C03_derivative T ξ i k).mul_const _
  simp only [hL] at hd
  have hu : ∀ r : Fin T.dim, HasDerivAt (fun t => Function.update ξ k t r - ξ r) (if r = k then 1 else 0) (ξ k) := by
    intro r
    by_cases h : r = k
    · subst h
      have e : (fun t => Function.update ξ r t r - ξ r) = fun t : ℝ => t - ξ r := by
        funext t
        rw [Function.update_self]
      rw [e, if_pos rfl]
      exact (hasDerivAt_id' (ξ r)).sub_const _
    · have e : (fun t => Function.update ξ k t r - ξ r) = fun _ => 0 := by
        funext t
        rw [Function.update_of_ne h, sub_self]
      rw [e, if_neg h]
      exact hasDerivAt_const _ _
  refine hd.unique (((hu j).mul (hu l)).congr_deriv ?_)
  rw [Function.update_eq_self]
  ring

/-- **C121 (deformation gradient of quadratic elements).** On straight quadratic tetrahedra and hexahedra the error of the deformation gradient has one order more. -/
theorem C121_gradient_quadratic (T : SolidType) (hT : T = .tetra2 ∨ T = .hexa2) (c : Fin 3 → ℝ) (G : Fin 3 → Fin 3 → ℝ) (X : Fin T.numNodes → Fin 3 → ℝ)
    (hX0 : X = fun i a => affineFn (c a) (G a) (T.elem.node i)) (g : GaussNode 3) (hJ : (T.elem.jacobian X g.position : Mat3).det ≠ 0)
    (S : Set (Fin 3 → ℝ)) (φ : (Fin 3 → ℝ) → Fin 3 → ℝ) (φ' : (Fin 3 → ℝ) → (Fin 3 → ℝ) →L[ℝ] (Fin 3 → ℝ))
    (φ'' : (Fin 3 → ℝ) → (Fin 3 → ℝ) →L[ℝ] (Fin 3 → ℝ) →L[ℝ] (Fin 3 → ℝ)) (B h : ℝ) (hB : 0 ≤ B) (hφ : ∀ x ∈ S, HasFDerivAt φ (φ' x) x) (hφ' : SmoothOn S φ' φ'' B)
    (hX : ∀ i, X i ∈ S) (hx : T.elem.worldCoordinates X g.position ∈ S) (hh : ∀ i, ‖X i - T.elem.worldCoordinates X g.position‖ ≤ h) (a b : Fin 3) :
    |deformationGradient (gaussNodeOf T.elem X g).dN (fun i => φ (X i)) a b - φ' (T.elem.worldCoordinates X g.position) (Pi.single b 1) a| ≤
      (∑ i, |(gaussNodeOf T.elem X g).dN i b|) * (B / 6 * h ^ 3) := by
  set x := T.elem.worldCoordinates X g.position with hxdef
  have hv : ∀ i, X i - x = ∑ j, (T.elem.node i j - g.position j) • fun a => G a j := by
    intro i
    rw [hxdef, hX0]
    rcases hT with rfl | rfl
    · exact straight_offset .tetra2 c G g.position i
    · exact straight_offset .hexa2 c G g.position i
  have hsq : ∀ j l k : Fin 3, ∑ i, T.elem.dL g.position i k * ((T.elem.node i j - g.position j) * (T.elem.node i l - g.position l)) = 0 := by
    intro j l k
    rcases hT with rfl | rfl
    · exact offsets_sq_dsum .tetra2 trivial g.position j l k
    · exact offsets_sq_dsum .hexa2 trivial g.position j l k
  have hsqN : ∀ j l : Fin 3, ∑ i, (gaussNodeOf T.elem X g).dN i b * ((T.elem.node i j - g.position j) * (T.elem.node i l - g.position l)) = 0 := by
    intro j l
    simp only [gaussNodeOf_dN, Finset.sum_mul]
    rw [Finset.sum_comm]
    refine Finset.sum_eq_zero fun k _ => ?_
    have e : ∀ i, T.elem.dL g.position i k * (T.elem.jacobian X g.position : Mat3)⁻¹ k b * ((T.elem.node i j - g.position j) * (T.elem.node i l - g.position l)) =
        (T.elem.jacobian X g.position : Mat3)⁻¹ k b * (T.elem.dL g.position i k * ((T.elem.node i j - g.position j) * (T.elem.node i l - g.position l))) :=
      fun i => by ring
    simp only [e]
    rw [← Finset.mul_sum, hsq, mul_zero]
  have hzero : ∑ i, (gaussNodeOf T.elem X g).dN i b • ((1 / 2 : ℝ) • φ'' x (X i - x) (X i - x)) = 0 := by
    have h1 : ∀ i, φ'' x (X i - x) (X i - x) = ∑ j, ∑ l, ((T.elem.node i j - g.position j) * (T.elem.node i l - g.position l)) • φ'' x (fun a => G a j) (fun a => G a l) := by
      intro i
      rw [hv i, map_sum, Finset.sum_comm]
      refine Finset.sum_congr rfl fun l _ => ?_
      rw [map_sum, ContinuousLinearMap.sum_apply]
      refine Finset.sum_congr rfl fun j _ => ?_
      rw [map_smul, map_smul, ContinuousLinearMap.smul_apply, smul_smul, mul_comm]
    simp only [h1, Finset.smul_sum, smul_smul]
    rw [Finset.sum_comm]
    refine Finset.sum_eq_zero fun j _ => ?_
    rw [Finset.sum_comm]
    refine Finset.sum_eq_zero fun l _ => ?_
    rw [← Finset.sum_smul]
    have e : ∀ i, (gaussNodeOf T.elem X g).dN i b * (1 / 2 * ((T.elem.node i j - g.position j) * (T.elem.node i l - g.position l))) =
        1 / 2 * ((gaussNodeOf T.elem X g).dN i b * ((T.elem.node i j - g.position j) * (T.elem.node i l - g.position l))) := fun i => by ring
    simp only [e]
    rw [← Finset.mul_sum, hsqN, mul_zero, zero_smul]
  have herr : deformationGradient (gaussNodeOf T.elem X g).dN (fun i => φ (X i)) a b - φ' x (Pi.single b 1) a =
      ∑ i, (gaussNodeOf T.elem X g).dN i b • (φ (X i) - φ x - φ' x (X i - x) - (1 / 2 : ℝ) • φ'' x (X i - x) (X i - x)) a := by
    rw [gradient_error _ X (gaussNodeOf_sum T.elem T.dsum X g) (gaussNodeOf_grad T.elem X g hJ) φ (φ' x) x a b]
    have hz := congrFun hzero a
    rw [Finset.sum_apply, Pi.zero_apply] at hz
    simp only [Pi.smul_apply] at hz
    rw [← sub_zero (∑ i, _), ← hz, ← Finset.sum_sub_distrib]
    refine Finset.sum_congr rfl fun i _ => ?_
    rw [← smul_sub]
    rfl
  rw [herr, ← Real.norm_eq_abs]
  have h0 : 0 ≤ h := by
    rcases hT with rfl | rfl
    · exact (norm_nonneg _).trans (hh (0 : Fin 10))
    · exact (norm_nonneg _).trans (hh (0 : Fin 20))
  refine weighted_norm_le _ _ (by positivity) (fun i => ?_) le_rfl
  refine (norm_le_pi_norm _ a).trans ((taylor2 hφ hφ' hx (hX i)).trans ?_)
  exact mul_le_mul_of_nonneg_left (pow_le_pow_left₀ (norm_nonneg _) (hh i) 3) (by positivity)

/-! The squares of the coordinates, on tetrahedra. -/

/-- The squares of the coordinates have the derivative `v ↦ (2 x_a v_a)`. -/
noncomputable def squaresDeriv : (Fin 3 → ℝ) →L[ℝ] (Fin 3 → ℝ) →L[ℝ] (Fin 3 → ℝ) :=
  ∑ a : Fin 3, (2 : ℝ) • (ContinuousLinearMap.proj (R := ℝ) (φ := fun _ : Fin 3 => ℝ) a).smulRight
    ((ContinuousLinearMap.proj (R := ℝ) (φ := fun _ : Fin 3 => ℝ) a).smulRight (Pi.single a (1 : ℝ) : Fin 3 → ℝ))

theorem squaresDeriv_apply (x v : Fin 3 → ℝ) : squaresDeriv x v = fun a => 2 * (x a * v a) := by
  funext a
  simp [squaresDeriv, ContinuousLinearMap.sum_apply, Finset.sum_apply, Pi.single_apply]

theorem squares_hasFDerivAt (x : Fin 3 → ℝ) : HasFDerivAt (fun y : Fin 3 → ℝ => fun a => y a ^ 2) (squaresDeriv x) x := by
  rw [hasFDerivAt_pi']
  intro a
  have h := ((ContinuousLinearMap.proj (R := ℝ) (φ := fun _ : Fin 3 => ℝ) a).hasFDerivAt (x := x)).pow 2
  refine h.congr_fderiv ?_
  ext v
  simp [squaresDeriv_apply]
  ring

theorem squares_smooth : SmoothOn Set.univ (fun y : Fin 3 → ℝ => fun a => y a ^ 2) (fun x => squaresDeriv x) 2 where
  convex := convex_univ
  deriv := fun x _ => squares_hasFDerivAt x
  lipschitz := fun x _ y _ => by
    rw [← map_sub]
    refine ContinuousLinearMap.opNorm_le_bound _ (by positivity) fun v => ?_
    rw [squaresDeriv_apply, pi_norm_le_iff_of_nonneg (by positivity)]
    intro a
    rw [Real.norm_eq_abs, abs_mul, abs_mul, abs_two, mul_assoc]
    exact mul_le_mul_of_nonneg_left (mul_le_mul (norm_le_pi_norm (x - y) a) (norm_le_pi_norm v a) (abs_nonneg _) (norm_nonneg _)) (by norm_num)

theorem squares_smooth' : SmoothOn Set.univ (fun x => squaresDeriv x) (fun _ => squaresDeriv) 0 where
  convex := convex_univ
  deriv := fun _ _ => squaresDeriv.hasFDerivAt
  lipschitz := fun x _ y _ => by simp

/-- The centre of the tetrahedron. -/
noncomputable def tetraCentre : Fin 3 → ℝ := fun _ => 1 / 4

theorem tetraCentre_mem : (ElementType.tetra1).shape.Mem tetraCentre ∧ (ElementType.tetra2).shape.Mem tetraCentre := by
  constructor <;> simp [tetraCentre, ElementType.shape, Shape.Mem, sum_fin3] <;> norm_num

theorem tetra_world : (tetra1 (K := ℝ)).worldCoordinates (tetra1 (K := ℝ)).node tetraCentre = tetraCentre ∧
    (tetra2 (K := ℝ)).worldCoordinates (tetra2 (K := ℝ)).node tetraCentre = tetraCentre := by
  constructor
  · funext j
    exact elem_coord (K := ℝ) .tetra1 tetraCentre j
  · funext j
    exact elem_coord (K := ℝ) .tetra2 tetraCentre j

theorem affine_self {n : ℕ} (v : Fin n → Fin 3 → ℝ) : v = fun i a => affineFn 0 (fun j => if a = j then 1 else 0) (v i) := by
  funext i a
  simp [affineFn]

theorem tetra_close : (∀ i, ‖(tetra1 (K := ℝ)).node i - tetraCentre‖ ≤ 3 / 4) ∧ ∀ i, ‖(tetra2 (K := ℝ)).node i - tetraCentre‖ ≤ 3 / 4 := by
  constructor
  · intro i
    rw [pi_norm_le_iff_of_nonneg (by norm_num)]
    intro j
    fin_cases i <;> fin_cases j <;> simp [tetra1, tetraCentre] <;> norm_num [abs_le]
  · intro i
    rw [pi_norm_le_iff_of_nonneg (by norm_num)]
    intro j
    fin_cases i <;> fin_cases j <;> simp [tetra2, tetraCentre] <;> norm_num [abs_le]

-- C121_interpolation: in the middle of the tetrahedron the interpolated squares of the coordinates are off by at most 9/16.
example : ‖(tetra1 (K := ℝ)).interpolate tetraCentre (fun i a => (tetra1 (K := ℝ)).node i a ^ 2) - fun a => tetraCentre a ^ 2‖ ≤ 9 / 16 := by
  have h := C121_interpolation .tetra1 (tetra1 (K := ℝ)).node tetraCentre tetraCentre_mem.1 Set.univ _ _ 2 (3 / 4) (by norm_num) squares_smooth
    (fun _ => trivial) trivial (fun i => by
      have := tetra_close.1 i
      rwa [← tetra_world.1] at this)
  refine le_trans (le_of_eq ?_) (h.trans (by norm_num [shapeBound]))
  have e : (ElementType.tetra1.elem (K := ℝ)).worldCoordinates (tetra1 (K := ℝ)).node tetraCentre = tetraCentre := tetra_world.1
  rw [e]
  rfl

-- C121_quadratic: quadratic tetrahedra interpolate the squares without error.
example : (tetra2 (K := ℝ)).interpolate tetraCentre (fun i a => (tetra2 (K := ℝ)).node i a ^ 2) = fun a => tetraCentre a ^ 2 := by
  have h := C121_quadratic .tetra2 trivial (fun _ => 0) (fun (a j : Fin 3) => if a = j then 1 else 0) (tetra2 (K := ℝ)).node (affine_self _) tetraCentre tetraCentre_mem.2 Set.univ _ _ _ 0 (3 / 4) le_rfl
    (fun x _ => squares_hasFDerivAt x) squares_smooth' (fun _ => trivial) trivial (fun i => by
      have := tetra_close.2 i
      rwa [← tetra_world.2] at this)
  have e : (ElementType.tetra2.elem (K := ℝ)).worldCoordinates (tetra2 (K := ℝ)).node tetraCentre = tetraCentre := tetra_world.2
  rw [e, zero_div, zero_mul, mul_zero] at h
  exact sub_eq_zero.mp (norm_le_zero_iff.mp h)

theorem tetra_det : ((SolidType.tetra1).elem.jacobian (tetra1 (K := ℝ)).node tetraCentre : Mat3).det ≠ 0 := by
  have h : ((tetra1 (K := ℝ)).jacobian (tetra1 (K := ℝ)).node tetraCentre : Mat3) = 1 := by
    ext a b
    fin_cases a <;> fin_cases b <;> simp [Elem.jacobian, tetra1, sum_fin4]
  show ((tetra1 (K := ℝ)).jacobian (tetra1 (K := ℝ)).node tetraCentre : Mat3).det ≠ 0
  rw [h, Matrix.det_one]
  exact one_ne_zero

-- C121_gradient and C121_refinement: for the motion x ↦ (x_a²), on tetrahedra s times smaller.
example (s : ℝ) (hs : 0 < s) (a b : Fin 3) :
    |deformationGradient (gaussNodeOf tetra1 (fun i => s • (tetra1 (K := ℝ)).node i + 0) ⟨tetraCentre, 1 / 6⟩).dN
        (fun i a => (s • (tetra1 (K := ℝ)).node i + 0) a ^ 2) a b - squaresDeriv (s • tetraCentre + 0) (Pi.single b 1) a| ≤
      s * ((∑ i, |(gaussNodeOf tetra1 (tetra1 (K := ℝ)).node ⟨tetraCentre, 1 / 6⟩).dN i b|) * (2 / 2 * (3 / 4) ^ 2)) := by
  have h := C121_refinement .tetra1 (tetra1 (K := ℝ)).node ⟨tetraCentre, 1 / 6⟩ tetra_det Set.univ _ _ 2 (3 / 4) (by norm_num) squares_smooth
    (fun i => by
      have := tetra_close.1 i
      rwa [← tetra_world.1] at this) s hs 0 (fun _ => trivial) trivial a b
  have e : SolidType.tetra1.elem.worldCoordinates (tetra1 (K := ℝ)).node tetraCentre = tetraCentre := tetra_world.1
  rw [e] at h
  exact h

theorem tetra2_det : ((SolidType.tetra2).elem.jacobian (tetra2 (K := ℝ)).node tetraCentre : Mat3).det ≠ 0 := by
  have h : ((tetra2 (K := ℝ)).jacobian (tetra2 (K := ℝ)).node tetraCentre : Mat3) = 1 := by
    ext a b
    fin_cases a <;> fin_cases b <;> simp [Elem.jacobian, tetra2, sum_fin10, tetraCentre] <;> norm_num
  show ((tetra2 (K := ℝ)).jacobian (tetra2 (K := ℝ)).node tetraCentre : Mat3).det ≠ 0
  rw [h, Matrix.det_one]
  exact one_ne_zero

-- C121_gradient_quadratic: quadratic tetrahedra compute the gradient of the motion x ↦ (x_a²) without error.
example (a b : Fin 3) : deformationGradient (gaussNodeOf tetra2 (tetra2 (K := ℝ)).node ⟨tetraCentre, 1 / 6⟩).dN
    (fun i a => (tetra2 (K := ℝ)).node i a ^ 2) a b = squaresDeriv tetraCentre (Pi.single b 1) a := by
  have h := C121_gradient_quadratic .tetra2 (.inl rfl) (fun _ => 0) (fun (a j : Fin 3) => if a = j then 1 else 0) (tetra2 (K := ℝ)).node (affine_self _)
    ⟨tetraCentre, 1 / 6⟩ tetra2_det Set.univ _ _ _ 0 (3 / 4) le_rfl (fun x _ => squares_hasFDerivAt x) squares_smooth' (fun _ => trivial) trivial (fun i => by
      have := tetra_close.2 i
      rwa [← tetra_world.2] at this) a b
  have e : SolidType.tetra2.elem.worldCoordinates (tetra2 (K := ℝ)).node tetraCentre = tetraCentre := tetra_world.2
  rw [e, zero_div, zero_mul, mul_zero] at h
  exact sub_eq_zero.mp (abs_eq_zero.mp (le_antisymm h (abs_nonneg _)))

end Caribou

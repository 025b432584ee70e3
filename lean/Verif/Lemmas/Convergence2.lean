import Verif.Lemmas.Convergence

/-!
# Second-order accuracy of the quadrature of an element
-/

set_option autoImplicit false
set_option linter.all false

namespace Caribou

open Spec MeasureTheory

theorem affine_deg {d : ℕ} (c : ℝ) (g : Fin d → ℝ) : Deg (fun _ => 1) (affineFn c g) := by
  refine ((Deg.const (d := d) c).add (Deg.linear (a := fun _ => 1) g fun j => (Deg.coord j).mono fun k => ?_)).mono fun k => by simp
  by_cases h : k = j
  · subst h; simp
  · rw [Pi.single_eq_of_ne h]; exact Nat.zero_le _

/-- Every rule is exact on affine functions. -/
theorem gauss_affine (T : ElementType) (c : ℝ) (g : Fin T.dim → ℝ) : gaussSum T.gauss (affineFn c g) = T.integral (affineFn c g) := by
  obtain ⟨t1, t2, t3, t4, t5, t6, t7, t8, t9, t10⟩ := C12_tensor_exact
  cases T
  · exact t1 c g
  · obtain ⟨k, hk⟩ := deg_cubic1 ((affine_deg c g).mono fun _ => by decide)
    exact (congrArg _ hk).trans ((t2 k).trans (congrArg _ hk.symm))
  · exact C12_triangle_exact.1 c g
  · have h : affineFn c g = quadraticFn c g (fun _ _ => 0) := by
      funext ξ; simp [affineFn, quadraticFn]
    exact (congrArg _ h).trans ((C12_triangle_exact.2 c g _).trans (congrArg _ h.symm))
  · obtain ⟨k, hk⟩ := deg_cubic2 ((affine_deg c g).mono fun _ => by decide)
    exact (congrArg _ hk).trans ((t3 k).trans (congrArg _ hk.symm))
  · obtain ⟨k, hk⟩ := deg_cubic2 ((affine_deg c g).mono fun _ => by decide)
    exact (congrArg _ hk).trans ((t3 k).trans (congrArg _ hk.symm))
  · exact C12_tetra.1 c g
  · exact C12_tetra.2.1 c g
  · obtain ⟨k, hk⟩ := deg_cubic3 ((affine_deg c g).mono fun _ => by decide)
    exact (congrArg _ hk).trans ((t7 k).trans (congrArg _ hk.symm))
  · obtain ⟨k, hk⟩ := deg_cubic3 ((affine_deg c g).mono fun _ => by decide)
    exact (congrArg _ hk).trans ((t7 k).trans (congrArg _ hk.symm))
  · obtain ⟨k, hk⟩ := deg_cubic2 ((affine_deg c g).mono fun _ => by decide)
    exact (congrArg _ hk).trans ((t3 k).trans (congrArg _ hk.symm))
  · obtain ⟨k, hk⟩ := deg_cubic2 ((affine_deg c g).mono fun _ => by decide)
    exact (congrArg _ hk).trans ((t3 k).trans (congrArg _ hk.symm))
  · obtain ⟨k, hk⟩ := deg_cubic3 ((affine_deg c g).mono fun _ => by decide)
    exact (congrArg _ hk).trans ((t7 k).trans (congrArg _ hk.symm))
  · obtain ⟨k, hk⟩ := deg_cubic3 ((affine_deg c g).mono fun _ => by decide)
    exact (congrArg _ hk).trans ((t7 k).trans (congrArg _ hk.symm))

/-- The rule is exact on the affine functions of the position. -/
def ExactOnAffine (T : ElementType) (X : Fin T.numNodes → Fin T.dim → ℝ) : Prop :=
  ∀ c g, (gaussSum T.gauss fun ξ => (T.elem.jacobian X ξ).det * affineFn c g (T.elem.worldCoordinates X ξ)) =
    T.integral fun ξ => (T.elem.jacobian X ξ).det * affineFn c g (T.elem.worldCoordinates X ξ)

theorem affImage_jacobian (T : ElementType) (c : Fin T.dim → ℝ) (A : Matrix (Fin T.dim) (Fin T.dim) ℝ) (X : Fin T.numNodes → Fin T.dim → ℝ)
    (hX : ∀ i, X i = c + A.mulVec (T.elem.node i)) (ξ : Fin T.dim → ℝ) : T.elem.jacobian X ξ = A := by
  ext a j
  simp only [Elem.jacobian, hX, Pi.add_apply, Matrix.mulVec, dotProduct, add_mul, Finset.sum_add_distrib, Finset.sum_mul]
  rw [← Finset.mul_sum, C04_derivatives_sum_to_zero, mul_zero, zero_add, Finset.sum_comm]
  simp only [mul_assoc, ← Finset.mul_sum, elem_dcoord]
  simp

theorem affImage_world (T : ElementType) (c : Fin T.dim → ℝ) (A : Matrix (Fin T.dim) (Fin T.dim) ℝ) (X : Fin T.numNodes → Fin T.dim → ℝ)
    (hX : ∀ i, X i = c + A.mulVec (T.elem.node i)) (ξ : Fin T.dim → ℝ) : T.elem.worldCoordinates X ξ = c + A.mulVec ξ := by
  funext a
  simp only [Elem.worldCoordinates, Elem.interpolate, hX, Pi.add_apply, Matrix.mulVec, dotProduct, add_mul, Finset.sum_add_distrib, Finset.sum_mul]
  rw [← Finset.mul_sum, C01_partition_of_unity, mul_one, Finset.sum_comm]
  simp only [mul_assoc, ← Finset.mul_sum, elem_coord]

theorem exactOnAffine_affine (T : ElementType) (c : Fin T.dim → ℝ) (A : Matrix (Fin T.dim) (Fin T.dim) ℝ) (X : Fin T.numNodes → Fin T.dim → ℝ)
    (hX : ∀ i, X i = c + A.mulVec (T.elem.node i)) : ExactOnAffine T X := by
  intro k g
  have h : (fun ξ => (T.elem.jacobian X ξ).det * affineFn k g (T.elem.worldCoordinates X ξ)) =
      affineFn (A.det * affineFn k g c) (fun j => A.det * ∑ a, g a * A a j) := by
    funext ξ
    rw [affImage_jacobian T c A X hX, affImage_world T c A X hX]
    simp only [affineFn, Pi.add_apply, Matrix.mulVec, dotProduct, mul_add, Finset.sum_add_distrib, Finset.mul_sum, Finset.sum_mul]
    rw [← add_assoc, add_right_inj, Finset.sum_comm]
    exact Finset.sum_congr rfl fun j _ => Finset.sum_congr rfl fun a _ => by ring
  rw [h]
  exact gauss_affine T _ _

theorem quad1_L_deg (i : Fin 4) : Deg ![1, 1] (fun ξ => (quad1 (K := ℝ)).L ξ i) := by
  fin_cases i <;> simp only [quad1, Matrix.cons_val, Fin.isValue, Fin.reduceFinMk, Fin.zero_eta, Fin.mk_one] <;> deg_tac

theorem hexa1_L_deg (i : Fin 8) : Deg ![1, 1, 1] (fun ξ => (hexa1 (K := ℝ)).L ξ i) := by
  fin_cases i <;> simp only [hexa1, Matrix.cons_val, Fin.isValue, Fin.reduceFinMk, Fin.zero_eta, Fin.mk_one] <;> deg_tac

theorem affine_of_world {d n : ℕ} (E : Elem ℝ d n) (X : Fin n → Fin d → ℝ) (c : ℝ) (g : Fin d → ℝ) (ξ : Fin d → ℝ) :
    affineFn c g (E.worldCoordinates X ξ) = c + ∑ i, (∑ a, g a * X i a) * E.L ξ i := by
  simp only [affineFn, Elem.worldCoordinates, Elem.interpolate, Finset.mul_sum, Finset.sum_mul]
  rw [Finset.sum_comm]
  exact congrArg _ (Finset.sum_congr rfl fun i _ => Finset.sum_congr rfl fun a _ => by ring)

theorem exactOnAffine_quad (X : Fin 4 → Fin 2 → ℝ) (c : ℝ) (g : Fin 2 → ℝ) :
    ∃ k, (fun ξ => ((quad1 (K := ℝ)).jacobian X ξ).det * affineFn c g ((quad1 (K := ℝ)).worldCoordinates X ξ)) = cubic2 k := by
  have h : ∀ i j, Deg (![![0, 1], ![1, 0]] j) fun ξ => (quad1 (K := ℝ)).jacobian X ξ i j := by
    intro i j
    fin_cases j
    · exact Deg.linear _ fun k => (quad1_dL_deg k).1
    · exact Deg.linear _ fun k => (quad1_dL_deg k).2
  simp only [affine_of_world]
  refine deg_cubic2 (((deg_det2 h).mul ((Deg.const c).add (Deg.linear _ quad1_L_deg))).mono ?_)
  decide

theorem exactOnAffine_hexa (X : Fin 8 → Fin 3 → ℝ) (c : ℝ) (g : Fin 3 → ℝ) :
    ∃ k, (fun ξ => ((hexa1 (K := ℝ)).jacobian X ξ).det * affineFn c g ((hexa1 (K := ℝ)).worldCoordinates X ξ)) = cubic3 k := by
  have h : ∀ i j, Deg (![![0, 1, 1], ![1, 0, 1], ![1, 1, 0]] j) fun ξ => (hexa1 (K := ℝ)).jacobian X ξ i j := by
    intro i j
    fin_cases j
    · exact Deg.linear _ fun k => (hexa1_dL_deg k).1
    · exact Deg.linear _ fun k => (hexa1_dL_deg k).2.1
    · exact Deg.linear _ fun k => (hexa1_dL_deg k).2.2
  simp only [affine_of_world]
  refine deg_cubic3 (((deg_det3 h).mul ((Deg.const c).add (Deg.linear _ hexa1_L_deg))).mono ?_)
  decide

theorem segment1_affine (X : Fin 2 → Fin 1 → ℝ) (i : Fin 2) :
    X i = (fun a => (X 0 a + X 1 a) / 2) + (Matrix.of fun a (_ : Fin 1) => (X 1 a - X 0 a) / 2).mulVec ((segment1 (K := ℝ)).node i) := by
  funext a
  fin_cases i <;> simp [segment1, Matrix.mulVec, dotProduct] <;> ring

theorem triangle1_affine (X : Fin 3 → Fin 2 → ℝ) (i : Fin 3) :
    X i = X 0 + (Matrix.of fun a (j : Fin 2) => X j.succ a - X 0 a).mulVec ((triangle1 (K := ℝ)).node i) := by
  funext a
  fin_cases i <;> simp [triangle1, Matrix.mulVec, dotProduct, Fin.sum_univ_two] <;> exact (add_sub_cancel _ _).symm

theorem tetra1_affine (X : Fin 4 → Fin 3 → ℝ) (i : Fin 4) :
    X i = X 0 + (Matrix.of fun a (j : Fin 3) => X j.succ a - X 0 a).mulVec ((tetra1 (K := ℝ)).node i) := by
  funext a
  fin_cases i <;> simp [tetra1, Matrix.mulVec, dotProduct, Fin.sum_univ_three] <;> exact (add_sub_cancel _ _).symm

/-- The rules of the linear elements are exact on the affine functions of the position, whatever the positions of the nodes. -/
theorem exactOnAffine_linear (T : ElementType) (hT : ¬ T.IsQuadratic) (X : Fin T.numNodes → Fin T.dim → ℝ) : ExactOnAffine T X := by
  obtain ⟨t1, t2, t3, t4, t5, t6, t7, t8, t9, t10⟩ := C12_tensor_exact
  cases T with
  | segment1 => exact exactOnAffine_affine .segment1 _ _ X (segment1_affine X)
  | triangle1 => exact exactOnAffine_affine .triangle1 _ _ X (triangle1_affine X)
  | tetra1 => exact exactOnAffine_affine .tetra1 _ _ X (tetra1_affine X)
  | quad1 => intro c g; obtain ⟨k, hk⟩ := exactOnAffine_quad X c g; exact (congrArg _ hk).trans ((t3 k).trans (congrArg _ hk.symm))
  | rectQuad1 => intro c g; obtain ⟨k, hk⟩ := exactOnAffine_quad X c g; exact (congrArg _ hk).trans ((t3 k).trans (congrArg _ hk.symm))
  | hexa1 => intro c g; obtain ⟨k, hk⟩ := exactOnAffine_hexa X c g; exact (congrArg _ hk).trans ((t7 k).trans (congrArg _ hk.symm))
  | rectHexa1 => intro c g; obtain ⟨k, hk⟩ := exactOnAffine_hexa X c g; exact (congrArg _ hk).trans ((t7 k).trans (congrArg _ hk.symm))
  | segment2 => exact absurd trivial hT
  | triangle2 => exact absurd trivial hT
  | quad2 => exact absurd trivial hT
  | tetra2 => exact absurd trivial hT
  | hexa2 => exact absurd trivial hT
  | rectQuad2 => exact absurd trivial hT
  | rectHexa2 => exact absurd trivial hT

theorem world_continuous (T : ElementType) {m : ℕ} (X : Fin T.numNodes → Fin m → ℝ) : Continuous (T.elem.worldCoordinates X) :=
  continuous_iff_continuousAt.mpr fun ξ => (world_hasFDerivAt T X ξ).continuousAt

theorem region_integral (T : ElementType) (X : Fin T.numNodes → Fin T.dim → ℝ) (hu : Unfolded T X) (f : (Fin T.dim → ℝ) → ℝ) :
    ∫ x in elementRegion T X, f x = ∫ ξ in canonicalSet T.shape T.dim, |(T.elem.jacobian X ξ).det| * f (T.elem.worldCoordinates X ξ) := by
  have h := integral_image_eq_integral_abs_det_fderiv_smul volume (canonicalSet_isCompact T.shape T.dim).measurableSet
    (fun ξ _ => (world_hasFDerivAt T X ξ).hasFDerivWithinAt) hu.1 f
  have hdet : ∀ ξ, (Matrix.toLin' (T.elem.jacobian X ξ)).toContinuousLinearMap.det = (T.elem.jacobian X ξ).det := by
    intro ξ
    rw [ContinuousLinearMap.det, LinearMap.coe_toContinuousLinearMap, LinearMap.det_toLin']
  simp only [hdet, smul_eq_mul] at h
  exact h

/-- Affine functions are integrated exactly. -/
theorem quadrature_affine (T : ElementType) (X : Fin T.numNodes → Fin T.dim → ℝ) (hu : Unfolded T X) (he : ExactOnAffine T X) (c : ℝ) (g : Fin T.dim → ℝ) :
    quadratureOf T X (affineFn c g) = ∫ x in elementRegion T X, affineFn c g x := by
  have haff : Continuous (affineFn c g) := by
    unfold affineFn
    fun_prop
  have hcont : Continuous fun ξ => (T.elem.jacobian X ξ).det * affineFn c g (T.elem.worldCoordinates X ξ) :=
    (jacobian_det_continuous T X).mul (haff.comp (world_continuous T X))
  have h1 := he c g
  rw [integral_eq_setIntegral T hcont] at h1
  rw [region_integral T X hu]
  have hS := canonicalSet_isCompact T.shape T.dim
  rcases hu.2 with h | h
  · rw [setIntegral_congr_fun hS.measurableSet fun ξ hξ => by rw [abs_of_nonneg (h ξ hξ)]]
    rw [← h1, quadratureOf, gaussSum]
    refine congrArg List.sum (List.map_congr_left fun g hg => ?_)
    rw [abs_of_nonneg (h _ (C12_inside_positive T g hg).1), mul_assoc]
  · have e : ∀ ξ ∈ canonicalSet T.shape T.dim, |(T.elem.jacobian X ξ).det| * affineFn c g (T.elem.worldCoordinates X ξ) =
        -((T.elem.jacobian X ξ).det * affineFn c g (T.elem.worldCoordinates X ξ)) := fun ξ hξ => by
      rw [abs_of_nonpos (h ξ hξ), neg_mul]
    rw [setIntegral_congr_fun hS.measurableSet e, integral_neg, ← h1, quadratureOf, gaussSum, List.sum_neg]
    simp only [List.map_map]
    refine congrArg List.sum (List.map_congr_left fun g hg => ?_)
    simp only [Function.comp]
    rw [mul_assoc, e _ (C12_inside_positive T g hg).1, mul_neg]

/-- The quadrature of a smooth function has an error of second order. -/
theorem quadrature_second (T : ElementType) (X : Fin T.numNodes → Fin T.dim → ℝ) (hm : WellMeasured T X) (hu : Unfolded T X) (he : ExactOnAffine T X)
    (S : Set (Fin T.dim → ℝ)) (hS : elementRegion T X ⊆ S) (f : (Fin T.dim → ℝ) → ℝ) (f' : (Fin T.dim → ℝ) → (Fin T.dim → ℝ) →L[ℝ] ℝ) (B h : ℝ) (hB : 0 ≤ B)
    (hf : SmoothOn S f f' B) (hh : ∀ x ∈ elementRegion T X, ∀ y ∈ elementRegion T X, ‖x - y‖ ≤ h) :
    |quadratureOf T X f - ∫ x in elementRegion T X, f x| ≤ B * h ^ 2 * (volume (elementRegion T X)).toReal := by
  have hV := measured_volume T X hm hu
  have hV0 := quadratureVolume_nonneg T X
  have hVr : (volume (elementRegion T X)).toReal = quadratureVolume T X := by rw [hV, ENNReal.toReal_ofReal hV0]
  have hfin : volume (elementRegion T X) < ⊤ := by rw [hV]; exact ENNReal.ofReal_lt_top
  obtain ⟨ξ₀, hξ₀⟩ : ∃ ξ₀, T.shape.Mem (ξ₀ : Fin T.dim → ℝ) := by
    cases h : T.shape
    · exact ⟨0, fun j => by simp⟩
    · exact ⟨0, fun j => by simp, by simp⟩
  set x₀ := T.elem.worldCoordinates X ξ₀ with hx₀
  have hx₀R : x₀ ∈ elementRegion T X := ⟨ξ₀, hξ₀, rfl⟩
  set A := f' x₀ with hA
  have haff : ∀ x, f x₀ + A (x - x₀) = affineFn (f x₀ - A x₀) (fun j => A (Pi.single j 1)) x := by
    intro x
    have hx : x = ∑ j, x j • (Pi.single j (1 : ℝ) : Fin T.dim → ℝ) := by
      funext k
      simp [Finset.sum_apply, Pi.single_apply]
    have hAx : A x = ∑ j, A (Pi.single j 1) * x j := by
      conv_lhs => rw [hx, map_sum]
      refine Finset.sum_congr rfl fun j _ => ?_
      rw [map_smul, smul_eq_mul, mul_comm]
    rw [affineFn, map_sub, ← hAx]
    ring
  have hbound : ∀ x ∈ elementRegion T X, |f x - affineFn (f x₀ - A x₀) (fun j => A (Pi.single j 1)) x| ≤ B / 2 * h ^ 2 := by
    intro x hx
    rw [← haff, ← sub_sub, ← Real.norm_eq_abs]
    refine (taylor1 hf (hS hx₀R) (hS hx)).trans ?_
    exact mul_le_mul_of_nonneg_left (pow_le_pow_left₀ (norm_nonneg _) (hh _ hx _ hx₀R) 2) (by positivity)
  have hfc : ContinuousOn f (elementRegion T X) := fun x hx => (hf.deriv x (hS hx)).continuousAt.continuousWithinAt
  have hac : Continuous (affineFn (f x₀ - A x₀) fun j => A (Pi.single j 1)) := by
    unfold affineFn
    fun_prop
  have hi1 : IntegrableOn f (elementRegion T X) := hfc.integrableOn_compact (region_compact T X)
  have hi2 : IntegrableOn (affineFn (f x₀ - A x₀) fun j => A (Pi.single j 1)) (elementRegion T X) := hac.continuousOn.integrableOn_compact (region_compact T X)
  have hex := quadrature_affine T X hu he (f x₀ - A x₀) fun j => A (Pi.single j 1)
  have hq : |quadratureOf T X f - quadratureOf T X (affineFn (f x₀ - A x₀) fun j => A (Pi.single j 1))| ≤ B / 2 * h ^ 2 * quadratureVolume T X := by
    have e : quadratureOf T X f - quadratureOf T X (affineFn (f x₀ - A x₀) fun j => A (Pi.single j 1)) =
        (T.gauss.map fun g => g.weight * |(T.elem.jacobian X g.position).det| * (f (T.elem.worldCoordinates X g.position) -
          affineFn (f x₀ - A x₀) (fun j => A (Pi.single j 1)) (T.elem.worldCoordinates X g.position))).sum := by
      rw [sub_eq_iff_eq_add, quadratureOf, quadratureOf, ← List.sum_map_add]
      refine congrArg List.sum (List.map_congr_left fun g _ => by ring)
    rw [e]
    refine (list_abs_sum_le _ _ (fun g => B / 2 * h ^ 2 * (g.weight * |(T.elem.jacobian X g.position).det|)) fun g hg => ?_).trans (le_of_eq ?_)
    · have hw : 0 ≤ g.weight * |(T.elem.jacobian X g.position).det| := mul_nonneg (C12_inside_positive T g hg).2.le (abs_nonneg _)
      rw [abs_mul, abs_of_nonneg hw, mul_comm (B / 2 * h ^ 2)]
      exact mul_le_mul_of_nonneg_left (hbound _ (gauss_mem_region T X hg)) hw
    · rw [List.sum_map_mul_left]
      rfl
  have hint : |(∫ x in elementRegion T X, f x) - ∫ x in elementRegion T X, affineFn (f x₀ - A x₀) (fun j => A (Pi.single j 1)) x| ≤ B / 2 * h ^ 2 * quadratureVolume T X := by
    rw [← integral_sub hi1 hi2, ← Real.norm_eq_abs, ← hVr]
    exact norm_setIntegral_le_of_norm_le_const hfin hbound
  rw [hVr]
  rw [hex] at hq
  rw [abs_le] at *
  constructor <;> nlinarith [hq.1, hq.2, hint.1, hint.2]

end Caribou

import Verif.Lemmas.NearAffine

/-!
# Property C130: elements not far from an affine image are not folded and their volume is close to that of the image
-/

set_option autoImplicit false

namespace Caribou

open Spec Matrix MeasureTheory

/-- **C130 (not folded).** Whatever the type of the element, when its nodes are not far from an affine image of the canonical element, each of its points has only one local position, the Jacobian has
everywhere the orientation of the image, and its determinant does not differ much. -/
theorem C130_jacobian (T : ElementType) (X : Fin T.numNodes → Fin T.dim → ℝ) (c : Fin T.dim → ℝ) (A : Matrix (Fin T.dim) (Fin T.dim) ℝ) (θ : ℝ) (h : NearAffine T X c A θ)
    (hθ : T.dim * slopeBound T * θ < 1) (ξ : Fin T.dim → ℝ) (hξ : T.shape.Mem ξ) :
    ∃ q, (T.elem.jacobian X ξ).det = A.det * q ∧ (1 - T.dim * slopeBound T * θ) ^ T.dim ≤ q ∧ q ≤ (1 + T.dim * slopeBound T * θ) ^ T.dim := by
  obtain ⟨u, hX, hu⟩ := h
  have hr := fun a => near_rows hu (show ξ ∈ canonicalSet T.shape T.dim from hξ) a
  exact ⟨_, by rw [near_jacobian hX, det_mul], le_det_one_add hθ hr, det_one_add_le hθ hr⟩

theorem near_theta {T : ElementType} {X : Fin T.numNodes → Fin T.dim → ℝ} {c : Fin T.dim → ℝ} {A : Matrix (Fin T.dim) (Fin T.dim) ℝ} {θ : ℝ} (h : NearAffine T X c A θ) : 0 ≤ θ := by
  obtain ⟨u, -, hu⟩ := h
  have hn : 0 < T.numNodes := by cases T <;> decide
  have hd : 0 < T.dim := by cases T <;> decide
  exact (abs_nonneg _).trans (hu ⟨0, hn⟩ ⟨0, hd⟩)

/-- **C130 (the hypothesis of the other properties).** Such an element is unfolded, which is what C83 and C122 to C124 need. -/
theorem C130_unfolded (T : ElementType) (X : Fin T.numNodes → Fin T.dim → ℝ) (c : Fin T.dim → ℝ) (A : Matrix (Fin T.dim) (Fin T.dim) ℝ) (θ : ℝ) (h : NearAffine T X c A θ)
    (hA : A.det ≠ 0) (hθ : T.dim * slopeBound T * θ < 1) : Unfolded T X := by
  refine ⟨?_, ?_⟩
  · obtain ⟨u, hX, hu⟩ := id h
    intro ξ hξ η hη e
    simp only [near_world hX] at e
    have e2 : ξ + T.elem.worldCoordinates u ξ = η + T.elem.worldCoordinates u η := by
      have e1 := add_left_cancel e
      have : A *ᵥ ((ξ + T.elem.worldCoordinates u ξ) - (η + T.elem.worldCoordinates u η)) = 0 := by rw [mulVec_sub, e1, sub_self]
      by_contra hne
      exact hA (exists_mulVec_eq_zero_iff.1 ⟨_, sub_ne_zero.2 hne, this⟩)
    have e3 : ξ - η = -(T.elem.worldCoordinates u ξ - T.elem.worldCoordinates u η) := by
      have : ξ - η + (T.elem.worldCoordinates u ξ - T.elem.worldCoordinates u η) = 0 := by
        rw [show ξ - η + (T.elem.worldCoordinates u ξ - T.elem.worldCoordinates u η) = (ξ + T.elem.worldCoordinates u ξ) - (η + T.elem.worldCoordinates u η) by abel, e2, sub_self]
      exact eq_neg_of_add_eq_zero_left this
    have hl := near_lipschitz (near_theta h) hu hξ hη
    have e4 : ‖ξ - η‖ = ‖T.elem.worldCoordinates u ξ - T.elem.worldCoordinates u η‖ := by rw [e3, norm_neg]
    rw [← e4] at hl
    have hz : ‖ξ - η‖ ≤ 0 := by
      by_contra hp
      have hp' := not_le.1 hp
      have := mul_lt_mul_of_pos_right hθ hp'
      linarith
    exact sub_eq_zero.1 (norm_le_zero_iff.1 hz)
  · have hq : ∀ ξ ∈ canonicalSet T.shape T.dim, ∃ q, (T.elem.jacobian X ξ).det = A.det * q ∧ 0 ≤ q := by
      intro ξ hξ
      obtain ⟨q, e, h1, -⟩ := C130_jacobian T X c A θ h hθ ξ hξ
      exact ⟨q, e, (pow_nonneg (by linarith) _).trans h1⟩
    rcases lt_or_gt_of_ne hA with hn | hp
    · refine .inr fun ξ hξ => ?_
      obtain ⟨q, e, h1⟩ := hq ξ hξ
      rw [e]
      exact mul_nonpos_of_nonpos_of_nonneg hn.le h1
    · refine .inl fun ξ hξ => ?_
      obtain ⟨q, e, h1⟩ := hq ξ hξ
      rw [e]
      exact mul_nonneg hp.le h1

/-- Bounds of the weights of a rule times the determinants. -/
theorem gauss_near (T : ElementType) (X : Fin T.numNodes → Fin T.dim → ℝ) (c : Fin T.dim → ℝ) (A : Matrix (Fin T.dim) (Fin T.dim) ℝ) (θ : ℝ) (h : NearAffine T X c A θ)
    (hθ : T.dim * slopeBound T * θ < 1) (ξ : Fin T.dim → ℝ) (hξ : T.shape.Mem ξ) :
    (1 - T.dim * slopeBound T * θ) ^ T.dim * |A.det| ≤ |(T.elem.jacobian X ξ).det| ∧ |(T.elem.jacobian X ξ).det| ≤ (1 + T.dim * slopeBound T * θ) ^ T.dim * |A.det| := by
  obtain ⟨q, e, h1, h2⟩ := C130_jacobian T X c A θ h hθ ξ hξ
  have hq : 0 ≤ q := (pow_nonneg (by linarith) _).trans h1
  rw [e, abs_mul, abs_of_nonneg hq, mul_comm |A.det| q]
  exact ⟨mul_le_mul_of_nonneg_right h1 (abs_nonneg _), mul_le_mul_of_nonneg_right h2 (abs_nonneg _)⟩

/-- **C130 (computed volume).** The volume which the library computes for the element is close to the one of the affine image; in particular it is not null. -/
theorem C130_quadrature (T : ElementType) (X X₀ : Fin T.numNodes → Fin T.dim → ℝ) (c : Fin T.dim → ℝ) (A : Matrix (Fin T.dim) (Fin T.dim) ℝ) (θ : ℝ) (h : NearAffine T X c A θ)
    (h₀ : NearAffine T X₀ c A 0) (hθ : T.dim * slopeBound T * θ < 1) :
    (1 - T.dim * slopeBound T * θ) ^ T.dim * quadratureVolume T X₀ ≤ quadratureVolume T X ∧ quadratureVolume T X ≤ (1 + T.dim * slopeBound T * θ) ^ T.dim * quadratureVolume T X₀ := by
  have hd : ∀ ξ, T.shape.Mem ξ → |(T.elem.jacobian X₀ ξ).det| = |A.det| := by
    intro ξ hξ
    have := gauss_near T X₀ c A 0 h₀ (by simp) ξ hξ
    simp only [mul_zero, sub_zero, add_zero, one_pow, one_mul] at this
    exact le_antisymm this.2 this.1
  have key : ∀ k : ℝ, k * quadratureVolume T X₀ = (T.gauss.map fun g => g.weight * (k * |A.det|)).sum := by
    intro k
    unfold quadratureVolume gaussSum
    rw [← List.sum_map_mul_left]
    refine congrArg List.sum (List.map_congr_left fun g hg => ?_)
    have := hd _ (C12_inside_positive T g hg).1
    simp only [this]
    ring
  rw [key, key]
  constructor
  · refine List.sum_le_sum fun g hg => ?_
    exact mul_le_mul_of_nonneg_left (gauss_near T X c A θ h hθ _ (C12_inside_positive T g hg).1).1 (C12_inside_positive T g hg).2.le
  · refine List.sum_le_sum fun g hg => ?_
    exact mul_le_mul_of_nonneg_left (gauss_near T X c A θ h hθ _ (C12_inside_positive T g hg).1).2 (C12_inside_positive T g hg).2.le

/-- **C130 (volume).** The same bounds hold for the volume of the points of the element, also for the quadratic elements on which the quadrature is not exact (C83). -/
theorem C130_volume (T : ElementType) (X X₀ : Fin T.numNodes → Fin T.dim → ℝ) (c : Fin T.dim → ℝ) (A : Matrix (Fin T.dim) (Fin T.dim) ℝ) (θ : ℝ) (h : NearAffine T X c A θ)
    (h₀ : NearAffine T X₀ c A 0) (hA : A.det ≠ 0) (hθ : T.dim * slopeBound T * θ < 1) :
    ENNReal.ofReal ((1 - T.dim * slopeBound T * θ) ^ T.dim) * volume (elementRegion T X₀) ≤ volume (elementRegion T X) ∧
      volume (elementRegion T X) ≤ ENNReal.ofReal ((1 + T.dim * slopeBound T * θ) ^ T.dim) * volume (elementRegion T X₀) := by
  have hvol : ∀ (Y : Fin T.numNodes → Fin T.dim → ℝ), Unfolded T Y →
      volume (elementRegion T Y) = ∫⁻ ξ in canonicalSet T.shape T.dim, ENNReal.ofReal |(T.elem.jacobian Y ξ).det| := by
    intro Y hY
    have hv := lintegral_abs_det_fderiv_eq_addHaar_image (μ := volume) (canonicalSet_isCompact T.shape T.dim).measurableSet
      (fun ξ _ => (world_hasFDerivAt T Y ξ).hasFDerivWithinAt) hY.1
    have hdet : ∀ ξ, (Matrix.toLin' (T.elem.jacobian Y ξ)).toContinuousLinearMap.det = (T.elem.jacobian Y ξ).det := by
      intro ξ
      rw [ContinuousLinearMap.det, LinearMap.coe_toContinuousLinearMap, LinearMap.det_toLin']
    simp only [hdet] at hv
    exact hv.symm
  have hd : ∀ ξ, T.shape.Mem ξ → |(T.elem.jacobian X₀ ξ).det| = |A.det| := by
    intro ξ hξ
    have := gauss_near T X₀ c A 0 h₀ (by simp) ξ hξ
    simp only [mul_zero, sub_zero, add_zero, one_pow, one_mul] at this
    exact le_antisymm this.2 this.1
  have hS := (canonicalSet_isCompact T.shape T.dim).measurableSet
  have hθ0 := near_theta h
  have hb : 0 ≤ T.dim * slopeBound T * θ := mul_nonneg (mul_nonneg (Nat.cast_nonneg _) (slopeBound_nonneg T)) hθ0
  rw [hvol X (C130_unfolded T X c A θ h hA hθ), hvol X₀ (C130_unfolded T X₀ c A 0 h₀ hA (by simp)), ← lintegral_const_mul' _ _ ENNReal.ofReal_ne_top, ← lintegral_const_mul' _ _ ENNReal.ofReal_ne_top]
  constructor
  · refine setLIntegral_mono' hS fun ξ hξ => ?_
    rw [hd ξ hξ, ← ENNReal.ofReal_mul (pow_nonneg (by linarith) _)]
    exact ENNReal.ofReal_le_ofReal (gauss_near T X c A θ h hθ ξ hξ).1
  · refine setLIntegral_mono' hS fun ξ hξ => ?_
    rw [hd ξ hξ, ← ENNReal.ofReal_mul (pow_nonneg (by linarith) _)]
    exact ENNReal.ofReal_le_ofReal (gauss_near T X c A θ h hθ ξ hξ).2

/-- The middle of one edge of a tetrahedron of ten nodes is moved by a hundredth. -/
noncomputable def bentEdge (i : Fin 10) : Fin 3 → ℝ := if i = 4 then ![0, 1 / 100, 0] else 0

example : Unfolded .tetra2 fun i => (tetra2 (K := ℝ)).node i + bentEdge i := by
  refine C130_unfolded .tetra2 _ 0 1 (1 / 100) ⟨bentEdge, fun i => by rw [one_mulVec, zero_add]; rfl, fun i j => ?_⟩ (by simp) ?_
  · unfold bentEdge
    split_ifs
    · change Fin 3 at j
      fin_cases j <;> norm_num [abs_of_pos]
    · change |(0 : ℝ)| ≤ 1 / 100
      norm_num
  · norm_num [slopeBound, ElementType.dim]

end Caribou

import Verif.Lemmas.Distorted
import Verif.Lemmas.NearAffine
import Mathlib.Analysis.Calculus.ContDiff.Operations
import Mathlib.Analysis.Calculus.ContDiff.Basic

set_option autoImplicit false
set_option linter.all false

namespace Caribou

open Spec Matrix

theorem elem_dL_contDiff (T : ElementType) (i : Fin T.numNodes) (j : Fin T.dim) : ContDiff ℝ 1 fun ξ : Fin T.dim → ℝ => T.elem.dL ξ i j := by
  have s1 : ∀ i j, ContDiff ℝ 1 fun ξ => (segment1 (K := ℝ)).dL ξ i j := by
    intro i j; fin_cases i <;> fin_cases j <;> simp only [segment1, Matrix.cons_val, Fin.isValue, Fin.reduceFinMk, Fin.zero_eta, Fin.mk_one] <;> fun_prop
  have s2 : ∀ i j, ContDiff ℝ 1 fun ξ => (segment2 (K := ℝ)).dL ξ i j := by
    intro i j; fin_cases i <;> fin_cases j <;> simp only [segment2, Matrix.cons_val, Fin.isValue, Fin.reduceFinMk, Fin.zero_eta, Fin.mk_one] <;> fun_prop
  have t1 : ∀ i j, ContDiff ℝ 1 fun ξ => (triangle1 (K := ℝ)).dL ξ i j := by
    intro i j; fin_cases i <;> fin_cases j <;> simp only [triangle1, Matrix.cons_val, Fin.isValue, Fin.reduceFinMk, Fin.zero_eta, Fin.mk_one] <;> fun_prop
  have t2 : ∀ i j, ContDiff ℝ 1 fun ξ => (triangle2 (K := ℝ)).dL ξ i j := by
    intro i j; fin_cases i <;> fin_cases j <;> simp only [triangle2, Matrix.cons_val, Fin.isValue, Fin.reduceFinMk, Fin.zero_eta, Fin.mk_one] <;> fun_prop
  have q1 : ∀ i j, ContDiff ℝ 1 fun ξ => (quad1 (K := ℝ)).dL ξ i j := by
    intro i j; fin_cases i <;> fin_cases j <;> simp only [quad1, Matrix.cons_val, Fin.isValue, Fin.reduceFinMk, Fin.zero_eta, Fin.mk_one] <;> fun_prop
  have q2 : ∀ i j, ContDiff ℝ 1 fun ξ => (quad2 (K := ℝ)).dL ξ i j := by
    intro i j; fin_cases i <;> fin_cases j <;> simp only [quad2, Matrix.cons_val, Fin.isValue, Fin.reduceFinMk, Fin.zero_eta, Fin.mk_one] <;> fun_prop
  have e1 : ∀ i j, ContDiff ℝ 1 fun ξ => (tetra1 (K := ℝ)).dL ξ i j := by
    intro i j; fin_cases i <;> fin_cases j <;> simp only [tetra1, Matrix.cons_val, Fin.isValue, Fin.reduceFinMk, Fin.zero_eta, Fin.mk_one] <;> fun_prop
  have e2 : ∀ i j, ContDiff ℝ 1 fun ξ => (tetra2 (K := ℝ)).dL ξ i j := by
    intro i j; fin_cases i <;> fin_cases j <;> simp only [tetra2, Matrix.cons_val, Fin.isValue, Fin.reduceFinMk, Fin.zero_eta, Fin.mk_one] <;> fun_prop
  have h1 : ∀ i j, ContDiff ℝ 1 fun ξ => (hexa1 (K := ℝ)).dL ξ i j := by
    intro i j; fin_cases i <;> fin_cases j <;> simp only [hexa1, Matrix.cons_val, Fin.isValue, Fin.reduceFinMk, Fin.zero_eta, Fin.mk_one] <;> fun_prop
  have h2 : ∀ i j, ContDiff ℝ 1 fun ξ => (hexa2 (K := ℝ)).dL ξ i j := by
    intro i j; fin_cases i <;> fin_cases j <;> simp only [hexa2, hexa2dMid, Matrix.cons_val, Fin.isValue, Fin.reduceFinMk, Fin.zero_eta, Fin.mk_one] <;> fun_prop
  cases T
  exacts [s1 i j, s2 i j, t1 i j, t2 i j, q1 i j, q2 i j, e1 i j, e2 i j, h1 i j, h2 i j, q1 i j, q2 i j, h1 i j, h2 i j]

/-- A continuously differentiable function is bounded and Lipschitz on a ball. -/
theorem ball_bounds {d : ℕ} {f : (Fin d → ℝ) → ℝ} (hf : ContDiff ℝ 1 f) : ∃ K, 0 ≤ K ∧ (∀ x, ‖x‖ ≤ 2 → |f x| ≤ K) ∧ ∀ x y, ‖x‖ ≤ 2 → ‖y‖ ≤ 2 → |f x - f y| ≤ K * ‖x - y‖ := by
  have hc : IsCompact (Metric.closedBall (0 : Fin d → ℝ) 2) := isCompact_closedBall _ _
  obtain ⟨K1, h1⟩ := hc.exists_bound_of_continuousOn hf.continuous.continuousOn
  obtain ⟨K2, h2⟩ := hc.exists_bound_of_continuousOn (hf.continuous_fderiv one_ne_zero).continuousOn
  refine ⟨max (max K1 K2) 0, le_max_right _ _, fun x hx => ?_, fun x y hx hy => ?_⟩
  · exact (h1 x (mem_closedBall_zero_iff.2 hx)).trans ((le_max_left _ _).trans (le_max_left _ _))
  · have := (convex_closedBall (0 : Fin d → ℝ) 2).norm_image_sub_le_of_norm_fderiv_le (fun z _ => (hf.differentiable one_ne_zero).differentiableAt) h2 (mem_closedBall_zero_iff.2 hy) (mem_closedBall_zero_iff.2 hx)
    rw [Real.norm_eq_abs] at this
    exact this.trans (mul_le_mul_of_nonneg_right ((le_max_right _ _).trans (le_max_left _ _)) (norm_nonneg _))

theorem dL_bounds (T : ElementType) : ∃ K, 0 ≤ K ∧ ∀ i j, (∀ x, ‖x‖ ≤ 2 → |(T.elem (K := ℝ)).dL x i j| ≤ K) ∧
    ∀ x y, ‖x‖ ≤ 2 → ‖y‖ ≤ 2 → |(T.elem (K := ℝ)).dL x i j - T.elem.dL y i j| ≤ K * ‖x - y‖ := by
  choose K h0 h1 h2 using fun p : Fin T.numNodes × Fin T.dim => ball_bounds (elem_dL_contDiff T p.1 p.2)
  refine ⟨∑ p, K p, Finset.sum_nonneg fun p _ => h0 p, fun i j => ⟨fun x hx => ?_, fun x y hx hy => ?_⟩⟩
  · exact (h1 (i, j) x hx).trans (Finset.single_le_sum (fun p _ => h0 p) (Finset.mem_univ (i, j)))
  · exact (h2 (i, j) x y hx hy).trans (mul_le_mul_of_nonneg_right (Finset.single_le_sum (fun p _ => h0 p) (Finset.mem_univ (i, j))) (norm_nonneg _))

/-- Every element close enough to an affine image is ready. -/
theorem near_ready (T : ElementType) : ∃ θ, 0 < θ ∧ ∀ (X : Fin T.numNodes → Fin T.dim → ℝ) (c : Fin T.dim → ℝ) (A : Matrix (Fin T.dim) (Fin T.dim) ℝ), NearAffine T X c A θ → A.det ≠ 0 →
    ∀ ξs, ‖ξs‖ ≤ 1 → NewtonReady T.elem X A ξs := by
  obtain ⟨K, hK, hb⟩ := dL_bounds T
  obtain ⟨C, hC⟩ : ∃ C : ℝ, C = T.dim * (T.numNodes * K) := ⟨_, rfl⟩
  have hC0 : 0 ≤ C := by rw [hC]; positivity
  refine ⟨1 / (8 * (C + 1)), by positivity, fun X c A ⟨u, hX, hu⟩ hA ξs hξs => ?_⟩
  obtain ⟨θ, hθ⟩ : ∃ θ : ℝ, θ = 1 / (8 * (C + 1)) := ⟨_, rfl⟩
  rw [← hθ] at hu
  have hθ0 : 0 ≤ θ := by rw [hθ]; positivity
  have hCθ : C * θ ≤ 1 / 8 := by
    rw [hθ, mul_one_div, div_le_div_iff₀ (by positivity) (by norm_num)]
    linarith
  have rows : ∀ (D : Fin T.numNodes → Fin T.dim → ℝ) (k : ℝ), (∀ i j, |D i j| ≤ k) → ∀ a : Fin T.dim, ∑ j, |∑ i, u i a * D i j| ≤ T.dim * (T.numNodes * k) * θ := by
    intro D k hD a
    calc ∑ j, |∑ i, u i a * D i j| ≤ ∑ _j : Fin T.dim, ∑ _i : Fin T.numNodes, θ * k := by
          refine Finset.sum_le_sum fun j _ => (Finset.abs_sum_le_sum_abs _ _).trans (Finset.sum_le_sum fun i _ => ?_)
          rw [abs_mul]
          exact mul_le_mul (hu i a) (hD i j) (abs_nonneg _) hθ0
      _ = _ := by simp; ring
  have hball : ∀ ξ : Fin T.dim → ℝ, ‖ξ - ξs‖ ≤ 1 → ‖ξ‖ ≤ 2 := by
    intro ξ hξ
    have := norm_add_le (ξ - ξs) ξs
    rw [sub_add_cancel] at this
    linarith
  refine ⟨fun v hv => ?_, fun ξ hξ => ?_, fun ξ hξ => ?_⟩
  · by_contra hne
    exact hA (exists_mulVec_eq_zero_iff.1 ⟨v, hne, hv⟩)
  · refine ⟨fun v => T.elem.jacobian u ξ *ᵥ v, fun v => ?_, fun v => ?_⟩
    · rw [near_jacobian hX, ← mulVec_mulVec, add_mulVec, one_mulVec]
    · refine mulVec_rows (by norm_num) (fun a => (rows (T.elem.dL ξ) K (fun i j => (hb i j).1 ξ (hball ξ hξ)) a).trans ?_) v
      rw [← hC]
      linarith
  · refine ⟨T.elem.worldCoordinates u ξs - T.elem.worldCoordinates u ξ - T.elem.jacobian u ξ *ᵥ (ξs - ξ), ?_, ?_⟩
    · rw [near_world hX, near_world hX, near_jacobian hX, ← mulVec_mulVec, add_mulVec, one_mulVec, add_assoc, add_assoc, ← mulVec_add, ← mulVec_add]
      congr 2
      abel
    · have hs : Convex ℝ (Metric.closedBall ξs ‖ξ - ξs‖) := convex_closedBall _ _
      have hmem : ∀ z ∈ Metric.closedBall ξs ‖ξ - ξs‖, ‖z‖ ≤ 2 := fun z hz => hball z ((mem_closedBall_iff_norm.1 hz).trans hξ)
      have h2 := hs.norm_image_sub_le_of_norm_hasFDerivWithin_le' (f := T.elem.worldCoordinates u) (φ := (Matrix.toLin' (T.elem.jacobian u ξ)).toContinuousLinearMap) (C := C * θ * (2 * ‖ξ - ξs‖))
        (x := ξ) (y := ξs) (fun z hz => (world_hasFDerivAt T u z).hasFDerivWithinAt) ?_ (mem_closedBall_iff_norm.2 le_rfl) (Metric.mem_closedBall_self (norm_nonneg _))
      · simp only [LinearMap.coe_toContinuousLinearMap', toLin'_apply] at h2
        refine h2.trans ?_
        rw [norm_sub_rev ξs ξ]
        have := mul_le_mul_of_nonneg_right hCθ (mul_nonneg (norm_nonneg (ξ - ξs)) (norm_nonneg (ξ - ξs)))
        linarith
      · intro z hz
        refine ContinuousLinearMap.opNorm_le_bound _ (by positivity) fun v => ?_
        simp only [ContinuousLinearMap.sub_apply, LinearMap.coe_toContinuousLinearMap', toLin'_apply, ← sub_mulVec]
        refine mulVec_rows (by positivity) (fun a => ?_) v
        have hzξ : ‖z - ξ‖ ≤ 2 * ‖ξ - ξs‖ := by
          have h1 := norm_sub_le (z - ξs) (ξ - ξs)
          rw [sub_sub_sub_cancel_right] at h1
          have h2 := mem_closedBall_iff_norm.1 hz
          linarith
        have h3 := rows (fun i j => T.elem.dL z i j - T.elem.dL ξ i j) (K * (2 * ‖ξ - ξs‖))
          (fun i j => ((hb i j).2 z ξ (hmem z hz) (hball ξ hξ)).trans (mul_le_mul_of_nonneg_left hzξ hK)) a
        simp only [mul_sub, Finset.sum_sub_distrib] at h3
        refine le_trans (le_of_eq ?_) (h3.trans (le_of_eq ?_))
        · rfl
        · rw [hC]; ring

end Caribou

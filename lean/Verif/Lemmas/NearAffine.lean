import Verif.Spec.NearAffine
import Verif.Lemmas.Accuracy
import Verif.Lemmas.Convergence2
import Mathlib.LinearAlgebra.Matrix.Gershgorin

set_option autoImplicit false
set_option linter.all false

namespace Caribou

open Spec Matrix

/-! ### Slopes -/

theorem slope_segment1 (ξ : Fin 1 → ℝ) (j : Fin 1) : ∑ i, |(segment1 (K := ℝ)).dL ξ i j| ≤ 1 := by
  fin_cases j
  simp [segment1, Fin.sum_univ_two]
  norm_num [abs_of_pos]

theorem slope_segment2 (ξ : Fin 1 → ℝ) (h : -1 ≤ ξ 0 ∧ ξ 0 ≤ 1) (j : Fin 1) : ∑ i, |(segment2 (K := ℝ)).dL ξ i j| ≤ 4 := by
  obtain ⟨h1, h2⟩ := h
  fin_cases j
  simp only [segment2, sum_fin3, Matrix.cons_val, Fin.isValue, Fin.zero_eta]
  rcases abs_cases (ξ 0 - 1/2) with h | h <;> rcases abs_cases (ξ 0 + 1/2) with h' | h' <;> rcases abs_cases (-2 * ξ 0) with h'' | h'' <;> linarith [h.1, h'.1, h''.1]

theorem slope_triangle1 (ξ : Fin 2 → ℝ) (j : Fin 2) : ∑ i, |(triangle1 (K := ℝ)).dL ξ i j| ≤ 2 := by
  fin_cases j <;> simp [triangle1, Fin.sum_univ_three] <;> norm_num

theorem slope_tetra1 (ξ : Fin 3 → ℝ) (j : Fin 3) : ∑ i, |(tetra1 (K := ℝ)).dL ξ i j| ≤ 2 := by
  fin_cases j <;> simp [tetra1, Fin.sum_univ_four] <;> norm_num

/-- `|1 - 4 l| ≤ 1 + 2 l` for `l ∈ [0, 1]`. -/
theorem slope_corner {l : ℝ} (h0 : 0 ≤ l) (h1 : l ≤ 1) : |1 - 4 * l| ≤ 1 + 2 * l := by
  rw [abs_le]; constructor <;> linarith

theorem slope_edge {l u : ℝ} (h0 : 0 ≤ l) (h1 : 0 ≤ u) : |4 * (l - u)| ≤ 4 * l + 4 * u := by
  rw [abs_le]; constructor <;> linarith

theorem slope_triangle2 (ξ : Fin 2 → ℝ) (h : (∀ j, 0 ≤ ξ j) ∧ ∑ j, ξ j ≤ 1) (j : Fin 2) : ∑ i, |(triangle2 (K := ℝ)).dL ξ i j| ≤ 10 := by
  obtain ⟨h0, h1⟩ := h
  rw [sum_fin2] at h1
  have hu := h0 0
  have hv := h0 1
  have a0 := slope_corner (l := 1 - ξ 0 - ξ 1) (by linarith) (by linarith)
  have a1 := slope_corner hu (by linarith)
  have a2 := slope_corner hv (by linarith)
  rw [abs_sub_comm] at a1 a2
  have b1 := slope_edge (l := 1 - ξ 0 - ξ 1) (by linarith) hu
  have b2 := slope_edge (l := 1 - ξ 0 - ξ 1) (by linarith) hv
  have c1 : |4 * ξ 0| = 4 * ξ 0 := abs_of_nonneg (by linarith)
  have c2 : |4 * ξ 1| = 4 * ξ 1 := abs_of_nonneg (by linarith)
  have c3 : |-4 * ξ 0| = 4 * ξ 0 := by rw [neg_mul, abs_neg, c1]
  have c4 : |-4 * ξ 1| = 4 * ξ 1 := by rw [neg_mul, abs_neg, c2]
  fin_cases j <;> simp only [triangle2, Fin.sum_univ_six, Matrix.cons_val, Fin.isValue, Fin.zero_eta, Fin.mk_one, abs_zero, c1, c2, c3, c4] <;> linarith

theorem slope_tetra2 (ξ : Fin 3 → ℝ) (h : (∀ j, 0 ≤ ξ j) ∧ ∑ j, ξ j ≤ 1) (j : Fin 3) : ∑ i, |(tetra2 (K := ℝ)).dL ξ i j| ≤ 10 := by
  obtain ⟨h0, h1⟩ := h
  rw [sum_fin3] at h1
  have hu := h0 0
  have hv := h0 1
  have hw := h0 2
  have a0 := slope_corner (l := 1 - ξ 0 - ξ 1 - ξ 2) (by linarith) (by linarith)
  have a1 := slope_corner hu (by linarith)
  have a2 := slope_corner hv (by linarith)
  have a3 := slope_corner hw (by linarith)
  rw [abs_sub_comm] at a1 a2 a3
  have b1 := slope_edge (l := 1 - ξ 0 - ξ 1 - ξ 2) (by linarith) hu
  have b2 := slope_edge (l := 1 - ξ 0 - ξ 1 - ξ 2) (by linarith) hv
  have b3 := slope_edge (l := 1 - ξ 0 - ξ 1 - ξ 2) (by linarith) hw
  have c1 : |4 * ξ 0| = 4 * ξ 0 := abs_of_nonneg (by linarith)
  have c2 : |4 * ξ 1| = 4 * ξ 1 := abs_of_nonneg (by linarith)
  have c5 : |4 * ξ 2| = 4 * ξ 2 := abs_of_nonneg (by linarith)
  have c3 : |-4 * ξ 0| = 4 * ξ 0 := by rw [neg_mul, abs_neg, c1]
  have c4 : |-4 * ξ 1| = 4 * ξ 1 := by rw [neg_mul, abs_neg, c2]
  have c6 : |-4 * ξ 2| = 4 * ξ 2 := by rw [neg_mul, abs_neg, c5]
  fin_cases j <;> simp only [tetra2, Fin.sum_univ_succ, Finset.univ_unique, Finset.sum_singleton, Fin.default_eq_zero, Fin.succ_zero_eq_one, Fin.succ_one_eq_two, Fin.reduceSucc, Finset.sum_const_zero, Fin.sum_univ_zero, Matrix.cons_val, Fin.isValue, Fin.zero_eta, Fin.mk_one, Fin.reduceFinMk, abs_zero, c1, c2, c3, c4, c5, c6] <;> linarith

theorem slope_quad1 (ξ : Fin 2 → ℝ) (h : ∀ j, -1 ≤ ξ j ∧ ξ j ≤ 1) (j : Fin 2) : ∑ i, |(quad1 (K := ℝ)).dL ξ i j| ≤ 1 := by
  obtain ⟨u1, u2⟩ := h 0
  obtain ⟨v1, v2⟩ := h 1
  fin_cases j
  · refine abs_sum_le _ ![1/4 * (1 - ξ 1), 1/4 * (1 - ξ 1), 1/4 * (1 + ξ 1), 1/4 * (1 + ξ 1)] (fun i => ?_) ?_
    · fin_cases i <;> simp only [quad1, Matrix.cons_val, Fin.isValue, Fin.reduceFinMk, Fin.zero_eta, Fin.mk_one] <;> rw [abs_le] <;> constructor <;> linarith
    · simp only [sum_fin4, Matrix.cons_val, Fin.isValue]; linarith
  · refine abs_sum_le _ ![1/4 * (1 - ξ 0), 1/4 * (1 + ξ 0), 1/4 * (1 + ξ 0), 1/4 * (1 - ξ 0)] (fun i => ?_) ?_
    · fin_cases i <;> simp only [quad1, Matrix.cons_val, Fin.isValue, Fin.reduceFinMk, Fin.zero_eta, Fin.mk_one] <;> rw [abs_le] <;> constructor <;> linarith
    · simp only [sum_fin4, Matrix.cons_val, Fin.isValue]; linarith

/-- A product of a non negative number and of a number of absolute value at most `b`. -/
theorem slope_mul {e p r b : ℝ} (hp : 0 ≤ p) (hr : -b ≤ r ∧ r ≤ b) (he : e = p * r) : |e| ≤ p * b := by
  rw [he, abs_mul, abs_of_nonneg hp]
  exact mul_le_mul_of_nonneg_left (abs_le.2 hr) hp

theorem slope_quad2 (ξ : Fin 2 → ℝ) (h : ∀ j, -1 ≤ ξ j ∧ ξ j ≤ 1) (j : Fin 2) : ∑ i, |(quad2 (K := ℝ)).dL ξ i j| ≤ 6 := by
  obtain ⟨u1, u2⟩ := h 0
  obtain ⟨v1, v2⟩ := h 1
  generalize hu : ξ 0 = u at *
  generalize hv : ξ 1 = v at *
  have um : 0 ≤ 1 - u := by linarith
  have up : 0 ≤ 1 + u := by linarith
  have vm : 0 ≤ 1 - v := by linarith
  have vp : 0 ≤ 1 + v := by linarith
  have uu : 0 ≤ 1 - u * u := by nlinarith
  have vv : 0 ≤ 1 - v * v := by nlinarith
  fin_cases j
  · refine abs_sum_le _ ![1/4 * (1 - v) * 3, 1/4 * (1 - v) * 3, 1/4 * (1 + v) * 3, 1/4 * (1 + v) * 3, (1 - v) * 1, 1/2 * (1 - v * v) * 1, (1 + v) * 1, 1/2 * (1 - v * v) * 1] (fun i => ?_) ?_
    · fin_cases i <;> simp only [quad2, hu, hv, Matrix.cons_val, Fin.isValue, Fin.reduceFinMk, Fin.zero_eta, Fin.mk_one]
      · exact slope_mul (r := 2 * u + v) (by positivity) ⟨by linarith, by linarith⟩ (by ring)
      · exact slope_mul (r := 2 * u - v) (by positivity) ⟨by linarith, by linarith⟩ (by ring)
      · exact slope_mul (r := 2 * u + v) (by positivity) ⟨by linarith, by linarith⟩ (by ring)
      · exact slope_mul (r := 2 * u - v) (by positivity) ⟨by linarith, by linarith⟩ (by ring)
      · exact slope_mul (r := -u) (by positivity) ⟨by linarith, by linarith⟩ (by ring)
      · exact slope_mul (r := 1) (by positivity) ⟨by norm_num, by norm_num⟩ (by ring)
      · exact slope_mul (r := -u) (by positivity) ⟨by linarith, by linarith⟩ (by ring)
      · exact slope_mul (r := -1) (by positivity) ⟨by norm_num, by norm_num⟩ (by ring)
    · simp only [Fin.sum_univ_eight, Matrix.cons_val, Fin.isValue]; nlinarith [mul_self_nonneg v]
  · refine abs_sum_le _ ![1/4 * (1 - u) * 3, 1/4 * (1 + u) * 3, 1/4 * (1 + u) * 3, 1/4 * (1 - u) * 3, 1/2 * (1 - u * u) * 1, (1 + u) * 1, 1/2 * (1 - u * u) * 1, (1 - u) * 1] (fun i => ?_) ?_
    · fin_cases i <;> simp only [quad2, hu, hv, Matrix.cons_val, Fin.isValue, Fin.reduceFinMk, Fin.zero_eta, Fin.mk_one]
      · exact slope_mul (r := 2 * v + u) (by positivity) ⟨by linarith, by linarith⟩ (by ring)
      · exact slope_mul (r := 2 * v - u) (by positivity) ⟨by linarith, by linarith⟩ (by ring)
      · exact slope_mul (r := 2 * v + u) (by positivity) ⟨by linarith, by linarith⟩ (by ring)
      · exact slope_mul (r := 2 * v - u) (by positivity) ⟨by linarith, by linarith⟩ (by ring)
      · exact slope_mul (r := -1) (by positivity) ⟨by norm_num, by norm_num⟩ (by ring)
      · exact slope_mul (r := -v) (by positivity) ⟨by linarith, by linarith⟩ (by ring)
      · exact slope_mul (r := 1) (by positivity) ⟨by norm_num, by norm_num⟩ (by ring)
      · exact slope_mul (r := -v) (by positivity) ⟨by linarith, by linarith⟩ (by ring)
    · simp only [Fin.sum_univ_eight, Matrix.cons_val, Fin.isValue]; nlinarith [mul_self_nonneg u]

theorem slope_hexa1 (ξ : Fin 3 → ℝ) (h : ∀ j, -1 ≤ ξ j ∧ ξ j ≤ 1) (j : Fin 3) : ∑ i, |(hexa1 (K := ℝ)).dL ξ i j| ≤ 1 := by
  obtain ⟨u1, u2⟩ := h 0
  obtain ⟨v1, v2⟩ := h 1
  obtain ⟨w1, w2⟩ := h 2
  generalize hu : ξ 0 = u at *
  generalize hv : ξ 1 = v at *
  generalize hw : ξ 2 = w at *
  have um : 0 ≤ 1 - u := by linarith
  have up : 0 ≤ 1 + u := by linarith
  have vm : 0 ≤ 1 - v := by linarith
  have vp : 0 ≤ 1 + v := by linarith
  have wm : 0 ≤ 1 - w := by linarith
  have wp : 0 ≤ 1 + w := by linarith
  have key : ∀ {e p q : ℝ}, 0 ≤ p → 0 ≤ q → (e = 1/8 * p * q ∨ e = -1/8 * p * q) → |e| ≤ 1/8 * p * q := by
    intro e p q hp hq he
    have : 0 ≤ p * q := mul_nonneg hp hq
    rcases he with rfl | rfl <;> rw [abs_le] <;> constructor <;> nlinarith
  fin_cases j
  · refine abs_sum_le _ ![1/8 * (1 - v) * (1 - w), 1/8 * (1 - v) * (1 - w), 1/8 * (1 + v) * (1 - w), 1/8 * (1 + v) * (1 - w), 1/8 * (1 - v) * (1 + w), 1/8 * (1 - v) * (1 + w), 1/8 * (1 + v) * (1 + w), 1/8 * (1 + v) * (1 + w)] (fun i => ?_) ?_
    · fin_cases i <;> simp only [hexa1, hu, hv, hw, Matrix.cons_val, Fin.isValue, Fin.reduceFinMk, Fin.zero_eta, Fin.mk_one] <;>
        first | exact key (by assumption) (by assumption) (.inl rfl) | exact key (by assumption) (by assumption) (.inr rfl)
    · simp only [Fin.sum_univ_eight, Matrix.cons_val, Fin.isValue]; linarith
  · refine abs_sum_le _ ![1/8 * (1 - u) * (1 - w), 1/8 * (1 + u) * (1 - w), 1/8 * (1 + u) * (1 - w), 1/8 * (1 - u) * (1 - w), 1/8 * (1 - u) * (1 + w), 1/8 * (1 + u) * (1 + w), 1/8 * (1 + u) * (1 + w), 1/8 * (1 - u) * (1 + w)] (fun i => ?_) ?_
    · fin_cases i <;> simp only [hexa1, hu, hv, hw, Matrix.cons_val, Fin.isValue, Fin.reduceFinMk, Fin.zero_eta, Fin.mk_one] <;>
        first | exact key (by assumption) (by assumption) (.inl rfl) | exact key (by assumption) (by assumption) (.inr rfl)
    · simp only [Fin.sum_univ_eight, Matrix.cons_val, Fin.isValue]; linarith
  · refine abs_sum_le _ ![1/8 * (1 - u) * (1 - v), 1/8 * (1 + u) * (1 - v), 1/8 * (1 + u) * (1 + v), 1/8 * (1 - u) * (1 + v), 1/8 * (1 - u) * (1 - v), 1/8 * (1 + u) * (1 - v), 1/8 * (1 + u) * (1 + v), 1/8 * (1 - u) * (1 + v)] (fun i => ?_) ?_
    · fin_cases i <;> simp only [hexa1, hu, hv, hw, Matrix.cons_val, Fin.isValue, Fin.reduceFinMk, Fin.zero_eta, Fin.mk_one] <;>
        first | exact key (by assumption) (by assumption) (.inl rfl) | exact key (by assumption) (by assumption) (.inr rfl)
    · simp only [Fin.sum_univ_eight, Matrix.cons_val, Fin.isValue]; linarith

set_option maxHeartbeats 1600000 in
theorem slope_hexa2 (ξ : Fin 3 → ℝ) (h : ∀ j, -1 ≤ ξ j ∧ ξ j ≤ 1) (j : Fin 3) : ∑ i, |(hexa2 (K := ℝ)).dL ξ i j| ≤ 9 := by
  obtain ⟨u1, u2⟩ := h 0
  obtain ⟨v1, v2⟩ := h 1
  obtain ⟨w1, w2⟩ := h 2
  generalize hu : ξ 0 = u at *
  generalize hv : ξ 1 = v at *
  generalize hw : ξ 2 = w at *
  have um : 0 ≤ 1 - u := by linarith
  have up : 0 ≤ 1 + u := by linarith
  have vm : 0 ≤ 1 - v := by linarith
  have vp : 0 ≤ 1 + v := by linarith
  have wm : 0 ≤ 1 - w := by linarith
  have wp : 0 ≤ 1 + w := by linarith
  have uu : 0 ≤ 1 - u * u := by nlinarith
  have vv : 0 ≤ 1 - v * v := by nlinarith
  have ww : 0 ≤ 1 - w * w := by nlinarith
  fin_cases j
  · refine abs_sum_le _ ![1/8 * (1 - v) * (1 - w) * 5, 1/8 * (1 - v) * (1 - w) * 5, 1/8 * (1 + v) * (1 - w) * 5, 1/8 * (1 + v) * (1 - w) * 5, 1/8 * (1 - v) * (1 + w) * 5, 1/8 * (1 - v) * (1 + w) * 5, 1/8 * (1 + v) * (1 + w) * 5, 1/8 * (1 + v) * (1 + w) * 5, 1/2 * (1 - v) * (1 - w) * 1, 1/4 * (1 - v * v) * (1 - w) * 1, 1/2 * (1 + v) * (1 - w) * 1, 1/4 * (1 - v * v) * (1 - w) * 1, 1/2 * (1 - v) * (1 + w) * 1, 1/4 * (1 - v * v) * (1 + w) * 1, 1/2 * (1 + v) * (1 + w) * 1, 1/4 * (1 - v * v) * (1 + w) * 1, 1/4 * (1 - w * w) * (1 - v) * 1, 1/4 * (1 - w * w) * (1 - v) * 1, 1/4 * (1 - w * w) * (1 + v) * 1, 1/4 * (1 - w * w) * (1 + v) * 1] (fun i => ?_) ?_
    · fin_cases i <;> simp only [hexa2, hexa2dMid, hu, hv, hw, Matrix.cons_val, Fin.isValue, Fin.reduceFinMk, Fin.zero_eta, Fin.mk_one]
      · exact slope_mul (r := -(-2 * u + -v + -w - 1)) (by positivity) ⟨by linarith, by linarith⟩ (by ring)
      · exact slope_mul (r := (2 * u + -v + -w - 1)) (by positivity) ⟨by linarith, by linarith⟩ (by ring)
      · exact slope_mul (r := (2 * u + v + -w - 1)) (by positivity) ⟨by linarith, by linarith⟩ (by ring)
      · exact slope_mul (r := -(-2 * u + v + -w - 1)) (by positivity) ⟨by linarith, by linarith⟩ (by ring)
      · exact slope_mul (r := -(-2 * u + -v + w - 1)) (by positivity) ⟨by linarith, by linarith⟩ (by ring)
      · exact slope_mul (r := (2 * u + -v + w - 1)) (by positivity) ⟨by linarith, by linarith⟩ (by ring)
      · exact slope_mul (r := (2 * u + v + w - 1)) (by positivity) ⟨by linarith, by linarith⟩ (by ring)
      · exact slope_mul (r := -(-2 * u + v + w - 1)) (by positivity) ⟨by linarith, by linarith⟩ (by ring)
      · exact slope_mul (r := -u) (by positivity) ⟨by linarith, by linarith⟩ (by ring)
      · exact slope_mul (r := 1) (by positivity) ⟨by norm_num, by norm_num⟩ (by ring)
      · exact slope_mul (r := -u) (by positivity) ⟨by linarith, by linarith⟩ (by ring)
      · exact slope_mul (r := -1) (by positivity) ⟨by norm_num, by norm_num⟩ (by ring)
      · exact slope_mul (r := -u) (by positivity) ⟨by linarith, by linarith⟩ (by ring)
      · exact slope_mul (r := 1) (by positivity) ⟨by norm_num, by norm_num⟩ (by ring)
      · exact slope_mul (r := -u) (by positivity) ⟨by linarith, by linarith⟩ (by ring)
      · exact slope_mul (r := -1) (by positivity) ⟨by norm_num, by norm_num⟩ (by ring)
      · exact slope_mul (r := -1) (by positivity) ⟨by norm_num, by norm_num⟩ (by ring)
      · exact slope_mul (r := 1) (by positivity) ⟨by norm_num, by norm_num⟩ (by ring)
      · exact slope_mul (r := 1) (by positivity) ⟨by norm_num, by norm_num⟩ (by ring)
      · exact slope_mul (r := -1) (by positivity) ⟨by norm_num, by norm_num⟩ (by ring)
    · simp only [sum_fin20, Matrix.cons_val, Fin.isValue]; nlinarith [mul_self_nonneg u, mul_self_nonneg v, mul_self_nonneg w]
  · refine abs_sum_le _ ![1/8 * (1 - u) * (1 - w) * 5, 1/8 * (1 + u) * (1 - w) * 5, 1/8 * (1 + u) * (1 - w) * 5, 1/8 * (1 - u) * (1 - w) * 5, 1/8 * (1 - u) * (1 + w) * 5, 1/8 * (1 + u) * (1 + w) * 5, 1/8 * (1 + u) * (1 + w) * 5, 1/8 * (1 - u) * (1 + w) * 5, 1/4 * (1 - u * u) * (1 - w) * 1, 1/2 * (1 + u) * (1 - w) * 1, 1/4 * (1 - u * u) * (1 - w) * 1, 1/2 * (1 - u) * (1 - w) * 1, 1/4 * (1 - u * u) * (1 + w) * 1, 1/2 * (1 + u) * (1 + w) * 1, 1/4 * (1 - u * u) * (1 + w) * 1, 1/2 * (1 - u) * (1 + w) * 1, 1/4 * (1 - w * w) * (1 - u) * 1, 1/4 * (1 - w * w) * (1 + u) * 1, 1/4 * (1 - w * w) * (1 + u) * 1, 1/4 * (1 - w * w) * (1 - u) * 1] (fun i => ?_) ?_
    · fin_cases i <;> simp only [hexa2, hexa2dMid, hu, hv, hw, Matrix.cons_val, Fin.isValue, Fin.reduceFinMk, Fin.zero_eta, Fin.mk_one]
      · exact slope_mul (r := -(-2 * v + -u + -w - 1)) (by positivity) ⟨by linarith, by linarith⟩ (by ring)
      · exact slope_mul (r := -(-2 * v + u + -w - 1)) (by positivity) ⟨by linarith, by linarith⟩ (by ring)
      · exact slope_mul (r := (2 * v + u + -w - 1)) (by positivity) ⟨by linarith, by linarith⟩ (by ring)
      · exact slope_mul (r := (2 * v + -u + -w - 1)) (by positivity) ⟨by linarith, by linarith⟩ (by ring)
      · exact slope_mul (r := -(-2 * v + -u + w - 1)) (by positivity) ⟨by linarith, by linarith⟩ (by ring)
      · exact slope_mul (r := -(-2 * v + u + w - 1)) (by positivity) ⟨by linarith, by linarith⟩ (by ring)
      · exact slope_mul (r := (2 * v + u + w - 1)) (by positivity) ⟨by linarith, by linarith⟩ (by ring)
      · exact slope_mul (r := (2 * v + -u + w - 1)) (by positivity) ⟨by linarith, by linarith⟩ (by ring)
      · exact slope_mul (r := -1) (by positivity) ⟨by norm_num, by norm_num⟩ (by ring)
      · exact slope_mul (r := -v) (by positivity) ⟨by linarith, by linarith⟩ (by ring)
      · exact slope_mul (r := 1) (by positivity) ⟨by norm_num, by norm_num⟩ (by ring)
      · exact slope_mul (r := -v) (by positivity) ⟨by linarith, by linarith⟩ (by ring)
      · exact slope_mul (r := -1) (by positivity) ⟨by norm_num, by norm_num⟩ (by ring)
      · exact slope_mul (r := -v) (by positivity) ⟨by linarith, by linarith⟩ (by ring)
      · exact slope_mul (r := 1) (by positivity) ⟨by norm_num, by norm_num⟩ (by ring)
      · exact slope_mul (r := -v) (by positivity) ⟨by linarith, by linarith⟩ (by ring)
      · exact slope_mul (r := -1) (by positivity) ⟨by norm_num, by norm_num⟩ (by ring)
      · exact slope_mul (r := -1) (by positivity) ⟨by norm_num, by norm_num⟩ (by ring)
      · exact slope_mul (r := 1) (by positivity) ⟨by norm_num, by norm_num⟩ (by ring)
      · exact slope_mul (r := 1) (by positivity) ⟨by norm_num, by norm_num⟩ (by ring)
    · simp only [sum_fin20, Matrix.cons_val, Fin.isValue]; nlinarith [mul_self_nonneg u, mul_self_nonneg v, mul_self_nonneg w]
  · refine abs_sum_le _ ![1/8 * (1 - u) * (1 - v) * 5, 1/8 * (1 + u) * (1 - v) * 5, 1/8 * (1 + u) * (1 + v) * 5, 1/8 * (1 - u) * (1 + v) * 5, 1/8 * (1 - u) * (1 - v) * 5, 1/8 * (1 + u) * (1 - v) * 5, 1/8 * (1 + u) * (1 + v) * 5, 1/8 * (1 - u) * (1 + v) * 5, 1/4 * (1 - u * u) * (1 - v) * 1, 1/4 * (1 - v * v) * (1 + u) * 1, 1/4 * (1 - u * u) * (1 + v) * 1, 1/4 * (1 - v * v) * (1 - u) * 1, 1/4 * (1 - u * u) * (1 - v) * 1, 1/4 * (1 - v * v) * (1 + u) * 1, 1/4 * (1 - u * u) * (1 + v) * 1, 1/4 * (1 - v * v) * (1 - u) * 1, 1/2 * (1 - u) * (1 - v) * 1, 1/2 * (1 + u) * (1 - v) * 1, 1/2 * (1 + u) * (1 + v) * 1, 1/2 * (1 - u) * (1 + v) * 1] (fun i => ?_) ?_
    · fin_cases i <;> simp only [hexa2, hexa2dMid, hu, hv, hw, Matrix.cons_val, Fin.isValue, Fin.reduceFinMk, Fin.zero_eta, Fin.mk_one]
      · exact slope_mul (r := -(-2 * w + -u + -v - 1)) (by positivity) ⟨by linarith, by linarith⟩ (by ring)
      · exact slope_mul (r := -(-2 * w + u + -v - 1)) (by positivity) ⟨by linarith, by linarith⟩ (by ring)
      · exact slope_mul (r := -(-2 * w + u + v - 1)) (by positivity) ⟨by linarith, by linarith⟩ (by ring)
      · exact slope_mul (r := -(-2 * w + -u + v - 1)) (by positivity) ⟨by linarith, by linarith⟩ (by ring)
      · exact slope_mul (r := (2 * w + -u + -v - 1)) (by positivity) ⟨by linarith, by linarith⟩ (by ring)
      · exact slope_mul (r := (2 * w + u + -v - 1)) (by positivity) ⟨by linarith, by linarith⟩ (by ring)
      · exact slope_mul (r := (2 * w + u + v - 1)) (by positivity) ⟨by linarith, by linarith⟩ (by ring)
      · exact slope_mul (r := (2 * w + -u + v - 1)) (by positivity) ⟨by linarith, by linarith⟩ (by ring)
      · exact slope_mul (r := -1) (by positivity) ⟨by norm_num, by norm_num⟩ (by ring)
      · exact slope_mul (r := -1) (by positivity) ⟨by norm_num, by norm_num⟩ (by ring)
      · exact slope_mul (r := -1) (by positivity) ⟨by norm_num, by norm_num⟩ (by ring)
      · exact slope_mul (r := -1) (by positivity) ⟨by norm_num, by norm_num⟩ (by ring)
      · exact slope_mul (r := 1) (by positivity) ⟨by norm_num, by norm_num⟩ (by ring)
      · exact slope_mul (r := 1) (by positivity) ⟨by norm_num, by norm_num⟩ (by ring)
      · exact slope_mul (r := 1) (by positivity) ⟨by norm_num, by norm_num⟩ (by ring)
      · exact slope_mul (r := 1) (by positivity) ⟨by norm_num, by norm_num⟩ (by ring)
      · exact slope_mul (r := -w) (by positivity) ⟨by linarith, by linarith⟩ (by ring)
      · exact slope_mul (r := -w) (by positivity) ⟨by linarith, by linarith⟩ (by ring)
      · exact slope_mul (r := -w) (by positivity) ⟨by linarith, by linarith⟩ (by ring)
      · exact slope_mul (r := -w) (by positivity) ⟨by linarith, by linarith⟩ (by ring)
    · simp only [sum_fin20, Matrix.cons_val, Fin.isValue]; nlinarith [mul_self_nonneg u, mul_self_nonneg v, mul_self_nonneg w]

theorem slope_abs (T : ElementType) (ξ : Fin T.dim → ℝ) (h : T.shape.Mem ξ) (j : Fin T.dim) : ∑ i, |(T.elem (K := ℝ)).dL ξ i j| ≤ slopeBound T := by
  cases T
  · exact slope_segment1 ξ j
  · exact slope_segment2 ξ (h (0 : Fin 1)) j
  · exact slope_triangle1 ξ j
  · exact slope_triangle2 ξ h j
  · exact slope_quad1 ξ h j
  · exact slope_quad2 ξ h j
  · exact slope_tetra1 ξ j
  · exact slope_tetra2 ξ h j
  · exact slope_hexa1 ξ h j
  · exact slope_hexa2 ξ h j
  · exact slope_quad1 ξ h j
  · exact slope_quad2 ξ h j
  · exact slope_hexa1 ξ h j
  · exact slope_hexa2 ξ h j

/-! ### Matrices close to the identity -/

section Mat

variable {d : ℕ}

/-- The determinant is at most the product of the sums of the absolute values of the rows. -/
theorem det_rows (M : Matrix (Fin d) (Fin d) ℝ) : |M.det| ≤ ∏ i, ∑ j, |M i j| := by
  rw [det_apply']
  refine (Finset.abs_sum_le_sum_abs _ _).trans ?_
  rw [Finset.prod_univ_sum]
  have h1 : ∀ σ : Equiv.Perm (Fin d), |((Equiv.Perm.sign σ : ℤ) : ℝ) * ∏ i, M (σ i) i| = ∏ i, |M i (σ⁻¹ i)| := by
    intro σ
    rw [abs_mul, Finset.abs_prod]
    have : |((Equiv.Perm.sign σ : ℤ) : ℝ)| = 1 := by
      rcases Int.units_eq_one_or (Equiv.Perm.sign σ) with h | h <;> rw [h] <;> simp
    rw [this, one_mul]
    refine Fintype.prod_equiv σ _ _ fun i => ?_
    simp
  simp only [h1]
  rw [← Finset.sum_image (s := Finset.univ) (f := fun f : Fin d → Fin d => ∏ i, |M i (f i)|) (g := fun σ : Equiv.Perm (Fin d) => (⇑σ⁻¹ : Fin d → Fin d))]
  · refine Finset.sum_le_sum_of_subset_of_nonneg (fun f _ => ?_) fun f _ _ => Finset.prod_nonneg fun i _ => abs_nonneg _
    simp
  · intro σ _ τ _ e
    exact inv_injective (DFunLike.coe_injective e)

theorem det_rows_pow {M : Matrix (Fin d) (Fin d) ℝ} {r : ℝ} (h : ∀ i, ∑ j, |M i j| ≤ r) : |M.det| ≤ r ^ d := by
  refine (det_rows M).trans ?_
  calc ∏ i, ∑ j, |M i j| ≤ ∏ _i : Fin d, r := Finset.prod_le_prod (fun i _ => Finset.sum_nonneg fun j _ => abs_nonneg _) fun i _ => h i
    _ = r ^ d := by simp

theorem rows_one_add {B : Matrix (Fin d) (Fin d) ℝ} {β : ℝ} (h : ∀ i, ∑ j, |B i j| ≤ β) (i : Fin d) : ∑ j, |(1 + B) i j| ≤ 1 + β := by
  calc ∑ j, |(1 + B) i j| ≤ ∑ j, (|(1 : Matrix (Fin d) (Fin d) ℝ) i j| + |B i j|) := Finset.sum_le_sum fun j _ => abs_add_le _ _
    _ = 1 + ∑ j, |B i j| := by
      rw [Finset.sum_add_distrib]
      congr 1
      simp [Matrix.one_apply, apply_ite]
    _ ≤ _ := by linarith [h i]

theorem det_one_add_ne {B : Matrix (Fin d) (Fin d) ℝ} {β : ℝ} (hβ : β < 1) (h : ∀ i, ∑ j, |B i j| ≤ β) : (1 + B).det ≠ 0 := by
  refine det_ne_zero_of_sum_row_lt_diag fun k => ?_
  have e : ∑ j ∈ Finset.univ.erase k, ‖(1 + B) k j‖ = ∑ j ∈ Finset.univ.erase k, |B k j| := by
    refine Finset.sum_congr rfl fun j hj => ?_
    rw [Matrix.add_apply, one_apply_ne (Finset.ne_of_mem_erase hj).symm, zero_add, Real.norm_eq_abs]
  rw [e]
  have hk := Finset.add_sum_erase Finset.univ (fun j => |B k j|) (Finset.mem_univ k)
  have h1 := h k
  have h2 : 1 - |B k k| ≤ ‖(1 + B) k k‖ := by
    rw [Matrix.add_apply, one_apply_eq, Real.norm_eq_abs]
    have := abs_sub_abs_le_abs_sub (1 : ℝ) (-B k k)
    rw [abs_one, abs_neg, sub_neg_eq_add] at this
    exact this
  linarith

theorem det_one_add_pos {B : Matrix (Fin d) (Fin d) ℝ} {β : ℝ} (hβ : β < 1) (h : ∀ i, ∑ j, |B i j| ≤ β) : 0 < (1 + B).det := by
  by_contra hneg
  have hc : ContinuousOn (fun t : ℝ => (1 + t • B).det) (Set.Icc 0 1) := by
    refine Continuous.continuousOn ?_
    exact (continuous_const.add (continuous_id.smul continuous_const)).matrix_det
  have h0 : (fun t : ℝ => (1 + t • B).det) 1 ≤ 0 := by simpa using not_lt.1 hneg
  have h1 : 0 ≤ (fun t : ℝ => (1 + t • B).det) 0 := by simp
  obtain ⟨t, ht, e⟩ := intermediate_value_Icc' (zero_le_one' ℝ) hc ⟨h0, h1⟩
  refine det_one_add_ne (B := t • B) hβ (fun i => ?_) e
  calc ∑ j, |(t • B) i j| = t * ∑ j, |B i j| := by
        rw [Finset.mul_sum]
        refine Finset.sum_congr rfl fun j _ => ?_
        rw [Matrix.smul_apply, smul_eq_mul, abs_mul, abs_of_nonneg ht.1]
    _ ≤ 1 * ∑ j, |B i j| := mul_le_mul_of_nonneg_right ht.2 (Finset.sum_nonneg fun j _ => abs_nonneg _)
    _ ≤ β := by rw [one_mul]; exact h i

theorem det_one_add_le {B : Matrix (Fin d) (Fin d) ℝ} {β : ℝ} (hβ : β < 1) (h : ∀ i, ∑ j, |B i j| ≤ β) : (1 + B).det ≤ (1 + β) ^ d :=
  (le_abs_self _).trans (det_rows_pow (rows_one_add h))

theorem le_det_one_add {B : Matrix (Fin d) (Fin d) ℝ} {β : ℝ} (hβ : β < 1) (h : ∀ i, ∑ j, |B i j| ≤ β) : (1 - β) ^ d ≤ (1 + B).det := by
  have hpos := det_one_add_pos hβ h
  rcases Nat.eq_zero_or_pos d with hd | hd
  · subst hd; simp
  obtain ⟨N, hN⟩ : ∃ N : Matrix (Fin d) (Fin d) ℝ, N = (1 + B)⁻¹ := ⟨_, rfl⟩
  have hMN : (1 + B) * N = 1 := by rw [hN, mul_nonsing_inv _ (isUnit_iff_ne_zero.2 hpos.ne')]
  haveI : Nonempty (Fin d) := ⟨⟨0, hd⟩⟩
  obtain ⟨k, hk⟩ := Finite.exists_max fun i => ∑ j, |N i j|
  have hr : ∑ j, |N k j| ≤ 1 + β * ∑ j, |N k j| := by
    have e : N = 1 + -(B * N) := by
      rw [add_mul, one_mul] at hMN
      rw [← sub_eq_add_neg]
      exact eq_sub_of_add_eq hMN
    have h1 : ∑ j, |(-(B * N)) k j| ≤ β * ∑ j, |N k j| := by
      calc ∑ j, |(-(B * N)) k j| ≤ ∑ j, ∑ l, |B k l| * |N l j| := by
            refine Finset.sum_le_sum fun j _ => ?_
            rw [Matrix.neg_apply, abs_neg, mul_apply]
            refine (Finset.abs_sum_le_sum_abs _ _).trans (Finset.sum_le_sum fun l _ => ?_)
            rw [abs_mul]
        _ = ∑ l, |B k l| * ∑ j, |N l j| := by rw [Finset.sum_comm]; simp only [Finset.mul_sum]
        _ ≤ ∑ l, |B k l| * ∑ j, |N k j| := Finset.sum_le_sum fun l _ => mul_le_mul_of_nonneg_left (hk l) (abs_nonneg _)
        _ = (∑ l, |B k l|) * ∑ j, |N k j| := by rw [Finset.sum_mul]
        _ ≤ _ := mul_le_mul_of_nonneg_right (h k) (Finset.sum_nonneg fun j _ => abs_nonneg _)
    have h2 : ∑ j, |(1 + -(B * N)) k j| ≤ 1 + ∑ j, |(-(B * N)) k j| := by
      calc ∑ j, |(1 + -(B * N)) k j| ≤ ∑ j, (|(1 : Matrix (Fin d) (Fin d) ℝ) k j| + |(-(B * N)) k j|) := Finset.sum_le_sum fun j _ => abs_add_le _ _
        _ = _ := by
          rw [Finset.sum_add_distrib]
          congr 1
          simp [Matrix.one_apply, apply_ite]
    rw [← e] at h2
    linarith
  have hr' : ∀ i, ∑ j, |N i j| ≤ (1 - β)⁻¹ := by
    intro i
    refine (hk i).trans ?_
    rw [← one_div, le_div_iff₀ (by linarith)]
    linarith
  have hdet := det_rows_pow hr'
  have hdd : (1 + B).det * N.det = 1 := by rw [← det_mul, hMN, det_one]
  have hNpos : 0 < N.det := by
    by_contra hn
    have := mul_nonpos_of_nonneg_of_nonpos hpos.le (not_lt.1 hn)
    linarith
  rw [abs_of_pos hNpos, inv_pow] at hdet
  have hp : 0 < (1 - β) ^ d := pow_pos (by linarith) d
  have h3 : N.det * (1 - β) ^ d ≤ 1 := by
    calc N.det * (1 - β) ^ d ≤ ((1 - β) ^ d)⁻¹ * (1 - β) ^ d := mul_le_mul_of_nonneg_right hdet hp.le
      _ = 1 := inv_mul_cancel₀ hp.ne'
  calc (1 - β) ^ d = (1 + B).det * (N.det * (1 - β) ^ d) := by rw [← mul_assoc, hdd, one_mul]
    _ ≤ (1 + B).det * 1 := mul_le_mul_of_nonneg_left h3 hpos.le
    _ = _ := mul_one _

theorem mulVec_rows {B : Matrix (Fin d) (Fin d) ℝ} {β : ℝ} (h0 : 0 ≤ β) (h : ∀ i, ∑ j, |B i j| ≤ β) (v : Fin d → ℝ) : ‖B *ᵥ v‖ ≤ β * ‖v‖ := by
  rw [pi_norm_le_iff_of_nonneg (mul_nonneg h0 (norm_nonneg _))]
  intro i
  rw [Real.norm_eq_abs, mulVec, dotProduct]
  refine (Finset.abs_sum_le_sum_abs _ _).trans ?_
  calc ∑ j, |B i j * v j| ≤ ∑ j, |B i j| * ‖v‖ := Finset.sum_le_sum fun j _ => by
        rw [abs_mul]; exact mul_le_mul_of_nonneg_left (norm_le_pi_norm v j) (abs_nonneg _)
    _ = (∑ j, |B i j|) * ‖v‖ := by rw [Finset.sum_mul]
    _ ≤ _ := mul_le_mul_of_nonneg_right (h i) (norm_nonneg _)

end Mat

/-! ### Elements near an affine image -/

section Near

variable {T : ElementType} {X : Fin T.numNodes → Fin T.dim → ℝ} {c : Fin T.dim → ℝ} {A : Matrix (Fin T.dim) (Fin T.dim) ℝ} {u : Fin T.numNodes → Fin T.dim → ℝ}

theorem near_world (hX : ∀ i, X i = c + A *ᵥ (T.elem.node i + u i)) (ξ : Fin T.dim → ℝ) :
    T.elem.worldCoordinates X ξ = c + A *ᵥ (ξ + T.elem.worldCoordinates u ξ) := by
  have h := affImage_world T c A (fun i => c + A *ᵥ T.elem.node i) (fun _ => rfl) ξ
  have e : T.elem.worldCoordinates X ξ = T.elem.worldCoordinates (fun i => c + A *ᵥ T.elem.node i) ξ + A *ᵥ T.elem.worldCoordinates u ξ := by
    funext a
    simp only [Elem.worldCoordinates, Elem.interpolate, hX, mulVec_add, Pi.add_apply, mulVec, dotProduct, Finset.mul_sum]
    rw [Finset.sum_comm, ← Finset.sum_add_distrib]
    refine Finset.sum_congr rfl fun i _ => ?_
    simp only [← mul_assoc, ← Finset.sum_mul]
    ring
  rw [e, h, mulVec_add, add_assoc]

theorem near_jacobian (hX : ∀ i, X i = c + A *ᵥ (T.elem.node i + u i)) (ξ : Fin T.dim → ℝ) : T.elem.jacobian X ξ = A * (1 + T.elem.jacobian u ξ) := by
  have h := affImage_jacobian T c A (fun i => c + A *ᵥ T.elem.node i) (fun _ => rfl) ξ
  have e : T.elem.jacobian X ξ = T.elem.jacobian (fun i => c + A *ᵥ T.elem.node i) ξ + A * T.elem.jacobian u ξ := by
    ext a j
    simp only [Elem.jacobian, hX, mulVec_add, Pi.add_apply, mulVec, dotProduct, mul_apply, Matrix.add_apply, Finset.mul_sum]
    rw [Finset.sum_comm, ← Finset.sum_add_distrib]
    refine Finset.sum_congr rfl fun i _ => ?_
    simp only [← mul_assoc, ← Finset.sum_mul]
    ring
  rw [e, h, mul_add, mul_one]

theorem slopeBound_nonneg (T : ElementType) : 0 ≤ slopeBound T := by cases T <;> norm_num [slopeBound]

theorem near_rows {θ : ℝ} (hu : ∀ i j, |u i j| ≤ θ) {ξ : Fin T.dim → ℝ} (hξ : ξ ∈ canonicalSet T.shape T.dim) (a : Fin T.dim) :
    ∑ j, |T.elem.jacobian u ξ a j| ≤ T.dim * slopeBound T * θ := by
  have h : ∀ j, |T.elem.jacobian u ξ a j| ≤ slopeBound T * θ := by
    intro j
    have hd := slope_abs T ξ hξ j
    have hn : 0 < T.numNodes := by cases T <;> decide
    have hθ : 0 ≤ θ := (abs_nonneg _).trans (hu ⟨0, hn⟩ a)
    calc |T.elem.jacobian u ξ a j| ≤ ∑ i, |u i a * T.elem.dL ξ i j| := Finset.abs_sum_le_sum_abs _ _
      _ ≤ ∑ i, θ * |T.elem.dL ξ i j| := Finset.sum_le_sum fun i _ => by rw [abs_mul]; exact mul_le_mul_of_nonneg_right (hu i a) (abs_nonneg _)
      _ = θ * ∑ i, |T.elem.dL ξ i j| := by rw [Finset.mul_sum]
      _ ≤ θ * slopeBound T := mul_le_mul_of_nonneg_left hd hθ
      _ = _ := mul_comm _ _
  calc ∑ j, |T.elem.jacobian u ξ a j| ≤ ∑ _j : Fin T.dim, slopeBound T * θ := Finset.sum_le_sum fun j _ => h j
    _ = _ := by simp [mul_assoc]

theorem canonicalSet_convex (s : Shape) (d : ℕ) : Convex ℝ (canonicalSet s d) := by
  intro x hx y hy a b ha hb hab
  cases s
  · intro j
    obtain ⟨x1, x2⟩ := hx j
    obtain ⟨y1, y2⟩ := hy j
    simp only [Pi.add_apply, Pi.smul_apply, smul_eq_mul]
    constructor <;> nlinarith
  · refine ⟨fun j => ?_, ?_⟩
    · exact add_nonneg (mul_nonneg ha (hx.1 j)) (mul_nonneg hb (hy.1 j))
    · simp only [Pi.add_apply, Pi.smul_apply, smul_eq_mul, Finset.sum_add_distrib, ← Finset.mul_sum]
      have h1 := hx.2
      have h2 := hy.2
      nlinarith

theorem near_lipschitz {θ : ℝ} (hθ : 0 ≤ θ) (hu : ∀ i j, |u i j| ≤ θ) {ξ η : Fin T.dim → ℝ} (hξ : ξ ∈ canonicalSet T.shape T.dim) (hη : η ∈ canonicalSet T.shape T.dim) :
    ‖T.elem.worldCoordinates u ξ - T.elem.worldCoordinates u η‖ ≤ T.dim * slopeBound T * θ * ‖ξ - η‖ := by
  have h0 : 0 ≤ T.dim * slopeBound T * θ := mul_nonneg (mul_nonneg (Nat.cast_nonneg _) (slopeBound_nonneg T)) hθ
  refine (canonicalSet_convex T.shape T.dim).norm_image_sub_le_of_norm_hasFDerivWithin_le (fun x hx => (world_hasFDerivAt T u x).hasFDerivWithinAt) (fun x hx => ?_) hη hξ
  refine ContinuousLinearMap.opNorm_le_bound _ h0 fun v => ?_
  simp only [LinearMap.coe_toContinuousLinearMap', toLin'_apply]
  exact mulVec_rows h0 (near_rows hu hx) v

end Near

end Caribou

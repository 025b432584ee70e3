import Verif.Spec.Accuracy
import Verif.Props.Canonical
import Verif.Lemmas.Elements
import Mathlib.Analysis.Calculus.MeanValue
import Mathlib.Analysis.Calculus.Deriv.Comp
import Mathlib.Analysis.Calculus.Deriv.Add
import Mathlib.Analysis.Calculus.Deriv.Pow

/-!
# Lemmas for C121
-/

set_option autoImplicit false
set_option linter.all false

namespace Caribou

open Spec

theorem abs_sum_le {n : ℕ} (L b : Fin n → ℝ) (h : ∀ i, |L i| ≤ b i) {c : ℝ} (hc : ∑ i, b i ≤ c) : ∑ i, |L i| ≤ c :=
  (Finset.sum_le_sum fun i _ => h i).trans hc

theorem shape_abs_segment1 (ξ : Fin 1 → ℝ) (h : -1 ≤ ξ 0 ∧ ξ 0 ≤ 1) : ∑ i, |(segment1 (K := ℝ)).L ξ i| ≤ 1 := by
  refine abs_sum_le _ ![1/2 * (1 - ξ 0), 1/2 * (1 + ξ 0)] (fun i => ?_) ?_
  · fin_cases i <;> simp only [segment1, Fin.zero_eta, Fin.mk_one, Fin.reduceFinMk, Fin.isValue, Matrix.cons_val] <;> rw [abs_le] <;> constructor <;> nlinarith
  · simp only [sum_fin2, Matrix.cons_val, Fin.isValue]
    linarith

theorem shape_abs_segment2 (ξ : Fin 1 → ℝ) (h : -1 ≤ ξ 0 ∧ ξ 0 ≤ 1) : ∑ i, |(segment2 (K := ℝ)).L ξ i| ≤ 5 / 4 := by
  obtain ⟨h1, h2⟩ := h
  rcases le_total 0 (ξ 0) with h0 | h0
  · refine abs_sum_le _ ![1/2 * ξ 0 * (1 - ξ 0), 1/2 * ξ 0 * (1 + ξ 0), 1 - ξ 0 * ξ 0] (fun i => ?_) ?_
    · fin_cases i <;> simp only [segment2, Fin.zero_eta, Fin.mk_one, Fin.reduceFinMk, Fin.isValue, Matrix.cons_val] <;> rw [abs_le] <;> constructor <;> nlinarith
    · simp only [sum_fin3, Matrix.cons_val, Fin.isValue]
      nlinarith [sq_nonneg (ξ 0 - 1/2)]
  · refine abs_sum_le _ ![1/2 * -ξ 0 * (1 - ξ 0), 1/2 * -ξ 0 * (1 + ξ 0), 1 - ξ 0 * ξ 0] (fun i => ?_) ?_
    · fin_cases i <;> simp only [segment2, Fin.zero_eta, Fin.mk_one, Fin.reduceFinMk, Fin.isValue, Matrix.cons_val] <;> rw [abs_le] <;> constructor <;> nlinarith
    · simp only [sum_fin3, Matrix.cons_val, Fin.isValue]
      nlinarith [sq_nonneg (ξ 0 + 1/2)]

theorem shape_abs_triangle1 (ξ : Fin 2 → ℝ) (h : (∀ j, 0 ≤ ξ j) ∧ ∑ j, ξ j ≤ 1) : ∑ i, |(triangle1 (K := ℝ)).L ξ i| ≤ 1 := by
  obtain ⟨h0, h1⟩ := h
  rw [sum_fin2] at h1
  have hu := h0 0
  have hv := h0 1
  rw [sum_fin3]
  simp only [triangle1, Matrix.cons_val, Fin.isValue]
  rw [abs_of_nonneg (by linarith), abs_of_nonneg hu, abs_of_nonneg hv]
  linarith

theorem shape_abs_tetra1 (ξ : Fin 3 → ℝ) (h : (∀ j, 0 ≤ ξ j) ∧ ∑ j, ξ j ≤ 1) : ∑ i, |(tetra1 (K := ℝ)).L ξ i| ≤ 1 := by
  obtain ⟨h0, h1⟩ := h
  rw [sum_fin3] at h1
  have hu := h0 0
  have hv := h0 1
  have hw := h0 2
  rw [sum_fin4]
  simp only [tetra1, Matrix.cons_val, Fin.isValue]
  rw [abs_of_nonneg (by linarith), abs_of_nonneg hu, abs_of_nonneg hv, abs_of_nonneg hw]
  linarith

theorem corner_simplex (x : ℝ) (h0 : 0 ≤ x) : |x * (2 * x - 1)| ≤ x - 2 * x ^ 2 + 2 * x ^ 3 := by
  rw [abs_le]
  constructor
  · nlinarith [pow_nonneg h0 3]
  · nlinarith [mul_nonneg h0 (sq_nonneg (x - 1))]

theorem cube_le_sq (x : ℝ) (h0 : 0 ≤ x) (h1 : x ≤ 1) : x ^ 3 ≤ x ^ 2 := by nlinarith [sq_nonneg x]

theorem shape_abs_triangle2 (ξ : Fin 2 → ℝ) (h : (∀ j, 0 ≤ ξ j) ∧ ∑ j, ξ j ≤ 1) : ∑ i, |(triangle2 (K := ℝ)).L ξ i| ≤ 7 / 3 := by
  obtain ⟨h0, h1⟩ := h
  rw [sum_fin2] at h1
  have hu := h0 0
  have hv := h0 1
  rw [sum_fin6]
  simp only [triangle2, Matrix.cons_val, Fin.isValue]
  obtain ⟨l, hl⟩ : ∃ l, l = 1 - ξ 0 - ξ 1 := ⟨_, rfl⟩
  have hl0 : 0 ≤ l := by linarith
  rw [← hl]
  generalize ξ 0 = u at *
  generalize ξ 1 = v at *
  rw [abs_of_nonneg (show 0 ≤ 4 * u * l by positivity), abs_of_nonneg (show 0 ≤ 4 * u * v by positivity), abs_of_nonneg (show 0 ≤ 4 * v * l by positivity)]
  have e1 := corner_simplex l hl0
  have e2 := corner_simplex u hu
  have e3 := corner_simplex v hv
  have c1 := cube_le_sq l hl0 (by linarith)
  have c2 := cube_le_sq u hu (by linarith)
  have c3 := cube_le_sq v hv (by linarith)
  have hs : (l + u + v) ^ 2 = 1 := by rw [hl]; ring
  have hs1 : l + u + v = 1 := by rw [hl]; ring
  nlinarith [sq_nonneg (l - u), sq_nonneg (u - v), sq_nonneg (v - l)]

theorem shape_abs_tetra2 (ξ : Fin 3 → ℝ) (h : (∀ j, 0 ≤ ξ j) ∧ ∑ j, ξ j ≤ 1) : ∑ i, |(tetra2 (K := ℝ)).L ξ i| ≤ 5 / 2 := by
  obtain ⟨h0, h1⟩ := h
  rw [sum_fin3] at h1
  have hu := h0 0
  have hv := h0 1
  have hw := h0 2
  rw [sum_fin10]
  simp only [tetra2, Matrix.cons_val, Fin.isValue]
  obtain ⟨l, hl⟩ : ∃ l, l = 1 - ξ 0 - ξ 1 - ξ 2 := ⟨_, rfl⟩
  have hl0 : 0 ≤ l := by linarith
  rw [← hl]
  generalize ξ 0 = u at *
  generalize ξ 1 = v at *
  generalize ξ 2 = w at *
  rw [abs_of_nonneg (show 0 ≤ 4 * l * u by positivity), abs_of_nonneg (show 0 ≤ 4 * u * v by positivity), abs_of_nonneg (show 0 ≤ 4 * v * l by positivity),
    abs_of_nonneg (show 0 ≤ 4 * l * w by positivity), abs_of_nonneg (show 0 ≤ 4 * u * w by positivity), abs_of_nonneg (show 0 ≤ 4 * v * w by positivity)]
  have e1 := corner_simplex l hl0
  have e2 := corner_simplex u hu
  have e3 := corner_simplex v hv
  have e4 := corner_simplex w hw
  have c1 := cube_le_sq l hl0 (by linarith)
  have c2 := cube_le_sq u hu (by linarith)
  have c3 := cube_le_sq v hv (by linarith)
  have c4 := cube_le_sq w hw (by linarith)
  have hs : (l + u + v + w) ^ 2 = 1 := by rw [hl]; ring
  have hs1 : l + u + v + w = 1 := by rw [hl]; ring
  nlinarith [sq_nonneg (l - u), sq_nonneg (u - v), sq_nonneg (v - l), sq_nonneg (w - l), sq_nonneg (w - u), sq_nonneg (w - v)]

theorem shape_abs_quad1 (ξ : Fin 2 → ℝ) (h : ∀ j, -1 ≤ ξ j ∧ ξ j ≤ 1) : ∑ i, |(quad1 (K := ℝ)).L ξ i| ≤ 1 := by
  have u1 : 0 ≤ 1 - ξ 0 := by linarith [(h 0).2]
  have u2 : 0 ≤ 1 + ξ 0 := by linarith [(h 0).1]
  have v1 : 0 ≤ 1 - ξ 1 := by linarith [(h 1).2]
  have v2 : 0 ≤ 1 + ξ 1 := by linarith [(h 1).1]
  rw [sum_fin4]
  simp only [quad1, Matrix.cons_val, Fin.isValue]
  rw [abs_of_nonneg (by positivity), abs_of_nonneg (by positivity), abs_of_nonneg (by positivity), abs_of_nonneg (by positivity)]
  apply le_of_eq
  ring

theorem shape_abs_hexa1 (ξ : Fin 3 → ℝ) (h : ∀ j, -1 ≤ ξ j ∧ ξ j ≤ 1) : ∑ i, |(hexa1 (K := ℝ)).L ξ i| ≤ 1 := by
  have u1 : 0 ≤ 1 - ξ 0 := by linarith [(h 0).2]
  have u2 : 0 ≤ 1 + ξ 0 := by linarith [(h 0).1]
  have v1 : 0 ≤ 1 - ξ 1 := by linarith [(h 1).2]
  have v2 : 0 ≤ 1 + ξ 1 := by linarith [(h 1).1]
  have w1 : 0 ≤ 1 - ξ 2 := by linarith [(h 2).2]
  have w2 : 0 ≤ 1 + ξ 2 := by linarith [(h 2).1]
  rw [sum_fin8]
  simp only [hexa1, Matrix.cons_val, Fin.isValue]
  rw [abs_of_nonneg (by positivity), abs_of_nonneg (by positivity), abs_of_nonneg (by positivity), abs_of_nonneg (by positivity),
    abs_of_nonneg (by positivity), abs_of_nonneg (by positivity), abs_of_nonneg (by positivity), abs_of_nonneg (by positivity)]
  apply le_of_eq
  ring

theorem corner_quad (P s L : ℝ) (hP : 0 ≤ P) (hL : L = P * (s - 1)) : |L| ≤ P * (1 - s + s ^ 2 / 2) := by
  rw [hL, abs_mul, abs_of_nonneg hP]
  refine mul_le_mul_of_nonneg_left ?_ hP
  rw [abs_le]
  constructor <;> nlinarith [sq_nonneg (s - 2), sq_nonneg s]

theorem corner_hexa (P s L : ℝ) (hP : 0 ≤ P) (hs : s ≤ 3) (hL : L = P * (s - 2)) : |L| ≤ P * (2 - s + 2 * s ^ 2 / 9) := by
  rw [hL, abs_mul, abs_of_nonneg hP]
  refine mul_le_mul_of_nonneg_left ?_ hP
  rw [abs_le]
  constructor <;> nlinarith [mul_nonneg (show 0 ≤ 3 - s by linarith) (show 0 ≤ 6 - s by linarith), sq_nonneg s]

theorem shape_abs_quad2 (ξ : Fin 2 → ℝ) (h : ∀ j, -1 ≤ ξ j ∧ ξ j ≤ 1) : ∑ i, |(quad2 (K := ℝ)).L ξ i| ≤ 3 := by
  have u1 : 0 ≤ 1 - ξ 0 := by linarith [(h 0).2]
  have u2 : 0 ≤ 1 + ξ 0 := by linarith [(h 0).1]
  have v1 : 0 ≤ 1 - ξ 1 := by linarith [(h 1).2]
  have v2 : 0 ≤ 1 + ξ 1 := by linarith [(h 1).1]
  have uu : 0 ≤ 1 - ξ 0 * ξ 0 := by nlinarith
  have vv : 0 ≤ 1 - ξ 1 * ξ 1 := by nlinarith
  rw [sum_fin8]
  simp only [quad2, Matrix.cons_val, Fin.isValue]
  generalize ξ 0 = u at *
  generalize ξ 1 = v at *
  rw [abs_of_nonneg (show 0 ≤ 1/2 * (1 - u * u) * (1 - v) by positivity), abs_of_nonneg (show 0 ≤ 1/2 * (1 - v * v) * (1 + u) by positivity),
    abs_of_nonneg (show 0 ≤ 1/2 * (1 - u * u) * (1 + v) by positivity), abs_of_nonneg (show 0 ≤ 1/2 * (1 - v * v) * (1 - u) by positivity)]
  have e1 := corner_quad (1/4 * (1 - u) * (1 - v)) (-u - v) _ (by positivity) (show 1/4 * (1 - u) * (1 - v) - 1/2 * (1/2 * (1 - u * u) * (1 - v) + 1/2 * (1 - v * v) * (1 - u)) = _ by ring)
  have e2 := corner_quad (1/4 * (1 + u) * (1 - v)) (u - v) _ (by positivity) (show 1/4 * (1 + u) * (1 - v) - 1/2 * (1/2 * (1 - u * u) * (1 - v) + 1/2 * (1 - v * v) * (1 + u)) = _ by ring)
  have e3 := corner_quad (1/4 * (1 + u) * (1 + v)) (u + v) _ (by positivity) (show 1/4 * (1 + u) * (1 + v) - 1/2 * (1/2 * (1 - v * v) * (1 + u) + 1/2 * (1 - u * u) * (1 + v)) = _ by ring)
  have e4 := corner_quad (1/4 * (1 - u) * (1 + v)) (-u + v) _ (by positivity) (show 1/4 * (1 - u) * (1 + v) - 1/2 * (1/2 * (1 - u * u) * (1 + v) + 1/2 * (1 - v * v) * (1 - u)) = _ by ring)
  have hb : 1/4 * (1 - u) * (1 - v) * (1 - (-u - v) + (-u - v) ^ 2 / 2) + 1/4 * (1 + u) * (1 - v) * (1 - (u - v) + (u - v) ^ 2 / 2) +
      1/4 * (1 + u) * (1 + v) * (1 - (u + v) + (u + v) ^ 2 / 2) + 1/4 * (1 - u) * (1 + v) * (1 - (-u + v) + (-u + v) ^ 2 / 2) =
      1 - (u * u + v * v) / 2 + u * u * (v * v) := by ring
  have hm : u * u * (v * v) ≤ u * u := by nlinarith [mul_self_nonneg u]
  nlinarith [mul_self_nonneg u, mul_self_nonneg v]

theorem hexa_corner_sum (u v w : ℝ) : 1/8 * (1 - u) * (1 - v) * (1 - w) * (2 - (-u - v - w) + 2 * (-u - v - w) ^ 2 / 9) + 1/8 * (1 + u) * (1 - v) * (1 - w) * (2 - (u - v - w) + 2 * (u - v - w) ^ 2 / 9) +
      1/8 * (1 + u) * (1 + v) * (1 - w) * (2 - (u + v - w) + 2 * (u + v - w) ^ 2 / 9) + 1/8 * (1 - u) * (1 + v) * (1 - w) * (2 - (-u + v - w) + 2 * (-u + v - w) ^ 2 / 9) +
      1/8 * (1 - u) * (1 - v) * (1 + w) * (2 - (-u - v + w) + 2 * (-u - v + w) ^ 2 / 9) + 1/8 * (1 + u) * (1 - v) * (1 + w) * (2 - (u - v + w) + 2 * (u - v + w) ^ 2 / 9) +
      1/8 * (1 + u) * (1 + v) * (1 + w) * (2 - (u + v + w) + 2 * (u + v + w) ^ 2 / 9) + 1/8 * (1 - u) * (1 + v) * (1 + w) * (2 - (-u + v + w) + 2 * (-u + v + w) ^ 2 / 9) =
      2 - 7 / 9 * (u * u + v * v + w * w) + 4 / 9 * (u * u * (v * v) + v * v * (w * w) + w * w * (u * u)) := by ring

theorem hexa_mid_sum (u v w : ℝ) : 1/4 * (1 - u * u) * (1 - v) * (1 - w) + 1/4 * (1 - v * v) * (1 + u) * (1 - w) + 1/4 * (1 - u * u) * (1 + v) * (1 - w) +
      1/4 * (1 - v * v) * (1 - u) * (1 - w) + 1/4 * (1 - u * u) * (1 - v) * (1 + w) + 1/4 * (1 - v * v) * (1 + u) * (1 + w) +
      1/4 * (1 - u * u) * (1 + v) * (1 + w) + 1/4 * (1 - v * v) * (1 - u) * (1 + w) + 1/4 * (1 - w * w) * (1 - u) * (1 - v) +
      1/4 * (1 - w * w) * (1 + u) * (1 - v) + 1/4 * (1 - w * w) * (1 + u) * (1 + v) + 1/4 * (1 - w * w) * (1 - u) * (1 + v) =
      3 - (u * u + v * v + w * w) := by ring

theorem sq_mul_le (u v : ℝ) (h : 0 ≤ 1 - v * v) : u * u * (v * v) ≤ u * u := by nlinarith [mul_self_nonneg u]

theorem shape_abs_hexa2 (ξ : Fin 3 → ℝ) (h : ∀ j, -1 ≤ ξ j ∧ ξ j ≤ 1) : ∑ i, |(hexa2 (K := ℝ)).L ξ i| ≤ 5 := by
  have u1 : 0 ≤ 1 - ξ 0 := by linarith [(h 0).2]
  have u2 : 0 ≤ 1 + ξ 0 := by linarith [(h 0).1]
  have v1 : 0 ≤ 1 - ξ 1 := by linarith [(h 1).2]
  have v2 : 0 ≤ 1 + ξ 1 := by linarith [(h 1).1]
  have w1 : 0 ≤ 1 - ξ 2 := by linarith [(h 2).2]
  have w2 : 0 ≤ 1 + ξ 2 := by linarith [(h 2).1]
  have uu : 0 ≤ 1 - ξ 0 * ξ 0 := by nlinarith
  have vv : 0 ≤ 1 - ξ 1 * ξ 1 := by nlinarith
  have ww : 0 ≤ 1 - ξ 2 * ξ 2 := by nlinarith
  rw [sum_fin20]
  simp only [hexa2, hexa2Mid, Matrix.cons_val, Fin.isValue]
  generalize ξ 0 = u at *
  generalize ξ 1 = v at *
  generalize ξ 2 = w at *
  have m0 := abs_of_nonneg (show 0 ≤ 1/4 * (1 - u * u) * (1 - v) * (1 - w) by positivity)
  have m1 := abs_of_nonneg (show 0 ≤ 1/4 * (1 - v * v) * (1 + u) * (1 - w) by positivity)
  have m2 := abs_of_nonneg (show 0 ≤ 1/4 * (1 - u * u) * (1 + v) * (1 - w) by positivity)
  have m3 := abs_of_nonneg (show 0 ≤ 1/4 * (1 - v * v) * (1 - u) * (1 - w) by positivity)
  have m4 := abs_of_nonneg (show 0 ≤ 1/4 * (1 - u * u) * (1 - v) * (1 + w) by positivity)
  have m5 := abs_of_nonneg (show 0 ≤ 1/4 * (1 - v * v) * (1 + u) * (1 + w) by positivity)
  have m6 := abs_of_nonneg (show 0 ≤ 1/4 * (1 - u * u) * (1 + v) * (1 + w) by positivity)
  have m7 := abs_of_nonneg (show 0 ≤ 1/4 * (1 - v * v) * (1 - u) * (1 + w) by positivity)
  have m8 := abs_of_nonneg (show 0 ≤ 1/4 * (1 - w * w) * (1 - u) * (1 - v) by positivity)
  have m9 := abs_of_nonneg (show 0 ≤ 1/4 * (1 - w * w) * (1 + u) * (1 - v) by positivity)
  have m10 := abs_of_nonneg (show 0 ≤ 1/4 * (1 - w * w) * (1 + u) * (1 + v) by positivity)
  have m11 := abs_of_nonneg (show 0 ≤ 1/4 * (1 - w * w) * (1 - u) * (1 + v) by positivity)
  rw [m0, m1, m2, m3, m4, m5, m6, m7, m8, m9, m10, m11]
  have e0 := corner_hexa (1/8 * (1 - u) * (1 - v) * (1 - w)) (-u - v - w) _ (by positivity) (by linarith) (show 1/8 * (1 - u) * (1 - v) * (1 - w) -
    1/2 * (1/4 * (1 - u * u) * (1 - v) * (1 - w) + 1/4 * (1 - v * v) * (1 - u) * (1 - w) + 1/4 * (1 - w * w) * (1 - u) * (1 - v)) = _ by ring)
  have e1 := corner_hexa (1/8 * (1 + u) * (1 - v) * (1 - w)) (u - v - w) _ (by positivity) (by linarith) (show 1/8 * (1 + u) * (1 - v) * (1 - w) -
    1/2 * (1/4 * (1 - u * u) * (1 - v) * (1 - w) + 1/4 * (1 - v * v) * (1 + u) * (1 - w) + 1/4 * (1 - w * w) * (1 + u) * (1 - v)) = _ by ring)
  have e2 := corner_hexa (1/8 * (1 + u) * (1 + v) * (1 - w)) (u + v - w) _ (by positivity) (by linarith) (show 1/8 * (1 + u) * (1 + v) * (1 - w) -
    1/2 * (1/4 * (1 - v * v) * (1 + u) * (1 - w) + 1/4 * (1 - u * u) * (1 + v) * (1 - w) + 1/4 * (1 - w * w) * (1 + u) * (1 + v)) = _ by ring)
  have e3 := corner_hexa (1/8 * (1 - u) * (1 + v) * (1 - w)) (-u + v - w) _ (by positivity) (by linarith) (show 1/8 * (1 - u) * (1 + v) * (1 - w) -
    1/2 * (1/4 * (1 - u * u) * (1 + v) * (1 - w) + 1/4 * (1 - v * v) * (1 - u) * (1 - w) + 1/4 * (1 - w * w) * (1 - u) * (1 + v)) = _ by ring)
  have e4 := corner_hexa (1/8 * (1 - u) * (1 - v) * (1 + w)) (-u - v + w) _ (by positivity) (by linarith) (show 1/8 * (1 - u) * (1 - v) * (1 + w) -
    1/2 * (1/4 * (1 - u * u) * (1 - v) * (1 + w) + 1/4 * (1 - v * v) * (1 - u) * (1 + w) + 1/4 * (1 - w * w) * (1 - u) * (1 - v)) = _ by ring)
  have e5 := corner_hexa (1/8 * (1 + u) * (1 - v) * (1 + w)) (u - v + w) _ (by positivity) (by linarith) (show 1/8 * (1 + u) * (1 - v) * (1 + w) -
    1/2 * (1/4 * (1 - u * u) * (1 - v) * (1 + w) + 1/4 * (1 - v * v) * (1 + u) * (1 + w) + 1/4 * (1 - w * w) * (1 + u) * (1 - v)) = _ by ring)
  have e6 := corner_hexa (1/8 * (1 + u) * (1 + v) * (1 + w)) (u + v + w) _ (by positivity) (by linarith) (show 1/8 * (1 + u) * (1 + v) * (1 + w) -
    1/2 * (1/4 * (1 - v * v) * (1 + u) * (1 + w) + 1/4 * (1 - u * u) * (1 + v) * (1 + w) + 1/4 * (1 - w * w) * (1 + u) * (1 + v)) = _ by ring)
  have e7 := corner_hexa (1/8 * (1 - u) * (1 + v) * (1 + w)) (-u + v + w) _ (by positivity) (by linarith) (show 1/8 * (1 - u) * (1 + v) * (1 + w) -
    1/2 * (1/4 * (1 - u * u) * (1 + v) * (1 + w) + 1/4 * (1 - v * v) * (1 - u) * (1 + w) + 1/4 * (1 - w * w) * (1 - u) * (1 + v)) = _ by ring)
  have hb := hexa_corner_sum u v w
  have hm1 := sq_mul_le u v vv
  have hm2 := sq_mul_le v w ww
  have hm3 := sq_mul_le w u uu
  have hmid := hexa_mid_sum u v w
  clear m0 m1 m2 m3 m4 m5 m6 m7 m8 m9 m10 m11 u1 u2 v1 v2 w1 w2 uu vv ww h
  linarith [mul_self_nonneg u, mul_self_nonneg v, mul_self_nonneg w]

theorem shape_abs (T : ElementType) (ξ : Fin T.dim → ℝ) (h : T.shape.Mem ξ) : ∑ i, |(T.elem (K := ℝ)).L ξ i| ≤ shapeBound T := by
  cases T
  · exact shape_abs_segment1 ξ (h (0 : Fin 1))
  · exact shape_abs_segment2 ξ (h (0 : Fin 1))
  · exact shape_abs_triangle1 ξ h
  · exact shape_abs_triangle2 ξ h
  · exact shape_abs_quad1 ξ h
  · exact shape_abs_quad2 ξ h
  · exact shape_abs_tetra1 ξ h
  · exact shape_abs_tetra2 ξ h
  · exact shape_abs_hexa1 ξ h
  · exact shape_abs_hexa2 ξ h
  · exact shape_abs_quad1 ξ h
  · exact shape_abs_quad2 ξ h
  · exact shape_abs_hexa1 ξ h
  · exact shape_abs_hexa2 ξ h

/-! ### Taylor expansions -/

section Taylor

variable {D : ℕ} {V : Type*} [NormedAddCommGroup V] [NormedSpace ℝ V] {S : Set (Fin D → ℝ)}

theorem taylor1 {f : (Fin D → ℝ) → V} {f' : (Fin D → ℝ) → (Fin D → ℝ) →L[ℝ] V} {B : ℝ} (h : SmoothOn S f f' B) {x y : Fin D → ℝ} (hx : x ∈ S)
    (hy : y ∈ S) : ‖f y - f x - f' x (y - x)‖ ≤ B / 2 * ‖y - x‖ ^ 2 := by
  set v := y - x with hv
  have hS : ∀ t : ℝ, t ∈ Set.Icc (0 : ℝ) 1 → x + t • v ∈ S := fun t ht => h.convex.add_smul_sub_mem hx hy ht
  have hline : ∀ t : ℝ, HasDerivAt (fun t : ℝ => x + t • v) v t := by
    intro t
    simpa using ((hasDerivAt_id t).smul_const v).const_add x
  have hd : ∀ t ∈ Set.Icc (0 : ℝ) 1, HasDerivAt (fun t : ℝ => f (x + t • v) - f x - t • f' x v) (f' (x + t • v) v - f' x v) t := by
    intro t ht
    have h1 := (h.deriv _ (hS t ht)).comp_hasDerivAt t (hline t)
    have h2 : HasDerivAt (fun t : ℝ => t • f' x v) (f' x v) t := by
      simpa using (hasDerivAt_id t).smul_const (f' x v)
    exact (h1.sub_const (f x)).sub h2
  have key := image_norm_le_of_norm_deriv_right_le_deriv_boundary (a := (0 : ℝ)) (b := 1) (f := fun t : ℝ => f (x + t • v) - f x - t • f' x v)
    (f' := fun t => f' (x + t • v) v - f' x v) (B := fun t => B / 2 * ‖v‖ ^ 2 * t ^ 2) (B' := fun t => B * ‖v‖ ^ 2 * t)
    (fun t ht => (hd t ht).continuousAt.continuousWithinAt) (fun t ht => (hd t ⟨ht.1, ht.2.le⟩).hasDerivWithinAt) (by simp)
    (fun t => ((hasDerivAt_pow 2 t).const_mul _).congr_deriv (by push_cast; ring)) (fun t ht => ?_) (Set.right_mem_Icc.mpr zero_le_one)
  · simpa [hv] using key
  · have h1 := h.lipschitz _ (hS t ⟨ht.1, ht.2.le⟩) x hx
    rw [add_sub_cancel_left, norm_smul, Real.norm_of_nonneg ht.1] at h1
    have h2 := (f' (x + t • v) - f' x).le_opNorm v
    rw [ContinuousLinearMap.sub_apply] at h2
    refine h2.trans ((mul_le_mul_of_nonneg_right h1 (norm_nonneg v)).trans (le_of_eq ?_))
    ring

theorem taylor2 {f : (Fin D → ℝ) → V} {f' : (Fin D → ℝ) → (Fin D → ℝ) →L[ℝ] V} {f'' : (Fin D → ℝ) → (Fin D → ℝ) →L[ℝ] (Fin D → ℝ) →L[ℝ] V} {B : ℝ}
    (hf : ∀ x ∈ S, HasFDerivAt f (f' x) x) (h : SmoothOn S f' f'' B) {x y : Fin D → ℝ} (hx : x ∈ S)
    (hy : y ∈ S) : ‖f y - f x - f' x (y - x) - (1 / 2 : ℝ) • f'' x (y - x) (y - x)‖ ≤ B / 6 * ‖y - x‖ ^ 3 := by
  set v := y - x with hv
  have hS : ∀ t : ℝ, t ∈ Set.Icc (0 : ℝ) 1 → x + t • v ∈ S := fun t ht => h.convex.add_smul_sub_mem hx hy ht
  have hline : ∀ t : ℝ, HasDerivAt (fun t : ℝ => x + t • v) v t := by
    intro t
    simpa using ((hasDerivAt_id t).smul_const v).const_add x
  have hd : ∀ t ∈ Set.Icc (0 : ℝ) 1, HasDerivAt (fun t : ℝ => f (x + t • v) - f x - t • f' x v - (t ^ 2) • ((1 / 2 : ℝ) • f'' x v v))
      (f' (x + t • v) v - f' x v - t • f'' x v v) t := by
    intro t ht
    have h1 := (hf _ (hS t ht)).comp_hasDerivAt t (hline t)
    have h2 : HasDerivAt (fun t : ℝ => t • f' x v) (f' x v) t := by
      simpa using (hasDerivAt_id t).smul_const (f' x v)
    have h3 : HasDerivAt (fun t : ℝ => (t ^ 2) • ((1 / 2 : ℝ) • f'' x v v)) (t • f'' x v v) t := by
      refine ((hasDerivAt_pow 2 t).smul_const _).congr_deriv ?_
      rw [smul_smul]
      congr 1
      push_cast
      ring
    exact ((h1.sub_const (f x)).sub h2).sub h3
  have key := image_norm_le_of_norm_deriv_right_le_deriv_boundary (a := (0 : ℝ)) (b := 1)
    (f := fun t : ℝ => f (x + t • v) - f x - t • f' x v - (t ^ 2) • ((1 / 2 : ℝ) • f'' x v v))
    (f' := fun t => f' (x + t • v) v - f' x v - t • f'' x v v) (B := fun t => B / 6 * ‖v‖ ^ 3 * t ^ 3) (B' := fun t => B / 2 * ‖v‖ ^ 3 * t ^ 2)
    (fun t ht => (hd t ht).continuousAt.continuousWithinAt) (fun t ht => (hd t ⟨ht.1, ht.2.le⟩).hasDerivWithinAt) (by simp)
    (fun t => ((hasDerivAt_pow 3 t).const_mul _).congr_deriv (by push_cast; ring)) (fun t ht => ?_) (Set.right_mem_Icc.mpr zero_le_one)
  · simpa [hv] using key
  · have h1 := taylor1 h hx (hS t ⟨ht.1, ht.2.le⟩)
    rw [add_sub_cancel_left, norm_smul, Real.norm_of_nonneg ht.1] at h1
    have h2 := (f' (x + t • v) - f' x - f'' x (t • v)).le_opNorm v
    rw [ContinuousLinearMap.sub_apply, ContinuousLinearMap.sub_apply] at h2
    have h3 : f'' x (t • v) v = t • f'' x v v := by rw [map_smul, ContinuousLinearMap.smul_apply]
    rw [h3] at h2
    refine h2.trans ((mul_le_mul_of_nonneg_right h1 (norm_nonneg v)).trans (le_of_eq ?_))
    ring

end Taylor

end Caribou

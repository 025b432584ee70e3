import Verif.Model.Canonical
import Verif.Spec.Canonical
import Verif.Spec.Interpolation
import Verif.Lemmas.Elements
import Verif.Lemmas.Basic

/-! Integrals of low-degree polynomials and Gauss sums. -/

set_option autoImplicit false
set_option linter.all false

namespace Caribou

open Spec intervalIntegral

theorem g3_pos : 0 < g3 := by unfold g3; positivity

theorem g3_sq : g3 ^ 2 = 1 / 3 := by
  unfold g3
  rw [div_pow, Real.sq_sqrt (by norm_num)]
  norm_num

theorem g3_le_one : g3 ≤ 1 := by
  nlinarith [g3_sq, g3_pos]

/-- The integral of a polynomial of degree at most four. -/
theorem int_poly4 (c0 c1 c2 c3 c4 a b : ℝ) :
    ∫ x in a..b, (c0 + c1 * x + c2 * x ^ 2 + c3 * x ^ 3 + c4 * x ^ 4)
      = c0 * (b - a) + c1 * ((b ^ 2 - a ^ 2) / 2) + c2 * ((b ^ 3 - a ^ 3) / 3) + c3 * ((b ^ 4 - a ^ 4) / 4)
        + c4 * ((b ^ 5 - a ^ 5) / 5) := by
  have h : ∀ x, HasDerivAt (fun x : ℝ => c0 * x + c1 * (x ^ 2 / 2) + c2 * (x ^ 3 / 3) + c3 * (x ^ 4 / 4)
      + c4 * (x ^ 5 / 5)) (c0 + c1 * x + c2 * x ^ 2 + c3 * x ^ 3 + c4 * x ^ 4) x := by
    intro x
    have h1 := (hasDerivAt_id x).const_mul c0
    have h2 := ((hasDerivAt_pow 2 x).div_const 2).const_mul c1
    have h3 := ((hasDerivAt_pow 3 x).div_const 3).const_mul c2
    have h4 := ((hasDerivAt_pow 4 x).div_const 4).const_mul c3
    have h5 := ((hasDerivAt_pow 5 x).div_const 5).const_mul c4
    have h := (((h1.add h2).add h3).add h4).add h5
    refine h.congr_deriv ?_
    norm_num
  rw [integral_eq_sub_of_hasDerivAt (fun x _ => h x) (Continuous.intervalIntegrable (by fun_prop) _ _)]
  ring

/-- Moments of `[-1,1]`. -/
noncomputable def mom (n : ℕ) : ℝ := ∫ u in (-1 : ℝ)..1, u ^ n

/-- The two-point rule has the right moments up to degree three. -/
theorem mom_two_point (i : Fin 4) : (-g3) ^ (i : ℕ) + g3 ^ (i : ℕ) = mom i := by
  have h2 := g3_sq
  fin_cases i
  · norm_num [mom, integral_pow]
  · norm_num [mom, integral_pow]
  · norm_num [mom, integral_pow, neg_sq, h2]
  · have h3 : (-g3) ^ 3 + g3 ^ 3 = 0 := by ring
    simp only [mom, integral_pow, h3]
    norm_num

theorem int_cubic1 (c : Fin 4 → ℝ) : intCube1 (cubic1 c) = ∑ i, c i * mom i := by
  simp only [intCube1, cubic1, Matrix.cons_val]
  rw [integral_finset_sum fun i _ => Continuous.intervalIntegrable (by fun_prop) _ _]
  simp only [integral_const_mul, mom]

theorem int_cubic2 (c : Fin 4 → Fin 4 → ℝ) :
    intCube2 (cubic2 c) = ∑ i, ∑ j, c i j * (mom i * mom j) := by
  simp only [intCube2, cubic2, Matrix.cons_val]
  have h1 : ∀ u : ℝ, (∫ v in (-1 : ℝ)..1, ∑ i : Fin 4, ∑ j : Fin 4, c i j * (u ^ (i : ℕ) * v ^ (j : ℕ)))
      = ∑ i : Fin 4, ∑ j : Fin 4, c i j * (u ^ (i : ℕ) * mom j) := by
    intro u
    rw [integral_finset_sum fun i _ => Continuous.intervalIntegrable (by fun_prop) _ _]
    refine Finset.sum_congr rfl fun i _ => ?_
    rw [integral_finset_sum fun i _ => Continuous.intervalIntegrable (by fun_prop) _ _]
    simp only [integral_const_mul, mom]
  simp only [h1]
  rw [integral_finset_sum fun i _ => Continuous.intervalIntegrable (by fun_prop) _ _]
  refine Finset.sum_congr rfl fun i _ => ?_
  rw [integral_finset_sum fun i _ => Continuous.intervalIntegrable (by fun_prop) _ _]
  simp only [integral_const_mul, integral_mul_const, mom]

theorem int_cubic3 (c : Fin 4 → Fin 4 → Fin 4 → ℝ) :
    intCube3 (cubic3 c) = ∑ i, ∑ j, ∑ k, c i j k * (mom i * mom j * mom k) := by
  simp only [intCube3, cubic3, Matrix.cons_val]
  have h1 : ∀ u v : ℝ, (∫ w in (-1 : ℝ)..1, ∑ i : Fin 4, ∑ j : Fin 4, ∑ k : Fin 4,
      c i j k * (u ^ (i : ℕ) * v ^ (j : ℕ) * w ^ (k : ℕ)))
      = ∑ i : Fin 4, ∑ j : Fin 4, ∑ k : Fin 4, c i j k * (u ^ (i : ℕ) * v ^ (j : ℕ) * mom k) := by
    intro u v
    rw [integral_finset_sum fun i _ => Continuous.intervalIntegrable (by fun_prop) _ _]
    refine Finset.sum_congr rfl fun i _ => ?_
    rw [integral_finset_sum fun i _ => Continuous.intervalIntegrable (by fun_prop) _ _]
    refine Finset.sum_congr rfl fun j _ => ?_
    rw [integral_finset_sum fun i _ => Continuous.intervalIntegrable (by fun_prop) _ _]
    simp only [integral_const_mul, mom]
  have h2 : ∀ u : ℝ, (∫ v in (-1 : ℝ)..1, ∑ i : Fin 4, ∑ j : Fin 4, ∑ k : Fin 4,
      c i j k * (u ^ (i : ℕ) * v ^ (j : ℕ) * mom k))
      = ∑ i : Fin 4, ∑ j : Fin 4, ∑ k : Fin 4, c i j k * (u ^ (i : ℕ) * mom j * mom k) := by
    intro u
    rw [integral_finset_sum fun i _ => Continuous.intervalIntegrable (by fun_prop) _ _]
    refine Finset.sum_congr rfl fun i _ => ?_
    rw [integral_finset_sum fun i _ => Continuous.intervalIntegrable (by fun_prop) _ _]
    refine Finset.sum_congr rfl fun j _ => ?_
    rw [integral_finset_sum fun i _ => Continuous.intervalIntegrable (by fun_prop) _ _]
    simp only [integral_const_mul, integral_mul_const, mom]
  simp only [h1, h2]
  rw [integral_finset_sum fun i _ => Continuous.intervalIntegrable (by fun_prop) _ _]
  refine Finset.sum_congr rfl fun i _ => ?_
  rw [integral_finset_sum fun i _ => Continuous.intervalIntegrable (by fun_prop) _ _]
  refine Finset.sum_congr rfl fun j _ => ?_
  rw [integral_finset_sum fun i _ => Continuous.intervalIntegrable (by fun_prop) _ _]
  simp only [integral_const_mul, integral_mul_const, mom]

/-- Integral over the triangle of a general polynomial of degree at most two. -/
theorem int_quadratic2 (c : ℝ) (g : Fin 2 → ℝ) (H : Fin 2 → Fin 2 → ℝ) :
    intSimplex2 (quadraticFn c g H)
      = c / 2 + (g 0 + g 1) / 6 + (H 0 0 + H 1 1) / 12 + (H 0 1 + H 1 0) / 24 := by
  simp only [intSimplex2, quadraticFn, sum_fin2, Matrix.cons_val]
  have h1 : ∀ u v : ℝ, c + (g 0 * u + g 1 * v)
      + (H 0 0 * (u * u) + H 0 1 * (u * v) + (H 1 0 * (v * u) + H 1 1 * (v * v)))
      = (c + g 0 * u + H 0 0 * u ^ 2) + (g 1 + H 0 1 * u + H 1 0 * u) * v + H 1 1 * v ^ 2 + 0 * v ^ 3 + 0 * v ^ 4 := by
    intro u v; ring
  simp only [h1, int_poly4]
  rw [integral_congr (g := fun u : ℝ => (c + g 1 / 2 + H 1 1 / 3)
      + (-c + g 0 - g 1 + (H 0 1 + H 1 0) / 2 - H 1 1) * u
      + (-g 0 + H 0 0 + g 1 / 2 - (H 0 1 + H 1 0) + H 1 1) * u ^ 2
      + (-H 0 0 + (H 0 1 + H 1 0) / 2 - H 1 1 / 3) * u ^ 3 + 0 * u ^ 4) (fun u _ => by simp only; ring)]
  rw [int_poly4]
  ring

/-- Integral over the tetrahedron of a general polynomial of degree at most two. -/
theorem int_quadratic3 (c : ℝ) (g : Fin 3 → ℝ) (H : Fin 3 → Fin 3 → ℝ) :
    intSimplex3 (quadraticFn c g H)
      = c / 6 + (g 0 + g 1 + g 2) / 24 + (H 0 0 + H 1 1 + H 2 2) / 60
        + (H 0 1 + H 1 0 + H 0 2 + H 2 0 + H 1 2 + H 2 1) / 120 := by
  simp only [intSimplex3, quadraticFn, sum_fin3, Matrix.cons_val]
  generalize g 0 = a; generalize g 1 = b; generalize g 2 = d
  generalize H 0 0 = p; generalize H 1 1 = q; generalize H 2 2 = r
  obtain ⟨x, hx⟩ : ∃ x, x = H 0 1 + H 1 0 := ⟨_, rfl⟩
  obtain ⟨y, hy⟩ : ∃ x, x = H 0 2 + H 2 0 := ⟨_, rfl⟩
  obtain ⟨z, hz⟩ : ∃ x, x = H 1 2 + H 2 1 := ⟨_, rfl⟩
  have h1 : ∀ u v w : ℝ, c + (a * u + b * v + d * w)
      + (p * (u * u) + H 0 1 * (u * v) + H 0 2 * (u * w) + (H 1 0 * (v * u) + q * (v * v) + H 1 2 * (v * w))
        + (H 2 0 * (w * u) + H 2 1 * (w * v) + r * (w * w)))
      = (c + a * u + b * v + p * u ^ 2 + x * u * v + q * v ^ 2) + (d + y * u + z * v) * w + r * w ^ 2 + 0 * w ^ 3
        + 0 * w ^ 4 := by
    intro u v w; rw [hx, hy, hz]; ring
  simp only [h1, int_poly4]
  have h2 : ∀ u v : ℝ, (c + a * u + b * v + p * u ^ 2 + x * u * v + q * v ^ 2) * (1 - u - v - 0)
      + (d + y * u + z * v) * (((1 - u - v) ^ 2 - 0 ^ 2) / 2) + r * (((1 - u - v) ^ 3 - 0 ^ 3) / 3)
      + 0 * (((1 - u - v) ^ 4 - 0 ^ 4) / 4) + 0 * (((1 - u - v) ^ 5 - 0 ^ 5) / 5)
      = ((c + a * u + p * u ^ 2) * (1 - u) + (d + y * u) / 2 * (1 - u) ^ 2 + r / 3 * (1 - u) ^ 3)
        + (-(c + a * u + p * u ^ 2) + (b + x * u) * (1 - u) - (d + y * u) * (1 - u) + z / 2 * (1 - u) ^ 2
            - r * (1 - u) ^ 2) * v
        + (-(b + x * u) + q * (1 - u) + (d + y * u) / 2 - z * (1 - u) + r * (1 - u)) * v ^ 2
        + (-q + z / 2 - r / 3) * v ^ 3 + 0 * v ^ 4 := by
    intro u v; ring
  simp only [h2, int_poly4]
  have h3 : ∃ c0 c1 c2 c3 c4 : ℝ, (∀ u : ℝ,
      ((c + a * u + p * u ^ 2) * (1 - u) + (d + y * u) / 2 * (1 - u) ^ 2 + r / 3 * (1 - u) ^ 3) * (1 - u - 0)
        + (-(c + a * u + p * u ^ 2) + (b + x * u) * (1 - u) - (d + y * u) * (1 - u) + z / 2 * (1 - u) ^ 2
            - r * (1 - u) ^ 2) * (((1 - u) ^ 2 - 0 ^ 2) / 2)
        + (-(b + x * u) + q * (1 - u) + (d + y * u) / 2 - z * (1 - u) + r * (1 - u)) * (((1 - u) ^ 3 - 0 ^ 3) / 3)
        + (-q + z / 2 - r / 3) * (((1 - u) ^ 4 - 0 ^ 4) / 4) + 0 * (((1 - u) ^ 5 - 0 ^ 5) / 5)
        = c0 + c1 * u + c2 * u ^ 2 + c3 * u ^ 3 + c4 * u ^ 4) ∧
      c0 + c1 / 2 + c2 / 3 + c3 / 4 + c4 / 5
        = c / 6 + (a + b + d) / 24 + (p + q + r) / 60 + (x + y + z) / 120 := by
    refine ⟨c / 2 + b / 6 + d / 6 + q / 12 + r / 12 + z / 24,
      -c + a / 2 - b / 2 - d / 2 + x / 6 + y / 6 - q / 3 - r / 3 - z / 6,
      c / 2 - a + b / 2 + d / 2 + p / 2 - x / 2 - y / 2 + q / 2 + r / 2 + z / 4,
      a / 2 - b / 6 - d / 6 - p + x / 2 + y / 2 - q / 3 - r / 3 - z / 6,
      p / 2 - x / 6 - y / 6 + q / 12 + r / 12 + z / 24, fun u => ?_, ?_⟩ <;> ring
  obtain ⟨c0, c1, c2, c3, c4, hc, hs⟩ := h3
  simp only [hc, int_poly4]
  rw [hx, hy, hz] at hs
  linear_combination hs

end Caribou

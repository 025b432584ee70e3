import Verif.Model.Manufactured
import Verif.Props.Material

/-!
# C120: the manufactured displacement solves the equations of the loads
-/

set_option autoImplicit false

namespace Caribou

open Spec Manufactured

/-! ### The displacement -/

theorem update_deriv (x : Fin 3 → ℝ) (j k : Fin 3) (s : ℝ) :
    HasDerivAt (fun t => Function.update x j t k) (if k = j then 1 else 0) s := by
  by_cases h : k = j
  · subst h
    have e : (fun t => Function.update x k t k) = fun t : ℝ => t := by
      funext t
      rw [Function.update_self]
    rw [e, if_pos rfl]
    exact hasDerivAt_id' s
  · rw [if_neg h]
    have e : (fun t => Function.update x j t k) = fun _ => x k := by
      funext t
      rw [Function.update_of_ne h]
    rw [e]
    exact hasDerivAt_const _ _

theorem solution_deriv (length : ℝ) (x : Fin 3 → ℝ) (i j : Fin 3) :
    HasDerivAt (fun t => solution length (Function.update x j t) i)
      ((if j = 2 then Real.exp (x i / length) else 0) + if i = j then x 2 * (Real.exp (x i / length) / length) else 0) (x j) := by
  refine ((update_deriv x j 2 _).mul ((update_deriv x j i _).div_const length).exp).congr_deriv ?_
  rw [Function.update_eq_self]
  congr 1
  · rw [ite_mul, one_mul, zero_mul]
    exact if_congr eq_comm rfl rfl
  · split_ifs
    · ring
    · simp

theorem gradient_eq (length : ℝ) (x : Fin 3 → ℝ) (i j : Fin 3) : gradient length x i j =
    (if j = 2 then Real.exp (x i / length) else 0) + if i = j then x 2 * (Real.exp (x i / length) / length) else 0 :=
  (solution_deriv length x i j).deriv

/-- **C120 (displacement).** The manufactured displacement is `z exp(x_i / length)`; it vanishes on the fixed base `z = 0`, and the gradient which the
script works with is its derivative. -/
theorem C120_displacement (length : ℝ) (x : Fin 3 → ℝ) :
    (x 2 = 0 → solution length x = 0) ∧
    (∀ i, solution length x i = x 2 * Real.exp (x i / length)) ∧
    ∀ i j, HasDerivAt (fun t => solution length (Function.update x j t) i) (gradient length x i j) (x j) := by
  refine ⟨fun h => funext fun i => ?_, fun i => rfl, fun i j => ?_⟩
  · simp [solution, h]
  · rw [gradient_eq]
    exact solution_deriv length x i j

/-! ### The stress -/

theorem svk_first_piola (mu l : ℝ) (F : ℝ → Mat3) (F' : Mat3) (t : ℝ) (hF : MatDeriv F F' t) :
    HasDerivAt (fun s => (saintVenantKirchhoff mu l).energy (F s).det ((F s).transpose * F s))
      (ddot (F t * (saintVenantKirchhoff mu l).stress (F t).det ((F t).transpose * F t)) F') t := by
  have hC := matDeriv_mul (matDeriv_transpose hF) hF
  have hS : ∀ i j, (saintVenantKirchhoff mu l).stress (F t).det ((F t).transpose * F t) i j =
      (saintVenantKirchhoff mu l).stress (F t).det ((F t).transpose * F t) j i := by
    intro i j
    have hs : ∀ i j, ((F t).transpose * F t) i j = ((F t).transpose * F t) j i := by
      intro i j; simp only [Matrix.mul_apply, Matrix.transpose_apply, mul_comm]
    simp only [saintVenantKirchhoff, greenStrain, Matrix.add_apply, Matrix.smul_apply, Matrix.sub_apply, smul_eq_mul, Matrix.one_apply, hs i j, eq_comm]
  refine (C41_stress_is_gradient mu l (fun s => (F s).det) _ _ t hC ?_).congr_deriv ?_
  · intro i j
    simp only [Matrix.add_apply, Matrix.mul_apply, Matrix.transpose_apply, sum_fin3]
    ring
  · generalize (saintVenantKirchhoff mu l).stress (F t).det ((F t).transpose * F t) = S at hS
    simp only [ddot, sum_fin3, Matrix.add_apply, Matrix.mul_apply, Matrix.transpose_apply, hS 1 0, hS 2 0, hS 2 1]
    ring

theorem energyOf_eq (F : Mat3) : energyOf F = (saintVenantKirchhoff 1 (5 / 4)).energy F.det (F.transpose * F) := by
  simp only [energyOf, saintVenantKirchhoff, greenStrain]
  ring

theorem energySlope_eq (F : Mat3) : energySlope F = F * (saintVenantKirchhoff 1 (5 / 4)).stress F.det (F.transpose * F) := by
  ext i j
  have hF : MatDeriv (fun t => (Matrix.of fun a b => if a = i ∧ b = j then t else F a b : Mat3)) (Matrix.of fun a b => if a = i ∧ b = j then 1 else 0) (F i j) := by
    intro a b
    simp only [Matrix.of_apply]
    split_ifs
    · exact hasDerivAt_id _
    · exact hasDerivAt_const _ _
  have h := svk_first_piola 1 (5 / 4) _ _ _ hF
  have e : (Matrix.of fun a b => if a = i ∧ b = j then F i j else F a b : Mat3) = F := by
    ext a b
    simp only [Matrix.of_apply]
    split_ifs with h
    · rw [h.1, h.2]
    · rfl
  rw [e] at h
  rw [energySlope, Matrix.of_apply]
  simp only [energyOf_eq]
  rw [h.deriv, ddot]
  rw [Finset.sum_eq_single i, Finset.sum_eq_single j]
  · simp
  · intro b _ hb
    simp [hb]
  · simp
  · intro a _ ha
    refine Finset.sum_eq_zero fun b _ => ?_
    simp [ha]
  · simp

/-- **C120 (parameters).** The Young modulus and the Poisson ratio which the script gives to its material have the Lamé parameters `mu` and `l` it starts from. -/
theorem C120_parameters (mu l : ℝ) (hmu : 0 < mu) (hl : 0 < l) :
    lameMu (scriptYoung mu l) (scriptPoisson mu l) = mu ∧ lameL (scriptYoung mu l) (scriptPoisson mu l) = l := by
  have hs : scriptPoisson mu l = l / (2 * (mu + l)) := by
    unfold scriptPoisson
    field_simp
  have h0 : mu + l ≠ 0 := by positivity
  have h1 : 1 + l / (2 * (mu + l)) ≠ 0 := by positivity
  have h2 : 1 - 2 * (l / (2 * (mu + l))) = mu / (mu + l) := by
    field_simp
    ring
  refine ⟨?_, ?_⟩
  · rw [lameMu, scriptYoung, hs]
    field_simp
  · rw [lameL, scriptYoung, hs, h2]
    field_simp

/-- **C120 (stress).** With the parameters of the script (`mu = 1`, `l = 5/4`), the stress returned by `compute` is the first Piola-Kirchhoff stress of the
Saint Venant-Kirchhoff material of the scene at the manufactured displacement. -/
theorem C120_stress_partial (rad length : ℝ) (x : Fin 3 → ℝ) :
    stressOf 1 (5 / 4) rad length x =
      (1 + gradient length x) * (saintVenantKirchhoff (lameMu (scriptYoung 1 (5 / 4)) (scriptPoisson 1 (5 / 4)))
        (lameL (scriptYoung 1 (5 / 4)) (scriptPoisson 1 (5 / 4)))).stress (1 + gradient length x).det
          ((1 + gradient length x).transpose * (1 + gradient length x)) := by
  rw [(C120_parameters 1 (5 / 4) (by norm_num) (by norm_num)).1, (C120_parameters 1 (5 / 4) (by norm_num) (by norm_num)).2, stressOf, energySlope_eq,
    add_comm]

/-! ### The balance of forces -/

theorem stress_deriv (mu l length : ℝ) (x : Fin 3 → ℝ) (j : Fin 3) : ∃ D : Mat3,
    MatDeriv (fun t => (1 + gradient length (Function.update x j t)) * (saintVenantKirchhoff mu l).stress (1 + gradient length (Function.update x j t)).det
      ((1 + gradient length (Function.update x j t)).transpose * (1 + gradient length (Function.update x j t)))) D (x j) := by
  have hG : ∃ G' : Mat3, MatDeriv (fun t => gradient length (Function.update x j t)) G' (x j) := by
    refine ⟨Matrix.of fun a b => deriv (fun t => gradient length (Function.update x j t) a b) (x j), fun a b => ?_⟩
    refine DifferentiableAt.hasDerivAt ?_
    simp only [gradient_eq]
    have hd : ∀ k, DifferentiableAt ℝ (fun t => Function.update x j t k) (x j) := fun k => (update_deriv x j k _).differentiableAt
    have he : DifferentiableAt ℝ (fun t => Real.exp (Function.update x j t a / length)) (x j) := ((hd a).div_const length).exp
    refine DifferentiableAt.add ?_ ?_
    · by_cases h : b = 2
      · simp only [if_pos h]
        exact he
      · simp only [if_neg h]
        exact differentiableAt_const _
    · by_cases h : a = b
      · simp only [if_pos h]
        exact (hd 2).mul (he.div_const length)
      · simp only [if_neg h]
        exact differentiableAt_const _
  obtain ⟨G', hG⟩ := hG
  have hF := matDeriv_add (matDeriv_const (1 : Mat3) (x j)) hG
  have hC := matDeriv_mul (matDeriv_transpose hF) hF
  obtain ⟨S', hS, -⟩ := C41_jacobian_is_derivative mu l (fun t => (1 + gradient length (Function.update x j t)).det) _ _ _ hC (by
    intro a b
    simp only [Matrix.add_apply, Matrix.mul_apply, Matrix.transpose_apply, sum_fin3]
    ring)
  exact ⟨_, matDeriv_mul hF hS⟩

/-- **C120 (balance).** With the parameters of the script the body forces returned by `compute` balance the divergence of the first Piola-Kirchhoff stress
of the material of the scene at the manufactured displacement: the manufactured displacement solves the equations of the loads. -/
theorem C120_balance_partial (rad length : ℝ) (x : Fin 3 → ℝ) (i : Fin 3) : ∃ D : Fin 3 → ℝ,
    (∀ j, HasDerivAt (fun t => ((1 + gradient length (Function.update x j t)) *
      (saintVenantKirchhoff (lameMu (scriptYoung 1 (5 / 4)) (scriptPoisson 1 (5 / 4)))
        (lameL (scriptYoung 1 (5 / 4)) (scriptPoisson 1 (5 / 4)))).stress (1 + gradient length (Function.update x j t)).det
          ((1 + gradient length (Function.update x j t)).transpose * (1 + gradient length (Function.update x j t)))) i j) (D j) (x j)) ∧
    ∑ j, D j + bodyForce 1 (5 / 4) rad length x i = 0 := by
  choose D hD using stress_deriv (lameMu (scriptYoung 1 (5 / 4)) (scriptPoisson 1 (5 / 4))) (lameL (scriptYoung 1 (5 / 4)) (scriptPoisson 1 (5 / 4))) length x
  refine ⟨fun j => D j i j, fun j => hD j i j, ?_⟩
  rw [bodyForce, ← sub_eq_add_neg, sub_eq_zero]
  refine Finset.sum_congr rfl fun j _ => ?_
  simp only [C120_stress_partial]
  exact (hD j i j).deriv.symm

/-- **C120 (parameters, violated).** `compute` does not use the Lamé parameters it is given: with the parameters `mu = 2`, `l = 5/2` the stress it returns is
not the one of the material which has these parameters. -/
theorem C120_compute_violated : ¬∀ (mu l rad length : ℝ) (x : Fin 3 → ℝ), 0 < mu → 0 < l → 0 < length →
    stressOf mu l rad length x = (1 + gradient length x) * (saintVenantKirchhoff mu l).stress (1 + gradient length x).det
      ((1 + gradient length x).transpose * (1 + gradient length x)) := by
  intro h
  have h1 := h 2 (5 / 2) 1 1 0 (by norm_num) (by norm_num) (by norm_num)
  have h2 := congrFun (congrFun h1 0) 0
  rw [stressOf, energySlope_eq, add_comm] at h2
  have hG : 1 + gradient 1 0 = !![1, 0, 1; 0, 1, 1; 0, 0, 2] := by
    ext i j
    rw [Matrix.add_apply, gradient_eq, Matrix.one_apply]
    fin_cases i <;> fin_cases j <;> simp <;> norm_num
  rw [hG] at h2
  simp [Matrix.mul_apply, sum_fin3, saintVenantKirchhoff, greenStrain, Matrix.trace, Matrix.diag] at h2
  norm_num at h2

example : (0 : ℝ) < 1 ∧ (0 : ℝ) < 5 / 4 ∧ scriptPoisson 1 (5 / 4) = 5 / 18 ∧ scriptYoung 1 (5 / 4) = 23 / 9 ∧
    gradient 1 0 2 2 = 1 ∧ stressOf 1 (5 / 4) 1 1 0 0 0 = 33 / 8 := by
  refine ⟨by norm_num, by norm_num, by norm_num [scriptPoisson], by norm_num [scriptPoisson, scriptYoung], by simp [gradient_eq], ?_⟩
  rw [stressOf, energySlope_eq, add_comm]
  have hG : 1 + gradient 1 0 = !![1, 0, 1; 0, 1, 1; 0, 0, 2] := by
    ext i j
    rw [Matrix.add_apply, gradient_eq, Matrix.one_apply]
    fin_cases i <;> fin_cases j <;> simp <;> norm_num
  rw [hG]
  simp [Matrix.mul_apply, sum_fin3, saintVenantKirchhoff, greenStrain, Matrix.trace, Matrix.diag]
  norm_num

end Caribou

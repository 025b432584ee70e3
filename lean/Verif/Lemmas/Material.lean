import Verif.Model.Material
import Verif.Spec.Material
import Verif.Lemmas.Elements
import Mathlib.Analysis.SpecialFunctions.Log.Deriv
import Mathlib.Analysis.Calculus.Deriv.Mul
import Mathlib.Analysis.Calculus.Deriv.Inv
import Mathlib.Tactic.FinCases
import Mathlib.Tactic.LinearCombination

set_option autoImplicit false
set_option linter.all false

namespace Caribou

open Spec

theorem matDeriv_mul {m n p : ℕ} {A : ℝ → Matrix (Fin m) (Fin n) ℝ} {A' : Matrix (Fin m) (Fin n) ℝ}
    {B : ℝ → Matrix (Fin n) (Fin p) ℝ} {B' : Matrix (Fin n) (Fin p) ℝ} {t : ℝ}
    (hA : MatDeriv A A' t) (hB : MatDeriv B B' t) :
    MatDeriv (fun s => A s * B s) (A' * B t + A t * B') t := by
  intro i j
  simp only [Matrix.mul_apply, Matrix.add_apply]
  rw [← Finset.sum_add_distrib]
  exact HasDerivAt.fun_sum fun k _ => (hA i k).mul (hB k j)

theorem matDeriv_transpose {m n : ℕ} {A : ℝ → Matrix (Fin m) (Fin n) ℝ} {A' : Matrix (Fin m) (Fin n) ℝ} {t : ℝ}
    (hA : MatDeriv A A' t) : MatDeriv (fun s => (A s).transpose) A'.transpose t := fun i j => hA j i

theorem matDeriv_add {m n : ℕ} {A B : ℝ → Matrix (Fin m) (Fin n) ℝ} {A' B' : Matrix (Fin m) (Fin n) ℝ} {t : ℝ}
    (hA : MatDeriv A A' t) (hB : MatDeriv B B' t) : MatDeriv (fun s => A s + B s) (A' + B') t :=
  fun i j => (hA i j).add (hB i j)

theorem matDeriv_const {m n : ℕ} (A : Matrix (Fin m) (Fin n) ℝ) (t : ℝ) : MatDeriv (fun _ => A) 0 t :=
  fun i j => hasDerivAt_const t (A i j)

theorem matDeriv_smul {m n : ℕ} {c : ℝ → ℝ} {c' : ℝ} {A : ℝ → Matrix (Fin m) (Fin n) ℝ}
    {A' : Matrix (Fin m) (Fin n) ℝ} {t : ℝ} (hc : HasDerivAt c c' t) (hA : MatDeriv A A' t) :
    MatDeriv (fun s => c s • A s) (c' • A t + c t • A') t :=
  fun i j => hc.mul (hA i j)

theorem matDeriv_unique {m n : ℕ} {A : ℝ → Matrix (Fin m) (Fin n) ℝ} {A' A'' : Matrix (Fin m) (Fin n) ℝ} {t : ℝ}
    (h : MatDeriv A A' t) (h' : MatDeriv A A'' t) : A' = A'' := by
  ext i j; exact (h i j).unique (h' i j)

theorem trace_deriv {A : ℝ → Mat3} {A' : Mat3} {t : ℝ} (hA : MatDeriv A A' t) :
    HasDerivAt (fun s => (A s).trace) A'.trace t := by
  simp only [Matrix.trace, Matrix.diag]
  exact HasDerivAt.fun_sum fun k _ => hA k k

theorem det_deriv {C : ℝ → Mat3} {H : Mat3} {t : ℝ} (hC : MatDeriv C H t) :
    HasDerivAt (fun s => (C s).det) ((C t).adjugate * H).trace t := by
  have h := fun i j => hC i j
  simp only [Matrix.det_fin_three]
  have key := ((((((h 0 0).mul (h 1 1)).mul (h 2 2)).sub (((h 0 0).mul (h 1 2)).mul (h 2 1))).sub
    (((h 0 1).mul (h 1 0)).mul (h 2 2))).add (((h 0 1).mul (h 1 2)).mul (h 2 0))).add
    (((h 0 2).mul (h 1 0)).mul (h 2 1)) |>.sub (((h 0 2).mul (h 1 1)).mul (h 2 0))
  refine key.congr_deriv ?_
  simp only [Matrix.adjugate_fin_three, Matrix.trace, Matrix.diag, Matrix.mul_apply, sum_fin3, Matrix.of_apply,
    Matrix.cons_val, Pi.mul_apply]
  ring

theorem adjugate_diff {C : ℝ → Mat3} {H : Mat3} {t : ℝ} (hC : MatDeriv C H t) (i j : Fin 3) :
    DifferentiableAt ℝ (fun s => (C s).adjugate i j) t := by
  have h : ∀ i j, DifferentiableAt ℝ (fun s => C s i j) t := fun i j => (hC i j).differentiableAt
  simp only [Matrix.adjugate_fin_three]
  fin_cases i <;> fin_cases j <;>
    simp only [Matrix.of_apply, Matrix.cons_val, Fin.isValue, Fin.reduceFinMk, Fin.zero_eta, Fin.mk_one]
  all_goals
    first
    | exact ((h _ _).mul (h _ _)).sub ((h _ _).mul (h _ _))
    | exact (((h _ _).mul (h _ _)).neg).add ((h _ _).mul (h _ _))

theorem inv_diff {C : ℝ → Mat3} {H : Mat3} {t : ℝ} (hC : MatDeriv C H t) (hd : (C t).det ≠ 0) (i j : Fin 3) :
    DifferentiableAt ℝ (fun s => (C s)⁻¹ i j) t := by
  have : (fun s => (C s)⁻¹ i j) = fun s => ((C s).det)⁻¹ * (C s).adjugate i j := by
    funext s
    rw [Matrix.inv_def, Matrix.smul_apply, Ring.inverse_eq_inv', smul_eq_mul]
  rw [this]
  exact ((det_deriv hC).differentiableAt.inv hd).mul (adjugate_diff hC i j)

theorem inv_deriv {C : ℝ → Mat3} {H : Mat3} {t : ℝ} (hC : MatDeriv C H t) (hd : (C t).det ≠ 0) :
    MatDeriv (fun s => (C s)⁻¹) (-((C t)⁻¹ * H * (C t)⁻¹)) t := by
  set D : Mat3 := Matrix.of fun i j => deriv (fun s => (C s)⁻¹ i j) t with hD
  have hI : MatDeriv (fun s => (C s)⁻¹) D t := fun i j => (inv_diff hC hd i j).hasDerivAt
  have hp := matDeriv_mul hC hI
  have hne : ∀ᶠ s in nhds t, (C s).det ≠ 0 := (det_deriv hC).continuousAt.eventually_ne hd
  have h1 : MatDeriv (fun s => C s * (C s)⁻¹) 0 t := by
    intro i j
    refine (hasDerivAt_const t ((1 : Mat3) i j)).congr_of_eventuallyEq ?_
    filter_upwards [hne] with s hs
    rw [Matrix.mul_nonsing_inv _ (isUnit_iff_ne_zero.mpr hs)]
  have h2 := matDeriv_unique hp h1
  have h3 : D = -((C t)⁻¹ * H * (C t)⁻¹) := by
    have h4 : C t * D = -(H * (C t)⁻¹) := by
      rw [eq_neg_iff_add_eq_zero, add_comm]; exact h2
    have h5 := congrArg (fun M => (C t)⁻¹ * M) h4
    simp only [← Matrix.mul_assoc, Matrix.nonsing_inv_mul _ (isUnit_iff_ne_zero.mpr hd), Matrix.one_mul,
      Matrix.mul_neg] at h5
    exact h5
  rw [← h3]; exact hI

theorem logdet_deriv {C : ℝ → Mat3} {H : Mat3} {t : ℝ} (hC : MatDeriv C H t) (hd : (C t).det ≠ 0)
    {J : ℝ → ℝ} (hJ : ∀ s, J s * J s = (C s).det) :
    HasDerivAt (fun s => Real.log (J s)) (1 / 2 * ((C t)⁻¹ * H).trace) t := by
  have : (fun s => Real.log (J s)) = fun s => 1 / 2 * Real.log ((C s).det) := by
    funext s
    rw [← hJ s, ← sq, Real.log_pow]; push_cast; ring
  rw [this]
  have h := ((det_deriv hC).log hd).const_mul (1 / 2)
  refine h.congr_deriv ?_
  rw [Matrix.inv_def, Ring.inverse_eq_inv', Matrix.smul_mul, Matrix.trace_smul, smul_eq_mul]
  field_simp

theorem inv_symm {C : Mat3} (h : ∀ i j, C i j = C j i) (i j : Fin 3) : C⁻¹ i j = C⁻¹ j i := by
  have hC : C.transpose = C := by ext i j; exact h j i
  have := Matrix.transpose_nonsing_inv C
  rw [hC] at this
  exact congrFun (congrFun this j) i

theorem trace_mul_symm {A B : Mat3} (h : ∀ i j, B i j = B j i) : (A * B).trace = ddot A B := by
  simp only [Matrix.trace, Matrix.diag, Matrix.mul_apply, ddot]
  exact Finset.sum_congr rfl fun i _ => Finset.sum_congr rfl fun j _ => by rw [h j i]

theorem trace_mul_symm' {A B : Mat3} (h : ∀ i j, A i j = A j i) : (A * B).trace = ddot A B := by
  rw [Matrix.trace_mul_comm]
  simp only [Matrix.trace, Matrix.diag, Matrix.mul_apply, ddot]
  exact Finset.sum_congr rfl fun i _ => Finset.sum_congr rfl fun j _ => by rw [h j i, mul_comm]

end Caribou

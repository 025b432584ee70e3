import Verif.Spec.Consistency
import Mathlib.Topology.Instances.Matrix
import Mathlib.Analysis.SpecialFunctions.Log.Deriv

/-!
# Continuity of the materials
-/

set_option autoImplicit false
set_option linter.all false
namespace Caribou
open Spec

theorem gram_continuous : Continuous fun G : Mat3 => G.transpose * G := by fun_prop

theorem gram_inv_continuousAt (F : Mat3) (hF : 0 < F.det) : ContinuousAt (fun G : Mat3 => (G.transpose * G)⁻¹) F := by
  have e : (fun G : Mat3 => (G.transpose * G)⁻¹) = fun G : Mat3 => (G.transpose * G).det⁻¹ • (G.transpose * G).adjugate := by
    funext G
    rw [Matrix.inv_def, Ring.inverse_eq_inv']
  rw [e]
  have h1 : ContinuousAt (fun G : Mat3 => (G.transpose * G).det) F := gram_continuous.matrix_det.continuousAt
  have h2 : ContinuousAt (fun G : Mat3 => (G.transpose * G).adjugate) F := gram_continuous.matrix_adjugate.continuousAt
  have h3 : ContinuousAt (fun G : Mat3 => (G.transpose * G).det⁻¹) F := h1.inv₀ (by
    rw [Matrix.det_mul, Matrix.det_transpose]
    positivity)
  fun_prop

theorem log_det_continuousAt (F : Mat3) (hF : 0 < F.det) : ContinuousAt (fun G : Mat3 => Real.log G.det) F :=
  ContinuousAt.log (Continuous.matrix_det continuous_id).continuousAt hF.ne'

theorem greenStrain_continuous : Continuous fun G : Mat3 => greenStrain (G.transpose * G) := by
  unfold greenStrain
  fun_prop

theorem dyads_continuous : Continuous symmetricDyad1 ∧ Continuous symmetricDyad2 := by
  constructor
  · refine continuous_matrix fun i j => ?_
    fin_cases i <;> fin_cases j <;> simp only [symmetricDyad1, Fin.zero_eta, Fin.mk_one, Fin.reduceFinMk, Fin.isValue, Matrix.of_apply, Matrix.cons_val] <;> fun_prop
  · refine continuous_matrix fun i j => ?_
    fin_cases i <;> fin_cases j <;> simp only [symmetricDyad2, Fin.zero_eta, Fin.mk_one, Fin.reduceFinMk, Fin.isValue, Matrix.of_apply, Matrix.cons_val] <;> fun_prop

/-- Both materials are continuous wherever the deformation is not inverted. -/
theorem materials_continuous (mu l : ℝ) : ContinuousMaterial (saintVenantKirchhoff mu l) ∧ ContinuousMaterial (neoHookean mu l) := by
  refine ⟨fun F _ => ⟨?_, ?_, ?_⟩, fun F hF => ⟨?_, ?_, ?_⟩⟩
  · have h := greenStrain_continuous
    simp only [saintVenantKirchhoff]
    refine Continuous.continuousAt ?_
    have h1 := h.matrix_trace
    have h2 := (h.matrix_mul h).matrix_trace
    fun_prop
  · have h := greenStrain_continuous
    simp only [saintVenantKirchhoff]
    refine Continuous.continuousAt ?_
    have h1 := h.matrix_trace
    fun_prop
  · exact continuousAt_const
  · have h := log_det_continuousAt F hF
    have h1 := gram_continuous.matrix_trace.continuousAt (x := F)
    simp only [neoHookean]
    fun_prop
  · have h := log_det_continuousAt F hF
    have h1 := gram_inv_continuousAt F hF
    simp only [neoHookean]
    fun_prop
  · have h := log_det_continuousAt F hF
    have h1 := gram_inv_continuousAt F hF
    simp only [neoHookean]
    have h2 : ContinuousAt (fun G : Mat3 => symmetricDyad1 (G.transpose * G)⁻¹) F := ContinuousAt.comp (g := symmetricDyad1) dyads_continuous.1.continuousAt h1
    have h3 : ContinuousAt (fun G : Mat3 => symmetricDyad2 (G.transpose * G)⁻¹) F := ContinuousAt.comp (g := symmetricDyad2) dyads_continuous.2.continuousAt h1
    fun_prop

end Caribou

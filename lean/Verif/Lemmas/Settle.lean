import Verif.Lemmas.Motion
import Verif.Lemmas.Quadratic
import Mathlib.Topology.Algebra.Module.FiniteDimension
import Mathlib.Topology.Order.MonotoneConvergence
import Mathlib.LinearAlgebra.Dual.Lemmas

/-!
# Lemmas for C141: sequences of time steps of a linear scene
-/

set_option autoImplicit false
set_option linter.all false

namespace Caribou

open Spec Matrix Filter Topology

variable {ι : Type*} [Fintype ι]

theorem dot_bound (u r : ι → ℝ) : |u ⬝ᵥ r| ≤ Fintype.card ι * (‖u‖ * ‖r‖) := by
  have : ∀ i, |u i * r i| ≤ ‖u‖ * ‖r‖ := fun i => by
    rw [abs_mul]
    exact mul_le_mul (norm_le_pi_norm u i) (norm_le_pi_norm r i) (abs_nonneg _) (norm_nonneg _)
  calc |u ⬝ᵥ r| ≤ ∑ i, |u i * r i| := Finset.abs_sum_le_sum_abs _ _
    _ ≤ ∑ _i : ι, ‖u‖ * ‖r‖ := Finset.sum_le_sum fun i _ => this i
    _ = _ := by rw [Finset.sum_const, Finset.card_univ, nsmul_eq_mul]

theorem dot_tendsto {u r : ℕ → ι → ℝ} {b : ℝ} (hu : ∀ k, ‖u k‖ ≤ b) (hr : Tendsto r atTop (𝓝 0)) : Tendsto (fun k => u k ⬝ᵥ r k) atTop (𝓝 0) := by
  have hn : Tendsto (fun k => (Fintype.card ι : ℝ) * (b * ‖r k‖)) atTop (𝓝 0) := by
    have := (hr.norm.const_mul b).const_mul (Fintype.card ι : ℝ)
    simpa using this
  refine squeeze_zero_norm (fun k => ?_) hn
  rw [Real.norm_eq_abs]
  refine (dot_bound _ _).trans ?_
  have := mul_le_mul_of_nonneg_right (hu k) (norm_nonneg (r k))
  exact mul_le_mul_of_nonneg_left this (Nat.cast_nonneg _)

theorem mulVec_tendsto (A : Matrix ι ι ℝ) {u : ℕ → ι → ℝ} {y : ι → ℝ} (hu : Tendsto u atTop (𝓝 y)) : Tendsto (fun k => A *ᵥ u k) atTop (𝓝 (A *ᵥ y)) := by
  classical
  have hc : Continuous fun u : ι → ℝ => A *ᵥ u := Continuous.matrix_mulVec continuous_const continuous_id
  exact (hc.tendsto y).comp hu

/-- A form which is positive on a subspace is at least a multiple of the square of the norm. -/
theorem form_bound (W : Submodule ℝ (ι → ℝ)) (A : Matrix ι ι ℝ) (hA : ∀ u ∈ W, u ≠ 0 → 0 < u ⬝ᵥ A *ᵥ u) : ∃ c : ℝ, 0 < c ∧ ∀ u ∈ W, c * ‖u‖ ^ 2 ≤ u ⬝ᵥ A *ᵥ u := by
  have hcont : Continuous fun u : ι → ℝ => u ⬝ᵥ A *ᵥ u := by
    have : Continuous fun u : ι → ℝ => A *ᵥ u := Continuous.matrix_mulVec continuous_const continuous_id
    exact Continuous.dotProduct continuous_id this
  have hK : IsCompact (Metric.sphere (0 : ι → ℝ) 1 ∩ (W : Set (ι → ℝ))) := (isCompact_sphere 0 1).inter_right W.closed_of_finiteDimensional
  have key : ∀ u ∈ W, u ≠ 0 → ‖u‖⁻¹ • u ∈ Metric.sphere (0 : ι → ℝ) 1 ∩ (W : Set (ι → ℝ)) := by
    intro u hu h0
    refine ⟨?_, W.smul_mem _ hu⟩
    rw [mem_sphere_zero_iff_norm, norm_smul, norm_inv, norm_norm, inv_mul_cancel₀ (norm_ne_zero_iff.2 h0)]
  rcases (Metric.sphere (0 : ι → ℝ) 1 ∩ (W : Set (ι → ℝ))).eq_empty_or_nonempty with he | hne
  · refine ⟨1, one_pos, fun u hu => ?_⟩
    by_cases h0 : u = 0
    · simp [h0]
    · have := key u hu h0
      rw [he] at this
      exact this.elim
  · obtain ⟨m, ⟨hm1, hm2⟩, hmin⟩ := hK.exists_isMinOn hne hcont.continuousOn
    have hm0 : m ≠ 0 := by
      rintro rfl
      simp at hm1
    refine ⟨m ⬝ᵥ A *ᵥ m, hA m hm2 hm0, fun u hu => ?_⟩
    by_cases h0 : u = 0
    · simp [h0]
    · have h := hmin (key u hu h0)
      simp only [Set.mem_setOf_eq, mulVec_smul, dotProduct_smul, smul_dotProduct, smul_eq_mul] at h
      have hn : 0 < ‖u‖ := norm_pos_iff.2 h0
      rw [← mul_assoc, ← mul_inv, inv_mul_eq_div, le_div_iff₀ (by positivity)] at h
      rw [pow_two]
      exact h

theorem form_zero {W : Submodule ℝ (ι → ℝ)} {A : Matrix ι ι ℝ} (hA : ∀ u ∈ W, u ≠ 0 → 0 < u ⬝ᵥ A *ᵥ u) {u : ℕ → ι → ℝ} (hu : ∀ k, u k ∈ W)
    (h : Tendsto (fun k => u k ⬝ᵥ A *ᵥ u k) atTop (𝓝 0)) : Tendsto u atTop (𝓝 0) := by
  obtain ⟨c, hc, hb⟩ := form_bound W A hA
  rw [tendsto_zero_iff_norm_tendsto_zero]
  have h2 : Tendsto (fun k => ‖u k‖ ^ 2) atTop (𝓝 0) := by
    have := h.const_mul c⁻¹
    rw [mul_zero] at this
    refine squeeze_zero (fun k => by positivity) (fun k => ?_) this
    rw [inv_mul_eq_div, le_div_iff₀ hc, mul_comm]
    exact hb _ (hu k)
  have := h2.sqrt
  simpa [Real.sqrt_sq (norm_nonneg _)] using this

theorem form_norm {W : Submodule ℝ (ι → ℝ)} {A : Matrix ι ι ℝ} (hA : ∀ u ∈ W, u ≠ 0 → 0 < u ⬝ᵥ A *ᵥ u) {u : ℕ → ι → ℝ} (hu : ∀ k, u k ∈ W) {E : ℝ}
    (h : ∀ k, u k ⬝ᵥ A *ᵥ u k ≤ E) : ∃ b, ∀ k, ‖u k‖ ≤ b := by
  obtain ⟨c, hc, hb⟩ := form_bound W A hA
  refine ⟨Real.sqrt (E / c), fun k => Real.le_sqrt_of_sq_le ?_⟩
  rw [le_div_iff₀ hc, mul_comm]
  exact (hb _ (hu k)).trans (h k)

theorem form_nonneg {W : Submodule ℝ (ι → ℝ)} {A : Matrix ι ι ℝ} (hA : ∀ u ∈ W, u ≠ 0 → 0 < u ⬝ᵥ A *ᵥ u) {u : ι → ℝ} (hu : u ∈ W) : 0 ≤ u ⬝ᵥ A *ᵥ u := by
  by_cases h0 : u = 0
  · simp [h0]
  · exact (hA u hu h0).le

theorem sym_dot {A : Matrix ι ι ℝ} (hA : Aᵀ = A) (u w : ι → ℝ) : u ⬝ᵥ A *ᵥ w = w ⬝ᵥ A *ᵥ u := by
  rw [dotProduct_mulVec, ← mulVec_transpose, hA, dotProduct_comm]

/-- Losses of a quantity which stays nonnegative vanish. -/
theorem losses_vanish {E D : ℕ → ℝ} (hE : ∀ k, 0 ≤ E k) (hD : ∀ k, 0 ≤ D k) (h : ∀ k, E (k + 1) + D k ≤ E k) : Tendsto D atTop (𝓝 0) := by
  have hanti : Antitone E := antitone_nat_of_succ_le fun k => by linarith [h k, hD k]
  have hlim := tendsto_atTop_ciInf hanti ⟨0, by rintro _ ⟨k, rfl⟩; exact hE k⟩
  have hd : Tendsto (fun k => E k - E (k + 1)) atTop (𝓝 0) := by
    have := hlim.sub ((tendsto_add_atTop_iff_nat 1).2 hlim)
    simpa using this
  exact squeeze_zero hD (fun k => by linarith [h k]) hd

/-- Exact backward Euler steps of a damped or undamped linear scene. -/
theorem settle_implicit (W : Submodule ℝ (ι → ℝ)) {M C A : Matrix ι ι ℝ} (hM : Mᵀ = M) (hA : Aᵀ = A) (hM0 : ∀ u, 0 ≤ u ⬝ᵥ M *ᵥ u) (hC0 : ∀ u ∈ W, 0 ≤ u ⬝ᵥ C *ᵥ u)
    (hA0 : ∀ u ∈ W, u ≠ 0 → 0 < u ⬝ᵥ A *ᵥ u) {h : ℝ} (hh : 0 < h) {w v a : ℕ → ι → ℝ} (hw : ∀ k, w k ∈ W) (hv : ∀ k, v k ∈ W)
    (ev : ∀ k, v (k + 1) = v k + h • a k) (ew : ∀ k, w (k + 1) = w k + h • v (k + 1))
    (eb : ∀ k, ∀ u ∈ W, u ⬝ᵥ (M *ᵥ a k + C *ᵥ v (k + 1) + A *ᵥ w (k + 1)) = 0) : Tendsto w atTop (𝓝 0) ∧ Tendsto v atTop (𝓝 0) := by
  have hstep : ∀ k, (v (k + 1) ⬝ᵥ M *ᵥ v (k + 1) + w (k + 1) ⬝ᵥ A *ᵥ w (k + 1)) + h ^ 2 * (v (k + 1) ⬝ᵥ A *ᵥ v (k + 1)) ≤ v k ⬝ᵥ M *ᵥ v k + w k ⬝ᵥ A *ᵥ w k := by
    intro k
    have e1 : v k = v (k + 1) - h • a k := by rw [ev k]; simp
    have e2 : w k = w (k + 1) - h • v (k + 1) := by rw [ew k]; simp
    have b := eb k _ (hv (k + 1))
    simp only [dotProduct_add] at b
    rw [e1, e2]
    simp only [mulVec_sub, mulVec_smul, sub_dotProduct, dotProduct_sub, smul_dotProduct, dotProduct_smul, smul_eq_mul]
    rw [sym_dot hM (a k) (v (k + 1)), sym_dot hA (w (k + 1)) (v (k + 1))]
    have h1 := mul_nonneg (sq_nonneg h) (hM0 (a k))
    have h2 := mul_nonneg hh.le (hC0 _ (hv (k + 1)))
    nlinarith
  have hE : ∀ k, 0 ≤ v k ⬝ᵥ M *ᵥ v k + w k ⬝ᵥ A *ᵥ w k := fun k => add_nonneg (hM0 _) (form_nonneg hA0 (hw k))
  have hD := losses_vanish hE (fun k => mul_nonneg (sq_nonneg h) (form_nonneg hA0 (hv (k + 1)))) hstep
  have hAv : Tendsto (fun k => v (k + 1) ⬝ᵥ A *ᵥ v (k + 1)) atTop (𝓝 0) := by
    have := hD.const_mul ((h ^ 2)⁻¹)
    rw [mul_zero] at this
    refine this.congr fun k => ?_
    rw [← mul_assoc, inv_mul_cancel₀ (by positivity), one_mul]
  have hv1 : Tendsto (fun k => v (k + 1)) atTop (𝓝 0) := form_zero hA0 (fun k => hv (k + 1)) hAv
  have hv0 : Tendsto v atTop (𝓝 0) := (tendsto_add_atTop_iff_nat 1).1 hv1
  have ha : Tendsto a atTop (𝓝 0) := by
    have := (hv1.sub hv0).const_smul h⁻¹
    rw [sub_zero, smul_zero] at this
    refine this.congr fun k => ?_
    rw [ev k, add_sub_cancel_left, smul_smul, inv_mul_cancel₀ hh.ne', one_smul]
  have hEb : ∀ k, v k ⬝ᵥ M *ᵥ v k + w k ⬝ᵥ A *ᵥ w k ≤ v 0 ⬝ᵥ M *ᵥ v 0 + w 0 ⬝ᵥ A *ᵥ w 0 := by
    intro k
    induction k with
    | zero => exact le_rfl
    | succ k ih => linarith [hstep k, mul_nonneg (sq_nonneg h) (form_nonneg hA0 (hv (k + 1)))]
  obtain ⟨b, hb⟩ := form_norm hA0 hw fun k => (by linarith [hEb k, hM0 (v k)] : w k ⬝ᵥ A *ᵥ w k ≤ v 0 ⬝ᵥ M *ᵥ v 0 + w 0 ⬝ᵥ A *ᵥ w 0)
  have hr : Tendsto (fun k => M *ᵥ a k + C *ᵥ v (k + 1)) atTop (𝓝 0) := by
    have := (mulVec_tendsto M ha).add (mulVec_tendsto C hv1)
    simpa using this
  have hwA : Tendsto (fun k => w (k + 1) ⬝ᵥ A *ᵥ w (k + 1)) atTop (𝓝 0) := by
    have := (dot_tendsto (u := fun k => w (k + 1)) (fun k => hb (k + 1)) hr).neg
    rw [neg_zero] at this
    refine this.congr fun k => ?_
    have := eb k _ (hw (k + 1))
    rw [dotProduct_add] at this
    linarith
  exact ⟨(tendsto_add_atTop_iff_nat 1).1 (form_zero hA0 (fun k => hw (k + 1)) hwA), hv0⟩

/-- The quantity which one iteration per time step keeps. -/
noncomputable def steppedEnergy (M C A : Matrix ι ι ℝ) (h : ℝ) (w v : ι → ℝ) : ℝ :=
  v ⬝ᵥ M *ᵥ v + h ^ 2 * (v ⬝ᵥ A *ᵥ v) + w ⬝ᵥ A *ᵥ w - h * (w ⬝ᵥ A *ᵥ v) + h / 2 * (v ⬝ᵥ C *ᵥ v)

/-- It controls the displacement and the velocity. -/
theorem stepped_bound {W : Submodule ℝ (ι → ℝ)} {M C A : Matrix ι ι ℝ} (hA : Aᵀ = A) (hM0 : ∀ u, 0 ≤ u ⬝ᵥ M *ᵥ u) (hC0 : ∀ u ∈ W, 0 ≤ u ⬝ᵥ C *ᵥ u)
    (hA0 : ∀ u ∈ W, u ≠ 0 → 0 < u ⬝ᵥ A *ᵥ u) {h : ℝ} (hh : 0 < h) {w v : ι → ℝ} (hw : w ∈ W) (hv : v ∈ W) :
    1 / 2 * (w ⬝ᵥ A *ᵥ w) + h ^ 2 / 2 * (v ⬝ᵥ A *ᵥ v) ≤ steppedEnergy M C A h w v := by
  have h1 := form_nonneg hA0 (W.sub_mem hw (W.smul_mem h hv))
  simp only [mulVec_sub, mulVec_smul, sub_dotProduct, dotProduct_sub, smul_dotProduct, dotProduct_smul, smul_eq_mul] at h1
  rw [sym_dot hA v w] at h1
  have h2 := hM0 v
  have h3 := mul_nonneg (half_pos hh).le (hC0 v hv)
  unfold steppedEnergy
  nlinarith

theorem stepped_loss {W : Submodule ℝ (ι → ℝ)} {M C A : Matrix ι ι ℝ} (hM : Mᵀ = M) (hC : Cᵀ = C) (hA : Aᵀ = A) {h : ℝ} {w v w' v' a : ι → ℝ} (hv : v ∈ W) (hv' : v' ∈ W)
    (ev : v' = v + h • a) (ew : w' = w + h • v') (eb : ∀ u ∈ W, u ⬝ᵥ (M *ᵥ a + h ^ 2 • A *ᵥ a + C *ᵥ v' + A *ᵥ w) = 0) :
    steppedEnergy M C A h w' v' + h / 2 * ((v' + v) ⬝ᵥ C *ᵥ (v' + v)) = steppedEnergy M C A h w v := by
  have b := eb _ (W.add_mem hv' hv)
  have hva : v = v' - h • a := by rw [ev]; simp
  subst hva
  subst ew
  unfold steppedEnergy
  simp only [dotProduct_add, add_dotProduct, mulVec_add, mulVec_sub, mulVec_smul, sub_dotProduct, dotProduct_sub, smul_dotProduct, dotProduct_smul, smul_eq_mul] at b ⊢
  rw [sym_dot hM a v', sym_dot hA a v', sym_dot hA w v', sym_dot hA w a, sym_dot hC a v'] at *
  linear_combination h * b

/-- One iteration per time step, with damping. -/
theorem settle_stepped (W : Submodule ℝ (ι → ℝ)) {M C A : Matrix ι ι ℝ} (hM : Mᵀ = M) (hC : Cᵀ = C) (hA : Aᵀ = A) (hM0 : ∀ u, 0 ≤ u ⬝ᵥ M *ᵥ u) 
    (hC0 : ∀ u ∈ W, u ≠ 0 → 0 < u ⬝ᵥ C *ᵥ u) (hA0 : ∀ u ∈ W, u ≠ 0 → 0 < u ⬝ᵥ A *ᵥ u) {h : ℝ} (hh : 0 < h) {w v a : ℕ → ι → ℝ} (hw : ∀ k, w k ∈ W) (hv : ∀ k, v k ∈ W)
    (ev : ∀ k, v (k + 1) = v k + h • a k) (ew : ∀ k, w (k + 1) = w k + h • v (k + 1))
    (eb : ∀ k, ∀ u ∈ W, u ⬝ᵥ (M *ᵥ a k + h ^ 2 • A *ᵥ a k + C *ᵥ v (k + 1) + A *ᵥ w k) = 0) : Tendsto w atTop (𝓝 0) ∧ Tendsto v atTop (𝓝 0) := by
  have hstep : ∀ k, steppedEnergy M C A h (w (k + 1)) (v (k + 1)) + h / 2 * ((v (k + 1) + v k) ⬝ᵥ C *ᵥ (v (k + 1) + v k)) = steppedEnergy M C A h (w k) (v k) :=
    fun k => stepped_loss hM hC hA (hv k) (hv (k + 1)) (ev k) (ew k) (eb k)
  have hlow : ∀ k, 1 / 2 * (w k ⬝ᵥ A *ᵥ w k) + h ^ 2 / 2 * (v k ⬝ᵥ A *ᵥ v k) ≤ steppedEnergy M C A h (w k) (v k) := fun k => stepped_bound hA hM0 (fun u hu => form_nonneg hC0 hu) hA0 hh (hw k) (hv k)
  have hE : ∀ k, 0 ≤ steppedEnergy M C A h (w k) (v k) := fun k => by
    have h1 := form_nonneg hA0 (hw k)
    have h2 := form_nonneg hA0 (hv k)
    have := hlow k
    have : 0 ≤ h ^ 2 / 2 * (v k ⬝ᵥ A *ᵥ v k) := by positivity
    linarith
  have hDp : ∀ k, 0 ≤ h / 2 * ((v (k + 1) + v k) ⬝ᵥ C *ᵥ (v (k + 1) + v k)) := fun k => mul_nonneg (half_pos hh).le (form_nonneg hC0 (W.add_mem (hv _) (hv _)))
  have hEb : ∀ k, steppedEnergy M C A h (w k) (v k) ≤ steppedEnergy M C A h (w 0) (v 0) := by
    intro k
    induction k with
    | zero => exact le_rfl
    | succ k ih => linarith [hstep k, hDp k]
  obtain ⟨bw, hbw⟩ := form_norm hA0 hw (E := 2 * steppedEnergy M C A h (w 0) (v 0)) fun k => by
    have : 0 ≤ h ^ 2 / 2 * (v k ⬝ᵥ A *ᵥ v k) := mul_nonneg (by positivity) (form_nonneg hA0 (hv k))
    linarith [hlow k, hEb k]
  obtain ⟨bv, hbv⟩ := form_norm hA0 hv (E := 2 / h ^ 2 * steppedEnergy M C A h (w 0) (v 0)) fun k => by
    have h1 := form_nonneg hA0 (hw k)
    have h2 : h ^ 2 / 2 * (v k ⬝ᵥ A *ᵥ v k) ≤ steppedEnergy M C A h (w 0) (v 0) := by linarith [hlow k, hEb k]
    have h3 := mul_le_mul_of_nonneg_left h2 (by positivity : (0 : ℝ) ≤ 2 / h ^ 2)
    refine le_trans (le_of_eq ?_) h3
    field_simp
  have hD := losses_vanish hE hDp fun k => (hstep k).le
  have hs : Tendsto (fun k => v (k + 1) + v k) atTop (𝓝 0) := by
    refine form_zero hC0 (fun k => W.add_mem (hv (k + 1)) (hv k)) ?_
    have := hD.const_mul (2 / h)
    rw [mul_zero] at this
    refine this.congr fun k => ?_
    field_simp
  have hs' : Tendsto (fun k => v (k + 1 + 1) + v (k + 1)) atTop (𝓝 0) := (tendsto_add_atTop_iff_nat 1).2 hs
  have hkey : ∀ k, v (k + 1) ⬝ᵥ A *ᵥ v (k + 1) ≤ 1 / (3 * h ^ 2) * (v (k + 1) ⬝ᵥ (M *ᵥ ((v (k + 1 + 1) + v (k + 1)) + (v (k + 1) + v k)) +
      h ^ 2 • A *ᵥ ((v (k + 1 + 1) + v (k + 1)) + (v (k + 1) + v k)) + h • C *ᵥ (v (k + 1 + 1) + v (k + 1)))) := by
    intro k
    have b1 := eb k _ (hv (k + 1))
    have b2 := eb (k + 1) _ (hv (k + 1))
    have e1 : h • a k = v (k + 1) - v k := by rw [ev k]; simp
    have e2 : h • a (k + 1) = v (k + 1 + 1) - v (k + 1) := by rw [ev (k + 1)]; simp
    have c1 : ∀ B : Matrix ι ι ℝ, h * (v (k + 1) ⬝ᵥ B *ᵥ a k) = v (k + 1) ⬝ᵥ B *ᵥ v (k + 1) - v (k + 1) ⬝ᵥ B *ᵥ v k := by
      intro B
      rw [← smul_eq_mul, ← dotProduct_smul, ← mulVec_smul, e1, mulVec_sub, dotProduct_sub]
    have c2 : ∀ B : Matrix ι ι ℝ, h * (v (k + 1) ⬝ᵥ B *ᵥ a (k + 1)) = v (k + 1) ⬝ᵥ B *ᵥ v (k + 1 + 1) - v (k + 1) ⬝ᵥ B *ᵥ v (k + 1) := by
      intro B
      rw [← smul_eq_mul, ← dotProduct_smul, ← mulVec_smul, e2, mulVec_sub, dotProduct_sub]
    rw [ew k] at b2
    simp only [dotProduct_add, mulVec_add, mulVec_smul, dotProduct_smul, smul_eq_mul] at b1 b2 ⊢
    have m1 := c1 M
    have m2 := c2 M
    have a1 := c1 A
    have a2 := c2 A
    have q1 := hM0 (v (k + 1))
    have q2 := mul_nonneg hh.le (form_nonneg hC0 (hv (k + 1)))
    rw [one_div, inv_mul_eq_div, le_div_iff₀ (by positivity)]
    have i1 : h * (v (k + 1) ⬝ᵥ M *ᵥ a k + h ^ 2 * (v (k + 1) ⬝ᵥ A *ᵥ a k) + v (k + 1) ⬝ᵥ C *ᵥ v (k + 1) + v (k + 1) ⬝ᵥ A *ᵥ w k) = 0 := by rw [b1, mul_zero]
    have i2 : h * (v (k + 1) ⬝ᵥ M *ᵥ a (k + 1) + h ^ 2 * (v (k + 1) ⬝ᵥ A *ᵥ a (k + 1)) + v (k + 1) ⬝ᵥ C *ᵥ v (k + 1 + 1) +
      (v (k + 1) ⬝ᵥ A *ᵥ w k + h * (v (k + 1) ⬝ᵥ A *ᵥ v (k + 1)))) = 0 := by rw [b2, mul_zero]
    have j1 : h * (h ^ 2 * (v (k + 1) ⬝ᵥ A *ᵥ a k)) = h ^ 2 * (v (k + 1) ⬝ᵥ A *ᵥ v (k + 1) - v (k + 1) ⬝ᵥ A *ᵥ v k) := by rw [← a1]; ring
    have j2 : h * (h ^ 2 * (v (k + 1) ⬝ᵥ A *ᵥ a (k + 1))) = h ^ 2 * (v (k + 1) ⬝ᵥ A *ᵥ v (k + 1 + 1) - v (k + 1) ⬝ᵥ A *ᵥ v (k + 1)) := by rw [← a2]; ring
    nlinarith
  have hv1 : Tendsto (fun k => v (k + 1)) atTop (𝓝 0) := by
    refine form_zero hA0 (fun k => hv (k + 1)) (squeeze_zero (fun k => form_nonneg hA0 (hv (k + 1))) hkey ?_)
    have hsum := hs'.add hs
    rw [add_zero] at hsum
    have h1 := (mulVec_tendsto M hsum).add ((mulVec_tendsto A hsum).const_smul (h ^ 2))
    have h2 := h1.add ((mulVec_tendsto C hs').const_smul h)
    simp only [mulVec_zero, smul_zero, add_zero] at h2
    have := (dot_tendsto (u := fun k => v (k + 1)) (fun k => hbv (k + 1)) h2).const_mul (1 / (3 * h ^ 2))
    simpa using this
  have hv0 : Tendsto v atTop (𝓝 0) := (tendsto_add_atTop_iff_nat 1).1 hv1
  have ha : Tendsto a atTop (𝓝 0) := by
    have := (hv1.sub hv0).const_smul h⁻¹
    rw [sub_zero, smul_zero] at this
    refine this.congr fun k => ?_
    rw [ev k, add_sub_cancel_left, smul_smul, inv_mul_cancel₀ hh.ne', one_smul]
  have hr : Tendsto (fun k => M *ᵥ a k + h ^ 2 • A *ᵥ a k + C *ᵥ v (k + 1)) atTop (𝓝 0) := by
    have := ((mulVec_tendsto M ha).add ((mulVec_tendsto A ha).const_smul (h ^ 2))).add (mulVec_tendsto C hv1)
    simpa using this
  have hwA : Tendsto (fun k => w k ⬝ᵥ A *ᵥ w k) atTop (𝓝 0) := by
    have := (dot_tendsto hbw hr).neg
    rw [neg_zero] at this
    refine this.congr fun k => ?_
    have := eb k _ (hw k)
    rw [dotProduct_add] at this
    linarith
  exact ⟨form_zero hA0 hw hwA, hv0⟩

/-- The system of a time step on the subspace of the held displacements: an acceleration which balances `r`. -/
theorem form_solve (W : Submodule ℝ (ι → ℝ)) {T : Matrix ι ι ℝ} (hT : ∀ u ∈ W, u ≠ 0 → 0 < u ⬝ᵥ T *ᵥ u) (r : ι → ℝ) : ∃ a ∈ W, ∀ u ∈ W, u ⬝ᵥ (T *ᵥ a + r) = 0 := by
  let L : W →ₗ[ℝ] Module.Dual ℝ W :=
    { toFun := fun a => { toFun := fun u => (u : ι → ℝ) ⬝ᵥ T *ᵥ (a : ι → ℝ), map_add' := fun u v => by simp [add_dotProduct], map_smul' := fun c u => by simp [smul_dotProduct] }
      map_add' := fun a b => by ext u; simp [mulVec_add, dotProduct_add]
      map_smul' := fun c a => by ext u; simp [mulVec_smul, dotProduct_smul] }
  have hL : ∀ a u : W, L a u = (u : ι → ℝ) ⬝ᵥ T *ᵥ (a : ι → ℝ) := fun _ _ => rfl
  have hinj : Function.Injective L := by
    rw [← LinearMap.ker_eq_bot, LinearMap.ker_eq_bot']
    intro a ha
    by_contra h0
    have h1 := hT a a.2 (fun h => h0 (Subtype.ext h))
    have h2 := hL a a
    rw [ha] at h2
    simp at h2
    linarith
  have hsurj := (LinearMap.injective_iff_surjective_of_finrank_eq_finrank (Subspace.dual_finrank_eq (K := ℝ) (V := W)).symm).1 hinj
  obtain ⟨a, ha⟩ := hsurj { toFun := fun u => -((u : ι → ℝ) ⬝ᵥ r), map_add' := fun u v => by simp [add_dotProduct]; ring, map_smul' := fun c u => by simp [smul_dotProduct] }
  refine ⟨a, a.2, fun u hu => ?_⟩
  have := congrArg (fun l : Module.Dual ℝ W => l ⟨u, hu⟩) ha
  simp only [hL] at this
  rw [dotProduct_add, this]
  simp

theorem form_unique {W : Submodule ℝ (ι → ℝ)} {T : Matrix ι ι ℝ} (hT : ∀ u ∈ W, u ≠ 0 → 0 < u ⬝ᵥ T *ᵥ u) {r a b : ι → ℝ} (ha : a ∈ W) (hb : b ∈ W)
    (ea : ∀ u ∈ W, u ⬝ᵥ (T *ᵥ a + r) = 0) (eb : ∀ u ∈ W, u ⬝ᵥ (T *ᵥ b + r) = 0) : a = b := by
  by_contra hne
  have h1 := hT _ (W.sub_mem ha hb) (sub_ne_zero.2 hne)
  have h2 := ea _ (W.sub_mem ha hb)
  have h3 := eb _ (W.sub_mem ha hb)
  rw [dotProduct_add] at h2 h3
  rw [mulVec_sub, dotProduct_sub] at h1
  linarith

/-- One time step of a linear scene in terms of the distance `w` to the static solution: the acceleration `a` balances the system of the step.  `θ` is 1 for the backward Euler scheme, 0 for one iteration. -/
structure LinearStep (W : Submodule ℝ (ι → ℝ)) (M C A : Matrix ι ι ℝ) (h θ : ℝ) (w v w' v' a : ι → ℝ) : Prop where
  mem : a ∈ W
  velocity : v' = v + h • a
  position : w' = w + h • v'
  balance : ∀ u ∈ W, u ⬝ᵥ ((M + h • C + h ^ 2 • A) *ᵥ a + (C *ᵥ v + A *ᵥ w + (θ * h) • A *ᵥ v)) = 0

theorem LinearStep.implicit {W : Submodule ℝ (ι → ℝ)} {M C A : Matrix ι ι ℝ} {h : ℝ} {w v w' v' a : ι → ℝ} (s : LinearStep W M C A h 1 w v w' v' a) :
    ∀ u ∈ W, u ⬝ᵥ (M *ᵥ a + C *ᵥ v' + A *ᵥ w') = 0 := by
  intro u hu
  have := s.balance u hu
  rw [s.position, s.velocity]
  simp only [add_mulVec, smul_mulVec, mulVec_add, mulVec_smul, dotProduct_add, dotProduct_smul, smul_eq_mul] at this ⊢
  linear_combination this

theorem LinearStep.stepped {W : Submodule ℝ (ι → ℝ)} {M C A : Matrix ι ι ℝ} {h : ℝ} {w v w' v' a : ι → ℝ} (s : LinearStep W M C A h 0 w v w' v' a) :
    ∀ u ∈ W, u ⬝ᵥ (M *ᵥ a + h ^ 2 • A *ᵥ a + C *ᵥ v' + A *ᵥ w) = 0 := by
  intro u hu
  have := s.balance u hu
  rw [s.velocity]
  simp only [add_mulVec, smul_mulVec, mulVec_add, mulVec_smul, dotProduct_add, dotProduct_smul, smul_eq_mul] at this ⊢
  linear_combination this

theorem step_form {W : Submodule ℝ (ι → ℝ)} {M C A : Matrix ι ι ℝ} (hM0 : ∀ u, 0 ≤ u ⬝ᵥ M *ᵥ u) (hC0 : ∀ u ∈ W, 0 ≤ u ⬝ᵥ C *ᵥ u)
    (hA0 : ∀ u ∈ W, u ≠ 0 → 0 < u ⬝ᵥ A *ᵥ u) {h : ℝ} (hh : 0 < h) : ∀ u ∈ W, u ≠ 0 → 0 < u ⬝ᵥ (M + h • C + h ^ 2 • A) *ᵥ u := by
  intro u hu h0
  have h1 := hM0 u
  have h2 := mul_nonneg hh.le (hC0 u hu)
  have h3 := mul_pos (pow_pos hh 2) (hA0 u hu h0)
  simp only [add_mulVec, smul_mulVec, dotProduct_add, dotProduct_smul, smul_eq_mul]
  linarith

/-- The steps from given positions and velocities, and any others agree with them for as long as they are such steps. -/
theorem linear_steps (W : Submodule ℝ (ι → ℝ)) {M C A : Matrix ι ι ℝ} (hM0 : ∀ u, 0 ≤ u ⬝ᵥ M *ᵥ u) (hC0 : ∀ u ∈ W, 0 ≤ u ⬝ᵥ C *ᵥ u)
    (hA0 : ∀ u ∈ W, u ≠ 0 → 0 < u ⬝ᵥ A *ᵥ u) {h : ℝ} (hh : 0 < h) (θ : ℝ) {w0 v0 : ι → ℝ} (hw0 : w0 ∈ W) (hv0 : v0 ∈ W) :
    ∃ w v a : ℕ → ι → ℝ, (∀ k, w k ∈ W) ∧ (∀ k, v k ∈ W) ∧ (∀ k, LinearStep W M C A h θ (w k) (v k) (w (k + 1)) (v (k + 1)) (a k)) ∧
      ∀ (y z : ℕ → ι → ℝ), y 0 = w0 → z 0 = v0 → ∀ k, (∀ j < k, ∃ b, LinearStep W M C A h θ (y j) (z j) (y (j + 1)) (z (j + 1)) b) → y k = w k ∧ z k = v k := by
  have hT := step_form hM0 hC0 hA0 hh
  choose f hf hfb using fun s : (ι → ℝ) × (ι → ℝ) => form_solve W hT (C *ᵥ s.2 + A *ᵥ s.1 + (θ * h) • A *ᵥ s.2)
  let st : ℕ → (ι → ℝ) × (ι → ℝ) := fun k => Nat.rec (w0, v0) (fun _ s => (s.1 + h • (s.2 + h • f s), s.2 + h • f s)) k
  have hs : ∀ k, st (k + 1) = ((st k).1 + h • ((st k).2 + h • f (st k)), (st k).2 + h • f (st k)) := fun _ => rfl
  have hmem : ∀ k, (st k).1 ∈ W ∧ (st k).2 ∈ W := by
    intro k
    induction k with
    | zero => exact ⟨hw0, hv0⟩
    | succ k ih =>
      have hv' := W.add_mem ih.2 (W.smul_mem h (hf (st k)))
      rw [hs]
      exact ⟨W.add_mem ih.1 (W.smul_mem h hv'), hv'⟩
  refine ⟨fun k => (st k).1, fun k => (st k).2, fun k => f (st k), fun k => (hmem k).1, fun k => (hmem k).2, fun k => ⟨hf _, rfl, rfl, hfb _⟩, ?_⟩
  intro y z hy hz k
  induction k with
  | zero => intro _; exact ⟨hy, hz⟩
  | succ k ih =>
    intro hj
    obtain ⟨e1, e2⟩ := ih fun j hjk => hj j (by omega)
    obtain ⟨b, hb⟩ := hj k (by omega)
    have hbb := hb.balance
    rw [e1, e2] at hbb
    have : b = f (st k) := form_unique hT hb.mem (hf _) hbb (hfb (st k))
    have hv := hb.velocity
    have hw := hb.position
    rw [hv, e1, e2, this] at hw
    rw [e2, this] at hv
    simp only [hs]
    exact ⟨hw, hv⟩

end Caribou

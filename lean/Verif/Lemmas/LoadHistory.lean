import Verif.Spec.LoadHistory
import Verif.Props.SmallLoads

set_option autoImplicit false
set_option linter.all false

namespace Caribou

open Spec Matrix

variable {ι κ : Type*} [Fintype ι] [Fintype κ] [DecidableEq ι]

/-- A static solve which made no iteration did not move anything. -/
theorem static_unmoved (n : NewtonParams ℝ) (S : StaticScene ℝ ι κ) (solver : Matrix ι ι ℝ → (ι → ℝ) → Option (ι → ℝ)) (c : NewtonState ℝ) (x : ι → ℝ)
    (h : (staticSolve n S solver c x).1.residuals.length = 0) : (staticSolve n S solver c x).2.x = x := by
  have hcheck : ∀ (t : NewtonLoop (StaticWorld ℝ ι κ) (ι → ℝ) ℝ) dx, (newtonCheck n (staticEnv S solver) t dx).residuals ≠ [] := by
    intro t dx
    unfold newtonCheck
    simp only
    split_ifs <;> simp
  have hit : ∀ s : NewtonLoop (StaticWorld ℝ ι κ) (ι → ℝ) ℝ, (s.residuals = [] → s.world.x = x) → (newtonIteration n (staticEnv S solver) s).residuals = [] →
      (newtonIteration n (staticEnv S solver) s).world.x = x := by
    intro s hs
    have ha : (newtonAssemble n (staticEnv S solver) s).residuals = s.residuals ∧ (newtonAssemble n (staticEnv S solver) s).world.x = s.world.x := by
      unfold newtonAssemble
      simp only
      split_ifs <;> exact ⟨rfl, rfl⟩
    unfold newtonIteration
    simp only
    generalize newtonAssemble n (staticEnv S solver) s = t at ha
    split_ifs with hd
    · rw [ha.1, ha.2]; exact hs
    · have hf : ((staticEnv S solver).factorize t.world) = (t.world, true) := rfl
      unfold newtonCorrect
      simp only [hf, if_true]
      have hsol : (staticEnv S solver).solve t.world t.F = (t.world, solver t.world.A t.F) := rfl
      rw [hsol]
      rcases solver t.world.A t.F with _ | u
      · simp only
        rw [ha.1, ha.2]
        exact hs
      · simp only
        split_ifs
        · exact fun h => absurd h (hcheck _ _)
        · exact fun h => absurd h (hcheck _ _)
  have hloop : ∀ (fuel : ℕ) (s : NewtonLoop (StaticWorld ℝ ι κ) (ι → ℝ) ℝ), (s.residuals = [] → s.world.x = x) → (newtonLoop n (staticEnv S solver) fuel s).residuals = [] →
      (newtonLoop n (staticEnv S solver) fuel s).world.x = x := by
    intro fuel
    induction fuel with
    | zero => intro s hs; exact hs
    | succ fuel ih =>
      intro s hs
      unfold newtonLoop
      split_ifs with hc
      · exact hs
      · simp only
        split_ifs
        · exact hit s hs
        · exact ih _ (hit s hs)
  unfold staticSolve newtonSolve at h ⊢
  simp only [Bool.not_true, Bool.false_eq_true, if_false] at h ⊢
  exact hloop _ _ (fun _ => rfl) (List.length_eq_zero_iff.1 h)

/-- Near a regular equilibrium the equilibrium depends on the load in a Lipschitz way. -/
theorem equilibrium_lipschitz (S : StaticScene ℝ ι κ) (z₀ : ι → ℝ) (ρ l : ℝ) (hρ : 0 < ρ) (hl : 0 ≤ l) (h : RegularEquilibrium S z₀ ρ l) :
    ∃ c r : ℝ, 0 < c ∧ 0 < r ∧ ∀ f g y z, ‖y - z₀‖ ≤ r → ‖z - z₀‖ ≤ r → HeldEquilibrium (withLoad S f) z₀ y → HeldEquilibrium (withLoad S g) z₀ z → ‖y - z‖ ≤ c * ‖f - g‖ := by
  have hst := held_strict S z₀ ρ l hρ hl h
  obtain ⟨k, hk0, hk⟩ := (LinearMap.toContinuousLinearMap (heldLin S z₀)).toLinearMap.exists_antilipschitzWith (LinearMap.ker_eq_bot.2 (held_injective S z₀ ρ l h))
  have hk' : ∀ u, ‖u‖ ≤ k * ‖heldLin S z₀ u‖ := fun u => hk.le_mul_norm (map_zero _) u
  have hk0' : (0 : ℝ) < k := hk0
  have hsmall := hst.isLittleO.def (show (0 : ℝ) < 1 / (2 * k) by positivity)
  rw [Metric.eventually_nhds_iff] at hsmall
  obtain ⟨ε, hε, hball⟩ := hsmall
  refine ⟨2 * k, ε / 2, by positivity, by positivity, fun f g y z hy hz hfy hgz => ?_⟩
  have hb := @hball (y, z) (by
    rw [Prod.dist_eq, dist_eq_norm, dist_eq_norm]
    exact lt_of_le_of_lt (max_le hy hz) (by linarith))
  simp only at hb
  have hdiff : ‖heldMap S y - heldMap S z‖ ≤ ‖f - g‖ := by
    refine (pi_norm_le_iff_of_nonneg (norm_nonneg _)).2 fun i => ?_
    by_cases hi : S.fixed i = true
    · have e1 := hfy.2 i hi
      have e2 := hgz.2 i hi
      simp [heldMap, hi, e1, e2]
    · have e1 := hfy.1 i (by simpa [withLoad] using hi)
      have e2 := hgz.1 i (by simpa [withLoad] using hi)
      simp only [withLoad] at e1 e2
      have e3 := norm_le_pi_norm (f - g) i
      simp only [Pi.sub_apply, heldMap, hi, totalForce]
      rw [if_neg Bool.false_ne_true, if_neg Bool.false_ne_true]
      have e4 : (S.force y i + ∑ k, S.J k i * S.mappedForce (S.map y) k) - (S.force z i + ∑ k, S.J k i * S.mappedForce (S.map z) k) = -((f - g) i) := by
        rw [Pi.sub_apply]; linarith
      rw [e4, norm_neg]
      exact e3
  have h1 := hk' (y - z)
  have h2 : ‖heldLin S z₀ (y - z)‖ ≤ ‖heldMap S y - heldMap S z‖ + 1 / (2 * k) * ‖y - z‖ := by
    have e : heldLin S z₀ (y - z) = (heldMap S y - heldMap S z) - (heldMap S y - heldMap S z - LinearMap.toContinuousLinearMap (heldLin S z₀) (y - z)) := by
      rw [sub_sub_cancel]; rfl
    rw [e]
    exact (norm_sub_le _ _).trans (add_le_add le_rfl hb)
  have h3 : ‖y - z‖ ≤ k * (‖f - g‖ + 1 / (2 * k) * ‖y - z‖) := h1.trans (mul_le_mul_of_nonneg_left (h2.trans (add_le_add hdiff le_rfl)) hk0'.le)
  have h4 : (k : ℝ) * (1 / (2 * k) * ‖y - z‖) = ‖y - z‖ / 2 := by field_simp
  rw [mul_add, h4] at h3
  linarith

end Caribou

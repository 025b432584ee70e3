import Verif.Lemmas.Motion
import Mathlib.Analysis.SpecialFunctions.Trigonometric.Deriv

/-!
# C125: the motion computed by time steps
-/

set_option autoImplicit false
set_option linter.all false

namespace Caribou

open Spec Matrix

variable {ι : Type*} [Fintype ι]

set_option maxHeartbeats 1600000 in
/-- **C125 (partial).** Time steps of the backward Euler solver, whatever number of Newton iterations each of them makes: as long as none of them is skipped, the positions and
velocities differ from those of the true motion by at most a constant times the time step.  Missing: the steps at the beginning of which the forces are within
the absolute threshold (`C125_violated`). -/
theorem C125_converges_partial [DecidableEq ι] (rm rk : ℝ) (S : BEScene ℝ ι) (hM : IsUnit S.M) (T : ℝ) (hT : 0 ≤ T) (q q' q'' : ℝ → ι → ℝ)
    (hq : IsMotion rm rk S T q q' q'') (ρ φ κ δ : ℝ) (hρ : 0 < ρ) (hκ : 0 ≤ κ) (hδ : 0 ≤ δ) (ht : TameNear rm rk S T q ρ φ κ δ) :
    ∃ C h₀ : ℝ, 0 < h₀ ∧ ∀ h : ℝ, 0 < h → h ≤ h₀ → ∀ (n : NewtonParams ℝ), 1 ≤ n.iterations → ∀ solver, SolvesAll solver → ∀ (c : NewtonState ℝ) (k : ℕ), k * h ≤ T →
      (∀ j < k, ¬Skipped n ⟨h, rm, rk⟩ S (afterSteps n ⟨h, rm, rk⟩ S solver c (q 0) (q' 0) j).2.1 (afterSteps n ⟨h, rm, rk⟩ S solver c (q 0) (q' 0) j).2.2) →
      ‖(afterSteps n ⟨h, rm, rk⟩ S solver c (q 0) (q' 0) k).2.1 - q (k * h)‖ + ‖(afterSteps n ⟨h, rm, rk⟩ S solver c (q 0) (q' 0) k).2.2 - q' (k * h)‖ ≤ C * h := by
  -- the constants
  obtain ⟨μ, hμ, hmass⟩ := inverse_bound hM
  obtain ⟨m, hm0, hm⟩ := mulVec_bound S.M
  obtain ⟨b, hb0, hb⟩ := mulVec_bound S.B
  obtain ⟨P, hP⟩ := isCompact_Icc.exists_bound_of_continuousOn (s := Set.Icc (0 : ℝ) T) (f := q') fun t h => (hq.acceleration t h).continuousAt.continuousWithinAt
  have h0T : (0 : ℝ) ∈ Set.Icc (0 : ℝ) T := ⟨le_rfl, hT⟩
  have hP0 : 0 ≤ P := (norm_nonneg _).trans (hP 0 h0T)
  have hφ0 : 0 ≤ φ := (norm_nonneg _).trans (ht.bound 0 h0T (q 0) (by simp [hρ.le]))
  obtain ⟨d, hd⟩ : ∃ y : ℝ, y = b + |rm| * m + |rk| * κ := ⟨_, rfl⟩
  have hd0 : 0 ≤ d := by rw [hd]; positivity
  have hdamp : ∀ t ∈ Set.Icc 0 T, ∀ x, ‖x - q t‖ ≤ ρ → ∀ u, ‖damping ⟨0, rm, rk⟩ S x *ᵥ u‖ ≤ d * ‖u‖ := by
    intro t htt x hx u
    have e : damping ⟨0, rm, rk⟩ S x *ᵥ u = S.B *ᵥ u + rm • S.M *ᵥ u - rk • S.stiff x *ᵥ u := by
      simp only [damping, add_mulVec, sub_mulVec, smul_mulVec]
    rw [e]
    have k1 : ‖rm • S.M *ᵥ u‖ ≤ |rm| * (m * ‖u‖) := by
      rw [norm_smul, Real.norm_eq_abs]
      exact mul_le_mul_of_nonneg_left (hm u) (abs_nonneg _)
    have k2 : ‖rk • S.stiff x *ᵥ u‖ ≤ |rk| * (κ * ‖u‖) := by
      rw [norm_smul, Real.norm_eq_abs]
      exact mul_le_mul_of_nonneg_left (ht.stiff t htt x hx u) (abs_nonneg _)
    refine (norm_sub_le _ _).trans ((add_le_add ((norm_add_le _ _).trans (add_le_add (hb u) k1)) k2).trans (le_of_eq ?_))
    rw [hd]
    ring
  obtain ⟨A, hA⟩ : ∃ y : ℝ, y = μ * (φ + d * P) := ⟨_, rfl⟩
  have hA0 : 0 ≤ A := by rw [hA]; positivity
  have hself : ∀ t, ‖q t - q t‖ ≤ ρ := fun t => by simp [hρ.le]
  have hacc : ∀ t ∈ Set.Icc 0 T, ‖q'' t‖ ≤ A := by
    intro t htt
    rw [hA]
    refine (hmass _).trans (mul_le_mul_of_nonneg_left ?_ hμ.le)
    rw [hq.balance t htt]
    exact (norm_sub_le _ _).trans (add_le_add (ht.bound t htt _ (hself t)) ((hdamp t htt _ (hself t) _).trans (mul_le_mul_of_nonneg_left (hP t htt) hd0)))
  have hqL : ∀ s ∈ Set.Icc 0 T, ∀ t ∈ Set.Icc 0 T, ‖q t - q s‖ ≤ P * |t - s| := fun s hs t htt => lipschitz_of_deriv hq.velocity hP hs htt
  have hvL : ∀ s ∈ Set.Icc 0 T, ∀ t ∈ Set.Icc 0 T, ‖q' t - q' s‖ ≤ A * |t - s| := fun s hs t htt => lipschitz_of_deriv hq.acceleration hacc hs htt
  obtain ⟨A2, hA2⟩ : ∃ y : ℝ, y = μ * (κ * P + d * A + δ * P * P) := ⟨_, rfl⟩
  have hA20 : 0 ≤ A2 := by rw [hA2]; positivity
  have haL : ∀ s ∈ Set.Icc 0 T, ∀ t ∈ Set.Icc 0 T, P * |s - t| ≤ ρ → ‖q'' s - q'' t‖ ≤ A2 * |s - t| := by
    intro s hs t htt hst
    have hsn : ‖q s - q t‖ ≤ ρ := (hqL t htt s hs).trans hst
    have e : S.M *ᵥ (q'' s - q'' t) = (S.force (q s) - S.force (q t)) - (damping ⟨0, rm, rk⟩ S (q s) *ᵥ (q' s - q' t)) -
        (damping ⟨0, rm, rk⟩ S (q s) *ᵥ q' t - damping ⟨0, rm, rk⟩ S (q t) *ᵥ q' t) := by
      rw [mulVec_sub, hq.balance s hs, hq.balance t htt, mulVec_sub]
      abel
    refine (hmass _).trans ?_
    rw [hA2, mul_assoc]
    refine mul_le_mul_of_nonneg_left ?_ hμ.le
    rw [e]
    have a1 := ht.force t htt _ hsn _ (hself t)
    have a2 := hdamp t htt _ hsn (q' s - q' t)
    have a3 := ht.damping t htt _ hsn _ (hself t) (q' t)
    have b1 := mul_le_mul_of_nonneg_left (hqL t htt s hs) hκ
    have b2 := mul_le_mul_of_nonneg_left (hvL t htt s hs) hd0
    have b3 : δ * ‖q s - q t‖ * ‖q' t‖ ≤ δ * (P * |s - t|) * P :=
      mul_le_mul (mul_le_mul_of_nonneg_left (hqL t htt s hs) hδ) (hP t htt) (norm_nonneg _) (by positivity)
    refine (norm_sub_le _ _).trans ((add_le_add ((norm_sub_le _ _).trans (add_le_add (a1.trans b1) (a2.trans b2))) (a3.trans b3)).trans (le_of_eq ?_))
    ring
  obtain ⟨ν, hν⟩ : ∃ y : ℝ, y = P + 1 := ⟨_, rfl⟩
  obtain ⟨α, hα⟩ : ∃ y : ℝ, y = 2 * μ * (φ + d * ν) := ⟨_, rfl⟩
  obtain ⟨R, hR⟩ : ∃ y : ℝ, y = κ * (ν + α) + κ * α + δ * (ν + α) * (ν + α) := ⟨_, rfl⟩
  obtain ⟨β, hβ⟩ : ∃ y : ℝ, y = α + 4 * μ * R := ⟨_, rfl⟩
  have hν0 : 0 ≤ ν := by rw [hν]; positivity
  have hα0 : 0 ≤ α := by rw [hα]; positivity
  have hR0 : 0 ≤ R := by rw [hR]; positivity
  have hβ0 : 0 ≤ β := by rw [hβ]; positivity
  obtain ⟨L, hL⟩ : ∃ y : ℝ, y = μ * (κ + d + δ * P) := ⟨_, rfl⟩
  have hL0 : 0 ≤ L := by rw [hL]; positivity
  obtain ⟨Λ, hΛ⟩ : ∃ y : ℝ, y = 1 + L := ⟨_, rfl⟩
  have hΛ0 : 0 ≤ Λ := by rw [hΛ]; positivity
  obtain ⟨D, hD⟩ : ∃ y : ℝ, y = A + A2 + μ * R := ⟨_, rfl⟩
  have hD0 : 0 ≤ D := by rw [hD]; positivity
  obtain ⟨C, hC⟩ : ∃ y : ℝ, y = Real.exp (2 * Λ * T) * (T * D) := ⟨_, rfl⟩
  have hC0 : 0 ≤ C := by rw [hC]; positivity
  obtain ⟨W, hW⟩ : ∃ y : ℝ, y = 1 + 4 * (ν + β) / ρ + 4 * P / ρ + 2 * μ * (d + κ) + 4 * μ * (2 * κ + δ * (ν + β)) + 2 * Λ + 2 * C / ρ + C := ⟨_, rfl⟩
  have w1 : 0 ≤ 4 * (ν + β) / ρ := by positivity
  have w2 : 0 ≤ 4 * P / ρ := by positivity
  have w3 : 0 ≤ 2 * μ * (d + κ) := by positivity
  have w4 : 0 ≤ 4 * μ * (2 * κ + δ * (ν + β)) := by positivity
  have w5 : 0 ≤ 2 * C / ρ := by positivity
  have hW0 : 0 < W := by rw [hW]; linarith
  refine ⟨C, 1 / W, by positivity, ?_⟩
  intro h hh hh0 n hn solver hsol c k hk hsk
  have hhW : h * W ≤ 1 := by rwa [le_div_iff₀ hW0] at hh0
  have small : ∀ y, y ≤ W → h * y ≤ 1 := fun y hy => (mul_le_mul_of_nonneg_left hy hh.le).trans hhW
  have s1 : h ≤ 1 := by have := small 1 (by rw [hW]; linarith); linarith
  have s2 : h * (ν + β) ≤ ρ / 4 := by
    have := small (4 * (ν + β) / ρ) (by rw [hW]; linarith)
    rw [mul_div_assoc', div_le_iff₀ hρ] at this
    linarith
  have s3 : h * P ≤ ρ / 4 := by
    have := small (4 * P / ρ) (by rw [hW]; linarith)
    rw [mul_div_assoc', div_le_iff₀ hρ] at this
    linarith
  have s4 : μ * (h * d + h * h * κ) ≤ 1 / 2 := by
    have := small (2 * μ * (d + κ)) (by rw [hW]; linarith)
    have h2 : h * h * κ ≤ h * 1 * κ := mul_le_mul_of_nonneg_right (mul_le_mul_of_nonneg_left s1 hh.le) hκ
    have h3 := mul_le_mul_of_nonneg_left h2 hμ.le
    linarith
  have s5 : h * h * (2 * μ * (2 * κ + δ * (ν + β))) ≤ 1 / 2 := by
    have := small (4 * μ * (2 * κ + δ * (ν + β))) (by rw [hW]; linarith)
    have h1 : 0 ≤ 2 * μ * (2 * κ + δ * (ν + β)) := by positivity
    have h2 : h * h * (2 * μ * (2 * κ + δ * (ν + β))) ≤ h * 1 * (2 * μ * (2 * κ + δ * (ν + β))) :=
      mul_le_mul_of_nonneg_right (mul_le_mul_of_nonneg_left s1 hh.le) h1
    linarith
  have s6 : h * Λ ≤ 1 / 2 := by have := small (2 * Λ) (by rw [hW]; linarith); linarith
  have s7 : C * h ≤ ρ / 2 := by
    have := small (2 * C / ρ) (by rw [hW]; linarith)
    rw [mul_div_assoc', div_le_iff₀ hρ] at this
    linarith
  have s8 : C * h ≤ 1 := by have := small C (by rw [hW]; linarith); linarith
  -- the induction
  have key : ∀ j : ℕ, j ≤ k → ‖(afterSteps n ⟨h, rm, rk⟩ S solver c (q 0) (q' 0) j).2.1 - q (j * h)‖ +
      ‖(afterSteps n ⟨h, rm, rk⟩ S solver c (q 0) (q' 0) j).2.2 - q' (j * h)‖ ≤ Real.exp (2 * Λ * (j * h)) * (j * D * (h * h)) := by
    intro j
    induction j with
    | zero => intro _; simp [afterSteps]
    | succ j ih =>
      intro hj
      have ih := ih (Nat.le_of_succ_le hj)
      have hjk : ((j : ℝ) + 1) * h ≤ T := by
        refine le_trans (mul_le_mul_of_nonneg_right ?_ hh.le) hk
        exact_mod_cast hj
      have hj0 : 0 ≤ (j : ℝ) * h := by positivity
      have t0 : (j : ℝ) * h ∈ Set.Icc 0 T := ⟨hj0, by linarith⟩
      have t1 : (j : ℝ) * h + h ∈ Set.Icc 0 T := ⟨by linarith, by linarith⟩
      have hsub : ∀ s ∈ Set.Icc ((j : ℝ) * h) (j * h + h), s ∈ Set.Icc 0 T := fun s hs => ⟨t0.1.trans hs.1, hs.2.trans t1.2⟩
      set x0 := (afterSteps n ⟨h, rm, rk⟩ S solver c (q 0) (q' 0) j).2.1 with hx0
      set v0 := (afterSteps n ⟨h, rm, rk⟩ S solver c (q 0) (q' 0) j).2.2 with hv0
      set c0 := (afterSteps n ⟨h, rm, rk⟩ S solver c (q 0) (q' 0) j).1 with hc0
      have hnext : (afterSteps n ⟨h, rm, rk⟩ S solver c (q 0) (q' 0) (j + 1)).2 = ((beSolve n ⟨h, rm, rk⟩ S solver c0 x0 v0).2.x, (beSolve n ⟨h, rm, rk⟩ S solver c0 x0 v0).2.v) := rfl
      rw [hnext]
      -- the error so far
      have hCh : Real.exp (2 * Λ * (j * h)) * (j * D * (h * h)) ≤ C * h := by
        rw [hC]
        have e1 : Real.exp (2 * Λ * (j * h)) ≤ Real.exp (2 * Λ * T) := Real.exp_le_exp.2 (mul_le_mul_of_nonneg_left t0.2 (by positivity))
        have e2 : j * D * (h * h) ≤ T * D * h := by
          have := mul_le_mul_of_nonneg_right t0.2 (mul_nonneg hD0 hh.le)
          calc _ = j * h * (D * h) := by ring
            _ ≤ T * (D * h) := this
            _ = _ := by ring
        calc _ ≤ Real.exp (2 * Λ * T) * (T * D * h) := mul_le_mul e1 e2 (by positivity) (Real.exp_pos _).le
          _ = _ := by ring
      have hex : ‖x0 - q (j * h)‖ ≤ ρ / 2 := by
        have := norm_nonneg (v0 - q' (j * h))
        linarith
      have hev : ‖v0 - q' (j * h)‖ ≤ 1 := by
        have := norm_nonneg (x0 - q (j * h))
        linarith
      -- the step
      have hb : StepBounds ⟨h, rm, rk⟩ S {x | ‖x - q (j * h)‖ ≤ ρ} x0 v0 μ φ κ d δ ν α R β :=
        { h0 := hh, h1 := s1, μ0 := hμ, κ0 := hκ, d0 := hd0, δ0 := hδ, ν0 := hν0, φ0 := hφ0, mass := hmass
          stiff := fun x hx => ht.stiff _ t0 x hx
          damp := fun x hx => hdamp _ t0 x hx
          force := fun x hx y hy => ht.force _ t0 x hx y hy
          dampLip := fun x hx y hy => ht.damping _ t0 x hx y hy
          start := ht.bound _ t0 x0 (by linarith)
          speed := by
            have h1 : v0 = (v0 - q' (j * h)) + q' (j * h) := by abel
            rw [h1]
            have := norm_add_le (v0 - q' (j * h)) (q' (j * h))
            have := hP _ t0
            rw [hν]
            linarith
          αdef := hα, Rdef := hR, βdef := hβ
          near := by
            intro x hx
            have h1 : x - q (j * h) = (x - x0) + (x0 - q (j * h)) := by abel
            show ‖x - q (j * h)‖ ≤ ρ
            rw [h1]
            have := norm_add_le (x - x0) (x0 - q (j * h))
            have hx' : ‖x - x0‖ ≤ h * (ν + β) := hx
            linarith
          small1 := s4, small2 := s5 }
      obtain ⟨a, r1, r2, r3, r4⟩ := hb.result hsol hn (hsk j (Nat.lt_of_succ_le hj)) c0
      simp only at r1 r2 r4
      set x1 := (beSolve n ⟨h, rm, rk⟩ S solver c0 x0 v0).2.x with hx1
      set v1 := (beSolve n ⟨h, rm, rk⟩ S solver c0 x0 v0).2.v with hv1
      have htime : ((j + 1 : ℕ) : ℝ) * h = j * h + h := by push_cast; ring
      rw [htime]
      show ‖x1 - q (j * h + h)‖ + ‖v1 - q' (j * h + h)‖ ≤ _
      have hx1x0 : ‖x1 - x0‖ ≤ ρ / 4 := by
        rw [r2, r1, add_sub_cancel_left, norm_smul, Real.norm_of_nonneg hh.le]
        refine le_trans (mul_le_mul_of_nonneg_left ?_ hh.le) s2
        refine (norm_add_le _ _).trans (add_le_add hb.speed ?_)
        rw [norm_smul, Real.norm_of_nonneg hh.le]
        exact (mul_le_of_le_one_left (norm_nonneg _) s1).trans r3
      have hqq : ‖q (j * h) - q (j * h + h)‖ ≤ ρ / 4 := by
        have := hqL _ t1 _ t0
        have e : |(j : ℝ) * h - (j * h + h)| = h := by
          rw [sub_add_cancel_left, abs_neg, abs_of_pos hh]
        rw [e] at this
        linarith
      have hnear1 : ‖x1 - q (j * h + h)‖ ≤ ρ := by
        have e : x1 - q (j * h + h) = (x1 - x0) + (x0 - q (j * h)) + (q (j * h) - q (j * h + h)) := by abel
        rw [e]
        have := norm_add₃_le (a := x1 - x0) (b := x0 - q (j * h)) (c := q (j * h) - q (j * h + h))
        linarith
      -- the acceleration
      have hadiff : ‖a - q'' (j * h + h)‖ ≤ L * (‖x1 - q (j * h + h)‖ + ‖v1 - q' (j * h + h)‖) + μ * (R * h) := by
        have e : S.M *ᵥ (a - q'' (j * h + h)) = (S.force x1 - S.force (q (j * h + h))) - damping ⟨0, rm, rk⟩ S x1 *ᵥ (v1 - q' (j * h + h)) -
            (damping ⟨0, rm, rk⟩ S x1 *ᵥ q' (j * h + h) - damping ⟨0, rm, rk⟩ S (q (j * h + h)) *ᵥ q' (j * h + h)) - unbalanced ⟨h, rm, rk⟩ S x1 v1 a := by
          have e0 : damping (⟨h, rm, rk⟩ : BEParams ℝ) S x1 = damping ⟨0, rm, rk⟩ S x1 := rfl
          rw [mulVec_sub, hq.balance _ t1, mulVec_sub, unbalanced, e0]
          abel
        refine (hmass _).trans ?_
        have a1 := ht.force _ t1 _ hnear1 _ (hself _)
        have a2 := hdamp _ t1 _ hnear1 (v1 - q' (j * h + h))
        have a3 := ht.damping _ t1 _ hnear1 _ (hself _) (q' (j * h + h))
        have b3 : δ * ‖x1 - q (j * h + h)‖ * ‖q' (j * h + h)‖ ≤ δ * ‖x1 - q (j * h + h)‖ * P := mul_le_mul_of_nonneg_left (hP _ t1) (by positivity)
        have tot : ‖S.M *ᵥ (a - q'' (j * h + h))‖ ≤ κ * ‖x1 - q (j * h + h)‖ + d * ‖v1 - q' (j * h + h)‖ + δ * ‖x1 - q (j * h + h)‖ * P + R * h := by
          rw [e]
          exact (norm_sub_le _ _).trans (add_le_add ((norm_sub_le _ _).trans (add_le_add ((norm_sub_le _ _).trans (add_le_add a1 a2)) (a3.trans b3))) r4)
        have tot2 := mul_le_mul_of_nonneg_left tot hμ.le
        refine tot2.trans ?_
        have g1 : 0 ≤ μ * (κ + δ * P) * ‖v1 - q' (j * h + h)‖ := by positivity
        have g2 : 0 ≤ μ * d * ‖x1 - q (j * h + h)‖ := by positivity
        rw [hL]
        nlinarith
      -- the errors
      have habs : ∀ s ∈ Set.Icc ((j : ℝ) * h) (j * h + h), |s - (j * h + h)| ≤ h := by
        intro s hs
        rw [abs_le]
        constructor <;> linarith [hs.1, hs.2]
      have l1 : ‖q (j * h + h) - q (j * h) - h • q' (j * h + h)‖ ≤ A * h * h := by
        refine local_error hh.le (fun s hs => hq.velocity s (hsub s hs)) fun s hs => ?_
        exact (hvL _ t1 _ (hsub s hs)).trans (mul_le_mul_of_nonneg_left (habs s hs) hA0)
      have l2 : ‖q' (j * h + h) - q' (j * h) - h • q'' (j * h + h)‖ ≤ A2 * h * h := by
        refine local_error hh.le (fun s hs => hq.acceleration s (hsub s hs)) fun s hs => ?_
        have hPs : P * |s - (j * h + h)| ≤ ρ := by
          have := mul_le_mul_of_nonneg_left (habs s hs) hP0
          linarith
        exact (haL _ (hsub s hs) _ t1 hPs).trans (mul_le_mul_of_nonneg_left (habs s hs) hA20)
      have m1 : ‖x1 - q (j * h + h)‖ ≤ ‖x0 - q (j * h)‖ + h * ‖v1 - q' (j * h + h)‖ + A * h * h := by
        have e : x1 - q (j * h + h) = (x0 - q (j * h)) + h • (v1 - q' (j * h + h)) - (q (j * h + h) - q (j * h) - h • q' (j * h + h)) := by
          rw [r2]
          module
        rw [e]
        refine (norm_sub_le _ _).trans (add_le_add ((norm_add_le _ _).trans (add_le_add le_rfl ?_)) l1)
        rw [norm_smul, Real.norm_of_nonneg hh.le]
      have m2 : ‖v1 - q' (j * h + h)‖ ≤ ‖v0 - q' (j * h)‖ + h * ‖a - q'' (j * h + h)‖ + A2 * h * h := by
        have e : v1 - q' (j * h + h) = (v0 - q' (j * h)) + h • (a - q'' (j * h + h)) - (q' (j * h + h) - q' (j * h) - h • q'' (j * h + h)) := by
          rw [r1]
          module
        rw [e]
        refine (norm_sub_le _ _).trans (add_le_add ((norm_add_le _ _).trans (add_le_add le_rfl ?_)) l2)
        rw [norm_smul, Real.norm_of_nonneg hh.le]
      set ex := ‖x1 - q (j * h + h)‖ with hexdef
      set ev := ‖v1 - q' (j * h + h)‖ with hevdef
      have hex0 : 0 ≤ ex := norm_nonneg _
      have hev0 : 0 ≤ ev := norm_nonneg _
      have m3 := mul_le_mul_of_nonneg_left hadiff hh.le
      have m4 : ex + ev ≤ (‖x0 - q (j * h)‖ + ‖v0 - q' (j * h)‖) + h * Λ * (ex + ev) + D * (h * h) := by
        have : h * Λ * (ex + ev) = h * ev + h * ex + h * (L * (ex + ev)) := by rw [hΛ]; ring
        have h5 : 0 ≤ h * ex := by positivity
        have : D * (h * h) = A * h * h + A2 * h * h + h * (μ * (R * h)) := by rw [hD]; ring
        linarith
      have m5 := gronwall_step (by positivity) s6 (by positivity) m4
      refine m5.trans ?_
      have e1 : (1 : ℝ) ≤ Real.exp (2 * Λ * (j * h)) := Real.one_le_exp (by positivity)
      have e2 : ‖x0 - q (j * h)‖ + ‖v0 - q' (j * h)‖ + D * (h * h) ≤ Real.exp (2 * Λ * (j * h)) * (((j + 1 : ℕ) : ℝ) * D * (h * h)) := by
        have : D * (h * h) ≤ Real.exp (2 * Λ * (j * h)) * (D * (h * h)) := le_mul_of_one_le_left (by positivity) e1
        push_cast
        linarith
      calc _ ≤ Real.exp (2 * Λ * h) * (Real.exp (2 * Λ * (j * h)) * (((j + 1 : ℕ) : ℝ) * D * (h * h))) :=
            mul_le_mul_of_nonneg_left e2 (Real.exp_pos _).le
        _ = Real.exp (2 * Λ * (j * h + h)) * (((j + 1 : ℕ) : ℝ) * D * (h * h)) := by
            rw [← mul_assoc, ← Real.exp_add]
            ring_nf
  refine (key k le_rfl).trans ?_
  rw [hC]
  have e1 : Real.exp (2 * Λ * (k * h)) ≤ Real.exp (2 * Λ * T) := Real.exp_le_exp.2 (mul_le_mul_of_nonneg_left hk (by positivity))
  have e2 : k * D * (h * h) ≤ T * D * h := by
    have := mul_le_mul_of_nonneg_right hk (mul_nonneg hD0 hh.le)
    calc _ = k * h * (D * h) := by ring
      _ ≤ T * (D * h) := this
      _ = _ := by ring
  calc _ ≤ Real.exp (2 * Λ * T) * (T * D * h) := mul_le_mul e1 e2 (by positivity) (Real.exp_pos _).le
    _ = _ := by ring

/-- **C125 (partial), by the forces of the motion**: no step is skipped when the forces on the moving body, not only on the computed one, stay above the threshold. -/
theorem C125_above_partial [DecidableEq ι] (rm rk : ℝ) (S : BEScene ℝ ι) (hM : IsUnit S.M) (T : ℝ) (hT : 0 ≤ T) (q q' q'' : ℝ → ι → ℝ)
    (hq : IsMotion rm rk S T q q' q'') (ρ φ κ δ : ℝ) (hρ : 0 < ρ) (hκ : 0 ≤ κ) (hδ : 0 ≤ δ) (ht : TameNear rm rk S T q ρ φ κ δ) (a η : ℝ) (hη : 0 < η)
    (habove : ∀ t ∈ Set.Icc 0 T, a * a + η ≤ S.M *ᵥ q'' t ⬝ᵥ S.M *ᵥ q'' t) :
    ∃ C h₀ : ℝ, 0 < h₀ ∧ ∀ h : ℝ, 0 < h → h ≤ h₀ → ∀ (n : NewtonParams ℝ), 1 ≤ n.iterations → n.absolute = a → ∀ solver, SolvesAll solver →
      ∀ (c : NewtonState ℝ) (k : ℕ), k * h ≤ T →
      ‖(afterSteps n ⟨h, rm, rk⟩ S solver c (q 0) (q' 0) k).2.1 - q (k * h)‖ + ‖(afterSteps n ⟨h, rm, rk⟩ S solver c (q 0) (q' 0) k).2.2 - q' (k * h)‖ ≤ C * h := by
  obtain ⟨C, h₀, hh₀, main⟩ := C125_converges_partial rm rk S hM T hT q q' q'' hq ρ φ κ δ hρ hκ hδ ht
  rcases le_or_gt a 0 with ha | ha
  · exact ⟨C, h₀, hh₀, fun h hh hle n hn hna solver hsol c k hk => main h hh hle n hn solver hsol c k hk fun j _ hs => absurd hs.1 (by rw [hna]; exact not_lt.2 ha)⟩
  obtain ⟨ε, hε, gap⟩ := sq_gap (ι := ι) ha hη
  obtain ⟨d, hd0, hd⟩ := damping_bound rm rk S κ
  obtain ⟨P, hP⟩ := isCompact_Icc.exists_bound_of_continuousOn (s := Set.Icc (0 : ℝ) T) (f := q') fun t h => (hq.acceleration t h).continuousAt.continuousWithinAt
  have hP0 : 0 ≤ P := (norm_nonneg _).trans (hP 0 ⟨le_rfl, hT⟩)
  have hC0 := abs_nonneg C
  refine ⟨C, min h₀ (min (ρ / (|C| + 1)) (ε / ((|C| + 1) * (κ + d + δ * P + 1)))), by positivity, ?_⟩
  intro h hh hle n hn hna solver hsol c k hk
  have g1 : h ≤ h₀ := hle.trans (min_le_left _ _)
  have g2 : C * h ≤ ρ := by
    have := hle.trans ((min_le_right _ _).trans (min_le_left _ _))
    rw [le_div_iff₀ (by positivity)] at this
    nlinarith [le_abs_self C]
  have g3 : (κ + d + δ * P) * (C * h) ≤ ε := by
    have := hle.trans ((min_le_right _ _).trans (min_le_right _ _))
    rw [le_div_iff₀ (by positivity)] at this
    have e1 : (κ + d + δ * P) * (C * h) ≤ (κ + d + δ * P) * (|C| * h) := mul_le_mul_of_nonneg_left (mul_le_mul_of_nonneg_right (le_abs_self C) hh.le) (by positivity)
    have e2 : (κ + d + δ * P) * (|C| * h) ≤ (κ + d + δ * P + 1) * ((|C| + 1) * h) := by
      refine mul_le_mul (by linarith) (mul_le_mul_of_nonneg_right (by linarith) hh.le) (by positivity) (by positivity)
    linarith
  refine main h hh g1 n hn solver hsol c k hk ?_
  intro j
  induction j using Nat.strong_induction_on with
  | _ j ih =>
    intro hj hs
    have hjT : (j : ℝ) * h ≤ T := le_trans (mul_le_mul_of_nonneg_right (by exact_mod_cast hj.le) hh.le) hk
    have tj : (j : ℝ) * h ∈ Set.Icc 0 T := ⟨by positivity, hjT⟩
    have err := main h hh g1 n hn solver hsol c j hjT fun i hi => ih i hi (hi.trans hj)
    generalize (afterSteps n ⟨h, rm, rk⟩ S solver c (q 0) (q' 0) j).2.1 = x at hs err
    generalize (afterSteps n ⟨h, rm, rk⟩ S solver c (q 0) (q' 0) j).2.2 = v at hs err
    have hx0 := norm_nonneg (x - q (j * h))
    have hv0 := norm_nonneg (v - q' (j * h))
    have hx : ‖x - q (j * h)‖ ≤ ρ := by linarith
    have hself : ‖q (j * h) - q (j * h)‖ ≤ ρ := by simp [hρ.le]
    have e : unbalanced ⟨h, rm, rk⟩ S x v 0 - S.M *ᵥ q'' (j * h) = (S.force x - S.force (q (j * h))) - damping ⟨0, rm, rk⟩ S x *ᵥ (v - q' (j * h)) -
        (damping ⟨0, rm, rk⟩ S x *ᵥ q' (j * h) - damping ⟨0, rm, rk⟩ S (q (j * h)) *ᵥ q' (j * h)) := by
      have e0 : damping (⟨h, rm, rk⟩ : BEParams ℝ) S x = damping ⟨0, rm, rk⟩ S x := rfl
      rw [hq.balance _ tj, mulVec_sub, unbalanced, e0, mulVec_zero]
      abel
    have a1 := ht.force _ tj x hx _ hself
    have a2 := hd x (ht.stiff _ tj x hx) (v - q' (j * h))
    have a3 := ht.damping _ tj x hx _ hself (q' (j * h))
    have b3 : δ * ‖x - q (j * h)‖ * ‖q' (j * h)‖ ≤ δ * ‖x - q (j * h)‖ * P := mul_le_mul_of_nonneg_left (hP _ tj) (by positivity)
    have tot : ‖unbalanced ⟨h, rm, rk⟩ S x v 0 - S.M *ᵥ q'' (j * h)‖ ≤ ε := by
      rw [e]
      refine ((norm_sub_le _ _).trans (add_le_add ((norm_sub_le _ _).trans (add_le_add a1 a2)) (a3.trans b3))).trans ?_
      have k1 := mul_le_mul_of_nonneg_left err (by positivity : 0 ≤ κ + d + δ * P)
      have k2 : 0 ≤ d * ‖x - q (j * h)‖ := by positivity
      have k3 : 0 ≤ (κ + δ * P) * ‖v - q' (j * h)‖ := by positivity
      nlinarith
    have := gap _ _ tot (habove _ tj)
    have h2 := hs.2
    rw [hna] at h2
    exact absurd h2 (not_le.2 this)

/-- **C125, when the hypotheses hold**: forces whose stiffness is their continuous derivative around the motion are tame; with a damping proportional to the stiffness, the
stiffness must be Lipschitz. -/
theorem C125_smooth (rm rk : ℝ) (S : BEScene ℝ ι) [DecidableEq ι] (T : ℝ) (q q' q'' : ℝ → ι → ℝ) (hq : IsMotion rm rk S T q q' q'') (U : Set (ι → ℝ)) (hU : IsOpen U)
    (hqU : ∀ t ∈ Set.Icc 0 T, q t ∈ U) (hd : ∀ x ∈ U, HasFDerivAt S.force (LinearMap.toContinuousLinearMap (toLin' (S.stiff x))) x) (hc : ContinuousOn S.stiff U)
    (hl : rk ≠ 0 → ∃ l : ℝ, 0 ≤ l ∧ ∀ x ∈ U, ∀ y ∈ U, ∀ u, ‖S.stiff x *ᵥ u - S.stiff y *ᵥ u‖ ≤ l * ‖x - y‖ * ‖u‖) :
    ∃ ρ φ κ δ : ℝ, 0 < ρ ∧ 0 ≤ κ ∧ 0 ≤ δ ∧ TameNear rm rk S T q ρ φ κ δ :=
  tame_of_smooth rm rk S T q q' q'' hq U hU hqU hd hc hl

theorem linear_tame (rm rk : ℝ) (S : BEScene ℝ ι) [DecidableEq ι] (F : ι → ℝ) (A : Matrix ι ι ℝ) (hS : IsLinear S F A) (T : ℝ) (q q' q'' : ℝ → ι → ℝ)
    (hq : IsMotion rm rk S T q q' q'') : ∃ ρ φ κ δ : ℝ, 0 < ρ ∧ 0 ≤ κ ∧ 0 ≤ δ ∧ TameNear rm rk S T q ρ φ κ δ := by
  have hst : S.stiff = fun _ => A := funext hS.stiff
  refine C125_smooth rm rk S T q q' q'' hq Set.univ isOpen_univ (fun _ _ => trivial) (fun x _ => ?_) ?_ fun _ => ⟨0, le_rfl, fun x _ y _ u => ?_⟩
  · have hf : S.force = fun x => F + LinearMap.toContinuousLinearMap (toLin' A) x := by
      funext x
      rw [hS.force]
      rfl
    rw [hf, hst]
    exact (ContinuousLinearMap.hasFDerivAt _).const_add F
  · rw [hst]
    exact continuousOn_const
  · rw [hst]
    simp

/-- **C125, linear scenes (partial)**: with the absolute threshold disabled, the computed motion converges to the motion, whatever damping there is. -/
theorem C125_linear_partial [DecidableEq ι] (rm rk : ℝ) (S : BEScene ℝ ι) (F : ι → ℝ) (A : Matrix ι ι ℝ) (hS : IsLinear S F A) (hM : IsUnit S.M) (T : ℝ) (hT : 0 ≤ T)
    (q q' q'' : ℝ → ι → ℝ) (hq : IsMotion rm rk S T q q' q'') :
    ∃ C h₀ : ℝ, 0 < h₀ ∧ ∀ h : ℝ, 0 < h → h ≤ h₀ → ∀ (n : NewtonParams ℝ), 1 ≤ n.iterations → n.absolute ≤ 0 → ∀ solver, SolvesAll solver →
      ∀ (c : NewtonState ℝ) (k : ℕ), k * h ≤ T →
      ‖(afterSteps n ⟨h, rm, rk⟩ S solver c (q 0) (q' 0) k).2.1 - q (k * h)‖ + ‖(afterSteps n ⟨h, rm, rk⟩ S solver c (q 0) (q' 0) k).2.2 - q' (k * h)‖ ≤ C * h := by
  obtain ⟨ρ, φ, κ, δ, hρ, hκ, hδ, ht⟩ := linear_tame rm rk S F A hS T q q' q'' hq
  obtain ⟨C, h₀, hh₀, main⟩ := C125_converges_partial rm rk S hM T hT q q' q'' hq ρ φ κ δ hρ hκ hδ ht
  exact ⟨C, h₀, hh₀, fun h hh hle n hn hna solver hsol c k hk => main h hh hle n hn solver hsol c k hk fun j _ hs => absurd hs.1 (not_lt.2 hna)⟩

/-- **C125, negation**: with an absolute threshold, however small, a body on which no force acts never moves, whatever its velocity and the time step. -/
theorem C125_violated (n : NewtonParams ℝ) (hn : 0 < n.absolute) (M : Matrix ι ι ℝ) (solver : Matrix ι ι ℝ → (ι → ℝ) → Option (ι → ℝ)) (c : NewtonState ℝ) (x v : ι → ℝ)
    (T : ℝ) (hT : 0 < T) (hv : v ≠ 0) :
    IsMotion 0 0 (⟨M, 0, fun _ => 0, fun _ => 0⟩ : BEScene ℝ ι) T (fun t => x + t • v) (fun _ => v) (fun _ => 0) ∧
    (∀ h : ℝ, h ≠ 0 → ∀ k, (afterSteps n ⟨h, 0, 0⟩ ⟨M, 0, fun _ => 0, fun _ => 0⟩ solver c x v k).2.1 = x) ∧
    ¬∃ C h₀ : ℝ, 0 < h₀ ∧ ∀ h : ℝ, 0 < h → h ≤ h₀ → ∀ k : ℕ, k * h ≤ T →
      ‖(afterSteps n ⟨h, 0, 0⟩ ⟨M, 0, fun _ => 0, fun _ => 0⟩ solver c x v k).2.1 - (x + (k * h) • v)‖ ≤ C * h := by
  have hstay : ∀ h : ℝ, h ≠ 0 → ∀ k, (afterSteps n ⟨h, 0, 0⟩ (⟨M, 0, fun _ => 0, fun _ => 0⟩ : BEScene ℝ ι) solver c x v k).2 = (x, v) := by
    intro h hh k
    induction k with
    | zero => rfl
    | succ k ih =>
      have h1 := C56_frozen_violated n hn ⟨h, 0, 0⟩ hh (⟨M, 0, fun _ => 0, fun _ => 0⟩ : BEScene ℝ ι) solver
        (afterSteps n ⟨h, 0, 0⟩ (⟨M, 0, fun _ => 0, fun _ => 0⟩ : BEScene ℝ ι) solver c x v k).1 x v (by simp [damping])
      have e : (afterSteps n ⟨h, 0, 0⟩ (⟨M, 0, fun _ => 0, fun _ => 0⟩ : BEScene ℝ ι) solver c x v (k + 1)).2 =
          ((beSolve n ⟨h, 0, 0⟩ (⟨M, 0, fun _ => 0, fun _ => 0⟩ : BEScene ℝ ι) solver
            (afterSteps n ⟨h, 0, 0⟩ (⟨M, 0, fun _ => 0, fun _ => 0⟩ : BEScene ℝ ι) solver c x v k).1
            (afterSteps n ⟨h, 0, 0⟩ (⟨M, 0, fun _ => 0, fun _ => 0⟩ : BEScene ℝ ι) solver c x v k).2.1
            (afterSteps n ⟨h, 0, 0⟩ (⟨M, 0, fun _ => 0, fun _ => 0⟩ : BEScene ℝ ι) solver c x v k).2.2).2.x,
          (beSolve n ⟨h, 0, 0⟩ (⟨M, 0, fun _ => 0, fun _ => 0⟩ : BEScene ℝ ι) solver
            (afterSteps n ⟨h, 0, 0⟩ (⟨M, 0, fun _ => 0, fun _ => 0⟩ : BEScene ℝ ι) solver c x v k).1
            (afterSteps n ⟨h, 0, 0⟩ (⟨M, 0, fun _ => 0, fun _ => 0⟩ : BEScene ℝ ι) solver c x v k).2.1
            (afterSteps n ⟨h, 0, 0⟩ (⟨M, 0, fun _ => 0, fun _ => 0⟩ : BEScene ℝ ι) solver c x v k).2.2).2.v) := rfl
      rw [e, ih]
      exact Prod.ext h1.2.1 h1.2.2.1
  refine ⟨⟨fun t _ => ?_, fun t _ => hasDerivAt_const t v, fun t _ => by simp [damping]⟩, fun h hh k => by rw [hstay h hh k], ?_⟩
  · have : HasDerivAt (fun t : ℝ => t • v) ((1 : ℝ) • v) t := (hasDerivAt_id t).smul_const v
    rw [one_smul] at this
    exact this.const_add x
  · rintro ⟨C, h₀, hh₀, H⟩
    have hv0 : 0 < ‖v‖ := norm_pos_iff.2 hv
    obtain ⟨k, hk⟩ := exists_nat_gt (max (max (C / ‖v‖) (T / h₀)) 0)
    have hk0 : (0 : ℝ) < k := lt_of_le_of_lt (le_max_right _ _) hk
    have hk1 : C / ‖v‖ < k := lt_of_le_of_lt ((le_max_left _ _).trans (le_max_left _ _)) hk
    have hk2 : T / h₀ < k := lt_of_le_of_lt ((le_max_right _ _).trans (le_max_left _ _)) hk
    have hh : 0 < T / k := by positivity
    have e : (k : ℝ) * (T / k) = T := by field_simp
    have := H (T / k) hh (by rw [div_le_iff₀ hk0]; rw [div_lt_iff₀ hh₀] at hk2; linarith) k e.le
    rw [hstay _ hh.ne', e, sub_add_cancel_left, norm_neg, norm_smul, Real.norm_of_nonneg hT.le] at this
    rw [div_lt_iff₀ hv0] at hk1
    have h3 : C * (T / k) = C / k * T := by ring
    have h4 : C / k < ‖v‖ := by rw [div_lt_iff₀ hk0]; linarith
    nlinarith

/-- An oscillator. -/
example : ∃ C h₀ : ℝ, 0 < h₀ ∧ ∀ h : ℝ, 0 < h → h ≤ h₀ → ∀ (n : NewtonParams ℝ), 1 ≤ n.iterations → n.absolute ≤ 0 → ∀ solver, SolvesAll solver →
      ∀ (c : NewtonState ℝ) (k : ℕ), k * h ≤ 10 →
      ‖(afterSteps n ⟨h, 0, 0⟩ (⟨1, 0, fun x => -x, fun _ => -1⟩ : BEScene ℝ (Fin 1)) solver c (fun _ => Real.cos 0) (fun _ => -Real.sin 0) k).2.1 - fun _ => Real.cos (k * h)‖ +
      ‖(afterSteps n ⟨h, 0, 0⟩ (⟨1, 0, fun x => -x, fun _ => -1⟩ : BEScene ℝ (Fin 1)) solver c (fun _ => Real.cos 0) (fun _ => -Real.sin 0) k).2.2 -
        fun _ => -Real.sin (k * h)‖ ≤ C * h :=
  C125_linear_partial 0 0 (⟨1, 0, fun x => -x, fun _ => -1⟩ : BEScene ℝ (Fin 1)) 0 (-1) ⟨fun x => by simp [Matrix.neg_mulVec], fun _ => rfl⟩ isUnit_one 10 (by norm_num)
    (fun t _ => Real.cos t) (fun t _ => -Real.sin t) (fun t _ => -Real.cos t)
    ⟨fun t _ => hasDerivAt_pi.2 fun _ => Real.hasDerivAt_cos t, fun t _ => hasDerivAt_pi.2 fun _ => (Real.hasDerivAt_sin t).neg,
      fun t _ => by simp [damping]; rfl⟩

/-- A falling body, whose weight is above the threshold. -/
example : ∃ C h₀ : ℝ, 0 < h₀ ∧ ∀ h : ℝ, 0 < h → h ≤ h₀ → ∀ (n : NewtonParams ℝ), 1 ≤ n.iterations → n.absolute = 1 / 10 ^ 15 → ∀ solver, SolvesAll solver →
      ∀ (c : NewtonState ℝ) (k : ℕ), k * h ≤ 10 →
      ‖(afterSteps n ⟨h, 0, 0⟩ (⟨1, 0, fun _ _ => -10, fun _ => 0⟩ : BEScene ℝ (Fin 1)) solver c (fun _ => -5 * (0 : ℝ) ^ 2) (fun _ => -10 * (0 : ℝ)) k).2.1 -
        fun _ => -5 * (k * h) ^ 2‖ +
      ‖(afterSteps n ⟨h, 0, 0⟩ (⟨1, 0, fun _ _ => -10, fun _ => 0⟩ : BEScene ℝ (Fin 1)) solver c (fun _ => -5 * (0 : ℝ) ^ 2) (fun _ => -10 * (0 : ℝ)) k).2.2 -
        fun _ => -10 * (k * h)‖ ≤ C * h := by
  have hm : IsMotion 0 0 (⟨1, 0, fun _ _ => -10, fun _ => 0⟩ : BEScene ℝ (Fin 1)) 10 (fun t _ => -5 * t ^ 2) (fun t _ => -10 * t) (fun t _ => -10) := by
    refine ⟨fun t _ => hasDerivAt_pi.2 fun _ => ?_, fun t _ => hasDerivAt_pi.2 fun _ => ?_, fun t _ => ?_⟩
    · have := (hasDerivAt_pow 2 t).const_mul (-5 : ℝ)
      refine this.congr_deriv ?_
      norm_num
      ring
    · have := (hasDerivAt_id t).const_mul (-10 : ℝ)
      simpa using this
    · simp [damping]
  obtain ⟨ρ, φ, κ, δ, hρ, hκ, hδ, ht⟩ := linear_tame 0 0 _ (fun _ => -10) 0 ⟨fun x => by simp, fun _ => rfl⟩ 10 _ _ _ hm
  refine C125_above_partial 0 0 _ isUnit_one 10 (by norm_num) _ _ _ hm ρ φ κ δ hρ hκ hδ ht (1 / 10 ^ 15) 1 one_pos fun t _ => ?_
  simp [dotProduct]
  norm_num

/-- A body pushed by a force which grows with its displacement cubed. -/
example : IsMotion 0 0 (⟨1, 0, fun x i => 2 * x i ^ 3, fun x => diagonal fun i => 6 * x i ^ 2⟩ : BEScene ℝ (Fin 1)) 1 (fun t _ => (2 - t)⁻¹)
      (fun t _ => ((2 - t) ^ 2)⁻¹) (fun t _ => 2 * ((2 - t) ^ 3)⁻¹) ∧
    ∃ ρ φ κ δ : ℝ, 0 < ρ ∧ 0 ≤ κ ∧ 0 ≤ δ ∧
      TameNear 0 0 (⟨1, 0, fun x i => 2 * x i ^ 3, fun x => diagonal fun i => 6 * x i ^ 2⟩ : BEScene ℝ (Fin 1)) 1 (fun t _ => (2 - t)⁻¹) ρ φ κ δ := by
  have hm : IsMotion 0 0 (⟨1, 0, fun x i => 2 * x i ^ 3, fun x => diagonal fun i => 6 * x i ^ 2⟩ : BEScene ℝ (Fin 1)) 1 (fun t _ => (2 - t)⁻¹)
      (fun t _ => ((2 - t) ^ 2)⁻¹) (fun t _ => 2 * ((2 - t) ^ 3)⁻¹) := by
    refine ⟨fun t h => hasDerivAt_pi.2 fun _ => ?_, fun t h => hasDerivAt_pi.2 fun _ => ?_, fun t h => ?_⟩
    · have h2 : (2 - t) ≠ 0 := by linarith [h.2]
      refine (((hasDerivAt_id t).const_sub 2).inv h2).congr_deriv ?_
      simp
    · have h2 : (2 - t) ≠ 0 := by linarith [h.2]
      refine ((((hasDerivAt_id t).const_sub 2).pow 2).inv (pow_ne_zero 2 h2)).congr_deriv ?_
      simp
      field_simp
    · funext i
      simp [damping]
  refine ⟨hm, C125_smooth 0 0 _ 1 _ _ _ hm Set.univ isOpen_univ (fun _ _ => trivial) (fun x _ => ?_) ?_ fun h => absurd rfl h⟩
  · refine hasFDerivAt_pi'.2 fun i => ?_
    have h1 : HasFDerivAt (fun x : Fin 1 → ℝ => x i) (ContinuousLinearMap.proj (R := ℝ) (φ := fun _ : Fin 1 => ℝ) i) x := hasFDerivAt_apply i x
    have h2 := (h1.pow 3).const_mul 2
    refine h2.congr_fderiv ?_
    ext u
    simp [mulVec_diagonal]
    ring
  · exact Continuous.continuousOn (Continuous.matrix_diagonal (by fun_prop))

end Caribou

import Verif.Lemmas.Quadratic
import Mathlib.Analysis.Calculus.ContDiff.RCLike
import Mathlib.Analysis.Calculus.ContDiff.Comp
import Mathlib.Analysis.Calculus.ContDiff.Operations
import Mathlib.Analysis.SpecificLimits.Basic

/-!
# C126: static solves near an equilibrium
-/

set_option autoImplicit false

namespace Caribou

open Spec Matrix

variable {ι κ : Type*} [Fintype ι] [Fintype κ] [DecidableEq ι]

theorem quad_start (n : NewtonParams ℝ) (S : StaticScene ℝ ι κ) (z x : ι → ℝ) (C : ℝ) (hx : ∀ i, S.fixed i = true → x i = z i)
    (s : NewtonLoop (StaticWorld ℝ ι κ) (ι → ℝ) ℝ) (h1 : s.world = ⟨x, S.map x, 0⟩) (h2 : s.U = 0) (h3 : s.R2.isNone = false) (h4 : s.residuals = []) (h5 : s.diverged = false) :
    QuadInv n S z x C s :=
  ⟨by rw [h1], by rw [h1, h2, sub_self], by rw [h1]; exact hx, h3, by simp [h1, h4], by simp [h1, h4], by simp [h5], by simp [h4], by simp [h4]⟩

theorem quad_solve (S : StaticScene ℝ ι κ) (hJ : MapsFreeOnly S) (z : ι → ℝ) (C r G : ℝ) (hN : NewtonNear S z C r G) (n : NewtonParams ℝ)
    (solver : Matrix ι ι ℝ → (ι → ℝ) → Option (ι → ℝ)) (hex : SolvesExactly solver) (hreg : SolvesRegular solver) (c : NewtonState ℝ) (x : ι → ℝ) (hxr : ‖x - z‖ ≤ r)
    (hx : ∀ i, S.fixed i = true → x i = z i) :
    ∃ E : NewtonLoop (StaticWorld ℝ ι κ) (ι → ℝ) ℝ, (staticSolve n S solver c x).2 = E.world ∧ (staticSolve n S solver c x).1.residuals = E.residuals ∧
      (staticSolve n S solver c x).1.converged = E.converged ∧ QuadInv n S z x C E ∧
      (E.converged = true ∨ E.diverged = true ∨ E.residuals.length = n.iterations) := by
  unfold staticSolve newtonSolve
  simp only [Bool.not_true, Bool.false_eq_true, if_false]
  refine ⟨_, rfl, rfl, rfl, ?_⟩
  have key : ∀ s : NewtonLoop (StaticWorld ℝ ι κ) (ι → ℝ) ℝ, s.world = ⟨x, S.map x, 0⟩ → s.F = staticRhs S s.world → s.U = 0 → s.R2.isNone = false → s.residuals = [] →
      s.diverged = false → QuadInv n S z x C (newtonLoop n (staticEnv S solver) n.iterations s) ∧
      ((newtonLoop n (staticEnv S solver) n.iterations s).converged = true ∨ (newtonLoop n (staticEnv S solver) n.iterations s).diverged = true ∨
        (newtonLoop n (staticEnv S solver) n.iterations s).residuals.length = n.iterations) := by
    intro s h1 h2 h3 h4 h5 h6
    have := quad_loop n S hJ z x C r G hN hxr solver hex hreg n.iterations s le_rfl (quad_start n S z x C hx s h1 h3 h4 h5 h6) h6 fun _ => h2
    rw [h5, List.length_nil, zero_add] at this
    exact this
  exact key _ rfl rfl rfl rfl rfl rfl

/-- **C126 (partial).** Near a regular equilibrium every iteration of a static solve squares the distance to it, up to a constant, and at least halves it; the solve ends by
reporting convergence, by reaching its maximum number of iterations, or because it has hardly moved.  Missing: mapped points attached to fixed ones (`C84_violated`). -/
theorem C126_quadratic_partial (S : StaticScene ℝ ι κ) (hJ : MapsFreeOnly S) (z : ι → ℝ) (ρ l : ℝ) (hρ : 0 < ρ) (hl : 0 ≤ l) (hz : RegularEquilibrium S z ρ l) :
    ∃ C r : ℝ, 0 < C ∧ 0 < r ∧ C * r ≤ 1 / 2 ∧ ∀ (n : NewtonParams ℝ) (solver : Matrix ι ι ℝ → (ι → ℝ) → Option (ι → ℝ)), SolvesExactly solver → SolvesRegular solver →
      ∀ (c : NewtonState ℝ) (x : ι → ℝ), ‖x - z‖ ≤ r → (∀ i, S.fixed i = true → x i = z i) →
      C * ‖(staticSolve n S solver c x).2.x - z‖ ≤ (C * ‖x - z‖) ^ 2 ^ (staticSolve n S solver c x).1.residuals.length ∧
      ‖(staticSolve n S solver c x).2.x - z‖ ≤ ‖x - z‖ / 2 ^ (staticSolve n S solver c x).1.residuals.length ∧
      ((staticSolve n S solver c x).1.converged = true ∨ (staticSolve n S solver c x).1.residuals.length = n.iterations ∨
        ((staticSolve n S solver c x).2.x - x) ⬝ᵥ ((staticSolve n S solver c x).2.x - x) < n.eps) := by
  obtain ⟨C, r, G, hN⟩ := newtonNear_exists S hJ z ρ l hρ hl hz
  refine ⟨C, r, hN.C0, hN.r0, hN.small, fun n solver hex hreg c x hxr hx => ?_⟩
  obtain ⟨E, e1, e2, e3, hE, hend⟩ := quad_solve S hJ z C r G hN n solver hex hreg c x hxr hx
  rw [e1, e2, e3, ← hE.U]
  refine ⟨hE.quad, hE.half, ?_⟩
  rcases hend with t | t | t
  · exact Or.inl t
  · exact Or.inr (Or.inr (hE.div t))
  · exact Or.inr (Or.inl t)

/-- The number of iterations after which convergence is reported depends on the constants only. -/
theorem quad_reported (C r G a : ℝ) (hG : 0 ≤ G) (ha : 0 < a) : ∃ N : ℕ, ∀ (S : StaticScene ℝ ι κ), MapsFreeOnly S → ∀ z : ι → ℝ, NewtonNear S z C r G →
    ∀ (n : NewtonParams ℝ), N ≤ n.iterations → 2 ≤ n.iterations → 0 < n.eps → (n.correction = a ∨ n.absolute = a) →
      ∀ (solver : Matrix ι ι ℝ → (ι → ℝ) → Option (ι → ℝ)), SolvesExactly solver → SolvesRegular solver →
      ∀ (c : NewtonState ℝ) (x : ι → ℝ), ‖x - z‖ ≤ r → (∀ i, S.fixed i = true → x i = z i) →
      (staticSolve n S solver c x).1.converged = true ∨ ((staticSolve n S solver c x).2.x - x) ⬝ᵥ ((staticSolve n S solver c x).2.x - x) < n.eps := by
  obtain ⟨c1, hc1⟩ : ∃ y : ℝ, y = (Fintype.card ι : ℝ) := ⟨_, rfl⟩
  have hc0 : 0 ≤ c1 := by rw [hc1]; exact Nat.cast_nonneg _
  obtain ⟨N, hNpow⟩ := exists_pow_lt_of_lt_one (show 0 < a * a / (36 * c1 + c1 * (G * r) ^ 2 + 1) by positivity) (show (1 / 4 : ℝ) < 1 by norm_num)
  rw [lt_div_iff₀ (by positivity)] at hNpow
  refine ⟨N, fun S hJ z hN n hnN hn2 heps hthr solver hex hreg c x hxr hx => ?_⟩
  obtain ⟨E, e1, e2, e3, hE, hend⟩ := quad_solve S hJ z C r G hN n solver hex hreg c x hxr hx
  rw [e1, e3, ← hE.U]
  by_contra hno
  rw [not_or] at hno
  have hconv : E.converged = false := by simpa using hno.1
  have hdiv : E.diverged = false := by
    by_contra h
    exact hno.2 (hE.div (by simpa using h))
  have hlen : E.residuals.length = n.iterations := by
    rcases hend with t | t | t
    · exact absurd t hno.1
    · rw [hdiv] at t; exact absurd t (by simp)
    · exact t
  have hpos : 0 < E.residuals.length := by omega
  obtain ⟨h1, h2⟩ := hE.last (by omega) hconv hdiv hpos
  have hU := hE.undiv hdiv hpos
  rw [hlen] at h1
  have hq : (1 / 4 : ℝ) ^ n.iterations ≤ (1 / 4) ^ N := pow_le_pow_of_le_one (by norm_num) (by norm_num) hnN
  have hquarter : ∀ y : ℝ, (y / 2 ^ n.iterations) ^ 2 = y ^ 2 * (1 / 4) ^ n.iterations := by
    intro y
    rw [div_pow, ← pow_mul, mul_comm n.iterations 2, pow_mul, one_div, inv_pow]
    norm_num
    rfl
  have hq0 : (0 : ℝ) < (1 / 4) ^ n.iterations := by positivity
  rcases hthr with hthr | hthr
  · have h3 := h1 (by rw [hthr]; exact ha)
    rw [hthr, hquarter, ← hc1] at h3
    have hUe : (‖x - z‖ / 2) ^ 2 ≤ E.U ⬝ᵥ E.U := by
      refine le_trans (pow_le_pow_left₀ (by positivity) ?_ 2) (sq_norm_le_dot E.U)
      rw [hE.U]
      have h4 : ‖x - z‖ - ‖E.world.x - z‖ ≤ ‖E.world.x - x‖ := by
        have := norm_sub_norm_le (x - z) (E.world.x - z)
        have e : (x - z) - (E.world.x - z) = -(E.world.x - x) := by abel
        rwa [e, norm_neg] at this
      have h5 := hE.half
      have h6 : ‖x - z‖ / 2 ^ E.residuals.length ≤ ‖x - z‖ / 2 := by
        refine div_le_div_of_nonneg_left (norm_nonneg _) (by norm_num) ?_
        calc (2 : ℝ) = 2 ^ 1 := by norm_num
          _ ≤ _ := pow_le_pow_right₀ (by norm_num) hpos
      linarith
    rcases (norm_nonneg (x - z)).eq_or_lt with h0 | h0
    · have h7 : E.world.x = x := by
        have := hE.half
        rw [← h0, zero_div] at this
        have h8 := norm_le_zero_iff.1 this
        have h9 := norm_le_zero_iff.1 h0.symm.le
        rw [sub_eq_zero] at h8 h9
        rw [h8, h9]
      rw [hE.U, h7, sub_self, dotProduct_zero] at hU
      linarith
    · have h7 : a * a * (‖x - z‖ / 2) ^ 2 ≤ c1 * ((3 * ‖x - z‖) ^ 2 * (1 / 4) ^ n.iterations) :=
        (mul_le_mul_of_nonneg_left hUe (by positivity)).trans h3
      have h8 : a * a ≤ 36 * c1 * (1 / 4) ^ n.iterations := by
        have h9 : 0 < ‖x - z‖ ^ 2 := by positivity
        by_contra hlt
        rw [not_le] at hlt
        have := mul_lt_mul_of_pos_right hlt h9
        nlinarith
      have h10 : 36 * c1 * (1 / 4) ^ n.iterations ≤ 36 * c1 * (1 / 4) ^ N := mul_le_mul_of_nonneg_left hq (by positivity)
      have h11 : 0 ≤ (1 / 4 : ℝ) ^ N * (c1 * (G * r) ^ 2 + 1) := by positivity
      linarith
  · have h3 := h2 (by rw [hthr]; exact ha)
    rw [hthr] at h3
    have h2pow : (1 : ℝ) ≤ 2 ^ E.residuals.length := one_le_pow₀ (by norm_num)
    have hEr : ‖E.world.x - z‖ ≤ r := hE.half.trans ((div_le_self (norm_nonneg _) h2pow).trans hxr)
    have h4 := hN.force E.world hE.y hEr
    have h5 : ‖staticRhs S E.world‖ ≤ G * r / 2 ^ n.iterations := by
      refine h4.trans ?_
      rw [mul_div_assoc, ← hlen]
      exact mul_le_mul_of_nonneg_left (hE.half.trans (div_le_div_of_nonneg_right hxr (by positivity))) hG
    have h6 := h3.trans (dot_le_card _ _ h5)
    rw [hquarter, ← hc1] at h6
    have h7 : c1 * ((G * r) ^ 2 * (1 / 4) ^ n.iterations) ≤ c1 * (G * r) ^ 2 * (1 / 4) ^ N := by
      rw [← mul_assoc]
      exact mul_le_mul_of_nonneg_left hq (by positivity)
    have h11 : 0 ≤ (1 / 4 : ℝ) ^ N * (36 * c1 + 1) := by positivity
    linarith

/-- **C126, the report (partial).** Near a regular equilibrium, a sufficient number of iterations makes the solve report convergence, by the correction threshold or by the
absolute threshold.  Missing: solves which hardly move (`C126_violated`). -/
theorem C126_reported_partial (S : StaticScene ℝ ι κ) (hJ : MapsFreeOnly S) (z : ι → ℝ) (ρ l : ℝ) (hρ : 0 < ρ) (hl : 0 ≤ l) (hz : RegularEquilibrium S z ρ l) :
    ∃ r : ℝ, 0 < r ∧ ∀ a : ℝ, 0 < a → ∃ N : ℕ, ∀ (n : NewtonParams ℝ), N ≤ n.iterations → 2 ≤ n.iterations → 0 < n.eps → (n.correction = a ∨ n.absolute = a) →
      ∀ (solver : Matrix ι ι ℝ → (ι → ℝ) → Option (ι → ℝ)), SolvesExactly solver → SolvesRegular solver →
      ∀ (c : NewtonState ℝ) (x : ι → ℝ), ‖x - z‖ ≤ r → (∀ i, S.fixed i = true → x i = z i) →
      (staticSolve n S solver c x).1.converged = true ∨ ((staticSolve n S solver c x).2.x - x) ⬝ᵥ ((staticSolve n S solver c x).2.x - x) < n.eps := by
  obtain ⟨C, r, G, hN⟩ := newtonNear_exists S hJ z ρ l hρ hl hz
  refine ⟨r, hN.r0, fun a ha => ?_⟩
  obtain ⟨N, h⟩ := quad_reported (ι := ι) (κ := κ) C r G a hN.G0 ha
  exact ⟨N, h S hJ z hN⟩

/-- **C126, when the hypotheses hold**: an equilibrium near which the forces are twice continuously differentiable with the stiffness as derivative, and at which no displacement of
the free degrees of freedom is without force. -/
theorem C126_smooth (S : StaticScene ℝ ι κ) (z : ι → ℝ) (h1 : InEquilibrium S z) (h2 : ContDiffAt ℝ 2 (totalForce S) z)
    (h3 : ∀ᶠ x in nhds z, HasFDerivAt (totalForce S) (LinearMap.toContinuousLinearMap (totalStiff S x).mulVecLin) x)
    (h4 : ∀ u, (∀ i, S.fixed i = true → u i = 0) → (∀ i, S.fixed i = false → (totalStiff S z).mulVec u i = 0) → u = 0) :
    ∃ ρ l : ℝ, 0 < ρ ∧ 0 ≤ l ∧ RegularEquilibrium S z ρ l := by
  have h5 : ContDiffAt ℝ 1 (fderiv ℝ (totalForce S)) z := h2.fderiv_right (by norm_num)
  obtain ⟨K, t, ht, hK⟩ := h5.exists_lipschitzOnWith
  obtain ⟨ε, hε, hball⟩ := Metric.eventually_nhds_iff.1 (h3.and ht)
  have hb : ∀ x, ‖x - z‖ ≤ ε / 2 → dist x z < ε := fun x hx => by rw [dist_eq_norm]; linarith
  refine ⟨ε / 2, K, by positivity, K.2, h1, fun x hx => (hball (hb x hx)).1, fun x hx y hy u => ?_, h4⟩
  obtain ⟨dx, mx⟩ := hball (hb x hx)
  obtain ⟨dy, my⟩ := hball (hb y hy)
  have h6 := hK.norm_sub_le mx my
  rw [dx.fderiv, dy.fderiv] at h6
  exact (LinearMap.toContinuousLinearMap (totalStiff S x).mulVecLin - LinearMap.toContinuousLinearMap (totalStiff S y).mulVecLin).le_of_opNorm_le h6 u

/-- A spring of stiffness one at rest at the distance `d`. -/
def tinySpring (d : ℝ) : StaticScene ℝ (Fin 1) (Fin 0) :=
  ⟨fun x _ => d - x 0, fun _ => -1, fun _ => ![], 0, fun _ => 0, fun _ => 0, fun _ => false⟩

theorem check_diverged {σ V : Type*} (p : NewtonParams ℝ) (env : NewtonEnv σ V ℝ) (s : NewtonLoop σ V ℝ) (dx : V) (hc : s.converged = false) (hd : s.diverged = false)
    (h : (newtonCheck p env s dx).diverged = true) : (newtonCheck p env s dx).converged = false := by
  unfold newtonCheck at h ⊢
  simp only at h ⊢
  split_ifs at h ⊢ with c1 c2 c3 c4
  · exact hc
  all_goals simp [hd] at h

theorem iteration_diverged {σ V : Type*} (p : NewtonParams ℝ) (env : NewtonEnv σ V ℝ) (s : NewtonLoop σ V ℝ) (hc : s.converged = false) (hd : s.diverged = false)
    (h : (newtonIteration p env s).diverged = true) : (newtonIteration p env s).converged = false := by
  unfold newtonIteration at h ⊢
  have h1 : (newtonAssemble p env s).converged = false := by
    unfold newtonAssemble
    simp only
    split_ifs <;> exact hc
  simp only at h ⊢
  split_ifs at h ⊢ with hdv
  · exact h1
  have hdv' : (newtonAssemble p env s).diverged = false := by simpa using hdv
  generalize newtonAssemble p env s = t at h h1 hdv'
  unfold newtonCorrect at h ⊢
  simp only at h ⊢
  split_ifs at h ⊢ with hf hit
  · revert h
    rcases env.solve (env.factorize t.world).1 t.F with ⟨w, _ | dx⟩ <;> intro h
    · exact h1
    · exact check_diverged p env _ dx h1 hdv' h
  · revert h
    rcases env.solve (env.factorize t.world).1 t.F with ⟨w, _ | dx⟩ <;> intro h
    · exact h1
    · exact check_diverged p env _ dx h1 hdv' h
  · exact h1

/-- **C126, negation**: a solve which reaches the equilibrium exactly does not report convergence when the displacement is small, whatever the thresholds and the number of
iterations are. -/
theorem C126_violated (d : ℝ) (hd : 0 < d) (n : NewtonParams ℝ) (hn : 1 ≤ n.iterations) (h1 : d * d < n.eps) (h2 : n.absolute < d) (c : NewtonState ℝ) :
    InEquilibrium (tinySpring d) (staticSolve n (tinySpring d) (fun _ f => some f) c ![0]).2.x ∧
    (staticSolve n (tinySpring d) (fun _ f => some f) c ![0]).1.converged = false := by
  obtain ⟨k, hk⟩ : ∃ k, n.iterations = k + 1 := ⟨n.iterations - 1, by omega⟩
  have hF : staticRhs (tinySpring d) ⟨![0], (tinySpring d).map ![0], 0⟩ = ![d] := by
    funext i
    fin_cases i
    simp [staticRhs, projectResponse, tinySpring, mulVec, dotProduct]
  have hc : (decide (0 < n.absolute) && leNan (some (![d] ⬝ᵥ ![d])) (some (n.absolute * n.absolute))) = false := by
    rw [Bool.and_eq_false_iff]
    by_cases h : 0 < n.absolute
    · right
      simp only [leNan, dotProduct, Fin.sum_univ_one, cons_val_zero, decide_eq_false_iff_not, not_le]
      nlinarith
    · left
      simpa using h
  unfold staticSolve newtonSolve
  simp only [Bool.not_true, Bool.false_eq_true, if_false, hk]
  have key : ∀ s : NewtonLoop (StaticWorld ℝ (Fin 1) (Fin 0)) (Fin 1 → ℝ) ℝ, s.world = ⟨![0], (tinySpring d).map ![0], 0⟩ → s.F = ![d] → s.U = 0 → s.R2.isNone = false →
      s.converged = false → s.diverged = false →
      InEquilibrium (tinySpring d) (newtonLoop n (staticEnv (tinySpring d) fun _ f => some f) (k + 1) s).world.x ∧
      (newtonLoop n (staticEnv (tinySpring d) fun _ f => some f) (k + 1) s).converged = false := by
    intro s a1 a2 a3 a4 a5 a6
    have hs := static_success n (tinySpring d) (fun _ f => some f) s a6 a5 a4 s.F rfl
    simp only at hs
    have hdv : (newtonIteration n (staticEnv (tinySpring d) fun _ f => some f) s).diverged = true := by
      rw [hs.2.2.2.2.2.1, a3, a2, zero_add]
      simpa [dotProduct] using h1
    rw [newtonLoop, a5]
    simp only [Bool.false_eq_true, if_false, hdv, if_true]
    refine ⟨?_, iteration_diverged n _ s a5 a6 hdv⟩
    rw [hs.1, a1, a2]
    intro i _
    fin_cases i
    simp [tinySpring]
  exact key _ rfl hF rfl rfl (by show (decide (0 < n.absolute) && leNan (some (staticRhs (tinySpring d) ⟨![0], (tinySpring d).map ![0], 0⟩ ⬝ᵥ staticRhs (tinySpring d) ⟨![0], (tinySpring d).map ![0], 0⟩)) (some (n.absolute * n.absolute))) = false; rw [hF]; exact hc) rfl

/-- The values of the component, with a displacement of a tenth of a nanometre. -/
example (c : NewtonState ℝ) : (staticSolve ⟨10, 1 / 10 ^ 5, 1 / 10 ^ 5, 1 / 10 ^ 15, 1 / 10 ^ 19, .beginningOfTimeStep⟩ (tinySpring (1 / 10 ^ 10)) (fun _ f => some f) c ![0]).1.converged =
    false :=
  (C126_violated (1 / 10 ^ 10) (by norm_num) _ (by norm_num) (by norm_num) (by norm_num) c).2

/-- A spring which gets stiffer, with one free and one fixed degree of freedom. -/
def stiffeningSpring : StaticScene ℝ (Fin 2) (Fin 0) :=
  ⟨fun x i => if i = 0 then 2 - x 0 - x 0 ^ 3 + x 1 else 5, fun x => !![-1 - 3 * x 0 ^ 2, 1; 0, 0], fun _ => ![], 0, fun _ => 0, fun _ => 0, fun i => i = 1⟩

theorem stiffeningSpring_regular : ∃ ρ l : ℝ, 0 < ρ ∧ 0 ≤ l ∧ RegularEquilibrium stiffeningSpring ![1, 0] ρ l := by
  unfold stiffeningSpring
  have hf : totalForce (⟨fun x i => if i = 0 then 2 - x 0 - x 0 ^ 3 + x 1 else 5, fun x => !![-1 - 3 * x 0 ^ 2, 1; 0, 0], fun _ => ![], 0, fun _ => 0, fun _ => 0, fun i => i = 1⟩ :
      StaticScene ℝ (Fin 2) (Fin 0)) = fun x => ![2 - x 0 - x 0 ^ 3 + x 1, 5] := by
    funext x i
    fin_cases i <;> simp [totalForce]
  refine C126_smooth _ _ ?_ ?_ (Filter.Eventually.of_forall fun x => ?_) ?_
  · intro i hi
    fin_cases i
    · norm_num
    · simp at hi
  · rw [hf]
    rw [contDiffAt_pi]
    intro i
    fin_cases i <;> simp <;> fun_prop
  · rw [hf]
    refine hasFDerivAt_pi'.2 fun i => ?_
    fin_cases i
    · have h0 : HasFDerivAt (fun x : Fin 2 → ℝ => x 0) (ContinuousLinearMap.proj (R := ℝ) (φ := fun _ : Fin 2 => ℝ) 0) x := hasFDerivAt_apply 0 x
      have h1 : HasFDerivAt (fun x : Fin 2 → ℝ => x 1) (ContinuousLinearMap.proj (R := ℝ) (φ := fun _ : Fin 2 => ℝ) 1) x := hasFDerivAt_apply 1 x
      have h2 := ((h0.const_sub 2).sub (h0.pow 3)).add h1
      refine HasFDerivAt.congr_fderiv h2 ?_
      refine ContinuousLinearMap.ext fun u => ?_
      simp [totalStiff, mulVec, dotProduct, Fin.sum_univ_two]
      ring
    · refine HasFDerivAt.congr_fderiv (hasFDerivAt_const (5 : ℝ) x) ?_
      refine ContinuousLinearMap.ext fun u => ?_
      simp [totalStiff, mulVec, dotProduct, Fin.sum_univ_two]
  · intro u hu h
    have h1 := hu 1 (by simp)
    have h2 := h 0 (by simp)
    simp [totalStiff, mulVec, dotProduct, Fin.sum_univ_two, h1] at h2
    funext i
    fin_cases i
    · rcases h2 with h2 | h2
      · norm_num at h2
      · simpa using h2
    · simpa using h1

/-- The hypotheses of the theorems of this file. -/
example : ∃ ρ l : ℝ, 0 < ρ ∧ 0 ≤ l ∧ RegularEquilibrium stiffeningSpring ![1, 0] ρ l := stiffeningSpring_regular

end Caribou

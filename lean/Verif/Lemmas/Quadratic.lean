import Verif.Spec.Quadratic
import Verif.Props.StaticODE
import Verif.Lemmas.Motion

set_option autoImplicit false
set_option linter.all false

namespace Caribou

open Spec Matrix

variable {ι κ : Type*} [Fintype ι] [Fintype κ] [DecidableEq ι]

/-- Entries of fixed degrees of freedom replaced by zero. -/
theorem norm_project_le (fixed : ι → Bool) (f : ι → ℝ) : ‖projectResponse fixed f‖ ≤ ‖f‖ := by
  refine (pi_norm_le_iff_of_nonneg (norm_nonneg _)).2 fun i => ?_
  unfold projectResponse
  split_ifs
  · simp
  · exact norm_le_pi_norm f i

theorem staticRhs_total (S : StaticScene ℝ ι κ) (w : StaticWorld ℝ ι κ) (hy : w.y = S.map w.x) : staticRhs S w = projectResponse S.fixed (totalForce S w.x) := by
  funext i
  simp [staticRhs, projectResponse, totalForce, mulVec, dotProduct, hy]

theorem staticMatrix_total (S : StaticScene ℝ ι κ) (hJ : MapsFreeOnly S) (w : StaticWorld ℝ ι κ) (hy : w.y = S.map w.x) (u : ι → ℝ) (i : ι) :
    (staticMatrix S w *ᵥ u) i = if S.fixed i then u i else -(totalStiff S w.x *ᵥ projectResponse S.fixed u) i := by
  have hJu : S.J *ᵥ projectResponse S.fixed u = S.J *ᵥ u := by
    funext k
    refine Finset.sum_congr rfl fun j _ => ?_
    unfold projectResponse
    split_ifs with h
    · show S.J k j * 0 = S.J k j * u j
      rw [hJ k j h]; ring
    · rfl
  split_ifs with hi
  · rw [staticMatrix, add_mulVec, Pi.add_apply, constrain_mulVec_fixed _ _ _ _ hi, mapped_mulVec_fixed S hJ _ _ _ hi, add_zero]
  · have hi' : S.fixed i = false := by simpa using hi
    have h1 : (constrainMatrix S.fixed (-S.stiff w.x) *ᵥ u) i = -(S.stiff w.x *ᵥ projectResponse S.fixed u) i := by
      simp only [mulVec, dotProduct, constrainMatrix, hi', Bool.false_or, Matrix.neg_apply, ← Finset.sum_neg_distrib]
      refine Finset.sum_congr rfl fun j _ => ?_
      unfold projectResponse
      by_cases hj : S.fixed j = true
      · have : i ≠ j := fun h => hi (h ▸ hj)
        simp [hj, this]
      · simp [hj]
    rw [staticMatrix, add_mulVec, Pi.add_apply, h1, Matrix.mul_neg, Matrix.neg_mul, neg_mulVec, Pi.neg_apply, ← mulVec_mulVec, ← mulVec_mulVec, totalStiff, add_mulVec,
      Pi.add_apply, ← mulVec_mulVec, ← mulVec_mulVec, hJu, hy]
    ring

/-- What an exact Newton step does near a regular equilibrium. -/
structure NewtonNear (S : StaticScene ℝ ι κ) (z : ι → ℝ) (C r G : ℝ) : Prop where
  C0 : 0 < C
  r0 : 0 < r
  G0 : 0 ≤ G
  small : C * r ≤ 1 / 2
  unit : ∀ w : StaticWorld ℝ ι κ, w.y = S.map w.x → ‖w.x - z‖ ≤ r → IsUnit (staticMatrix S w)
  step : ∀ w : StaticWorld ℝ ι κ, w.y = S.map w.x → ‖w.x - z‖ ≤ r → (∀ i, S.fixed i = true → w.x i = z i) → ∀ u, staticMatrix S w *ᵥ u = staticRhs S w →
    ‖w.x + u - z‖ ≤ C * ‖w.x - z‖ ^ 2
  force : ∀ w : StaticWorld ℝ ι κ, w.y = S.map w.x → ‖w.x - z‖ ≤ r → ‖staticRhs S w‖ ≤ G * ‖w.x - z‖
  inverse : ∀ w : StaticWorld ℝ ι κ, w.y = S.map w.x → ‖w.x - z‖ ≤ r → ∀ u, ‖u‖ ≤ C * ‖staticMatrix S w *ᵥ u‖

theorem withLoad_total (S : StaticScene ℝ ι κ) (f x : ι → ℝ) : totalForce (withLoad S f) x = totalForce S x + f := by
  funext i
  simp only [totalForce, withLoad, Pi.add_apply]
  ring

theorem withLoad_zero (S : StaticScene ℝ ι κ) : withLoad S 0 = S := by
  cases S
  simp [withLoad]

/-- The same constants for all loads and all equilibria near `z₀`. -/
theorem newtonNear_family (S : StaticScene ℝ ι κ) (hJ : MapsFreeOnly S) (z₀ : ι → ℝ) (ρ l : ℝ) (hρ : 0 < ρ) (hl : 0 ≤ l) (h : RegularEquilibrium S z₀ ρ l) :
    ∃ C r G : ℝ, 0 < C ∧ 0 < r ∧ C * r ≤ 1 / 2 ∧ 0 ≤ G ∧ ∀ f z, ‖z - z₀‖ ≤ r → InEquilibrium (withLoad S f) z → NewtonNear (withLoad S f) z C r G := by
  have hzu : IsUnit (staticMatrix S ⟨z₀, S.map z₀, 0⟩) := by
    rw [isUnit_iff_isUnit_det, isUnit_iff_ne_zero]
    intro hdet
    obtain ⟨w, hw, hw0⟩ := (exists_mulVec_eq_zero_iff).2 hdet
    have hf : ∀ i, S.fixed i = true → w i = 0 := by
      intro i hi
      have := congrFun hw0 i
      rwa [staticMatrix_total S hJ _ rfl, if_pos hi] at this
    have hp : projectResponse S.fixed w = w := by
      funext i
      unfold projectResponse
      split_ifs with hi
      · exact (hf i hi).symm
      · rfl
    refine hw (h.regular w hf fun i hi => ?_)
    have := congrFun hw0 i
    rw [staticMatrix_total S hJ _ rfl, hi, if_neg (by simp), hp, Pi.zero_apply, neg_eq_zero] at this
    exact this
  obtain ⟨μ, hμ, hinv⟩ := inverse_bound hzu
  obtain ⟨t, ht0, ht⟩ := mulVec_bound (totalStiff S z₀)
  have hC : 0 < 4 * μ * l + 2 * μ + 1 := by positivity
  set r := min (ρ / 2) (1 / (2 * (4 * μ * l + 2 * μ + 1))) with hr
  have hr0 : 0 < r := by positivity
  have hrρ : 2 * r ≤ ρ := by
    have : r ≤ ρ / 2 := min_le_left _ _
    linarith
  have hsmall : (4 * μ * l + 2 * μ + 1) * r ≤ 1 / 2 := by
    have : r ≤ 1 / (2 * (4 * μ * l + 2 * μ + 1)) := min_le_right _ _
    rw [le_div_iff₀ (by positivity)] at this
    linarith
  have hself : ‖z₀ - z₀‖ ≤ ρ := by simp [hρ.le]
  -- the matrix near the equilibrium
  have hnear : ∀ w : StaticWorld ℝ ι κ, w.y = S.map w.x → ‖w.x - z₀‖ ≤ 2 * r → ∀ u, ‖u‖ ≤ 2 * μ * ‖staticMatrix S w *ᵥ u‖ := by
    intro w hy hx u
    have hd : ‖staticMatrix S w *ᵥ u - staticMatrix S ⟨z₀, S.map z₀, 0⟩ *ᵥ u‖ ≤ l * ‖w.x - z₀‖ * ‖u‖ := by
      refine (pi_norm_le_iff_of_nonneg (by positivity)).2 fun i => ?_
      rw [Pi.sub_apply, staticMatrix_total S hJ w hy, staticMatrix_total S hJ _ rfl]
      split_ifs with hi
      · rw [sub_self, norm_zero]; positivity
      · have h1 := h.lipschitz w.x (hx.trans hrρ) z₀ hself (projectResponse S.fixed u)
        have h2 := norm_le_pi_norm (totalStiff S w.x *ᵥ projectResponse S.fixed u - totalStiff S z₀ *ᵥ projectResponse S.fixed u) i
        rw [neg_sub_neg, norm_sub_rev]
        exact (h2.trans h1).trans (mul_le_mul_of_nonneg_left (norm_project_le _ _) (by positivity))
    have h1 := hinv u
    have h2 : ‖staticMatrix S ⟨z₀, S.map z₀, 0⟩ *ᵥ u‖ ≤ ‖staticMatrix S w *ᵥ u‖ + l * ‖w.x - z₀‖ * ‖u‖ := by
      have := norm_sub_norm_le (staticMatrix S ⟨z₀, S.map z₀, 0⟩ *ᵥ u) (staticMatrix S w *ᵥ u)
      rw [norm_sub_rev] at this
      linarith
    have h3 : μ * (l * ‖w.x - z₀‖ * ‖u‖) ≤ 1 / 2 * ‖u‖ := by
      have h4 : μ * l * ‖w.x - z₀‖ ≤ μ * l * (2 * r) := mul_le_mul_of_nonneg_left hx (by positivity)
      have h5 : μ * l * ‖w.x - z₀‖ ≤ 1 / 2 := by nlinarith
      have := mul_le_mul_of_nonneg_right h5 (norm_nonneg u)
      linarith
    have h6 := mul_le_mul_of_nonneg_left h2 hμ.le
    linarith
  -- the expansion of the force
  have hin : ∀ z, ‖z - z₀‖ ≤ r → ∀ x, ‖x - z‖ ≤ r → ‖x - z₀‖ ≤ 2 * r := by
    intro z hz x hx
    have e : x - z₀ = (x - z) + (z - z₀) := by abel
    rw [e]
    have := norm_add_le (x - z) (z - z₀)
    linarith
  have hexp : ∀ z, ‖z - z₀‖ ≤ r → ∀ x, ‖x - z‖ ≤ r → ‖totalForce S x - totalForce S z - totalStiff S x *ᵥ (x - z)‖ ≤ 2 * l * ‖x - z‖ * ‖x - z‖ := by
    intro z hz x hx
    have hc : Convex ℝ (Metric.closedBall z ‖x - z‖) := convex_closedBall _ _
    have hb : ∀ y ∈ Metric.closedBall z ‖x - z‖, ‖y - z‖ ≤ ‖x - z‖ := fun y hy => by rwa [Metric.mem_closedBall, dist_eq_norm] at hy
    have := hc.norm_image_sub_le_of_norm_hasFDerivWithin_le' (f := totalForce S) (f' := fun y => LinearMap.toContinuousLinearMap (totalStiff S y).mulVecLin)
      (φ := LinearMap.toContinuousLinearMap (totalStiff S x).mulVecLin) (C := 2 * l * ‖x - z‖) (x := z) (y := x)
      (fun y hy => (h.derivative y ((hin z hz y ((hb y hy).trans hx)).trans hrρ)).hasFDerivWithinAt) (fun y hy => ?_) (by simp) (by rw [Metric.mem_closedBall, dist_eq_norm])
    · exact this
    · refine ContinuousLinearMap.opNorm_le_bound _ (by positivity) fun u => ?_
      have h1 := h.lipschitz y ((hin z hz y ((hb y hy).trans hx)).trans hrρ) x ((hin z hz x hx).trans hrρ) u
      have h2 : ‖y - x‖ ≤ 2 * ‖x - z‖ := by
        have e : y - x = (y - z) - (x - z) := by abel
        rw [e]
        have := norm_sub_le (y - z) (x - z)
        have := hb y hy
        linarith
      refine le_trans h1 (mul_le_mul_of_nonneg_right ?_ (norm_nonneg _))
      have := mul_le_mul_of_nonneg_left h2 hl
      linarith
  refine ⟨4 * μ * l + 2 * μ + 1, r, t + 4 * l * r, hC, hr0, hsmall, by positivity, fun f z hz hez => ?_⟩
  have heq : projectResponse S.fixed (totalForce S z + f) = 0 := by
    have := (staticRhs_eq_zero_iff (withLoad S f) ⟨z, S.map z, 0⟩ rfl).2 hez
    rwa [staticRhs_total (withLoad S f) _ rfl, withLoad_total] at this
  refine ⟨hC, hr0, by positivity, hsmall, fun w hy hx => isUnit_of_bound (hnear w hy (hin z hz _ hx)), ?_, ?_, ?_⟩
  · intro w hy hx hfix u hu
    have hpe : projectResponse S.fixed (w.x - z) = w.x - z := by
      funext i
      unfold projectResponse
      split_ifs with hi
      · rw [Pi.sub_apply, hfix i hi, sub_self]
      · rfl
    have e : staticMatrix (withLoad S f) w *ᵥ (w.x + u - z) = projectResponse S.fixed (totalForce S w.x - totalForce S z - totalStiff S w.x *ᵥ (w.x - z)) := by
      have e1 : w.x + u - z = u + (w.x - z) := by abel
      rw [e1, mulVec_add, hu, staticRhs_total (withLoad S f) w hy, withLoad_total]
      funext i
      rw [Pi.add_apply, show staticMatrix (withLoad S f) w = staticMatrix S w from rfl, staticMatrix_total S hJ w hy, hpe, show (withLoad S f).fixed = S.fixed from rfl]
      have h0 := congrFun heq i
      unfold projectResponse at h0 ⊢
      by_cases hi : S.fixed i = true
      · simp [hi, hfix i hi]
      · simp only [hi, if_false, Pi.sub_apply, Pi.zero_apply, Pi.add_apply, Bool.false_eq_true] at h0 ⊢
        linarith
    have h1 := hnear w hy (hin z hz _ hx) (w.x + u - z)
    rw [show staticMatrix S w = staticMatrix (withLoad S f) w from rfl, e] at h1
    have h2 := (norm_project_le S.fixed (totalForce S w.x - totalForce S z - totalStiff S w.x *ᵥ (w.x - z))).trans (hexp z hz w.x hx)
    have h3 := mul_le_mul_of_nonneg_left h2 (by positivity : 0 ≤ 2 * μ)
    have h4 : 0 ≤ ‖w.x - z‖ ^ 2 := by positivity
    nlinarith
  · intro w hy hx
    have e : staticRhs (withLoad S f) w = projectResponse S.fixed (totalForce S w.x - totalForce S z) := by
      rw [staticRhs_total (withLoad S f) w hy, withLoad_total]
      funext i
      rw [show (withLoad S f).fixed = S.fixed from rfl]
      have h0 := congrFun heq i
      unfold projectResponse at h0 ⊢
      by_cases hi : S.fixed i = true
      · simp [hi]
      · simp only [hi, if_false, Pi.sub_apply, Pi.zero_apply, Pi.add_apply, Bool.false_eq_true] at h0 ⊢
        linarith
    rw [e]
    refine (norm_project_le _ _).trans ?_
    have e2 : totalForce S w.x - totalForce S z = (totalForce S w.x - totalForce S z - totalStiff S w.x *ᵥ (w.x - z)) +
        (totalStiff S w.x *ᵥ (w.x - z) - totalStiff S z₀ *ᵥ (w.x - z)) + totalStiff S z₀ *ᵥ (w.x - z) := by abel
    rw [e2]
    refine (norm_add₃_le).trans ?_
    have a1 := hexp z hz w.x hx
    have a2 := h.lipschitz w.x ((hin z hz _ hx).trans hrρ) z₀ hself (w.x - z)
    have a3 := ht (w.x - z)
    have a4 : l * ‖w.x - z‖ * ‖w.x - z‖ ≤ l * r * ‖w.x - z‖ := mul_le_mul_of_nonneg_right (mul_le_mul_of_nonneg_left hx hl) (norm_nonneg _)
    have a5 : l * ‖w.x - z₀‖ * ‖w.x - z‖ ≤ l * (2 * r) * ‖w.x - z‖ := mul_le_mul_of_nonneg_right (mul_le_mul_of_nonneg_left (hin z hz _ hx) hl) (norm_nonneg _)
    linarith
  · intro w hy hx u
    refine (hnear w hy (hin z hz _ hx) u).trans (mul_le_mul_of_nonneg_right ?_ (norm_nonneg _))
    have : 0 ≤ 4 * μ * l := by positivity
    linarith

theorem newtonNear_exists (S : StaticScene ℝ ι κ) (hJ : MapsFreeOnly S) (z : ι → ℝ) (ρ l : ℝ) (hρ : 0 < ρ) (hl : 0 ≤ l) (h : RegularEquilibrium S z ρ l) :
    ∃ C r G, NewtonNear S z C r G := by
  obtain ⟨C, r, G, _, hr, _, _, hf⟩ := newtonNear_family S hJ z ρ l hρ hl h
  have := hf 0 z (by simpa using hr.le) (by rw [withLoad_zero]; exact h.equilibrium)
  rw [withLoad_zero] at this
  exact ⟨C, r, G, this⟩

/-! ### The loop -/

/-- One iteration whose linear system is solved by `u`. -/
theorem static_success (p : NewtonParams ℝ) (S : StaticScene ℝ ι κ) (solver : Matrix ι ι ℝ → (ι → ℝ) → Option (ι → ℝ)) (s : NewtonLoop (StaticWorld ℝ ι κ) (ι → ℝ) ℝ)
    (hd : s.diverged = false) (hc : s.converged = false) (hR : s.R2.isNone = false) (u : ι → ℝ) (hu : solver (staticMatrix S s.world) s.F = some u) :
    let r := newtonIteration p (staticEnv S solver) s
    r.world.x = s.world.x + u ∧ r.world.y = S.map (s.world.x + u) ∧ r.U = s.U + u ∧ r.residuals.length = s.residuals.length + 1 ∧ r.R2.isNone = false ∧
    (r.diverged = true ↔ (s.U + u) ⬝ᵥ (s.U + u) < p.eps) ∧
    (1 < p.iterations → r.F = staticRhs S r.world ∧ (r.diverged = false → r.converged = false →
      (0 < p.correction → p.correction * p.correction * ((s.U + u) ⬝ᵥ (s.U + u)) ≤ u ⬝ᵥ u) ∧ (0 < p.absolute → p.absolute * p.absolute ≤ r.F ⬝ᵥ r.F))) := by
  have key : ∀ t : NewtonLoop (StaticWorld ℝ ι κ) (ι → ℝ) ℝ, t.diverged = false → t.converged = false → t.R2.isNone = false →
      let r := newtonCheck p (staticEnv S solver) t u
      r.world = t.world ∧ r.F = t.F ∧ r.U = t.U + u ∧ r.residuals.length = t.residuals.length + 1 ∧ r.R2 = t.R2 ∧
      (r.diverged = true ↔ (t.U + u) ⬝ᵥ (t.U + u) < p.eps) ∧
      (t.R2 = some (t.F ⬝ᵥ t.F) → r.diverged = false → r.converged = false →
        (0 < p.correction → p.correction * p.correction * ((t.U + u) ⬝ᵥ (t.U + u)) ≤ u ⬝ᵥ u) ∧ (0 < p.absolute → p.absolute * p.absolute ≤ t.F ⬝ᵥ t.F)) := by
    intro t h1 h2 h3
    unfold newtonCheck
    simp only [h3, Bool.false_or, staticEnv, Option.isNone_some, ltNan, mulNan, Option.map_some, decide_eq_true_eq, Bool.and_eq_true]
    split_ifs with c1 c2 c3 c4
    · exact ⟨rfl, rfl, rfl, by simp, rfl, by simpa using c1, fun _ h => absurd h (by simp)⟩
    · exact ⟨rfl, rfl, rfl, by simp, rfl, by simp [h1]; simpa using c1, fun _ _ h => absurd h (by simp)⟩
    · exact ⟨rfl, rfl, rfl, by simp, rfl, by simp [h1]; simpa using c1, fun _ _ h => absurd h (by simp)⟩
    · exact ⟨rfl, rfl, rfl, by simp, rfl, by simp [h1]; simpa using c1, fun _ _ h => absurd h (by simp)⟩
    · refine ⟨rfl, rfl, rfl, by simp, rfl, by simp [h1]; simpa using c1, fun h _ _ => ⟨fun hp => ?_, fun hp => ?_⟩⟩
      · by_contra hlt
        exact c2 ⟨hp, not_le.1 hlt⟩
      · by_contra hlt
        refine c4 ⟨hp, ?_⟩
        simp only [h]
        simpa using hlt
  have ha : ∃ t : NewtonLoop (StaticWorld ℝ ι κ) (ι → ℝ) ℝ, newtonAssemble p (staticEnv S solver) s = t ∧
      t.world = { s.world with A := staticMatrix S s.world } ∧ t.F = s.F ∧ t.U = s.U ∧ t.residuals = s.residuals ∧ t.R2 = s.R2 ∧ t.converged = false ∧ t.diverged = false := by
    refine ⟨_, rfl, ?_⟩
    unfold newtonAssemble
    simp only
    split_ifs <;> first | exact ⟨rfl, rfl, rfl, rfl, rfl, hc, rfl⟩ | exact ⟨rfl, rfl, rfl, rfl, rfl, hc, hd⟩
  obtain ⟨t, ht, hw, hF, hU, hres, hR2, htc, htd⟩ := ha
  intro r
  have hr : r = newtonCorrect p (staticEnv S solver) t := by
    show newtonIteration p (staticEnv S solver) s = _
    unfold newtonIteration
    simp only [ht, htd, Bool.false_eq_true, if_false]
  have e : (staticEnv S solver).solve ((staticEnv S solver).factorize t.world).1 t.F = (t.world, some u) := by
    show (t.world, solver t.world.A t.F) = _
    rw [hw, hF, hu]
  have hf : ((staticEnv S solver).factorize t.world).2 = true := rfl
  by_cases hp : 1 < p.iterations
  · have hr2 : r = newtonCheck p (staticEnv S solver) { t with
        world := staticPropagate S t.world u, calls := t.calls ++ [NewtonCall.factorize true, NewtonCall.solve true]
        F := staticRhs S (staticPropagate S t.world u), R2 := some (staticRhs S (staticPropagate S t.world u) ⬝ᵥ staticRhs S (staticPropagate S t.world u)) } u := by
      rw [hr]
      simp only [newtonCorrect, hf, if_true, e, if_pos hp]
      rfl
    have k := key { t with
        world := staticPropagate S t.world u, calls := t.calls ++ [NewtonCall.factorize true, NewtonCall.solve true]
        F := staticRhs S (staticPropagate S t.world u), R2 := some (staticRhs S (staticPropagate S t.world u) ⬝ᵥ staticRhs S (staticPropagate S t.world u)) } htd htc rfl
    simp only at k
    rw [← hr2] at k
    obtain ⟨k1, k2, k3, k4, k5, k6, k7⟩ := k
    rw [hU] at k3 k6 k7
    refine ⟨by rw [k1, hw]; rfl, by rw [k1, hw]; rfl, k3, by rw [k4, hres], by rw [k5]; rfl, k6, fun _ => ⟨by rw [k2, k1], ?_⟩⟩
    rw [k2]
    exact k7 trivial
  · have hr2 : r = newtonCheck p (staticEnv S solver) { t with
        world := staticPropagate S t.world u, calls := t.calls ++ [NewtonCall.factorize true, NewtonCall.solve true] } u := by
      rw [hr]
      simp only [newtonCorrect, hf, if_true, e, if_neg hp]
      rfl
    have k := key { t with world := staticPropagate S t.world u, calls := t.calls ++ [NewtonCall.factorize true, NewtonCall.solve true] } htd htc (by simp only [hR2, hR])
    simp only at k
    rw [← hr2] at k
    obtain ⟨k1, k2, k3, k4, k5, k6, k7⟩ := k
    rw [hU] at k3 k6
    exact ⟨by rw [k1, hw]; rfl, by rw [k1, hw]; rfl, k3, by rw [k4, hres], by rw [k5, hR2, hR], k6, fun h => absurd h hp⟩

/-- What holds after every iteration from `x0`. -/
structure QuadInv (p : NewtonParams ℝ) (S : StaticScene ℝ ι κ) (z x0 : ι → ℝ) (C : ℝ) (s : NewtonLoop (StaticWorld ℝ ι κ) (ι → ℝ) ℝ) : Prop where
  y : s.world.y = S.map s.world.x
  U : s.U = s.world.x - x0
  fixed : ∀ i, S.fixed i = true → s.world.x i = z i
  R : s.R2.isNone = false
  quad : C * ‖s.world.x - z‖ ≤ (C * ‖x0 - z‖) ^ 2 ^ s.residuals.length
  half : ‖s.world.x - z‖ ≤ ‖x0 - z‖ / 2 ^ s.residuals.length
  div : s.diverged = true → s.U ⬝ᵥ s.U < p.eps
  undiv : s.diverged = false → 0 < s.residuals.length → p.eps ≤ s.U ⬝ᵥ s.U
  last : 1 < p.iterations → s.converged = false → s.diverged = false → 0 < s.residuals.length →
    (0 < p.correction → p.correction * p.correction * (s.U ⬝ᵥ s.U) ≤ Fintype.card ι * (3 * ‖x0 - z‖ / 2 ^ s.residuals.length) ^ 2) ∧
    (0 < p.absolute → p.absolute * p.absolute ≤ staticRhs S s.world ⬝ᵥ staticRhs S s.world)

omit [DecidableEq ι] in
theorem dot_le_card (u : ι → ℝ) (b : ℝ) (h : ‖u‖ ≤ b) : u ⬝ᵥ u ≤ Fintype.card ι * b ^ 2 := by
  have hb : 0 ≤ b := (norm_nonneg _).trans h
  have : ∀ i ∈ Finset.univ, u i * u i ≤ b ^ 2 := by
    intro i _
    have h1 := (norm_le_pi_norm u i).trans h
    rw [Real.norm_eq_abs, abs_le] at h1
    nlinarith
  have h2 := Finset.sum_le_sum this
  rw [Finset.sum_const, Finset.card_univ, nsmul_eq_mul] at h2
  exact h2

omit [DecidableEq ι] in
theorem sq_norm_le_dot (u : ι → ℝ) : ‖u‖ ^ 2 ≤ u ⬝ᵥ u := by
  have h0 : 0 ≤ u ⬝ᵥ u := Finset.sum_nonneg fun i _ => mul_self_nonneg (u i)
  have h1 : ‖u‖ ≤ Real.sqrt (u ⬝ᵥ u) := by
    refine (pi_norm_le_iff_of_nonneg (Real.sqrt_nonneg _)).2 fun i => ?_
    rw [Real.norm_eq_abs]
    refine Real.abs_le_sqrt ?_
    rw [sq]
    exact Finset.single_le_sum (f := fun i => u i * u i) (fun j _ => mul_self_nonneg _) (Finset.mem_univ i)
  calc ‖u‖ ^ 2 ≤ Real.sqrt (u ⬝ᵥ u) ^ 2 := pow_le_pow_left₀ (norm_nonneg _) h1 2
    _ = _ := Real.sq_sqrt h0

theorem quad_loop (p : NewtonParams ℝ) (S : StaticScene ℝ ι κ) (hJ : MapsFreeOnly S) (z x0 : ι → ℝ) (C r G : ℝ) (hN : NewtonNear S z C r G) (hx0 : ‖x0 - z‖ ≤ r)
    (solver : Matrix ι ι ℝ → (ι → ℝ) → Option (ι → ℝ)) (hex : SolvesExactly solver) (hreg : SolvesRegular solver) :
    ∀ (fuel : ℕ) (s : NewtonLoop (StaticWorld ℝ ι κ) (ι → ℝ) ℝ), fuel ≤ p.iterations → QuadInv p S z x0 C s → s.diverged = false → (0 < fuel → s.F = staticRhs S s.world) →
      QuadInv p S z x0 C (newtonLoop p (staticEnv S solver) fuel s) ∧
      ((newtonLoop p (staticEnv S solver) fuel s).converged = true ∨ (newtonLoop p (staticEnv S solver) fuel s).diverged = true ∨
        (newtonLoop p (staticEnv S solver) fuel s).residuals.length = s.residuals.length + fuel) := by
  intro fuel
  induction fuel with
  | zero => intro s _ h _ _; exact ⟨h, Or.inr (Or.inr rfl)⟩
  | succ fuel ih =>
    intro s hfuel h hd hF
    unfold newtonLoop
    split_ifs with hc
    · exact ⟨h, Or.inl hc⟩
    have hc' : s.converged = false := by simpa using hc
    have hF := hF (Nat.succ_pos _)
    have h2pow : (1 : ℝ) ≤ 2 ^ s.residuals.length := one_le_pow₀ (by norm_num)
    have hxr : ‖s.world.x - z‖ ≤ r := h.half.trans ((div_le_self (norm_nonneg _) h2pow).trans hx0)
    obtain ⟨u, hu⟩ := hreg (staticMatrix S s.world) s.F (hN.unit s.world h.y hxr)
    have hu' := hex _ _ _ hu
    rw [hF] at hu'
    have hstep := hN.step s.world h.y hxr h.fixed u hu'
    have hk := static_success p S solver s hd hc' h.R u hu
    simp only at hk ⊢
    obtain ⟨k1, k2, k3, k4, k5, k6, k7⟩ := hk
    have hC := hN.C0
    have hU : (newtonIteration p (staticEnv S solver) s).U = (newtonIteration p (staticEnv S solver) s).world.x - x0 := by
      rw [k3, k1, h.U]; abel
    have hnext : ‖s.world.x + u - z‖ ≤ ‖s.world.x - z‖ / 2 := by
      have h1 := hN.small
      have h2 : C * ‖s.world.x - z‖ ≤ 1 / 2 := (mul_le_mul_of_nonneg_left hxr hC.le).trans h1
      have := mul_le_mul_of_nonneg_right h2 (norm_nonneg (s.world.x - z))
      nlinarith
    have hdx : ‖u‖ ≤ 3 * ‖x0 - z‖ / 2 ^ (s.residuals.length + 1) := by
      have e : u = (s.world.x + u - z) - (s.world.x - z) := by abel
      have h1 := norm_sub_le (s.world.x + u - z) (s.world.x - z)
      rw [← e] at h1
      have h3 : 3 * ‖x0 - z‖ / 2 ^ (s.residuals.length + 1) = 3 / 2 * (‖x0 - z‖ / 2 ^ s.residuals.length) := by rw [pow_succ]; field_simp
      rw [h3]
      have := h.half
      linarith
    have hinv : QuadInv p S z x0 C (newtonIteration p (staticEnv S solver) s) := by
      refine ⟨by rw [k2, k1], hU, fun i hi => ?_, k5, ?_, ?_, fun hdv => by rw [k3]; exact k6.1 hdv, fun hdv _ => ?_, fun hp hcv hdv _ => ?_⟩
      · rw [k1, Pi.add_apply, h.fixed i hi]
        rw [C84_system_partial S hJ s.world u hu' i hi, add_zero]
      · rw [k1, k4, pow_succ, pow_mul]
        have h1 : 0 ≤ C * ‖s.world.x - z‖ := by positivity
        calc C * ‖s.world.x + u - z‖ ≤ C * (C * ‖s.world.x - z‖ ^ 2) := mul_le_mul_of_nonneg_left hstep hC.le
          _ = (C * ‖s.world.x - z‖) ^ 2 := by ring
          _ ≤ _ := pow_le_pow_left₀ h1 h.quad 2
      · rw [k1, k4, pow_succ, ← div_div]
        exact hnext.trans (div_le_div_of_nonneg_right h.half (by norm_num))
      · rw [k3]
        by_contra hlt
        exact absurd (k6.2 (not_le.1 hlt)) (by rw [hdv]; simp)
      · obtain ⟨f1, f2⟩ := k7 hp
        obtain ⟨f3, f4⟩ := f2 hdv hcv
        rw [k3, k4, ← f1]
        exact ⟨fun hpos => (f3 hpos).trans (dot_le_card u _ hdx), f4⟩
    split_ifs with hdv
    · exact ⟨hinv, Or.inr (Or.inl hdv)⟩
    · have := ih _ (by omega) hinv (by simpa using hdv) fun hpos => (k7 (by omega)).1
      refine ⟨this.1, ?_⟩
      rcases this.2 with t | t | t
      · exact Or.inl t
      · exact Or.inr (Or.inl t)
      · exact Or.inr (Or.inr (by rw [t, k4]; omega))

end Caribou

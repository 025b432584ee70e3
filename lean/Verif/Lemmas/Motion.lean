import Verif.Spec.Motion
import Verif.Props.BackwardEuler
import Mathlib.Analysis.Calculus.MeanValue
import Mathlib.Analysis.SpecialFunctions.Exp
import Mathlib.Topology.Algebra.Module.FiniteDimension
import Mathlib.Topology.Instances.Matrix

set_option autoImplicit false
set_option linter.all false

namespace Caribou

open Spec Matrix

variable {ι : Type*} [Fintype ι]

theorem mulVec_bound (A : Matrix ι ι ℝ) : ∃ c : ℝ, 0 ≤ c ∧ ∀ u, ‖A *ᵥ u‖ ≤ c * ‖u‖ := by
  classical
  refine ⟨‖LinearMap.toContinuousLinearMap (toLin' A)‖, norm_nonneg _, fun u => ?_⟩
  have := (LinearMap.toContinuousLinearMap (toLin' A)).le_opNorm u
  simpa using this

theorem inverse_bound [DecidableEq ι] {A : Matrix ι ι ℝ} (hA : IsUnit A) : ∃ c : ℝ, 0 < c ∧ ∀ u, ‖u‖ ≤ c * ‖A *ᵥ u‖ := by
  obtain ⟨c, hc, h⟩ := mulVec_bound A⁻¹
  refine ⟨c + 1, by linarith, fun u => ?_⟩
  have h1 := h (A *ᵥ u)
  rw [mulVec_mulVec, nonsing_inv_mul _ ((isUnit_iff_isUnit_det A).1 hA), one_mulVec] at h1
  nlinarith [norm_nonneg (A *ᵥ u)]

theorem isUnit_of_bound [DecidableEq ι] {A : Matrix ι ι ℝ} {c : ℝ} (h : ∀ u, ‖u‖ ≤ c * ‖A *ᵥ u‖) : IsUnit A := by
  rw [isUnit_iff_isUnit_det, isUnit_iff_ne_zero]
  intro hdet
  obtain ⟨w, hw, hw0⟩ := (exists_mulVec_eq_zero_iff).2 hdet
  have := h w
  rw [hw0, norm_zero, mul_zero] at this
  exact hw (norm_le_zero_iff.1 this)

/-! ### The Newton loop of one time step -/

section

variable {n : NewtonParams ℝ} {p : BEParams ℝ} {S : BEScene ℝ ι} {solver : Matrix ι ι ℝ → (ι → ℝ) → Option (ι → ℝ)}

theorem newtonCheck_world {σ V : Type*} (p : NewtonParams ℝ) (env : NewtonEnv σ V ℝ) (s : NewtonLoop σ V ℝ) (dx : V) :
    (newtonCheck p env s dx).world = s.world ∧ (newtonCheck p env s dx).F = s.F := by
  unfold newtonCheck
  simp only
  split_ifs <;> exact ⟨rfl, rfl⟩

/-- One iteration with a solver which finds `da`. -/
theorem be_small_iteration (s : NewtonLoop (BEState ℝ ι × Matrix ι ι ℝ) (ι → ℝ) ℝ) (hd : s.diverged = false) (da : ι → ℝ)
    (hda : solver (beMatrix p S s.world.1) s.F = some da) :
    (newtonIteration n (beEnv p S solver) s).world.1 = bePropagate p s.world.1 da ∧
    (1 < n.iterations → (newtonIteration n (beEnv p S solver) s).F = beRhs p S (newtonIteration n (beEnv p S solver) s).world.1) := by
  have h1 : (newtonAssemble n (beEnv p S solver) s).world = (s.world.1, beMatrix p S s.world.1) ∧ (newtonAssemble n (beEnv p S solver) s).F = s.F ∧
      (newtonAssemble n (beEnv p S solver) s).diverged = false := by
    unfold newtonAssemble
    split_ifs
    · exact ⟨rfl, rfl, rfl⟩
    · exact ⟨rfl, rfl, hd⟩
  unfold newtonIteration
  simp only [h1.2.2, Bool.false_eq_true, if_false]
  generalize newtonAssemble n (beEnv p S solver) s = r at h1
  obtain ⟨hw, hF, -⟩ := h1
  have h2 : (beEnv p S solver).solve ((beEnv p S solver).factorize r.world).1 r.F = (r.world, some da) := by
    show (r.world, solver r.world.2 r.F) = _
    rw [hw, hF, hda]
  have h3 : ((beEnv p S solver).factorize r.world).2 = true := rfl
  unfold newtonCorrect
  simp only [h3, if_true, h2]
  split_ifs with hi
  · refine ⟨?_, fun _ => ?_⟩
    · rw [(newtonCheck_world _ _ _ _).1]
      show bePropagate p r.world.1 da = _
      rw [hw]
    · rw [(newtonCheck_world _ _ _ _).1, (newtonCheck_world _ _ _ _).2]
      rfl
  · refine ⟨?_, fun h => absurd h hi⟩
    rw [(newtonCheck_world _ _ _ _).1]
    show bePropagate p r.world.1 da = _
    rw [hw]

/-- What holds after every iteration, from a set of states which the iterations do not leave. -/
theorem be_small_loop (I : BEState ℝ ι → Prop) (hI : ∀ s, I s → ∃ da, solver (beMatrix p S s) (beRhs p S s) = some da ∧ I (bePropagate p s da)) (k : ℕ) :
    ∀ s : NewtonLoop (BEState ℝ ι × Matrix ι ι ℝ) (ι → ℝ) ℝ, I s.world.1 → s.diverged = false → (0 < k → s.F = beRhs p S s.world.1 ∧ 1 < n.iterations) →
      I (newtonLoop n (beEnv p S solver) k s).world.1 := by
  induction k with
  | zero => intro s hs _ _; exact hs
  | succ k ih =>
    intro s hs hd hk
    rw [newtonLoop]
    split_ifs with hc
    · exact hs
    obtain ⟨da, h1, h2⟩ := hI _ hs
    obtain ⟨hF, hn⟩ := hk (Nat.succ_pos _)
    rw [← hF] at h1
    have h3 := be_small_iteration (n := n) s hd da h1
    simp only
    split_ifs with hdiv
    · rw [h3.1]
      exact h2
    · exact ih _ (by rw [h3.1]; exact h2) (by simpa using hdiv) fun _ => ⟨h3.2 hn, hn⟩

/-- A time step which is not skipped. -/
theorem be_small_step (I : BEState ℝ ι → Prop) (hn : 1 ≤ n.iterations) (x v da : ι → ℝ) (hs : ¬Skipped n p S x v)
    (hda : solver (beMatrix p S (beBegin x v)) (beRhs p S (beBegin x v)) = some da) (h0 : I (bePropagate p (beBegin x v) da))
    (hI : ∀ s, I s → ∃ da, solver (beMatrix p S s) (beRhs p S s) = some da ∧ I (bePropagate p s da)) (c : NewtonState ℝ) : I (beSolve n p S solver c x v).2 := by
  have hr : beRhs p S (beBegin x v) = unbalanced p S x v 0 := C56_residual p S _ (by simp [beBegin])
  have hc : (decide (0 < n.absolute) && leNan ((beEnv p S solver).norm2 ((beEnv p S solver).rhs (beBegin x v, 0)).2) (some (n.absolute * n.absolute))) = false := by
    by_contra h
    rw [Bool.not_eq_false, Bool.and_eq_true, decide_eq_true_eq] at h
    refine hs ⟨h.1, ?_⟩
    have h2 := h.2
    simp only [beEnv, hr, leNan, decide_eq_true_eq] at h2
    exact h2
  unfold beSolve newtonSolve
  simp only [Bool.not_true, Bool.false_eq_true, if_false, hc]
  obtain ⟨k, hk⟩ : ∃ k, n.iterations = k + 1 := ⟨n.iterations - 1, by omega⟩
  have key : ∀ s0 : NewtonLoop (BEState ℝ ι × Matrix ι ι ℝ) (ι → ℝ) ℝ, s0.world.1 = beBegin x v → s0.F = beRhs p S (beBegin x v) → s0.diverged = false →
      s0.converged = false → I (newtonLoop n (beEnv p S solver) (k + 1) s0).world.1 := by
    intro s0 h1 h2 h4 h5
    rw [newtonLoop, h5]
    simp only [Bool.false_eq_true, if_false]
    have h3 := be_small_iteration (n := n) (p := p) (S := S) (solver := solver) s0 h4 da (by rw [h1, h2]; exact hda)
    rw [h1] at h3
    split_ifs with hdiv
    · rw [h3.1]
      exact h0
    · exact be_small_loop I hI k _ (by rw [h3.1]; exact h0) (by simpa using hdiv) fun hk0 => ⟨h3.2 (by omega), by omega⟩
  rw [hk]
  exact key _ rfl rfl rfl rfl

end

/-! ### The residual at the end of a time step -/

theorem beMatrix_mulVec (p : BEParams ℝ) (S : BEScene ℝ ι) (s : BEState ℝ ι) (u : ι → ℝ) :
    beMatrix p S s *ᵥ u = S.M *ᵥ u + p.h • damping p S s.x *ᵥ u - (p.h * p.h) • S.stiff s.x *ᵥ u := by
  simp only [beMatrix, damping, add_mulVec, sub_mulVec, smul_mulVec]
  module

theorem newton_gap (p : BEParams ℝ) (S : BEScene ℝ ι) (x v a da x' : ι → ℝ)
    (h : S.M *ᵥ da + p.h • damping p S x *ᵥ da - (p.h * p.h) • S.stiff x *ᵥ da = unbalanced p S x v a) :
    unbalanced p S x' (v + p.h • da) (a + da) = S.force x' - S.force x - (damping p S x' *ᵥ (v + p.h • da) - damping p S x *ᵥ (v + p.h • da)) -
      (p.h * p.h) • S.stiff x *ᵥ da := by
  have h2 : S.M *ᵥ da = unbalanced p S x v a - p.h • damping p S x *ᵥ da + (p.h * p.h) • S.stiff x *ᵥ da := by
    rw [← h]
    abel
  simp only [unbalanced, mulVec_add, mulVec_smul] at h2 ⊢
  rw [h2]
  module

/-- The constants of a time step. -/
structure StepBounds (p : BEParams ℝ) (S : BEScene ℝ ι) (N : Set (ι → ℝ)) (x0 v0 : ι → ℝ) (μ φ κ d δ ν α R β : ℝ) : Prop where
  h0 : 0 < p.h
  h1 : p.h ≤ 1
  μ0 : 0 < μ
  κ0 : 0 ≤ κ
  d0 : 0 ≤ d
  δ0 : 0 ≤ δ
  ν0 : 0 ≤ ν
  φ0 : 0 ≤ φ
  mass : ∀ u, ‖u‖ ≤ μ * ‖S.M *ᵥ u‖
  stiff : ∀ x ∈ N, ∀ u, ‖S.stiff x *ᵥ u‖ ≤ κ * ‖u‖
  damp : ∀ x ∈ N, ∀ u, ‖damping p S x *ᵥ u‖ ≤ d * ‖u‖
  force : ∀ x ∈ N, ∀ y ∈ N, ‖S.force x - S.force y‖ ≤ κ * ‖x - y‖
  dampLip : ∀ x ∈ N, ∀ y ∈ N, ∀ u, ‖damping p S x *ᵥ u - damping p S y *ᵥ u‖ ≤ δ * ‖x - y‖ * ‖u‖
  start : ‖S.force x0‖ ≤ φ
  speed : ‖v0‖ ≤ ν
  αdef : α = 2 * μ * (φ + d * ν)
  Rdef : R = κ * (ν + α) + κ * α + δ * (ν + α) * (ν + α)
  βdef : β = α + 4 * μ * R
  near : ∀ x, ‖x - x0‖ ≤ p.h * (ν + β) → x ∈ N
  small1 : μ * (p.h * d + p.h * p.h * κ) ≤ 1 / 2
  small2 : p.h * p.h * (2 * μ * (2 * κ + δ * (ν + β))) ≤ 1 / 2

namespace StepBounds

variable {p : BEParams ℝ} {S : BEScene ℝ ι} {N : Set (ι → ℝ)} {x0 v0 : ι → ℝ} {μ φ κ d δ ν α R β : ℝ}

theorem α0 (b : StepBounds p S N x0 v0 μ φ κ d δ ν α R β) : 0 ≤ α := by
  rw [b.αdef]
  have := b.μ0
  have := b.φ0
  have := b.d0
  have := b.ν0
  positivity

theorem R0 (b : StepBounds p S N x0 v0 μ φ κ d δ ν α R β) : 0 ≤ R := by
  rw [b.Rdef]
  have := b.κ0
  have := b.α0
  have := b.δ0
  have := b.ν0
  positivity

theorem αβ (b : StepBounds p S N x0 v0 μ φ κ d δ ν α R β) : α ≤ β := by
  rw [b.βdef]
  have := b.μ0
  have := b.R0
  have : 0 ≤ 4 * μ * R := by positivity
  linarith

theorem system (b : StepBounds p S N x0 v0 μ φ κ d δ ν α R β) {s : BEState ℝ ι} (hs : s.x ∈ N) (u : ι → ℝ) : ‖u‖ ≤ 2 * μ * ‖beMatrix p S s *ᵥ u‖ := by
  have h0 := b.h0
  have h1 := b.mass u
  have e : S.M *ᵥ u = beMatrix p S s *ᵥ u - p.h • damping p S s.x *ᵥ u + (p.h * p.h) • S.stiff s.x *ᵥ u := by
    rw [beMatrix_mulVec]
    abel
  have h2 : ‖S.M *ᵥ u‖ ≤ ‖beMatrix p S s *ᵥ u‖ + p.h * (d * ‖u‖) + p.h * p.h * (κ * ‖u‖) := by
    rw [e]
    refine (norm_add_le _ _).trans (add_le_add ((norm_sub_le _ _).trans (add_le_add le_rfl ?_)) ?_)
    · rw [norm_smul, Real.norm_of_nonneg h0.le]
      exact mul_le_mul_of_nonneg_left (b.damp _ hs u) h0.le
    · rw [norm_smul, Real.norm_of_nonneg (mul_nonneg h0.le h0.le)]
      exact mul_le_mul_of_nonneg_left (b.stiff _ hs u) (mul_nonneg h0.le h0.le)
  have h3 := mul_le_mul_of_nonneg_left h2 b.μ0.le
  have h4 := mul_le_mul_of_nonneg_right b.small1 (norm_nonneg u)
  nlinarith

theorem solve [DecidableEq ι] (b : StepBounds p S N x0 v0 μ φ κ d δ ν α R β) {solver : Matrix ι ι ℝ → (ι → ℝ) → Option (ι → ℝ)} (hsol : SolvesAll solver) {s : BEState ℝ ι}
    (hs : s.x ∈ N) (f : ι → ℝ) : ∃ da, solver (beMatrix p S s) f = some da ∧ beMatrix p S s *ᵥ da = f ∧ ‖da‖ ≤ 2 * μ * ‖f‖ := by
  obtain ⟨da, h1, h2⟩ := hsol (beMatrix p S s) f (isUnit_of_bound (b.system hs))
  refine ⟨da, h1, h2, ?_⟩
  have := b.system hs da
  rwa [h2] at this

theorem gap_norm (b : StepBounds p S N x0 v0 μ φ κ d δ ν α R β) {x x' v a da : ι → ℝ} (hx : x ∈ N) (hx' : x' ∈ N)
    (h : S.M *ᵥ da + p.h • damping p S x *ᵥ da - (p.h * p.h) • S.stiff x *ᵥ da = unbalanced p S x v a) :
    ‖unbalanced p S x' (v + p.h • da) (a + da)‖ ≤ κ * ‖x' - x‖ + δ * ‖x' - x‖ * ‖v + p.h • da‖ + p.h * p.h * (κ * ‖da‖) := by
  rw [newton_gap p S x v a da x' h]
  refine (norm_sub_le _ _).trans (add_le_add ((norm_sub_le _ _).trans (add_le_add (b.force _ hx' _ hx) (b.dampLip _ hx' _ hx _))) ?_)
  rw [norm_smul, Real.norm_of_nonneg (mul_nonneg b.h0.le b.h0.le)]
  exact mul_le_mul_of_nonneg_left (b.stiff _ hx da) (mul_nonneg b.h0.le b.h0.le)

/-- The result of a time step which is not skipped: a step of the scheme with a residual of the order of the time step. -/
theorem result [DecidableEq ι] (b : StepBounds p S N x0 v0 μ φ κ d δ ν α R β) {solver : Matrix ι ι ℝ → (ι → ℝ) → Option (ι → ℝ)} (hsol : SolvesAll solver)
    {n : NewtonParams ℝ} (hn : 1 ≤ n.iterations) (hsk : ¬Skipped n p S x0 v0) (c : NewtonState ℝ) :
    ∃ a, (beSolve n p S solver c x0 v0).2.v = v0 + p.h • a ∧ (beSolve n p S solver c x0 v0).2.x = x0 + p.h • (beSolve n p S solver c x0 v0).2.v ∧ ‖a‖ ≤ β ∧
      ‖unbalanced p S (beSolve n p S solver c x0 v0).2.x (beSolve n p S solver c x0 v0).2.v a‖ ≤ R * p.h := by
  have h0 := b.h0
  have h1 := b.h1
  have hα := b.α0
  have hαβ := b.αβ
  have hR := b.R0
  have hμ := b.μ0
  have hκ := b.κ0
  have hδ := b.δ0
  have hν := b.ν0
  have hβ : 0 ≤ β := hα.trans hαβ
  have hsp := b.speed
  have hnearx : ∀ a, ‖a‖ ≤ β → x0 + p.h • (v0 + p.h • a) ∈ N := by
    intro a ha
    refine b.near _ ?_
    rw [add_sub_cancel_left, norm_smul, Real.norm_of_nonneg h0.le]
    refine mul_le_mul_of_nonneg_left ((norm_add_le _ _).trans (add_le_add hsp ?_)) h0.le
    rw [norm_smul, Real.norm_of_nonneg h0.le]
    exact (mul_le_of_le_one_left (norm_nonneg _) h1).trans ha
  have hx0 : x0 ∈ N := b.near x0 (by rw [sub_self, norm_zero]; positivity)
  set I : BEState ℝ ι → Prop := fun s => s.x0 = x0 ∧ s.v0 = v0 ∧ s.v = v0 + p.h • s.a ∧ s.x = x0 + p.h • s.v ∧
    ‖s.a‖ + 4 * μ * ‖beRhs p S s‖ ≤ α + 4 * μ * (R * p.h) ∧ ‖beRhs p S s‖ ≤ R * p.h with hI
  have hpot : α + 4 * μ * (R * p.h) ≤ β := by
    rw [b.βdef]
    have : R * p.h ≤ R := mul_le_of_le_one_right hR h1
    nlinarith
  obtain ⟨da, hd1, hd2, hd3⟩ := b.solve hsol (s := beBegin x0 v0) hx0 (beRhs p S (beBegin x0 v0))
  have hres : I (beSolve n p S solver c x0 v0).2 := by
    refine be_small_step I hn x0 v0 da hsk hd1 ?_ ?_ c
    · -- the first iteration
      have hr0 : beRhs p S (beBegin x0 v0) = unbalanced p S x0 v0 0 := C56_residual p S _ (by simp [beBegin])
      have hf : ‖beRhs p S (beBegin x0 v0)‖ ≤ φ + d * ν := by
        rw [hr0, unbalanced, mulVec_zero, sub_zero]
        refine (norm_sub_le _ _).trans (add_le_add b.start ((b.damp _ hx0 _).trans (mul_le_mul_of_nonneg_left hsp b.d0)))
      have hda : ‖da‖ ≤ α := by
        rw [b.αdef]
        exact hd3.trans (mul_le_mul_of_nonneg_left hf (by positivity))
      have hv1 : ‖v0 + p.h • da‖ ≤ ν + α := by
        refine (norm_add_le _ _).trans (add_le_add hsp ?_)
        rw [norm_smul, Real.norm_of_nonneg h0.le]
        exact (mul_le_of_le_one_left (norm_nonneg _) h1).trans hda
      have hx1 : x0 + p.h • (v0 + p.h • da) ∈ N := hnearx da (hda.trans hαβ)
      have hdx : ‖x0 + p.h • (v0 + p.h • da) - x0‖ ≤ p.h * (ν + α) := by
        rw [add_sub_cancel_left, norm_smul, Real.norm_of_nonneg h0.le]
        exact mul_le_mul_of_nonneg_left hv1 h0.le
      have hsys : S.M *ᵥ da + p.h • damping p S x0 *ᵥ da - (p.h * p.h) • S.stiff x0 *ᵥ da = unbalanced p S x0 v0 0 := by
        rw [← hr0, ← hd2, beMatrix_mulVec]
        rfl
      have hg := b.gap_norm hx0 hx1 hsys
      rw [zero_add] at hg
      have hrhs : beRhs p S (bePropagate p (beBegin x0 v0) da) = unbalanced p S (x0 + p.h • (v0 + p.h • da)) (v0 + p.h • da) da := by
        rw [C56_residual p S _ rfl]
        simp [bePropagate, beBegin]
      have hb : ‖beRhs p S (bePropagate p (beBegin x0 v0) da)‖ ≤ R * p.h := by
        rw [hrhs, b.Rdef]
        refine hg.trans ?_
        have e1 : κ * ‖x0 + p.h • (v0 + p.h • da) - x0‖ ≤ κ * (p.h * (ν + α)) := mul_le_mul_of_nonneg_left hdx hκ
        have e2 : δ * ‖x0 + p.h • (v0 + p.h • da) - x0‖ * ‖v0 + p.h • da‖ ≤ δ * (p.h * (ν + α)) * (ν + α) :=
          mul_le_mul (mul_le_mul_of_nonneg_left hdx hδ) hv1 (norm_nonneg _) (by positivity)
        have e3 : p.h * p.h * (κ * ‖da‖) ≤ p.h * 1 * (κ * α) :=
          mul_le_mul (mul_le_mul_of_nonneg_left h1 h0.le) (mul_le_mul_of_nonneg_left hda hκ) (by positivity) (by positivity)
        calc _ ≤ κ * (p.h * (ν + α)) + δ * (p.h * (ν + α)) * (ν + α) + p.h * 1 * (κ * α) := add_le_add (add_le_add e1 e2) e3
          _ = _ := by ring
      refine ⟨rfl, rfl, rfl, rfl, ?_, hb⟩
      have ha : (bePropagate p (beBegin x0 v0) da).a = da := by simp [bePropagate, beBegin]
      rw [ha]
      exact add_le_add hda (mul_le_mul_of_nonneg_left hb (by positivity))
    · -- the next ones
      rintro s ⟨i1, i2, i3, i4, i5, i6⟩
      have hsa : ‖s.a‖ ≤ β := by
        have : 0 ≤ 4 * μ * ‖beRhs p S s‖ := by positivity
        linarith
      have hsx : s.x ∈ N := by
        rw [i4, i3]
        exact hnearx _ hsa
      obtain ⟨da, e1, e2, e3⟩ := b.solve hsol hsx (beRhs p S s)
      refine ⟨da, e1, ?_⟩
      have hr : beRhs p S s = unbalanced p S s.x s.v s.a := C56_residual p S s (by rw [i3, i2])
      have ha' : ‖s.a + da‖ ≤ β := by
        refine (norm_add_le _ _).trans ?_
        have : 0 ≤ 2 * μ * ‖beRhs p S s‖ := by positivity
        linarith
      have hv' : s.v + p.h • da = v0 + p.h • (s.a + da) := by
        rw [i3]
        module
      have hx' : x0 + p.h • (v0 + p.h • (s.a + da)) ∈ N := hnearx _ ha'
      have hdx : x0 + p.h • (v0 + p.h • (s.a + da)) - s.x = (p.h * p.h) • da := by
        rw [i4, i3]
        module
      have hvn : ‖s.v + p.h • da‖ ≤ ν + β := by
        rw [hv']
        refine (norm_add_le _ _).trans (add_le_add hsp ?_)
        rw [norm_smul, Real.norm_of_nonneg h0.le]
        exact (mul_le_of_le_one_left (norm_nonneg _) h1).trans ha'
      have hsys : S.M *ᵥ da + p.h • damping p S s.x *ᵥ da - (p.h * p.h) • S.stiff s.x *ᵥ da = unbalanced p S s.x s.v s.a := by
        rw [← hr, ← e2, beMatrix_mulVec]
      have hg := b.gap_norm hsx hx' hsys
      rw [hdx, norm_smul, Real.norm_of_nonneg (mul_nonneg h0.le h0.le)] at hg
      have hrhs : beRhs p S (bePropagate p s da) = unbalanced p S (x0 + p.h • (v0 + p.h • (s.a + da))) (s.v + p.h • da) (s.a + da) := by
        rw [C56_residual p S _ rfl, hv']
        simp only [bePropagate, i1, i2]
      have hhalf : ‖beRhs p S (bePropagate p s da)‖ ≤ ‖beRhs p S s‖ / 2 := by
        rw [hrhs]
        refine hg.trans ?_
        have f1 : δ * (p.h * p.h * ‖da‖) * ‖s.v + p.h • da‖ ≤ δ * (p.h * p.h * ‖da‖) * (ν + β) := mul_le_mul_of_nonneg_left hvn (by positivity)
        have f2 : p.h * p.h * (2 * κ + δ * (ν + β)) * ‖da‖ ≤ p.h * p.h * (2 * κ + δ * (ν + β)) * (2 * μ * ‖beRhs p S s‖) :=
          mul_le_mul_of_nonneg_left e3 (by positivity)
        have f3 := mul_le_mul_of_nonneg_right b.small2 (norm_nonneg (beRhs p S s))
        calc _ ≤ κ * (p.h * p.h * ‖da‖) + δ * (p.h * p.h * ‖da‖) * (ν + β) + p.h * p.h * (κ * ‖da‖) := by linarith
          _ = p.h * p.h * (2 * κ + δ * (ν + β)) * ‖da‖ := by ring
          _ ≤ p.h * p.h * (2 * κ + δ * (ν + β)) * (2 * μ * ‖beRhs p S s‖) := f2
          _ = p.h * p.h * (2 * μ * (2 * κ + δ * (ν + β))) * ‖beRhs p S s‖ := by ring
          _ ≤ 1 / 2 * ‖beRhs p S s‖ := f3
          _ = _ := by ring
      refine ⟨i1, i2, ?_, ?_, ?_, ?_⟩
      · simp only [bePropagate, i2]
      · simp only [bePropagate, i1, i2]
      · have g1 : ‖(bePropagate p s da).a‖ ≤ ‖s.a‖ + 2 * μ * ‖beRhs p S s‖ := (norm_add_le _ _).trans (add_le_add le_rfl e3)
        have g2 := mul_le_mul_of_nonneg_left hhalf (by positivity : 0 ≤ 4 * μ)
        linarith
      · have : 0 ≤ ‖beRhs p S s‖ := norm_nonneg _
        linarith
  obtain ⟨i1, i2, i3, i4, i5, i6⟩ := hres
  refine ⟨(beSolve n p S solver c x0 v0).2.a, i3, i4, ?_, ?_⟩
  · have : 0 ≤ 4 * μ * ‖beRhs p S (beSolve n p S solver c x0 v0).2‖ := by positivity
    linarith
  · rw [← C56_residual p S _ (by rw [i3, i2])]
    exact i6

end StepBounds

theorem lipschitz_of_deriv {q q' : ℝ → ι → ℝ} {T P : ℝ} (hq : ∀ t ∈ Set.Icc 0 T, HasDerivAt q (q' t) t) (hP : ∀ t ∈ Set.Icc 0 T, ‖q' t‖ ≤ P) {s t : ℝ}
    (hs : s ∈ Set.Icc 0 T) (ht : t ∈ Set.Icc 0 T) : ‖q t - q s‖ ≤ P * |t - s| := by
  have := Convex.norm_image_sub_le_of_norm_hasDerivWithin_le (fun x hx => (hq x hx).hasDerivWithinAt) hP (convex_Icc 0 T) hs ht
  rwa [Real.norm_eq_abs] at this

theorem local_error {q q' : ℝ → ι → ℝ} {t h A : ℝ} (hh : 0 ≤ h) (hq : ∀ s ∈ Set.Icc t (t + h), HasDerivAt q (q' s) s)
    (hA : ∀ s ∈ Set.Icc t (t + h), ‖q' s - q' (t + h)‖ ≤ A) : ‖q (t + h) - q t - h • q' (t + h)‖ ≤ A * h := by
  have h1 : ∀ s ∈ Set.Icc t (t + h), HasDerivWithinAt (fun s => q s - s • q' (t + h)) (q' s - q' (t + h)) (Set.Icc t (t + h)) s := by
    intro s hs
    have h2 : HasDerivAt (fun s : ℝ => s • q' (t + h)) ((1 : ℝ) • q' (t + h)) s := (hasDerivAt_id s).smul_const _
    rw [one_smul] at h2
    exact ((hq s hs).sub h2).hasDerivWithinAt
  have := Convex.norm_image_sub_le_of_norm_hasDerivWithin_le h1 hA (convex_Icc t (t + h)) ⟨le_rfl, by linarith⟩ ⟨by linarith, le_rfl⟩
  rw [add_sub_cancel_left, Real.norm_of_nonneg hh] at this
  have e : q (t + h) - (t + h) • q' (t + h) - (q t - t • q' (t + h)) = q (t + h) - q t - h • q' (t + h) := by module
  rwa [e] at this

theorem gronwall_step {e0 e1 Λ h D : ℝ} (he : 0 ≤ e0 + D) (hs : h * Λ ≤ 1 / 2) (hΛ : 0 ≤ h * Λ) (h1 : e1 ≤ e0 + h * Λ * e1 + D) :
    e1 ≤ Real.exp (2 * Λ * h) * (e0 + D) := by
  have h2 : e1 * (1 - h * Λ) ≤ e0 + D := by linarith
  have h3 : 1 ≤ (1 + 2 * (h * Λ)) * (1 - h * Λ) := by nlinarith
  have h4 : e1 ≤ (1 + 2 * (h * Λ)) * (e0 + D) := by
    by_cases h5 : 0 ≤ e1
    · have : e1 * 1 ≤ e1 * ((1 + 2 * (h * Λ)) * (1 - h * Λ)) := mul_le_mul_of_nonneg_left h3 h5
      have h6 := mul_le_mul_of_nonneg_left h2 (by linarith : 0 ≤ 1 + 2 * (h * Λ))
      linarith
    · have : 0 ≤ (1 + 2 * (h * Λ)) * (e0 + D) := mul_nonneg (by linarith) he
      linarith
  refine h4.trans (mul_le_mul_of_nonneg_right ?_ he)
  have := Real.add_one_le_exp (2 * Λ * h)
  linarith

theorem damping_bound (rm rk : ℝ) (S : BEScene ℝ ι) (κ : ℝ) : ∃ d : ℝ, 0 ≤ d ∧ ∀ x, (∀ u, ‖S.stiff x *ᵥ u‖ ≤ κ * ‖u‖) → ∀ u, ‖damping ⟨0, rm, rk⟩ S x *ᵥ u‖ ≤ d * ‖u‖ := by
  obtain ⟨m, hm0, hm⟩ := mulVec_bound S.M
  obtain ⟨b, hb0, hb⟩ := mulVec_bound S.B
  refine ⟨b + |rm| * m + |rk| * |κ|, by positivity, fun x hx u => ?_⟩
  have e : damping ⟨0, rm, rk⟩ S x *ᵥ u = S.B *ᵥ u + rm • S.M *ᵥ u - rk • S.stiff x *ᵥ u := by
    simp only [damping, add_mulVec, sub_mulVec, smul_mulVec]
  rw [e]
  have k1 : ‖rm • S.M *ᵥ u‖ ≤ |rm| * (m * ‖u‖) := by
    rw [norm_smul, Real.norm_eq_abs]
    exact mul_le_mul_of_nonneg_left (hm u) (abs_nonneg _)
  have k2 : ‖rk • S.stiff x *ᵥ u‖ ≤ |rk| * (|κ| * ‖u‖) := by
    rw [norm_smul, Real.norm_eq_abs]
    exact mul_le_mul_of_nonneg_left ((hx u).trans (mul_le_mul_of_nonneg_right (le_abs_self _) (norm_nonneg _))) (abs_nonneg _)
  refine (norm_sub_le _ _).trans ((add_le_add ((norm_add_le _ _).trans (add_le_add (hb u) k1)) k2).trans (le_of_eq ?_))
  ring

/-- Vectors close to one whose square is above the threshold. -/
theorem sq_gap {a η : ℝ} (ha : 0 < a) (hη : 0 < η) : ∃ ε : ℝ, 0 < ε ∧ ∀ w w0 : ι → ℝ, ‖w - w0‖ ≤ ε → a * a + η ≤ w0 ⬝ᵥ w0 → a * a < w ⬝ᵥ w := by
  refine ⟨min 1 (η / ((Fintype.card ι + 1) * (2 * a + 2))), by positivity, fun w w0 h hw0 => ?_⟩
  by_contra hw
  rw [not_lt] at hw
  set ε := min 1 (η / ((Fintype.card ι + 1) * (2 * a + 2))) with hε
  have hε1 : ε ≤ 1 := min_le_left _ _
  have hε0 : 0 ≤ ε := (norm_nonneg _).trans h
  have hεη : ε * ((Fintype.card ι + 1) * (2 * a + 2)) ≤ η := by
    rw [← le_div_iff₀ (by positivity)]
    exact min_le_right _ _
  have hwi : ∀ i, |w i| ≤ a := by
    intro i
    have h1 : w i * w i ≤ w ⬝ᵥ w := Finset.single_le_sum (f := fun i => w i * w i) (fun j _ => mul_self_nonneg _) (Finset.mem_univ i)
    exact abs_le_of_sq_le_sq (by nlinarith) ha.le
  have hei : ∀ i, |w i - w0 i| ≤ ε := fun i => (norm_le_pi_norm (w - w0) i).trans h
  have h1 : w0 ⬝ᵥ w0 ≤ w ⬝ᵥ w + Fintype.card ι * (ε * (2 * a + 1)) := by
    have : ∀ i ∈ Finset.univ, w0 i * w0 i ≤ w i * w i + ε * (2 * a + 1) := by
      intro i _
      have a1 := abs_le.1 (hwi i)
      have a2 := abs_le.1 (hei i)
      have e : w0 i * w0 i = w i * w i - 2 * (w i * (w i - w0 i)) + (w i - w0 i) * (w i - w0 i) := by ring
      have a3 : |w i * (w i - w0 i)| ≤ a * ε := by
        rw [abs_mul]
        exact mul_le_mul (hwi i) (hei i) (abs_nonneg _) ha.le
      have a4 : |(w i - w0 i) * (w i - w0 i)| ≤ ε * ε := by
        rw [abs_mul]
        exact mul_le_mul (hei i) (hei i) (abs_nonneg _) hε0
      have := abs_le.1 a3
      have := abs_le.1 a4
      nlinarith
    have h2 := Finset.sum_le_sum this
    rw [Finset.sum_add_distrib, Finset.sum_const, Finset.card_univ, nsmul_eq_mul] at h2
    exact h2
  have hc : (0 : ℝ) ≤ Fintype.card ι := Nat.cast_nonneg _
  have h3 : Fintype.card ι * (ε * (2 * a + 1)) < η := by
    refine lt_of_lt_of_le ?_ hεη
    have hε' : 0 < ε := by rw [hε]; positivity
    nlinarith [mul_pos hε' ha, mul_nonneg hc hε'.le, mul_nonneg hc (mul_pos hε' ha).le]
  linarith

/-- Smooth forces are tame near a motion. -/
theorem tame_of_smooth (rm rk : ℝ) (S : BEScene ℝ ι) [DecidableEq ι] (T : ℝ) (q q' q'' : ℝ → ι → ℝ) (hq : IsMotion rm rk S T q q' q'') (U : Set (ι → ℝ)) (hU : IsOpen U)
    (hqU : ∀ t ∈ Set.Icc 0 T, q t ∈ U) (hd : ∀ x ∈ U, HasFDerivAt S.force (LinearMap.toContinuousLinearMap (toLin' (S.stiff x))) x) (hc : ContinuousOn S.stiff U)
    (hl : rk ≠ 0 → ∃ l : ℝ, 0 ≤ l ∧ ∀ x ∈ U, ∀ y ∈ U, ∀ u, ‖S.stiff x *ᵥ u - S.stiff y *ᵥ u‖ ≤ l * ‖x - y‖ * ‖u‖) :
    ∃ ρ φ κ δ : ℝ, 0 < ρ ∧ 0 ≤ κ ∧ 0 ≤ δ ∧ TameNear rm rk S T q ρ φ κ δ := by
  have hK : IsCompact (q '' Set.Icc 0 T) := isCompact_Icc.image_of_continuousOn fun t h => (hq.velocity t h).continuousAt.continuousWithinAt
  obtain ⟨ρ, hρ, hsub⟩ := hK.exists_cthickening_subset_open hU (by rintro _ ⟨t, h, rfl⟩; exact hqU t h)
  have hmem : ∀ t ∈ Set.Icc 0 T, ∀ x, ‖x - q t‖ ≤ ρ → x ∈ Metric.cthickening ρ (q '' Set.Icc 0 T) := fun t h x hx =>
    Metric.mem_cthickening_of_dist_le x (q t) ρ _ ⟨t, h, rfl⟩ (by rwa [dist_eq_norm])
  have hcomp := hK.cthickening (r := ρ)
  obtain ⟨φ, hφ⟩ := hcomp.exists_bound_of_continuousOn (f := S.force) fun x hx => (hd x (hsub hx)).continuousAt.continuousWithinAt
  have hcont : Continuous fun A : Matrix ι ι ℝ => LinearMap.toContinuousLinearMap (toLin' A) := by
    have : Continuous ((LinearMap.toContinuousLinearMap : ((ι → ℝ) →ₗ[ℝ] ι → ℝ) ≃ₗ[ℝ] _).toLinearMap ∘ₗ (toLin' : Matrix ι ι ℝ ≃ₗ[ℝ] _).toLinearMap) :=
      LinearMap.continuous_of_finiteDimensional _
    exact this
  obtain ⟨κ, hκ⟩ := hcomp.exists_bound_of_continuousOn (f := fun x => LinearMap.toContinuousLinearMap (toLin' (S.stiff x))) (hcont.comp_continuousOn (hc.mono hsub))
  have hstiff : ∀ x ∈ Metric.cthickening ρ (q '' Set.Icc 0 T), ∀ u, ‖S.stiff x *ᵥ u‖ ≤ |κ| * ‖u‖ := by
    intro x hx u
    have := (LinearMap.toContinuousLinearMap (toLin' (S.stiff x))).le_of_opNorm_le ((hκ x hx).trans (le_abs_self κ)) u
    simpa using this
  have hforce : ∀ t ∈ Set.Icc 0 T, ∀ x, ‖x - q t‖ ≤ ρ → ∀ y, ‖y - q t‖ ≤ ρ → ‖S.force x - S.force y‖ ≤ |κ| * ‖x - y‖ := by
    intro t h x hx y hy
    refine Convex.norm_image_sub_le_of_norm_hasFDerivWithin_le (f' := fun x => LinearMap.toContinuousLinearMap (toLin' (S.stiff x))) (s := Metric.closedBall (q t) ρ)
      (fun z hz => ?_) (fun z hz => ?_) (convex_closedBall _ _) (by rwa [Metric.mem_closedBall, dist_eq_norm]) (by rwa [Metric.mem_closedBall, dist_eq_norm])
    · rw [Metric.mem_closedBall, dist_eq_norm] at hz
      exact (hd z (hsub (hmem t h z hz))).hasFDerivWithinAt
    · rw [Metric.mem_closedBall, dist_eq_norm] at hz
      exact (hκ z (hmem t h z hz)).trans (le_abs_self κ)
  have hdiff : ∀ x y u, damping ⟨0, rm, rk⟩ S x *ᵥ u - damping ⟨0, rm, rk⟩ S y *ᵥ u = -(rk • (S.stiff x *ᵥ u - S.stiff y *ᵥ u)) := by
    intro x y u
    simp only [damping, add_mulVec, sub_mulVec, smul_mulVec, smul_sub]
    abel
  by_cases hrk : rk = 0
  · refine ⟨ρ, φ, |κ|, 0, hρ, abs_nonneg _, le_rfl, ⟨fun t h x hx => hφ x (hmem t h x hx), fun t h x hx => hstiff x (hmem t h x hx), hforce, ?_⟩⟩
    intro t h x hx y hy u
    rw [hdiff, hrk]
    simp
  · obtain ⟨l, hl0, hl⟩ := hl hrk
    refine ⟨ρ, φ, |κ|, |rk| * l, hρ, abs_nonneg _, by positivity, ⟨fun t h x hx => hφ x (hmem t h x hx), fun t h x hx => hstiff x (hmem t h x hx), hforce, ?_⟩⟩
    intro t h x hx y hy u
    rw [hdiff, norm_neg, norm_smul, Real.norm_eq_abs]
    have := mul_le_mul_of_nonneg_left (hl x (hsub (hmem t h x hx)) y (hsub (hmem t h y hy)) u) (abs_nonneg rk)
    linarith

end Caribou

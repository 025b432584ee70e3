import Verif.Lemmas.CGRate

/-!
# C128: the rate of convergence of the conjugate gradient
-/

set_option autoImplicit false

namespace Caribou

open Spec Matrix

variable {ι : Type*} [Fintype ι] [DecidableEq ι]

/-- **C128, optimality.** The solution after `k` iterations has the smallest energy of the error among all those which can be reached from the initial guess by `k` products with the matrix and
the preconditioner. -/
theorem C128_optimal {A M : Matrix ι ι ℝ} (hA : IsSPD A) (hM : IsSPD M) (c : CGParams ℝ) (hz : 0 < c.zero) (b x : ι → ℝ)
    (hb : c.eps ≤ ∑ i, b i ^ 2) (h0 : c.bound b ≤ residual2 A b x) (y : ι → ℝ) (hy : A.mulVec y = b) {k : ℕ} {xk : ι → ℝ} (hk : Reached c A M b x k xk)
    (z : ι → ℝ) (hzk : z - x ∈ krylov A M (b - A.mulVec x) k) : errorEnergy A y xk ≤ errorEnergy A y z := by
  rw [hk.eq hA hM hz hb h0]
  have hP := pcgSeq_pcg A M x (b - A *ᵥ x)
  refine pcg_optimal hA hM b x y hy k z ?_
  have hpow : ∀ j, ((M * A) ^ j) *ᵥ (M *ᵥ (b - A *ᵥ x)) ∈ directions (fun k => (pcgSeq A M x (b - A *ᵥ x) k).2.2) (j + 1) := by
    intro j
    induction j with
    | zero => rw [pow_zero, one_mulVec]; exact hP.precond_mem 0
    | succ j ih =>
      rw [pow_succ', ← mulVec_mulVec, ← mulVec_mulVec]
      exact hP.product_mem hA hM ih
  have h1 : z - x ∈ directions (fun k => (pcgSeq A M x (b - A *ᵥ x) k).2.2) k := by
    refine Submodule.span_le.2 ?_ hzk
    rintro v ⟨j, hj, rfl⟩
    exact directions_mono _ hj (hpow j)
  have e : z - (pcgSeq A M x (b - A *ᵥ x) k).1 = (z - x) - ((pcgSeq A M x (b - A *ᵥ x) k).1 - x) := by abel
  rw [e]
  exact Submodule.sub_mem _ h1 (pcgSeq_mem A M x _ k)

/-- **C128, the rate.** When the eigenvalues of the preconditioned matrix are between `lo` and `hi`, the energy of the error after `k` iterations is the initial one multiplied by at most
`4 ((√κ - 1) / (√κ + 1)) ^ 2k`, with `κ = hi / lo`. -/
theorem C128_rate {A M : Matrix ι ι ℝ} (hA : IsSPD A) (hM : IsSPD M) (c : CGParams ℝ) (hz : 0 < c.zero) (b x : ι → ℝ)
    (hb : c.eps ≤ ∑ i, b i ^ 2) (h0 : c.bound b ≤ residual2 A b x) (y : ι → ℝ) (hy : A.mulVec y = b) {k : ℕ} {xk : ι → ℝ} (hk : Reached c A M b x k xk)
    {lo hi : ℝ} (hlo : 0 < lo) (hlh : lo ≤ hi) (hs : SpectrumWithin A M lo hi) :
    errorEnergy A y xk ≤ 4 * ((Real.sqrt hi - Real.sqrt lo) / (Real.sqrt hi + Real.sqrt lo)) ^ (2 * k) * errorEnergy A y x := by
  rw [hk.eq hA hM hz hb h0]
  obtain ⟨q, h1, h2, h3⟩ := chebyshev_exists lo hi hlo hlh k
  have := pcg_polynomial hA hM b x y hy hlo.le hs k q h1 h2 _ h3
  refine this.trans (le_of_eq ?_)
  ring

/-- **C128, every iteration.** Each iteration multiplies the energy of the error by at most `((κ - 1) / (κ + 1)) ^ 2`; in particular the error never grows. -/
theorem C128_step {A M : Matrix ι ι ℝ} (hA : IsSPD A) (hM : IsSPD M) (c : CGParams ℝ) (hz : 0 < c.zero) (b x : ι → ℝ)
    (hb : c.eps ≤ ∑ i, b i ^ 2) (h0 : c.bound b ≤ residual2 A b x) (y : ι → ℝ) (hy : A.mulVec y = b) {k : ℕ} {xk xn : ι → ℝ} (hk : Reached c A M b x k xk)
    (hn : Reached c A M b x (k + 1) xn) {lo hi : ℝ} (hlo : 0 < lo) (hlh : lo ≤ hi) (hs : SpectrumWithin A M lo hi) :
    errorEnergy A y xn ≤ ((hi - lo) / (hi + lo)) ^ 2 * errorEnergy A y xk := by
  rw [hk.eq hA hM hz hb h0, hn.eq hA hM hz hb h0]
  have hP := pcgSeq_pcg A M x (b - A *ᵥ x)
  have hsum : 0 < hi + lo := by linarith
  obtain ⟨V, d, hV, hd, hu⟩ := pencil hA hM
  have hbd := pencil_bounds hV hd hu hs
  have hudet : IsUnit V.det := by rwa [isUnit_iff_isUnit_det] at hu
  obtain ⟨xk', hxk'⟩ : ∃ v, v = (pcgSeq A M x (b - A *ᵥ x) k).1 := ⟨_, rfl⟩
  obtain ⟨g, hg⟩ : ∃ g, V *ᵥ g = xk' - y := ⟨V⁻¹ *ᵥ (xk' - y), by rw [mulVec_mulVec, mul_nonsing_inv _ hudet, one_mulVec]⟩
  have hres : M *ᵥ (b - A *ᵥ xk') = -(V *ᵥ fun i => d i * g i) := by
    rw [← pencil_mul hV hd g, hg, ← mulVec_neg, mulVec_sub A, hy, neg_sub]
  obtain ⟨z, hzdef⟩ : ∃ z, z = xk' + (2 / (hi + lo)) • M *ᵥ (b - A *ᵥ xk') := ⟨_, rfl⟩
  have hmem : z - (pcgSeq A M x (b - A *ᵥ x) (k + 1)).1 ∈ directions (fun k => (pcgSeq A M x (b - A *ᵥ x) k).2.2) (k + 1) := by
    have h1 := hP.precond_mem k
    rw [pcgSeq_residual, ← hxk'] at h1
    have e : z - (pcgSeq A M x (b - A *ᵥ x) (k + 1)).1 = (2 / (hi + lo)) • M *ᵥ (b - A *ᵥ xk') + ((pcgSeq A M x (b - A *ᵥ x) k).1 - x) -
        ((pcgSeq A M x (b - A *ᵥ x) (k + 1)).1 - x) := by
      rw [hzdef, hxk']; abel
    rw [e]
    exact Submodule.sub_mem _ (Submodule.add_mem _ (Submodule.smul_mem _ _ h1) (directions_mono _ (by omega) (pcgSeq_mem A M x _ k))) (pcgSeq_mem A M x _ (k + 1))
  refine (pcg_optimal hA hM b x y hy (k + 1) z hmem).trans ?_
  rw [← hxk']
  have e1 : z - y = V *ᵥ fun i => (1 - 2 / (hi + lo) * d i) * g i := by
    have : (fun i => (1 - 2 / (hi + lo) * d i) * g i) = g - (2 / (hi + lo)) • fun i => d i * g i := by
      funext i
      simp only [Pi.sub_apply, Pi.smul_apply, smul_eq_mul]
      ring
    rw [this, mulVec_sub, mulVec_smul, hg, hzdef, hres, smul_neg]
    abel
  unfold errorEnergy
  rw [e1, ← hg, pencil_energy hd, pencil_energy hd, Finset.mul_sum]
  refine Finset.sum_le_sum fun i _ => ?_
  obtain ⟨b1, b2⟩ := hbd i
  have h2 : (1 - 2 / (hi + lo) * d i) ^ 2 ≤ ((hi - lo) / (hi + lo)) ^ 2 := by
    have e : 1 - 2 / (hi + lo) * d i = (hi + lo - 2 * d i) / (hi + lo) := by field_simp
    rw [e]
    refine sq_le_sq' ?_ ?_
    · rw [← neg_div]
      exact div_le_div_of_nonneg_right (by linarith) hsum.le
    · exact div_le_div_of_nonneg_right (by linarith) hsum.le
  have h3 : 0 ≤ d i * g i ^ 2 := mul_nonneg (hlo.le.trans b1) (sq_nonneg _)
  nlinarith

/-- The residual measures the error. -/
theorem residual_energy {A : Matrix ι ι ℝ} (hA : IsSPD A) (b y : ι → ℝ) (hy : A.mulVec y = b) {α β : ℝ} (hα : 0 < α) (hs : SpectrumWithin A 1 α β) (x : ι → ℝ) :
    α * errorEnergy A y x ≤ residual2 A b x ∧ residual2 A b x ≤ β * errorEnergy A y x := by
  have h1 : IsSPD (1 : Matrix ι ι ℝ) := by
    refine ⟨fun i j => by rw [Matrix.one_apply, Matrix.one_apply]; simp only [eq_comm], fun v hv => ?_⟩
    have e : ∀ i, ∑ j, (1 : Matrix ι ι ℝ) i j * v j = v i := by
      intro i; simp [Matrix.one_apply]
    simp only [e]
    obtain ⟨i, hi⟩ := Function.ne_iff.1 hv
    exact Finset.sum_pos' (fun i _ => mul_self_nonneg (v i)) ⟨i, Finset.mem_univ _, mul_self_pos.2 hi⟩
  obtain ⟨V, d, hV, hd, hu⟩ := pencil hA h1
  have hbd := pencil_bounds hV hd hu hs
  have hudet : IsUnit V.det := by rwa [isUnit_iff_isUnit_det] at hu
  obtain ⟨g, hg⟩ : ∃ g, V *ᵥ g = x - y := ⟨V⁻¹ *ᵥ (x - y), by rw [mulVec_mulVec, mul_nonsing_inv _ hudet, one_mulVec]⟩
  have hr : b - A *ᵥ x = -(V *ᵥ fun i => d i * g i) := by
    rw [← pencil_mul hV hd g, hg, one_mulVec, mulVec_sub A, hy, neg_sub]
  have hres : residual2 A b x = ∑ i, d i * (d i * g i ^ 2) := by
    have hVV : V.transpose * V = 1 := mul_eq_one_comm.1 hV
    rw [residual2_eq, hr, neg_dotProduct_neg, dotProduct_mulVec, ← mulVec_transpose, mulVec_mulVec, hVV, one_mulVec]
    refine Finset.sum_congr rfl fun i _ => ?_
    ring
  unfold errorEnergy
  rw [← hg, pencil_energy hd, hres, Finset.mul_sum, Finset.mul_sum]
  refine ⟨Finset.sum_le_sum fun i _ => ?_, Finset.sum_le_sum fun i _ => ?_⟩ <;>
  · obtain ⟨b1, b2⟩ := hbd i
    have h3 : 0 ≤ d i * g i ^ 2 := mul_nonneg (hα.le.trans b1) (sq_nonneg _)
    nlinarith

/-- **C128, the number of iterations.** With the eigenvalues of the matrix between `α` and `β` and those of the preconditioned matrix between `lo` and `hi`, the solver reports convergence after at
most `k` iterations as soon as `4 (β / α) ((√κ - 1) / (√κ + 1)) ^ 2k` times the initial squared residual is below the bound. -/
theorem C128_iterations {A M : Matrix ι ι ℝ} (hA : IsSPD A) (hM : IsSPD M) (c : CGParams ℝ) (hz : 0 < c.zero) (b x : ι → ℝ)
    (hb : c.eps ≤ ∑ i, b i ^ 2) (h0 : c.bound b ≤ residual2 A b x) {α β lo hi : ℝ} (hα : 0 < α) (hs1 : SpectrumWithin A 1 α β) (hlo : 0 < lo) (hlh : lo ≤ hi)
    (hs : SpectrumWithin A M lo hi) (hβ : α ≤ β) (k : ℕ) (hk : k ≤ c.maxIterations)
    (hsmall : 4 * (β / α) * ((Real.sqrt hi - Real.sqrt lo) / (Real.sqrt hi + Real.sqrt lo)) ^ (2 * k) * residual2 A b x < c.bound b) :
    (solveMatrix c A (fun v => M.mulVec v) b x).converged = true ∧ (solveMatrix c A (fun v => M.mulVec v) b x).residuals.length ≤ k := by
  obtain ⟨y, hy⟩ : ∃ y, A *ᵥ y = b := by
    have hu : IsUnit A.det := by
      rw [isUnit_iff_ne_zero]
      intro hdet
      obtain ⟨v, hv, hv0⟩ := (exists_mulVec_eq_zero_iff).2 hdet
      have := hA.dot_pos hv
      rw [hv0, dotProduct_zero] at this
      exact lt_irrefl _ this
    exact ⟨A⁻¹ *ᵥ b, by rw [mulVec_mulVec, mul_nonsing_inv _ hu, one_mulVec]⟩
  have hβ0 : 0 < β := hα.trans_le hβ
  obtain ⟨q, hq⟩ : ∃ q, q = (Real.sqrt hi - Real.sqrt lo) / (Real.sqrt hi + Real.sqrt lo) := ⟨_, rfl⟩
  rw [← hq] at hsmall
  -- the residual of the sequence after k iterations
  have hseq : residual2 A b (pcgSeq A M x (b - A *ᵥ x) k).1 < c.bound b := by
    obtain ⟨p, h1, h2, h3⟩ := chebyshev_exists lo hi hlo hlh k
    have h4 := pcg_polynomial hA hM b x y hy hlo.le hs k p h1 h2 _ h3
    rw [← hq] at h4
    have h5 := (residual_energy hA b y hy hα hs1 (pcgSeq A M x (b - A *ᵥ x) k).1).2
    have h6 := (residual_energy hA b y hy hα hs1 x).1
    have h7 : errorEnergy A y x ≤ residual2 A b x / α := by rw [le_div_iff₀ hα]; linarith
    have h8 : (2 * q ^ k) ^ 2 * errorEnergy A y x ≤ (2 * q ^ k) ^ 2 * (residual2 A b x / α) := mul_le_mul_of_nonneg_left h7 (sq_nonneg _)
    have h9 := mul_le_mul_of_nonneg_left (h4.trans h8) hβ0.le
    refine lt_of_le_of_lt (h5.trans h9) (lt_of_le_of_lt (le_of_eq ?_) hsmall)
    ring
  obtain ⟨j, j1, j2, j3, j4, j5⟩ := solve_seq hA hM c hz b x hb h0 c.maxIterations
  obtain ⟨j', i1, i2, i3, i4, i5⟩ := solve_seq hA hM c hz b x hb h0 k
  obtain ⟨s, hs0, s1, s2, s3, s4, s5, s6, hall⟩ := solve_loop c A (fun v => M *ᵥ v) b x (not_lt.mpr hb) (not_lt.mpr h0)
  have hpos : 0 < c.bound b := lt_of_lt_of_le hz (le_max_right _ _)
  obtain ⟨n, n1, n2, n3, n4, n5⟩ := cgLoop_seq hA hM x (b - A *ᵥ x) (c.bound b) hpos c.maxIterations 0 s ⟨s1, s2, by rw [s5]; rfl⟩ s3 s4 s6
    (by rw [s2, ← residual2_eq]; exact h0)
  simp only [zero_add] at n3 n5
  have hn : n ≤ k := by
    by_contra hgt
    have := n5 k (not_le.1 hgt)
    rw [pcgSeq_residual, ← residual2_eq] at this
    linarith
  rw [← withLimit_self c, hall]
  have hinv := (cgLoop_spec (fun v => M *ᵥ v) (c.bound b) A b c.maxIterations s hs0).1
  refine ⟨?_, by simpa [n3.len] using hn⟩
  by_contra hc
  have hnm := n4 (by simpa using hc)
  have hnk : n = k := by omega
  apply hc
  show (cgLoop (fun v => A *ᵥ v) (fun v => M *ᵥ v) (c.bound b) c.maxIterations s).1.converged = true
  rw [hinv.conv, ← residual2_of_inv hinv, n3.x, hnk]
  exact hseq

/-- **C128, an explicit number of iterations.** More than `(√κ + 1) / 4` times the logarithm of `4 (β / α)` times the initial squared residual over the bound are enough, with `κ = hi / lo`. -/
theorem C128_count {A M : Matrix ι ι ℝ} (hA : IsSPD A) (hM : IsSPD M) (c : CGParams ℝ) (hz : 0 < c.zero) (b x : ι → ℝ)
    (hb : c.eps ≤ ∑ i, b i ^ 2) (h0 : c.bound b ≤ residual2 A b x) {α β lo hi : ℝ} (hα : 0 < α) (hs1 : SpectrumWithin A 1 α β) (hlo : 0 < lo) (hlh : lo ≤ hi)
    (hs : SpectrumWithin A M lo hi) (hβ : α ≤ β) (k : ℕ) (hk : k ≤ c.maxIterations)
    (hcount : (Real.sqrt (hi / lo) + 1) / 4 * Real.log (4 * (β / α) * residual2 A b x / c.bound b) < k) :
    (solveMatrix c A (fun v => M.mulVec v) b x).converged = true ∧ (solveMatrix c A (fun v => M.mulVec v) b x).residuals.length ≤ k := by
  refine C128_iterations hA hM c hz b x hb h0 hα hs1 hlo hlh hs hβ k hk ?_
  have hpos : 0 < c.bound b := lt_of_lt_of_le hz (le_max_right _ _)
  have hR : 0 < residual2 A b x := hpos.trans_le h0
  have hβ0 : 0 < β := hα.trans_le hβ
  have hl : 0 < Real.sqrt lo := Real.sqrt_pos.2 hlo
  have hhl : Real.sqrt lo ≤ Real.sqrt hi := Real.sqrt_le_sqrt hlh
  have hsum : 0 < Real.sqrt hi + Real.sqrt lo := by linarith
  rw [Real.sqrt_div (hlo.le.trans hlh)] at hcount
  obtain ⟨u, hu⟩ : ∃ u, u = 2 * Real.sqrt lo / (Real.sqrt hi + Real.sqrt lo) := ⟨_, rfl⟩
  have hu0 : 0 < u := by rw [hu]; positivity
  have hq : (Real.sqrt hi - Real.sqrt lo) / (Real.sqrt hi + Real.sqrt lo) = 1 - u := by
    rw [hu]; field_simp; ring
  have hq0 : 0 ≤ 1 - u := by rw [← hq]; exact div_nonneg (by linarith) hsum.le
  have hfac : (Real.sqrt hi / Real.sqrt lo + 1) / 4 = 1 / (2 * u) := by
    rw [hu]; field_simp; ring
  rw [hfac, one_div, inv_mul_lt_iff₀ (by positivity)] at hcount
  rw [hq]
  have hpow : (1 - u) ^ (2 * k) ≤ Real.exp (-(2 * u * k)) := by
    calc (1 - u) ^ (2 * k) ≤ Real.exp (-u) ^ (2 * k) := pow_le_pow_left₀ hq0 (by have := Real.add_one_le_exp (-u); linarith) _
      _ = Real.exp (-(2 * u * k)) := by
        rw [← Real.exp_nat_mul]
        congr 1
        push_cast
        ring
  have hC : 0 < 4 * (β / α) * residual2 A b x := by positivity
  have hlog : 4 * (β / α) * residual2 A b x / c.bound b < Real.exp (2 * u * k) := by
    rw [← Real.log_lt_iff_lt_exp (by positivity)]
    exact hcount
  rw [div_lt_iff₀ hpos] at hlog
  calc 4 * (β / α) * (1 - u) ^ (2 * k) * residual2 A b x = 4 * (β / α) * residual2 A b x * (1 - u) ^ (2 * k) := by ring
    _ ≤ 4 * (β / α) * residual2 A b x * Real.exp (-(2 * u * k)) := mul_le_mul_of_nonneg_left hpow hC.le
    _ < Real.exp (2 * u * k) * c.bound b * Real.exp (-(2 * u * k)) := mul_lt_mul_of_pos_right hlog (Real.exp_pos _)
    _ = c.bound b := by
      rw [mul_right_comm, ← Real.exp_add, add_neg_cancel, Real.exp_zero, one_mul]

/-- **C128, the matrix-free solver.** It needs no more iterations than the one without preconditioner. -/
theorem C128_matrix_free {A : Matrix ι ι ℝ} (hA : IsSPD A) (c : CGParams ℝ) (hz : 0 < c.zero) (b x : ι → ℝ) (hb : c.eps ≤ ∑ i, b i ^ 2)
    (h0 : c.bound b ≤ residual2 A b x) {α β : ℝ} (hα : 0 < α) (hβ : α ≤ β) (hs : SpectrumWithin A 1 α β) (k : ℕ) (hk : k ≤ c.maxIterations)
    (hcount : (Real.sqrt (β / α) + 1) / 4 * Real.log (4 * (β / α) * residual2 A b x / c.bound b) < k) :
    (cgFreeSolve c (fun v => A.mulVec v) b x).converged = true ∧ (cgFreeSolve c (fun v => A.mulVec v) b x).residuals.length ≤ k := by
  have h := C128_count hA (C53_preconditioners fun i => (hA.diag_pos i).le).1 c hz b x hb h0 hα hs hα hβ hs hβ k hk hcount
  have e : (fun v : ι → ℝ => (1 : Matrix ι ι ℝ).mulVec v) = id := by funext v; exact one_mulVec v
  rw [e] at h
  rw [C52_matrix_free]
  exact h

/-! ### Examples -/

/-- One iteration is made when the initial guess is not good enough. -/
theorem reached_first {A M : Matrix ι ι ℝ} (hA : IsSPD A) (hM : IsSPD M) (c : CGParams ℝ) (hz : 0 < c.zero) (b x : ι → ℝ)
    (hb : c.eps ≤ ∑ i, b i ^ 2) (h0 : c.bound b ≤ residual2 A b x) : Reached c A M b x 0 x ∧ ∃ y, Reached c A M b x 1 y := by
  constructor
  · obtain ⟨j, j1, j2, j3, j4, j5⟩ := solve_seq hA hM c hz b x hb h0 0
    obtain rfl : j = 0 := by omega
    exact ⟨j2, j3⟩
  · obtain ⟨j, j1, j2, j3, j4, j5⟩ := solve_seq hA hM c hz b x hb h0 1
    rcases Nat.lt_or_ge j 1 with hj | hj
    · obtain rfl : j = 0 := by omega
      have hc : (solveMatrix (c.withLimit 1) A (fun v => M *ᵥ v) b x).converged = true := by
        by_contra h
        have := j4 (by simpa using h)
        omega
      obtain ⟨y, hy, hlt⟩ := C52_sound (c.withLimit 1) A (fun v => M *ᵥ v) b x hc
      rw [j2] at hy
      obtain rfl : x = y := Option.some.inj hy
      exact absurd hlt (not_lt.2 h0)
    · obtain rfl : j = 1 := by omega
      exact ⟨_, j2, j3⟩

/-- A matrix whose eigenvalues are between 1 and 4. -/
def rateExample : Matrix (Fin 2) (Fin 2) ℝ := !![2, 1; 1, 3]

theorem rateExample_spd : IsSPD rateExample := by
  refine ⟨fun i j => by fin_cases i <;> fin_cases j <;> rfl, fun v hv => ?_⟩
  have : ∑ i, v i * ∑ j, rateExample i j * v j = 2 * v 0 ^ 2 + 2 * v 0 * v 1 + 3 * v 1 ^ 2 := by
    simp only [Fin.sum_univ_two, rateExample, Matrix.of_apply, Matrix.cons_val]; ring
  rw [this]
  by_contra hle
  push Not at hle
  have h1 : v 0 = 0 := by nlinarith [sq_nonneg (v 0 + v 1), sq_nonneg (v 0), sq_nonneg (v 1)]
  have h2 : v 1 = 0 := by nlinarith [sq_nonneg (v 0 + v 1), sq_nonneg (v 0), sq_nonneg (v 1)]
  exact hv (by funext i; fin_cases i <;> assumption)

theorem rateExample_spectrum : SpectrumWithin rateExample 1 1 4 := by
  intro r
  rw [one_mulVec]
  simp only [dotProduct, mulVec, Fin.sum_univ_two, rateExample, Matrix.of_apply, Matrix.cons_val]
  constructor <;> nlinarith [sq_nonneg (r 0 + r 1), sq_nonneg (r 0 - r 1), sq_nonneg (r 0), sq_nonneg (r 1)]

/-- The parameters: a tolerance of `1 / 10 ^ 5`. -/
noncomputable def rateParams : CGParams ℝ := ⟨25, 1 / 10 ^ 5, 1 / 10 ^ 19, 1 / 10 ^ 30⟩

theorem rateExample_residual : residual2 rateExample ![1, 2] ![0, 0] = 5 := by
  simp only [residual2, Fin.sum_univ_two, rateExample, Matrix.of_apply, Matrix.cons_val]; norm_num

theorem rateExample_bound : rateParams.bound ![1, 2] = 5 / 10 ^ 10 := by
  simp only [rateParams, CGParams.bound, dotProduct, Fin.sum_univ_two, Matrix.cons_val]
  norm_num

/-- The hypotheses of `C128_iterations` hold for it, with at most 12 iterations. -/
example : (solveMatrix rateParams rateExample (fun v => (1 : Matrix (Fin 2) (Fin 2) ℝ).mulVec v) ![1, 2] ![0, 0]).residuals.length ≤ 12 := by
  refine (C128_iterations rateExample_spd (C53_preconditioners fun i => (rateExample_spd.diag_pos i).le).1 rateParams (by norm_num [rateParams]) ![1, 2] ![0, 0]
    (by norm_num [rateParams, Fin.sum_univ_two]) (by rw [rateExample_bound, rateExample_residual]; norm_num) one_pos rateExample_spectrum one_pos (by norm_num) rateExample_spectrum
    (by norm_num) 12 (by norm_num [rateParams]) ?_).2
  have h4 : Real.sqrt 4 = 2 := by rw [show (4 : ℝ) = 2 ^ 2 by norm_num, Real.sqrt_sq (by norm_num)]
  rw [rateExample_bound, rateExample_residual, h4, Real.sqrt_one]
  norm_num

theorem rateExample_energy : errorEnergy rateExample ![1 / 5, 3 / 5] ![0, 0] = 7 / 5 := by
  simp only [errorEnergy, dotProduct, mulVec, Fin.sum_univ_two, rateExample, Pi.sub_apply, Matrix.of_apply, Matrix.cons_val]; norm_num

/-- The hypotheses of the other theorems hold for it: the first iteration divides the energy of the error by more than two. -/
example : ∃ y, Reached rateParams rateExample 1 ![1, 2] ![0, 0] 1 y ∧ errorEnergy rateExample ![1 / 5, 3 / 5] y ≤ 4 * (1 / 3) ^ 2 * (7 / 5) ∧
    errorEnergy rateExample ![1 / 5, 3 / 5] y ≤ (3 / 5) ^ 2 * (7 / 5) := by
  have h1 : IsSPD (1 : Matrix (Fin 2) (Fin 2) ℝ) := (C53_preconditioners fun i => (rateExample_spd.diag_pos i).le).1
  have hz : 0 < rateParams.zero := by norm_num [rateParams]
  have hb : rateParams.eps ≤ ∑ i, (![1, 2] : Fin 2 → ℝ) i ^ 2 := by norm_num [rateParams, Fin.sum_univ_two]
  have h0 : rateParams.bound ![1, 2] ≤ residual2 rateExample ![1, 2] ![0, 0] := by rw [rateExample_bound, rateExample_residual]; norm_num
  have hy : rateExample.mulVec ![1 / 5, 3 / 5] = ![1, 2] := by
    funext i
    fin_cases i <;> simp [mulVec, dotProduct, Fin.sum_univ_two, rateExample] <;> norm_num
  obtain ⟨r0, y, r1⟩ := reached_first rateExample_spd h1 rateParams hz ![1, 2] ![0, 0] hb h0
  have a := C128_rate rateExample_spd h1 rateParams hz ![1, 2] ![0, 0] hb h0 _ hy r1 one_pos (by norm_num) rateExample_spectrum
  have b := C128_step rateExample_spd h1 rateParams hz ![1, 2] ![0, 0] hb h0 _ hy r0 r1 one_pos (by norm_num) rateExample_spectrum
  have h4 : Real.sqrt 4 = 2 := by rw [show (4 : ℝ) = 2 ^ 2 by norm_num, Real.sqrt_sq (by norm_num)]
  rw [rateExample_energy, h4, Real.sqrt_one] at a
  rw [rateExample_energy] at b
  refine ⟨y, r1, a.trans (by norm_num), b.trans (by norm_num)⟩

end Caribou

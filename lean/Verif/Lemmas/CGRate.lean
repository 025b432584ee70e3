import Verif.Spec.CGRate
import Verif.Props.ConjugateGradient
import Mathlib.Analysis.Matrix.Spectrum
import Mathlib.Analysis.SpecialFunctions.Trigonometric.Chebyshev.RootsExtrema

set_option autoImplicit false
set_option linter.all false

namespace Caribou

open Spec Matrix

variable {ι : Type*} [Fintype ι] [DecidableEq ι]

/-! ### Simultaneous diagonalisation -/

theorem exists_diag (H : Matrix ι ι ℝ) (hH : H.transpose = H) : ∃ (U : Matrix ι ι ℝ) (d : ι → ℝ), U.transpose * U = 1 ∧ U * U.transpose = 1 ∧ H = U * diagonal d * U.transpose := by
  have hh : H.IsHermitian := by
    rw [Matrix.IsHermitian, Matrix.conjTranspose_eq_transpose_of_trivial]
    exact hH
  have h1 : (hh.eigenvectorUnitary : Matrix ι ι ℝ).transpose * hh.eigenvectorUnitary = 1 := by
    have := Unitary.coe_star_mul_self hh.eigenvectorUnitary
    rwa [Matrix.star_eq_conjTranspose, Matrix.conjTranspose_eq_transpose_of_trivial] at this
  refine ⟨hh.eigenvectorUnitary, hh.eigenvalues, h1, mul_eq_one_comm.1 h1, ?_⟩
  · have := hh.spectral_theorem
    rw [Unitary.conjStarAlgAut_apply, Matrix.star_eq_conjTranspose, Matrix.conjTranspose_eq_transpose_of_trivial] at this
    exact this

theorem Spec.IsSPD.transpose {A : Matrix ι ι ℝ} (h : IsSPD A) : A.transpose = A := by ext i j; exact (h.symm i j).symm

/-- The eigenvectors of the preconditioned matrix. -/
theorem pencil {A M : Matrix ι ι ℝ} (hA : IsSPD A) (hM : IsSPD M) :
    ∃ (V : Matrix ι ι ℝ) (d : ι → ℝ), V * V.transpose = M ∧ V.transpose * A * V = diagonal d ∧ IsUnit V := by
  obtain ⟨U, m, hU1, hU2, hMU⟩ := exists_diag M hM.transpose
  have hm : ∀ i, 0 < m i := by
    intro i
    have hne : U *ᵥ Pi.single i 1 ≠ 0 := by
      intro h0
      have := congrArg (fun w => U.transpose *ᵥ w) h0
      simp only [mulVec_mulVec, hU1, one_mulVec, mulVec_zero] at this
      have := congrFun this i
      simp at this
    have h1 := hM.dot_pos hne
    rw [hMU, mulVec_mulVec, Matrix.mul_assoc, hU1, Matrix.mul_one, dotProduct_mulVec, ← mulVec_transpose, Matrix.transpose_mul, diagonal_transpose, ← mulVec_mulVec, mulVec_mulVec _ U.transpose, hU1] at h1
    simpa [mulVec_diagonal, Pi.single_apply] using h1
  obtain ⟨B, hB⟩ : ∃ B : Matrix ι ι ℝ, B = diagonal (fun i => Real.sqrt (m i)) * U.transpose := ⟨_, rfl⟩
  have hBt : B.transpose = U * diagonal (fun i => Real.sqrt (m i)) := by rw [hB, Matrix.transpose_mul, diagonal_transpose, transpose_transpose]
  have hBB : B.transpose * B = M := by
    rw [hBt, hB, hMU, Matrix.mul_assoc, ← Matrix.mul_assoc (diagonal _), diagonal_mul_diagonal, ← Matrix.mul_assoc]
    congr 2
    congr 1
    funext i
    exact Real.mul_self_sqrt (hm i).le
  obtain ⟨W, d, hW1, hW2, hH⟩ := exists_diag (B * A * B.transpose) (by
    rw [Matrix.transpose_mul, Matrix.transpose_mul, transpose_transpose, hA.transpose, Matrix.mul_assoc])
  refine ⟨B.transpose * W, d, ?_, ?_, ?_⟩
  · rw [Matrix.transpose_mul, transpose_transpose, Matrix.mul_assoc, ← Matrix.mul_assoc W, hW2, Matrix.one_mul, hBB]
  · rw [Matrix.transpose_mul, transpose_transpose]
    calc W.transpose * B * A * (B.transpose * W) = W.transpose * (B * A * B.transpose) * W := by simp only [Matrix.mul_assoc]
      _ = (W.transpose * W) * diagonal d * (W.transpose * W) := by rw [hH]; simp only [Matrix.mul_assoc]
      _ = diagonal d := by rw [hW1, Matrix.one_mul, Matrix.mul_one]
  · have hMu : IsUnit (B.transpose * W * (B.transpose * W).transpose) := by
      rw [Matrix.transpose_mul, transpose_transpose, Matrix.mul_assoc, ← Matrix.mul_assoc W, hW2, Matrix.one_mul, hBB, isUnit_iff_isUnit_det, isUnit_iff_ne_zero]
      intro hdet
      obtain ⟨v, hv, hv0⟩ := (exists_mulVec_eq_zero_iff).2 hdet
      have := hM.dot_pos hv
      rw [hv0, dotProduct_zero] at this
      exact lt_irrefl _ this
    rw [isUnit_iff_isUnit_det, det_mul, IsUnit.mul_iff] at hMu
    rw [isUnit_iff_isUnit_det]
    exact hMu.1

/-- The energy in the basis of the eigenvectors. -/
theorem pencil_energy {A V : Matrix ι ι ℝ} {d : ι → ℝ} (h : V.transpose * A * V = diagonal d) (g : ι → ℝ) : (V *ᵥ g) ⬝ᵥ A *ᵥ (V *ᵥ g) = ∑ i, d i * g i ^ 2 := by
  have : (V *ᵥ g) ⬝ᵥ A *ᵥ (V *ᵥ g) = g ⬝ᵥ (V.transpose * A * V) *ᵥ g := by
    rw [← mulVec_mulVec, ← mulVec_mulVec, dotProduct_mulVec g, vecMul_transpose]
  rw [this, h]
  refine Finset.sum_congr rfl fun i _ => ?_
  rw [mulVec_diagonal]
  ring

theorem pencil_mul {A M V : Matrix ι ι ℝ} {d : ι → ℝ} (hV : V * V.transpose = M) (h : V.transpose * A * V = diagonal d) (g : ι → ℝ) :
    M *ᵥ (A *ᵥ (V *ᵥ g)) = V *ᵥ fun i => d i * g i := by
  have : M *ᵥ (A *ᵥ (V *ᵥ g)) = V *ᵥ ((V.transpose * A * V) *ᵥ g) := by
    rw [← hV]
    simp only [mulVec_mulVec, Matrix.mul_assoc]
  rw [this, h]
  congr 1
  funext i
  rw [mulVec_diagonal]

theorem pencil_bounds {A M V : Matrix ι ι ℝ} {d : ι → ℝ} (hV : V * V.transpose = M) (h : V.transpose * A * V = diagonal d) (hu : IsUnit V) {lo hi : ℝ} (hs : SpectrumWithin A M lo hi)
    (i : ι) : lo ≤ d i ∧ d i ≤ hi := by
  have hu' : IsUnit V.transpose.det := by rw [det_transpose]; rwa [isUnit_iff_isUnit_det] at hu
  obtain ⟨r, hr⟩ : ∃ r, V.transpose *ᵥ r = Pi.single i 1 := ⟨V.transpose⁻¹ *ᵥ Pi.single i 1, by rw [mulVec_mulVec, mul_nonsing_inv _ hu', one_mulVec]⟩
  have h1 : M *ᵥ r = V *ᵥ Pi.single i 1 := by rw [← hV, ← mulVec_mulVec, hr]
  have h2 : r ⬝ᵥ M *ᵥ r = 1 := by rw [h1, dotProduct_mulVec, ← mulVec_transpose, hr]; simp
  have h3 := hs r
  rw [h2, h1, pencil_energy h] at h3
  have h4 : ∑ j, d j * (Pi.single i (1 : ℝ) : ι → ℝ) j ^ 2 = d i := by
    rw [Finset.sum_eq_single i]
    · simp
    · intro j _ hj
      simp [hj]
    · simp
  rw [h4] at h3
  exact ⟨by linarith [h3.1], by linarith [h3.2]⟩

/-! ### Optimality -/

/-- The span of the first directions. -/
def directions (p : ℕ → ι → ℝ) (k : ℕ) : Submodule ℝ (ι → ℝ) := Submodule.span ℝ (p '' Set.Iio k)

theorem directions_mono (p : ℕ → ι → ℝ) {k l : ℕ} (h : k ≤ l) : directions p k ≤ directions p l :=
  Submodule.span_mono (Set.image_mono (Set.Iio_subset_Iio h))

theorem mem_directions (p : ℕ → ι → ℝ) {j k : ℕ} (h : j < k) : p j ∈ directions p k := Submodule.subset_span ⟨j, h, rfl⟩

theorem PCG.precond_mem {A M : Matrix ι ι ℝ} {r p : ℕ → ι → ℝ} (h : PCG A M r p) (j : ℕ) : M *ᵥ r j ∈ directions p (j + 1) := by
  cases j with
  | zero => rw [← h.p0]; exact mem_directions p (by omega)
  | succ j =>
    have : M *ᵥ r (j + 1) = p (j + 1) - ((r (j + 1) ⬝ᵥ M *ᵥ r (j + 1)) / (r j ⬝ᵥ M *ᵥ r j)) • p j := by rw [h.ps]; abel
    rw [this]
    exact Submodule.sub_mem _ (mem_directions p (by omega)) (Submodule.smul_mem _ _ (mem_directions p (by omega)))

theorem PCG.product_mem {A M : Matrix ι ι ℝ} {r p : ℕ → ι → ℝ} (h : PCG A M r p) (hA : IsSPD A) (hM : IsSPD M) {k : ℕ} {v : ι → ℝ} (hv : v ∈ directions p k) :
    M *ᵥ (A *ᵥ v) ∈ directions p (k + 1) := by
  induction hv using Submodule.span_induction with
  | zero => rw [mulVec_zero, mulVec_zero]; exact Submodule.zero_mem _
  | add u v _ _ hu hv => rw [mulVec_add, mulVec_add]; exact Submodule.add_mem _ hu hv
  | smul c u _ hu => rw [mulVec_smul, mulVec_smul]; exact Submodule.smul_mem _ _ hu
  | mem v hv =>
    obtain ⟨j, hj, rfl⟩ := hv
    by_cases hr : r j = 0
    · rw [h.p_zero j hr, mulVec_zero, mulVec_zero]; exact Submodule.zero_mem _
    · have hrho : r j ⬝ᵥ M *ᵥ r j ≠ 0 := (hM.dot_pos hr).ne'
      have hp : p j ≠ 0 := by
        intro h0
        have := (h.inv hA hM j).rp
        rw [h0, dotProduct_zero] at this
        exact hrho this.symm
      have hpq : p j ⬝ᵥ A *ᵥ p j ≠ 0 := (hA.dot_pos hp).ne'
      have hA' : A *ᵥ p j = ((p j ⬝ᵥ A *ᵥ p j) / (r j ⬝ᵥ M *ᵥ r j)) • (r j - r (j + 1)) := by
        rw [h.rs j, sub_sub_cancel, smul_smul, div_mul_div_cancel₀ hrho, div_self hpq, one_smul]
      rw [hA', mulVec_smul, mulVec_sub]
      have hjk : j < k := hj
      exact Submodule.smul_mem _ _ (Submodule.sub_mem _ (directions_mono p (by omega) (h.precond_mem j)) (directions_mono p (by omega) (h.precond_mem (j + 1))))

theorem PCG.residual_orth {A M : Matrix ι ι ℝ} {r p : ℕ → ι → ℝ} (h : PCG A M r p) (hA : IsSPD A) (hM : IsSPD M) {k : ℕ} {v : ι → ℝ} (hv : v ∈ directions p k) : r k ⬝ᵥ v = 0 := by
  induction hv using Submodule.span_induction with
  | zero => rw [dotProduct_zero]
  | add u v _ _ hu hv => rw [dotProduct_add, hu, hv, add_zero]
  | smul c u _ hu => rw [dotProduct_smul, hu, smul_zero]
  | mem v hv =>
    obtain ⟨j, hj, rfl⟩ := hv
    exact (h.inv hA hM k).rpj j hj

theorem pcgSeq_mem (A M : Matrix ι ι ℝ) (x0 r0 : ι → ℝ) (k : ℕ) : (pcgSeq A M x0 r0 k).1 - x0 ∈ directions (fun k => (pcgSeq A M x0 r0 k).2.2) k := by
  induction k with
  | zero => simp [pcgSeq]
  | succ k ih =>
    have e : (pcgSeq A M x0 r0 (k + 1)).1 - x0 = ((pcgSeq A M x0 r0 k).1 - x0) +
        (((pcgSeq A M x0 r0 k).2.1 ⬝ᵥ M *ᵥ (pcgSeq A M x0 r0 k).2.1) / ((pcgSeq A M x0 r0 k).2.2 ⬝ᵥ A *ᵥ (pcgSeq A M x0 r0 k).2.2)) • (pcgSeq A M x0 r0 k).2.2 := by
      simp only [pcgSeq]
      abel
    rw [e]
    exact Submodule.add_mem _ (directions_mono _ (by omega) ih) (Submodule.smul_mem _ _ (mem_directions (fun k => (pcgSeq A M x0 r0 k).2.2) (by omega)))

/-- The iterate has the smallest error among all positions which differ from it by the directions used. -/
theorem pcg_optimal {A M : Matrix ι ι ℝ} (hA : IsSPD A) (hM : IsSPD M) (b x0 y : ι → ℝ) (hy : A *ᵥ y = b) (k : ℕ) (z : ι → ℝ)
    (hz : z - (pcgSeq A M x0 (b - A *ᵥ x0) k).1 ∈ directions (fun k => (pcgSeq A M x0 (b - A *ᵥ x0) k).2.2) k) :
    errorEnergy A y (pcgSeq A M x0 (b - A *ᵥ x0) k).1 ≤ errorEnergy A y z := by
  have h0 := (pcgSeq_pcg A M x0 (b - A *ᵥ x0)).residual_orth hA hM hz
  rw [pcgSeq_residual] at h0
  generalize (pcgSeq A M x0 (b - A *ᵥ x0) k).1 = xk at *
  obtain ⟨w, hw⟩ : ∃ w, w = z - xk := ⟨_, rfl⟩
  rw [← hw] at h0
  have e1 : z - y = (xk - y) + w := by rw [hw]; abel
  have e2 : b - A *ᵥ xk = -(A *ᵥ (xk - y)) := by rw [mulVec_sub, hy]; abel
  rw [e2, neg_dotProduct, neg_eq_zero, dotProduct_comm] at h0
  have h1 : 0 ≤ w ⬝ᵥ A *ᵥ w := by
    by_cases hw0 : w = 0
    · rw [hw0, zero_dotProduct]
    · exact (hA.dot_pos hw0).le
  unfold errorEnergy
  rw [e1, mulVec_add, dotProduct_add, add_dotProduct, add_dotProduct, h0, hA.dot_comm (xk - y) w, h0]
  linarith

/-! ### Polynomials -/

/-- A polynomial of degree `k` which is one at zero bounds the error after `k` iterations. -/
theorem pcg_polynomial {A M : Matrix ι ι ℝ} (hA : IsSPD A) (hM : IsSPD M) (b x0 y : ι → ℝ) (hy : A *ᵥ y = b) {lo hi : ℝ} (hlo : 0 ≤ lo) (hs : SpectrumWithin A M lo hi) (k : ℕ)
    (q : Polynomial ℝ) (hq : q.natDegree ≤ k) (hq0 : q.eval 0 = 1) (m : ℝ) (hm : ∀ t, lo ≤ t → t ≤ hi → |q.eval t| ≤ m) :
    errorEnergy A y (pcgSeq A M x0 (b - A *ᵥ x0) k).1 ≤ m ^ 2 * errorEnergy A y x0 := by
  obtain ⟨V, d, hV, hd, hu⟩ := pencil hA hM
  have hb := pencil_bounds hV hd hu hs
  have hudet : IsUnit V.det := by rwa [isUnit_iff_isUnit_det] at hu
  obtain ⟨g, hg⟩ : ∃ g, V *ᵥ g = x0 - y := ⟨V⁻¹ *ᵥ (x0 - y), by rw [mulVec_mulVec, mul_nonsing_inv _ hudet, one_mulVec]⟩
  have hP := pcgSeq_pcg A M x0 (b - A *ᵥ x0)
  -- powers
  have hw : ∀ j, (V *ᵥ fun i => d i ^ (j + 1) * g i) ∈ directions (fun k => (pcgSeq A M x0 (b - A *ᵥ x0) k).2.2) (j + 1) := by
    intro j
    induction j with
    | zero =>
      have e : (V *ᵥ fun i => d i ^ (0 + 1) * g i) = -(M *ᵥ (b - A *ᵥ x0)) := by
        have := pencil_mul hV hd g
        simp only [zero_add, pow_one]
        rw [← this, hg, ← mulVec_neg, mulVec_sub A, hy, neg_sub]
      rw [e]
      exact Submodule.neg_mem _ (hP.precond_mem 0)
    | succ j ih =>
      have := pencil_mul hV hd fun i => d i ^ (j + 1) * g i
      have e : (fun i => d i ^ (j + 1 + 1) * g i) = fun i => d i * (d i ^ (j + 1) * g i) := by funext i; ring
      rw [e, ← this]
      exact hP.product_mem hA hM ih
  -- the comparison position
  obtain ⟨z, hz⟩ : ∃ z, z = y + V *ᵥ fun i => q.eval (d i) * g i := ⟨_, rfl⟩
  have hmem : z - (pcgSeq A M x0 (b - A *ᵥ x0) k).1 ∈ directions (fun k => (pcgSeq A M x0 (b - A *ᵥ x0) k).2.2) k := by
    have h1 : z - x0 ∈ directions (fun k => (pcgSeq A M x0 (b - A *ᵥ x0) k).2.2) k := by
      have e : z - x0 = ∑ j ∈ Finset.range k, q.coeff (j + 1) • (V *ᵥ fun i => d i ^ (j + 1) * g i) := by
        have e1 : z - x0 = V *ᵥ fun i => (q.eval (d i) - 1) * g i := by
          have : (fun i => (q.eval (d i) - 1) * g i) = (fun i => q.eval (d i) * g i) - g := by funext i; simp only [Pi.sub_apply]; ring
          rw [this, mulVec_sub, hg, hz]
          abel
        have e2 : (fun i => (q.eval (d i) - 1) * g i) = ∑ j ∈ Finset.range k, q.coeff (j + 1) • fun i => d i ^ (j + 1) * g i := by
          funext i
          rw [Polynomial.eval_eq_sum_range' (show q.natDegree < k + 1 by omega), Finset.sum_range_succ']
          have h0 : q.coeff 0 = 1 := by rw [Polynomial.coeff_zero_eq_eval_zero, hq0]
          rw [h0, Finset.sum_apply, pow_zero, mul_one, add_sub_cancel_right, Finset.sum_mul]
          refine Finset.sum_congr rfl fun j _ => ?_
          simp only [Pi.smul_apply, smul_eq_mul]
          ring
        rw [e1, e2, ← Matrix.toLin'_apply, map_sum]
        refine Finset.sum_congr rfl fun j _ => ?_
        rw [map_smul, Matrix.toLin'_apply]
      rw [e]
      refine Submodule.sum_mem _ fun j hj => Submodule.smul_mem _ _ (directions_mono _ ?_ (hw j))
      have := Finset.mem_range.1 hj
      omega
    have e : z - (pcgSeq A M x0 (b - A *ᵥ x0) k).1 = (z - x0) - ((pcgSeq A M x0 (b - A *ᵥ x0) k).1 - x0) := by abel
    rw [e]
    exact Submodule.sub_mem _ h1 (pcgSeq_mem A M x0 _ k)
  refine (pcg_optimal hA hM b x0 y hy k z hmem).trans ?_
  have e1 : z - y = V *ᵥ fun i => q.eval (d i) * g i := by rw [hz]; abel
  unfold errorEnergy
  rw [e1, ← hg, pencil_energy hd, pencil_energy hd, Finset.mul_sum]
  refine Finset.sum_le_sum fun i _ => ?_
  have h1 := hm (d i) (hb i).1 (hb i).2
  have h2 : q.eval (d i) ^ 2 ≤ m ^ 2 := sq_le_sq' (by linarith [neg_abs_le (q.eval (d i))]) ((le_abs_self _).trans h1)
  have h3 : 0 ≤ d i * g i ^ 2 := mul_nonneg (hlo.trans (hb i).1) (sq_nonneg _)
  nlinarith

/-- The Chebyshev polynomial moved to the interval, of degree `k`, one at zero. -/
theorem chebyshev_exists (lo hi : ℝ) (hlo : 0 < lo) (hlh : lo ≤ hi) (k : ℕ) : ∃ q : Polynomial ℝ, q.natDegree ≤ k ∧ q.eval 0 = 1 ∧
    ∀ t, lo ≤ t → t ≤ hi → |q.eval t| ≤ 2 * ((Real.sqrt hi - Real.sqrt lo) / (Real.sqrt hi + Real.sqrt lo)) ^ k := by
  have hsl : 0 < Real.sqrt lo := Real.sqrt_pos.2 hlo
  have hsh : 0 < Real.sqrt hi := Real.sqrt_pos.2 (hlo.trans_le hlh)
  rcases hlh.eq_or_lt with heq | hlt
  · subst heq
    cases k with
    | zero => exact ⟨1, by simp, by simp, fun t _ _ => by simp⟩
    | succ k =>
      refine ⟨Polynomial.C (-1 / lo) * Polynomial.X + Polynomial.C 1, Polynomial.natDegree_linear_le.trans (by omega), by simp, fun t h1 h2 => ?_⟩
      have : t = lo := le_antisymm h2 h1
      rw [this]
      simp only [Polynomial.eval_add, Polynomial.eval_mul, Polynomial.eval_C, Polynomial.eval_X, sub_self, zero_div]
      rw [div_mul_cancel₀ _ hlo.ne']
      simp
  · have hslt : Real.sqrt lo < Real.sqrt hi := Real.sqrt_lt_sqrt hlo.le hlt
    obtain ⟨s, hs⟩ : ∃ s, s = Real.sqrt lo := ⟨_, rfl⟩
    obtain ⟨S, hS⟩ : ∃ S, S = Real.sqrt hi := ⟨_, rfl⟩
    have hs2 : s * s = lo := by rw [hs]; exact Real.mul_self_sqrt hlo.le
    have hS2 : S * S = hi := by rw [hS]; exact Real.mul_self_sqrt (hlo.trans hlt).le
    rw [← hs, ← hS] at hslt ⊢
    rw [← hs] at hsl
    rw [← hS] at hsh
    have hdiff : 0 < S - s := by linarith
    have hsum : 0 < S + s := by linarith
    have hdet : 0 < hi - lo := by linarith
    obtain ⟨X, hX⟩ : ∃ X, X = (S + s) / (S - s) := ⟨_, rfl⟩
    have hX0 : 0 < X := by rw [hX]; positivity
    have hcosh : (hi + lo) / (hi - lo) = Real.cosh (Real.log X) := by
      rw [Real.cosh_log hX0, hX, ← hs2, ← hS2]
      have : S * S - s * s = (S - s) * (S + s) := by ring
      rw [this]
      field_simp
      ring
    have hT : X ^ k / 2 ≤ (Polynomial.Chebyshev.T ℝ k).eval ((hi + lo) / (hi - lo)) := by
      rw [hcosh, Polynomial.Chebyshev.T_real_cosh, Real.cosh_eq]
      have e : Real.exp ((k : ℤ) * Real.log X) = X ^ k := by
        rw [Int.cast_natCast, Real.exp_nat_mul, Real.exp_log hX0]
      rw [e]
      have := Real.exp_pos (-((k : ℤ) * Real.log X))
      linarith
    have hXk : 0 < X ^ k := by positivity
    obtain ⟨T0, hT0⟩ : ∃ T0, T0 = (Polynomial.Chebyshev.T ℝ k).eval ((hi + lo) / (hi - lo)) := ⟨_, rfl⟩
    rw [← hT0] at hT
    have hT0p : 0 < T0 := by linarith
    refine ⟨Polynomial.C (1 / T0) * (Polynomial.Chebyshev.T ℝ k).comp (Polynomial.C (-2 / (hi - lo)) * Polynomial.X + Polynomial.C ((hi + lo) / (hi - lo))), ?_, ?_, fun t h1 h2 => ?_⟩
    · refine (Polynomial.natDegree_C_mul_le _ _).trans (Polynomial.natDegree_comp_le.trans ?_)
      have hd : (Polynomial.Chebyshev.T ℝ k).natDegree = k := by simp
      rw [hd]
      have := Polynomial.natDegree_linear_le (R := ℝ) (a := -2 / (hi - lo)) (b := (hi + lo) / (hi - lo))
      nlinarith
    · simp only [Polynomial.eval_mul, Polynomial.eval_C, Polynomial.eval_comp, Polynomial.eval_add, Polynomial.eval_X, mul_zero, zero_add]
      rw [← hT0]
      field_simp
    · simp only [Polynomial.eval_mul, Polynomial.eval_C, Polynomial.eval_comp, Polynomial.eval_add, Polynomial.eval_X]
      have h3 : |-2 / (hi - lo) * t + (hi + lo) / (hi - lo)| ≤ 1 := by
        have e : -2 / (hi - lo) * t + (hi + lo) / (hi - lo) = (hi + lo - 2 * t) / (hi - lo) := by ring
        rw [e, abs_div, abs_of_pos hdet, div_le_one hdet, abs_le]
        constructor <;> linarith
      have h4 := Polynomial.Chebyshev.abs_eval_T_real_le_one k h3
      rw [abs_mul, abs_of_pos (by positivity)]
      have h5 : 1 / T0 ≤ 2 * ((S - s) / (S + s)) ^ k := by
        have e : (S - s) / (S + s) = X⁻¹ := by rw [hX, inv_div]
        rw [e, inv_pow, div_le_iff₀ hT0p]
        have : 2 * (X ^ k)⁻¹ * (X ^ k / 2) = 1 := by field_simp
        have h6 : 0 < 2 * (X ^ k)⁻¹ := by positivity
        nlinarith
      calc 1 / T0 * |(Polynomial.Chebyshev.T ℝ k).eval (-2 / (hi - lo) * t + (hi + lo) / (hi - lo))| ≤ 1 / T0 * 1 :=
            mul_le_mul_of_nonneg_left h4 (by positivity)
        _ ≤ _ := by rw [mul_one]; exact h5

end Caribou

import Verif.Lemmas.ConjugateGradient
import Mathlib.Tactic.FinCases
import Mathlib.Tactic.NormNum
import Mathlib.Tactic.Positivity

/-!
# Properties C52 and C53: `ConjugateGradientSolver`
-/

set_option autoImplicit false

namespace Caribou

open Spec Matrix

variable {K ι : Type*} [Field K] [LinearOrder K] [IsStrictOrderedRing K] [Fintype ι]

/-- The requested bound on the squared residual: relative to the right-hand side, and never less than the smallest
positive number. -/
def CGParams.bound (c : CGParams K) (b : ι → K) : K := max (c.tolerance ^ 2 * ∑ i, b i ^ 2) c.zero

/-- The same parameters with another iteration limit. -/
def CGParams.withLimit (c : CGParams K) (n : ℕ) : CGParams K := { c with maxIterations := n }

/-- The preconditioned solver applied to a matrix. -/
def solveMatrix (c : CGParams K) (A : Matrix ι ι K) (precond : (ι → K) → ι → K) (b x : ι → K) : CGResult K ι :=
  cgSolve c (fun v => A *ᵥ v) precond b x

theorem bound_eq (c : CGParams K) (b : ι → K) : max (c.tolerance * c.tolerance * b ⬝ᵥ b) c.zero = c.bound b := by
  simp only [CGParams.bound, dotProduct, sq]

theorem dot_self_eq (b : ι → K) : b ⬝ᵥ b = ∑ i, b i ^ 2 := by simp only [dotProduct, sq]

theorem solve_zero (c : CGParams K) (A : Matrix ι ι K) (precond : (ι → K) → ι → K) (b x : ι → K)
    (hb : ∑ i, b i ^ 2 < c.eps) : solveMatrix c A precond b x = ⟨some 0, [], false, ∑ i, b i ^ 2⟩ := by
  rw [← dot_self_eq] at hb ⊢
  simp only [solveMatrix, cgSolve, hb, if_true]

theorem solve_already (c : CGParams K) (A : Matrix ι ι K) (precond : (ι → K) → ι → K) (b x : ι → K)
    (hb : ¬∑ i, b i ^ 2 < c.eps) (h : residual2 A b x < c.bound b) :
    solveMatrix c A precond b x = ⟨some x, [], false, ∑ i, b i ^ 2⟩ := by
  rw [← dot_self_eq] at hb ⊢
  rw [residual2_eq, ← bound_eq] at h
  simp only [solveMatrix, cgSolve, hb, if_false, h, if_true]

theorem solve_loop (c : CGParams K) (A : Matrix ι ι K) (precond : (ι → K) → ι → K) (b x : ι → K)
    (hb : ¬∑ i, b i ^ 2 < c.eps) (h : ¬residual2 A b x < c.bound b) :
    ∃ s, LoopInv A b (c.bound b) s ∧ s.x = x ∧ s.r = b - A *ᵥ x ∧ s.p = some (precond (b - A *ᵥ x)) ∧
      s.rho0 = (b - A *ᵥ x) ⬝ᵥ precond (b - A *ᵥ x) ∧ s.residuals = [] ∧ s.converged = false ∧
      ∀ n, solveMatrix (c.withLimit n) A precond b x =
        ⟨if (cgLoop (fun v => A *ᵥ v) precond (c.bound b) n s).2 then
            some (cgLoop (fun v => A *ᵥ v) precond (c.bound b) n s).1.x else none,
          (cgLoop (fun v => A *ᵥ v) precond (c.bound b) n s).1.residuals,
          (cgLoop (fun v => A *ᵥ v) precond (c.bound b) n s).1.converged, ∑ i, b i ^ 2⟩ := by
  refine ⟨⟨x, b - A *ᵥ x, some (precond (b - A *ᵥ x)), (b - A *ᵥ x) ⬝ᵥ precond (b - A *ᵥ x), [], 0, false⟩,
    ⟨rfl, ?_⟩, rfl, rfl, rfl, rfl, rfl, rfl, fun n => ?_⟩
  · rw [← residual2_eq]; exact iff_of_false Bool.false_ne_true h
  · rw [← dot_self_eq] at hb ⊢
    rw [residual2_eq, ← bound_eq] at h
    rw [← bound_eq]
    simp only [solveMatrix, cgSolve, CGParams.withLimit, hb, if_false, h]
    rfl

theorem withLimit_self (c : CGParams K) : c.withLimit c.maxIterations = c := rfl

theorem residual2_of_inv {A : Matrix ι ι K} {b : ι → K} {t : K} {s : CGState K ι} (h : LoopInv A b t s) :
    residual2 A b s.x = s.r ⬝ᵥ s.r := by rw [residual2_eq, h.res]

/-- **C52** (residuals): the `k`-th recorded squared residual is the squared residual of the solution reached after
`k + 1` iterations, for every matrix, preconditioner, right-hand side and initial guess. -/
theorem C52_residual (c : CGParams K) (A : Matrix ι ι K) (precond : (ι → K) → ι → K) (b x : ι → K) (k : ℕ) (ρ : K)
    (h : (solveMatrix c A precond b x).residuals[k]? = some (some ρ)) :
    ∃ xk, (solveMatrix (c.withLimit (k + 1)) A precond b x).x = some xk ∧ residual2 A b xk = ρ := by
  by_cases hb : ∑ i, b i ^ 2 < c.eps
  · rw [solve_zero c A precond b x hb] at h; simp at h
  · by_cases h0 : residual2 A b x < c.bound b
    · rw [solve_already c A precond b x hb h0] at h; simp at h
    · obtain ⟨s, hs, -, -, -, -, hres, -, hall⟩ := solve_loop c A precond b x hb h0
      rw [← withLimit_self c, hall] at h
      have := cgLoop_record precond (c.bound b) A b c.maxIterations s hs k ρ (by rw [hres]; simpa using h)
      rw [hall, this.1]
      refine ⟨_, rfl, ?_⟩
      rw [residual2_of_inv (cgLoop_spec precond _ A b _ s hs).1, this.2]

/-- **C52** (limit): at most the maximum number of iterations are performed (one residual is recorded per iteration). -/
theorem C52_limit (c : CGParams K) (A : Matrix ι ι K) (precond : (ι → K) → ι → K) (b x : ι → K) :
    (solveMatrix c A precond b x).residuals.length ≤ c.maxIterations := by
  by_cases hb : ∑ i, b i ^ 2 < c.eps
  · rw [solve_zero c A precond b x hb]; simp
  · by_cases h0 : residual2 A b x < c.bound b
    · rw [solve_already c A precond b x hb h0]; simp
    · obtain ⟨s, hs, -, -, -, -, hres, -, hall⟩ := solve_loop c A precond b x hb h0
      rw [← withLimit_self c, hall]
      obtain ⟨-, -, l, h1, h2⟩ := cgLoop_spec precond (c.bound b) A b c.maxIterations s hs
      dsimp only
      rw [h1, hres, List.nil_append]
      exact h2

/-- **C52** (no false report): when convergence is reported the solution is finite and its residual is below the bound. -/
theorem C52_sound (c : CGParams K) (A : Matrix ι ι K) (precond : (ι → K) → ι → K) (b x : ι → K)
    (h : (solveMatrix c A precond b x).converged = true) :
    ∃ y, (solveMatrix c A precond b x).x = some y ∧ residual2 A b y < c.bound b := by
  by_cases hb : ∑ i, b i ^ 2 < c.eps
  · rw [solve_zero c A precond b x hb] at h; simp at h
  · by_cases h0 : residual2 A b x < c.bound b
    · rw [solve_already c A precond b x hb h0] at h; simp at h
    · obtain ⟨s, hs, -, -, -, -, hres, -, hall⟩ := solve_loop c A precond b x hb h0
      rw [← withLimit_self c, hall] at h ⊢
      obtain ⟨h1, h2, -⟩ := cgLoop_spec precond (c.bound b) A b c.maxIterations s hs
      dsimp only at h ⊢
      have hok : (cgLoop (fun v => A *ᵥ v) precond (c.bound b) c.maxIterations s).2 = true := by
        by_contra hne
        rw [h2 (by simpa using hne)] at h
        exact Bool.false_ne_true h
      rw [if_pos hok]
      exact ⟨_, rfl, by rw [residual2_of_inv h1]; exact h1.conv.mp h⟩

/-- **C52** (partial): when the right-hand side is not (almost) zero and the initial guess is not already good enough,
convergence is reported exactly when the solution returned is finite and its residual is below the bound.  Missing: the
two early returns, see `C52_violated`. -/
theorem C52_partial (c : CGParams K) (A : Matrix ι ι K) (precond : (ι → K) → ι → K) (b x : ι → K)
    (hb : c.eps ≤ ∑ i, b i ^ 2) (h0 : c.bound b ≤ residual2 A b x) :
    (solveMatrix c A precond b x).converged = true ↔
      ∃ y, (solveMatrix c A precond b x).x = some y ∧ residual2 A b y < c.bound b := by
  refine ⟨C52_sound c A precond b x, ?_⟩
  rintro ⟨y, hy, hlt⟩
  obtain ⟨s, hs, -, -, -, -, hres, -, hall⟩ := solve_loop c A precond b x (not_lt.mpr hb) (not_lt.mpr h0)
  rw [← withLimit_self c, hall] at hy ⊢
  obtain ⟨h1, h2, -⟩ := cgLoop_spec precond (c.bound b) A b c.maxIterations s hs
  dsimp only at hy ⊢
  split at hy
  · simp only [Option.some.injEq] at hy
    rw [← hy, residual2_of_inv h1] at hlt
    exact h1.conv.mpr hlt
  · simp at hy

/-- **C52, negation**: started at the exact solution of a system with a non-zero right-hand side the solver returns that
solution, whose residual is zero, and reports that it did not converge; likewise for a zero right-hand side. -/
theorem C52_violated (c : CGParams K) (hz : 0 < c.zero) (A : Matrix ι ι K) (precond : (ι → K) → ι → K) (b x : ι → K)
    (hx : A *ᵥ x = b) (heps : 0 < c.eps) :
    (c.eps ≤ ∑ i, b i ^ 2 → (solveMatrix c A precond b x).x = some x ∧ residual2 A b x < c.bound b ∧
      (solveMatrix c A precond b x).converged = false) ∧
    ((solveMatrix c A precond 0 x).x = some 0 ∧ residual2 A 0 (0 : ι → K) < c.bound (0 : ι → K) ∧
      (solveMatrix c A precond 0 x).converged = false) := by
  have hb : ∀ v : ι → K, 0 < c.bound v := fun v => lt_of_lt_of_le hz (le_max_right _ _)
  refine ⟨fun h => ?_, ?_⟩
  · have hr : residual2 A b x < c.bound b := by rw [residual2_eq, hx, sub_self, zero_dotProduct]; exact hb b
    rw [solve_already c A precond b x (not_lt.mpr h) hr]
    exact ⟨rfl, hr, rfl⟩
  · rw [solve_zero c A precond 0 x (by simpa using heps)]
    refine ⟨rfl, ?_, rfl⟩
    rw [residual2_eq, mulVec_zero, sub_zero, zero_dotProduct]
    exact hb 0

/-- **C52** (matrix-free solver): the matrix-free solver is the preconditioned one with the identity, so the theorems
above apply to it, for every operator (whether or not it is projected on a constrained space). -/
theorem C52_matrix_free (c : CGParams K) (A : (ι → K) → ι → K) (b x : ι → K) :
    cgFreeSolve c A b x = cgSolve c A id b x := by
  simp only [cgFreeSolve, cgSolve, cgFree_loop, neg_smul, one_smul, ← sub_eq_add_neg, id]

/-! ## C53 -/

/-- What a run with limit `n` that did all of its iterations computed. -/
theorem solve_seq {A M : Matrix ι ι K} (hA : IsSPD A) (hM : IsSPD M) (c : CGParams K) (hz : 0 < c.zero) (b x : ι → K)
    (hb : c.eps ≤ ∑ i, b i ^ 2) (h0 : c.bound b ≤ residual2 A b x) (n : ℕ) :
    ∃ j ≤ n, (solveMatrix (c.withLimit n) A (fun v => M *ᵥ v) b x).x = some (pcgSeq A M x (b - A *ᵥ x) j).1 ∧
      (solveMatrix (c.withLimit n) A (fun v => M *ᵥ v) b x).residuals.length = j ∧
      ((solveMatrix (c.withLimit n) A (fun v => M *ᵥ v) b x).converged = false → j = n) ∧
      ∀ i < j, (pcgSeq A M x (b - A *ᵥ x) i).2.1 ≠ 0 := by
  obtain ⟨s, hs, s1, s2, s3, s4, s5, s6, hall⟩ := solve_loop c A (fun v => M *ᵥ v) b x (not_lt.mpr hb) (not_lt.mpr h0)
  have hpos : 0 < c.bound b := lt_of_lt_of_le hz (le_max_right _ _)
  obtain ⟨j, j1, j2, j3, j4, j5⟩ := cgLoop_seq hA hM x (b - A *ᵥ x) (c.bound b) hpos n 0 s ⟨s1, s2, by rw [s5]; rfl⟩ s3 s4 s6
    (by rw [s2, ← residual2_eq]; exact h0)
  rw [hall, j2]
  simp only [zero_add] at j3 j5
  refine ⟨j, j1, ?_, j3.len, j4, fun i hi h => ?_⟩
  · simp only [if_true]; rw [j3.x]
  · have := j5 i hi
    rw [h, zero_dotProduct] at this
    exact absurd hpos (not_lt.mpr this)

/-- **C53** (termination): on a symmetric positive definite system with a symmetric positive definite preconditioner and
at least as many iterations allowed as there are unknowns, the solver reports convergence after at most that many. -/
theorem C53_terminates {A M : Matrix ι ι K} (hA : IsSPD A) (hM : IsSPD M) (c : CGParams K) (hz : 0 < c.zero) (b x : ι → K)
    (hb : c.eps ≤ ∑ i, b i ^ 2) (h0 : c.bound b ≤ residual2 A b x) (hn : Fintype.card ι ≤ c.maxIterations) :
    (solveMatrix c A (fun v => M *ᵥ v) b x).converged = true ∧
      (solveMatrix c A (fun v => M *ᵥ v) b x).residuals.length ≤ Fintype.card ι := by
  obtain ⟨j, j1, j2, j3, j4, j5⟩ := solve_seq hA hM c hz b x hb h0 c.maxIterations
  rw [withLimit_self] at j2 j3 j4
  have hfin := (pcgSeq_pcg A M x (b - A *ᵥ x)).finite hA hM
  have hj : j ≤ Fintype.card ι := by
    by_contra hgt
    push Not at hgt
    exact j5 _ hgt hfin
  refine ⟨?_, by rw [j3]; exact hj⟩
  by_contra hc
  have hjn := j4 (by simpa using hc)
  have hzero : (pcgSeq A M x (b - A *ᵥ x) j).2.1 = 0 :=
    (pcgSeq_pcg A M x (b - A *ᵥ x)).r_zero_of_le (by omega) hfin
  rw [pcgSeq_residual] at hzero
  apply hc
  rw [C52_partial c A _ b x hb h0]
  refine ⟨_, j2, ?_⟩
  rw [residual2_eq, hzero, zero_dotProduct]
  exact lt_of_lt_of_le hz (le_max_right _ _)

/-- **C53** (exactness): if as many iterations as there are unknowns were performed, the result is the solution. -/
theorem C53_exact {A M : Matrix ι ι K} (hA : IsSPD A) (hM : IsSPD M) (c : CGParams K) (hz : 0 < c.zero) (b x : ι → K)
    (hb : c.eps ≤ ∑ i, b i ^ 2) (h0 : c.bound b ≤ residual2 A b x)
    (hn : (solveMatrix c A (fun v => M *ᵥ v) b x).residuals.length = Fintype.card ι) :
    ∃ y, (solveMatrix c A (fun v => M *ᵥ v) b x).x = some y ∧ A *ᵥ y = b ∧ ∀ y', A *ᵥ y' = b → y' = y := by
  obtain ⟨j, j1, j2, j3, j4, j5⟩ := solve_seq hA hM c hz b x hb h0 c.maxIterations
  rw [withLimit_self] at j2 j3
  obtain rfl : j = Fintype.card ι := j3.symm.trans hn
  have hfin := (pcgSeq_pcg A M x (b - A *ᵥ x)).finite hA hM
  rw [pcgSeq_residual] at hfin
  have hsol := (sub_eq_zero.mp hfin).symm
  exact ⟨_, j2, hsol, fun y' hy' => hA.inj (hy'.trans hsol.symm)⟩

/-- The solution reached after exactly `n` iterations. -/
def Reached (c : CGParams K) (A M : Matrix ι ι K) (b x : ι → K) (n : ℕ) (y : ι → K) : Prop :=
  (solveMatrix (c.withLimit n) A (fun v => M *ᵥ v) b x).x = some y ∧
    (solveMatrix (c.withLimit n) A (fun v => M *ᵥ v) b x).residuals.length = n

theorem Reached.eq {A M : Matrix ι ι K} (hA : IsSPD A) (hM : IsSPD M) {c : CGParams K} (hz : 0 < c.zero) {b x : ι → K}
    (hb : c.eps ≤ ∑ i, b i ^ 2) (h0 : c.bound b ≤ residual2 A b x) {n : ℕ} {y : ι → K} (h : Reached c A M b x n y) :
    y = (pcgSeq A M x (b - A *ᵥ x) n).1 := by
  obtain ⟨j, j1, j2, j3, j4, j5⟩ := solve_seq hA hM c hz b x hb h0 n
  obtain rfl : j = n := j3.symm.trans h.2
  exact Option.some.inj (h.1.symm.trans j2)

/-- **C53** (orthogonality): the residuals after `i` and after `j` iterations are orthogonal for the inner product of
the preconditioner (for the identity: orthogonal). -/
theorem C53_orthogonal {A M : Matrix ι ι K} (hA : IsSPD A) (hM : IsSPD M) (c : CGParams K) (hz : 0 < c.zero) (b x : ι → K)
    (hb : c.eps ≤ ∑ i, b i ^ 2) (h0 : c.bound b ≤ residual2 A b x) {i j : ℕ} (hij : i ≠ j) {y z : ι → K}
    (hy : Reached c A M b x i y) (hzz : Reached c A M b x j z) : (b - A *ᵥ y) ⬝ᵥ M *ᵥ (b - A *ᵥ z) = 0 := by
  rw [hy.eq hA hM hz hb h0, hzz.eq hA hM hz hb h0, ← pcgSeq_residual, ← pcgSeq_residual]
  exact (pcgSeq_pcg A M x (b - A *ᵥ x)).orthogonal hA hM hij

/-- **C53** (conjugacy): the moves made by different iterations are conjugate. -/
theorem C53_conjugate {A M : Matrix ι ι K} (hA : IsSPD A) (hM : IsSPD M) (c : CGParams K) (hz : 0 < c.zero) (b x : ι → K)
    (hb : c.eps ≤ ∑ i, b i ^ 2) (h0 : c.bound b ≤ residual2 A b x) {i j : ℕ} (hij : i ≠ j) {y y' z z' : ι → K}
    (hy : Reached c A M b x i y) (hy' : Reached c A M b x (i + 1) y') (hzz : Reached c A M b x j z)
    (hzz' : Reached c A M b x (j + 1) z') : (y' - y) ⬝ᵥ A *ᵥ (z' - z) = 0 := by
  rw [hy.eq hA hM hz hb h0, hy'.eq hA hM hz hb h0, hzz.eq hA hM hz hb h0, hzz'.eq hA hM hz hb h0]
  simp only [pcgSeq, add_sub_cancel_left]
  have h := (pcgSeq_pcg A M x (b - A *ᵥ x)).conjugate hA hM hij
  rw [mulVec_smul, smul_dotProduct, dotProduct_smul, h, smul_zero, smul_zero]

theorem Spec.IsSPD.diag_pos [DecidableEq ι] {A : Matrix ι ι K} (hA : IsSPD A) (i : ι) : 0 < A i i := by
  have := hA.pos (Pi.single i 1) (by simp)
  simpa [Pi.single_apply] using this

/-- **C53** (preconditioners): the identity and, for every matrix without negative diagonal entries (a symmetric positive
definite one in particular), Eigen's diagonal preconditioner are symmetric positive definite. -/
theorem C53_preconditioners [DecidableEq ι] {A : Matrix ι ι K} (hA : ∀ i, 0 ≤ A i i) :
    IsSPD (1 : Matrix ι ι K) ∧ ∃ D : Matrix ι ι K, IsSPD D ∧ ∀ r, diagonalPrecond A r = D *ᵥ r := by
  have hdiag : ∀ d : ι → K, (∀ i, 0 < d i) → IsSPD (Matrix.diagonal d) := by
    intro d hd
    refine ⟨fun i j => ?_, fun v hv => ?_⟩
    · by_cases h : i = j
      · subst h; rfl
      · rw [Matrix.diagonal_apply_ne _ h, Matrix.diagonal_apply_ne _ (Ne.symm h)]
    · have hsum : ∀ i, ∑ j, Matrix.diagonal d i j * v j = d i * v i := fun i => by
        rw [Finset.sum_eq_single i]
        · rw [Matrix.diagonal_apply_eq]
        · intro j _ hj; rw [Matrix.diagonal_apply_ne _ (Ne.symm hj), zero_mul]
        · simp
      simp only [hsum]
      obtain ⟨i, hi⟩ : ∃ i, v i ≠ 0 := by
        by_contra hall
        push Not at hall
        exact hv (funext hall)
      refine Finset.sum_pos' (fun i _ => ?_) ⟨i, Finset.mem_univ i, ?_⟩
      · have := hd i
        nlinarith [mul_nonneg this.le (mul_self_nonneg (v i))]
      · have := mul_pos (hd i) (mul_self_pos.mpr hi)
        linarith [this, show v i * (d i * v i) = d i * (v i * v i) by ring]
  refine ⟨by rw [← Matrix.diagonal_one]; exact hdiag _ fun _ => zero_lt_one,
    Matrix.diagonal fun i => if A i i = 0 then 1 else 1 / A i i, ?_, ?_⟩
  · refine hdiag _ fun i => ?_
    split_ifs with h
    · exact zero_lt_one
    · exact one_div_pos.mpr (lt_of_le_of_ne (hA i) (Ne.symm h))
  · intro r
    funext i
    rw [Matrix.mulVec_diagonal]
    rfl

/-- A symmetric positive definite matrix. -/
def spdExample : Matrix (Fin 2) (Fin 2) ℚ := !![2, 1; 1, 3]

theorem spdExample_spd : IsSPD spdExample := by
  refine ⟨fun i j => by fin_cases i <;> fin_cases j <;> rfl, fun v hv => ?_⟩
  have : ∑ i, v i * ∑ j, spdExample i j * v j = 2 * v 0 ^ 2 + 2 * v 0 * v 1 + 3 * v 1 ^ 2 := by
    simp only [Fin.sum_univ_two, spdExample, Matrix.of_apply, Matrix.cons_val]; ring
  rw [this]
  by_contra hle
  push Not at hle
  have h1 : v 0 = 0 := by nlinarith [sq_nonneg (v 0 + v 1), sq_nonneg (v 0), sq_nonneg (v 1)]
  have h2 : v 1 = 0 := by nlinarith [sq_nonneg (v 0 + v 1), sq_nonneg (v 0), sq_nonneg (v 1)]
  exact hv (by funext i; fin_cases i <;> assumption)

/-- Two unknowns, two iterations: the exact solution of `2 x + y = 1, x + 3 y = 2`. -/
example : (solveMatrix ⟨25, 1 / 10 ^ 5, 1 / 10 ^ 19, 1 / 10 ^ 30⟩ spdExample id ![1, 2] ![0, 0]).converged = true ∧
    (solveMatrix ⟨25, 1 / 10 ^ 5, 1 / 10 ^ 19, 1 / 10 ^ 30⟩ spdExample id ![1, 2] ![0, 0]).residuals.length = 2 ∧
    (solveMatrix ⟨25, 1 / 10 ^ 5, 1 / 10 ^ 19, 1 / 10 ^ 30⟩ spdExample id ![1, 2] ![0, 0]).x = some ![1 / 5, 3 / 5] := by
  decide +kernel

/-- The hypotheses of the C53 theorems hold for it. -/
example : (solveMatrix ⟨25, 1 / 10 ^ 5, 1 / 10 ^ 19, 1 / 10 ^ 30⟩ spdExample (fun v => (1 : Matrix (Fin 2) (Fin 2) ℚ) *ᵥ v)
    ![1, 2] ![0, 0]).residuals.length ≤ 2 :=
  (C53_terminates spdExample_spd (C53_preconditioners fun i => (spdExample_spd.diag_pos i).le).1 ⟨25, 1 / 10 ^ 5, 1 / 10 ^ 19, 1 / 10 ^ 30⟩
    (by norm_num) ![1, 2] ![0, 0] (by decide +kernel) (by decide +kernel) (by simp)).2

end Caribou

import Verif.Lemmas.CGStatic
import Verif.Props.Quadratic
import Mathlib.Tactic.FinCases
import Mathlib.Tactic.Linarith

/-!
# C146: static solves with the conjugate gradient
-/

set_option autoImplicit false

namespace Caribou

open Spec Matrix

variable {K ι κ : Type*} [Field K] [LinearOrder K] [IsStrictOrderedRing K] [Fintype ι] [Fintype κ] [DecidableEq ι]

theorem staticRhs_at (S : StaticScene K ι κ) (w : StaticWorld K ι κ) (hy : w.y = S.map w.x) : staticRhs S w = staticRhs S ⟨w.x, S.map w.x, 0⟩ := by
  unfold staticRhs; rw [hy]

theorem staticMatrix_at (S : StaticScene K ι κ) (w : StaticWorld K ι κ) (hy : w.y = S.map w.x) : staticMatrix S w = staticMatrix S ⟨w.x, S.map w.x, 0⟩ := by
  unfold staticMatrix; rw [hy]

theorem stable_shift (S : StaticScene K ι κ) (hS : IsLinearStatic S) (x u : ι → K) (h : HeldStable S x) : HeldStable S (x + u) := by
  have e : forceChange S (x + u) = forceChange S x := by
    funext i j
    unfold forceChange
    rw [hS.stiff, hS.map, hS.mappedStiff]
  exact ⟨by rw [e]; exact h.symm, by rw [e]; exact h.opposed⟩

theorem matrix_shift (S : StaticScene K ι κ) (hS : IsLinearStatic S) (x u : ι → K) :
    staticMatrix S ⟨x + u, S.map (x + u), 0⟩ = staticMatrix S ⟨x, S.map x, 0⟩ := by
  unfold staticMatrix
  simp only
  rw [hS.stiff, hS.map, hS.mappedStiff]

/-- The increment of the previous iteration does not solve the next system, however roughly. -/
theorem guess_bad (τ : K) (h0 : 0 ≤ τ) (h1 : τ ≤ 1 / 3) (b b0 v : ι → K) (hb : b = b0 - v) (hlt : b ⬝ᵥ b ≤ τ ^ 2 * (b0 ⬝ᵥ b0)) (hpos : 0 < b0 ⬝ᵥ b0) :
    ¬(b - v) ⬝ᵥ (b - v) < τ ^ 2 * (b ⬝ᵥ b) := by
  intro h
  have hv : v = b0 - b := by rw [hb]; abel
  have e : b - v = (2 : K) • b - b0 := by rw [hv, two_smul]; abel
  rw [e] at h
  have h2 : 0 ≤ ((4 : K) • b - b0) ⬝ᵥ ((4 : K) • b - b0) := Finset.sum_nonneg fun i _ => mul_self_nonneg _
  simp only [sub_dotProduct, dotProduct_sub, smul_dotProduct, dotProduct_smul, smul_eq_mul] at h h2
  have hc := dotProduct_comm b b0
  rw [hc] at h h2
  have h3 : τ ^ 2 ≤ 1 / 9 := by nlinarith
  have h4 : 0 ≤ b ⬝ᵥ b := Finset.sum_nonneg fun i _ => mul_self_nonneg _
  have h5 : τ ^ 2 * (b0 ⬝ᵥ b0) ≤ 1 / 9 * (b0 ⬝ᵥ b0) := mul_le_mul_of_nonneg_right h3 hpos.le
  have h6 : τ ^ 2 * (b ⬝ᵥ b) ≤ 1 / 9 * (b ⬝ᵥ b) := mul_le_mul_of_nonneg_right h3 h4
  linarith

/-- What holds after `k` iterations in a linear scene. -/
def LinearRun (S : StaticScene K ι κ) (x0 : ι → K) (τ : K) (k : ℕ) (x g : ι → K) : Prop :=
  (∀ i, S.fixed i = true → x i = x0 i) ∧ g ∈ heldSpace K S.fixed ∧ HeldStable S x ∧ outOfBalance S x ≤ (τ ^ 2) ^ k * outOfBalance S x0 ∧
    (g = 0 ∨ ∃ b0, staticRhs S ⟨x, S.map x, 0⟩ = b0 - staticMatrix S ⟨x, S.map x, 0⟩ *ᵥ g ∧
      staticRhs S ⟨x, S.map x, 0⟩ ⬝ᵥ staticRhs S ⟨x, S.map x, 0⟩ ≤ τ ^ 2 * (b0 ⬝ᵥ b0) ∧ 0 < b0 ⬝ᵥ b0)

theorem linear_run_step (S : StaticScene K ι κ) (hS : IsLinearStatic S) (hJ : MapsFreeOnly S) (c : CGParams K) (h0 : 0 < c.zero) (hz : c.zero ≤ c.tolerance ^ 2 * c.eps)
    (ht0 : 0 ≤ c.tolerance) (ht : c.tolerance ≤ 1 / 3) (hn : Fintype.card ι ≤ c.maxIterations) (precond : Matrix ι ι K → (ι → K) → ι → K)
    (hp : precond = cgPlain ∨ precond = diagonalPrecond) (x0 : ι → K) (k : ℕ) (w : StaticWorld K ι κ) (g : ι → K) (hy : w.y = S.map w.x) (hI : LinearRun S x0 c.tolerance k w.x g) :
    match cgIncrement c precond (staticMatrix S w) (staticRhs S w) g with
    | none => outOfBalance S w.x < c.eps
    | some u => LinearRun S x0 c.tolerance (k + 1) (w.x + u) u := by
  obtain ⟨i1, i2, i3, i4, i5⟩ := hI
  have hs := cgIncrement_spec c h0 hz hn precond hp (staticMatrix S w) (static_spd S hJ w hy i3) S.fixed (static_held S hJ w hy) (staticRhs S w) g (static_rhs_held S w) i2
  rw [← outOfBalance_eq S w hy] at i4 ⊢
  have hbb : 0 ≤ staticRhs S w ⬝ᵥ staticRhs S w := Finset.sum_nonneg fun i _ => mul_self_nonneg _
  have h3 : c.tolerance ^ 2 ≤ 1 / 9 := by nlinarith
  have heps : 0 < c.eps := by
    by_contra hle
    have := mul_nonpos_of_nonneg_of_nonpos (sq_nonneg c.tolerance) (not_lt.1 hle)
    linarith
  revert hs
  cases cgIncrement c precond (staticMatrix S w) (staticRhs S w) g with
  | none =>
    intro hs
    rcases hs with hs | hs
    · exact hs
    · exfalso
      rcases i5 with rfl | ⟨b0, j1, j2, j3⟩
      · rw [mulVec_zero, sub_zero] at hs
        have := mul_le_mul_of_nonneg_right h3 hbb
        linarith
      · rw [← staticRhs_at S w hy] at j1 j2
        rw [← staticMatrix_at S w hy] at j1
        exact guess_bad c.tolerance ht0 ht _ b0 _ j1 j2 j3 hs
  | some u =>
    intro hs
    obtain ⟨s1, s2, s3⟩ := hs
    have hrhs := static_linear_step S hS hJ w ⟨w.x + u, S.map (w.x + u), 0⟩ hy u rfl rfl s1
    refine ⟨fun i hi => by rw [Pi.add_apply, i1 i hi, s1 i hi, add_zero], s1, stable_shift S hS _ _ i3, ?_, Or.inr ⟨staticRhs S w, ?_, ?_, heps.trans_le s3⟩⟩
    · rw [← outOfBalance_eq S ⟨w.x + u, S.map (w.x + u), 0⟩ rfl, hrhs, pow_succ, mul_comm _ (c.tolerance ^ 2), mul_assoc]
      exact s2.le.trans (mul_le_mul_of_nonneg_left i4 (sq_nonneg _))
    · rw [hrhs, matrix_shift S hS, staticMatrix_at S w hy]
    · rw [hrhs]; exact s2.le

/-- **C146, linear scenes (partial).** In a linear and stable scene, every iteration of a static solve with the conjugate gradient divides the forces out of balance at least by the
tolerance of the conjugate gradient, and fixed points stay where they are.  The solve ends by reporting convergence, by reaching its maximum number of iterations, because it has
hardly moved, or because the forces out of balance are negligible.  Missing: mapped points attached to fixed ones (`C84_violated`). -/
theorem C146_linear_partial (n : NewtonParams K) (S : StaticScene K ι κ) (hS : IsLinearStatic S) (hJ : MapsFreeOnly S) (c : CGParams K) (h0 : 0 < c.zero)
    (hz : c.zero ≤ c.tolerance ^ 2 * c.eps) (ht0 : 0 ≤ c.tolerance) (ht : c.tolerance ≤ 1 / 3) (hn : Fintype.card ι ≤ c.maxIterations)
    (precond : Matrix ι ι K → (ι → K) → ι → K) (hp : precond = cgPlain ∨ precond = diagonalPrecond) (st : NewtonState K) (x : ι → K) (hx : HeldStable S x) :
    outOfBalance S (cgStaticSolve n S c precond st x).2.x ≤ (c.tolerance ^ 2) ^ (cgStaticSolve n S c precond st x).1.residuals.length * outOfBalance S x ∧
    (∀ i, S.fixed i = true → (cgStaticSolve n S c precond st x).2.x i = x i) ∧
    ((cgStaticSolve n S c precond st x).1.converged = true ∨ (cgStaticSolve n S c precond st x).1.residuals.length = n.iterations ∨
      ((cgStaticSolve n S c precond st x).2.x - x) ⬝ᵥ ((cgStaticSolve n S c precond st x).2.x - x) < n.eps ∨ outOfBalance S (cgStaticSolve n S c precond st x).2.x < c.eps) := by
  obtain ⟨E, e1, e2, e3, hE, hend⟩ := guess_solve n S x c precond st (LinearRun S x c.tolerance) (fun y => outOfBalance S y < c.eps)
    (fun k w g hy hI => linear_run_step S hS hJ c h0 hz ht0 ht hn precond hp x k w g hy hI)
    ⟨fun _ _ => rfl, (heldSpace K S.fixed).zero_mem, hx, by simp, Or.inl rfl⟩
  rw [e1, e2, e3, ← hE.U]
  obtain ⟨i1, -, -, i4, -⟩ := hE.inv
  refine ⟨i4, i1, ?_⟩
  rcases hend with t | t | t
  · exact Or.inl t
  · rcases hE.div t with t | t
    · exact Or.inr (Or.inr (Or.inl t))
    · exact Or.inr (Or.inr (Or.inr t))
  · exact Or.inr (Or.inl t)

/-- **C146, the report in linear scenes (partial).** When the absolute threshold of the Newton solver is not below the one under which the conjugate gradient refuses a right-hand side,
and there are enough iterations, the solve reports convergence.  Missing: solves which hardly move (`C126_violated`), lower thresholds (`C146_violated`). -/
theorem C146_reported_partial (n : NewtonParams K) (S : StaticScene K ι κ) (hS : IsLinearStatic S) (hJ : MapsFreeOnly S) (c : CGParams K) (h0 : 0 < c.zero)
    (hz : c.zero ≤ c.tolerance ^ 2 * c.eps) (ht0 : 0 ≤ c.tolerance) (ht : c.tolerance ≤ 1 / 3) (hn : Fintype.card ι ≤ c.maxIterations)
    (precond : Matrix ι ι K → (ι → K) → ι → K) (hp : precond = cgPlain ∨ precond = diagonalPrecond) (st : NewtonState K) (x : ι → K) (hx : HeldStable S x)
    (ha : 0 < n.absolute) (hae : c.eps ≤ n.absolute ^ 2) (h2 : 2 ≤ n.iterations) (hN : (c.tolerance ^ 2) ^ n.iterations * outOfBalance S x < n.absolute ^ 2) :
    (cgStaticSolve n S c precond st x).1.converged = true ∨
      ((cgStaticSolve n S c precond st x).2.x - x) ⬝ᵥ ((cgStaticSolve n S c precond st x).2.x - x) < n.eps := by
  obtain ⟨E, e1, e2, e3, hE, hend⟩ := guess_solve n S x c precond st (LinearRun S x c.tolerance) (fun y => outOfBalance S y < c.eps)
    (fun k w g hy hI => linear_run_step S hS hJ c h0 hz ht0 ht hn precond hp x k w g hy hI)
    ⟨fun _ _ => rfl, (heldSpace K S.fixed).zero_mem, hx, by simp, Or.inl rfl⟩
  rw [e1, e3, ← hE.U]
  obtain ⟨-, -, -, i4, -⟩ := hE.inv
  by_contra hno
  rw [not_or] at hno
  have hconv : E.converged = false := by simpa using hno.1
  rcases hend with t | t | t
  · exact hno.1 t
  · rcases hE.div t with h | h
    · exact hno.2 h
    · have := hE.failed t (not_lt.1 hno.2) (Or.inl (by omega)) ha
      rw [outOfBalance_eq S _ hE.y, ← sq] at this
      linarith
  · by_cases hd : E.diverged = true
    · rcases hE.div hd with h | h
      · exact hno.2 h
      · have := hE.failed hd (not_lt.1 hno.2) (Or.inl (by omega)) ha
        rw [outOfBalance_eq S _ hE.y, ← sq] at this
        linarith
    · have := hE.absolute (by simpa using hd) hconv (Or.inl (by omega)) ha
      rw [outOfBalance_eq S _ hE.y, ← sq] at this
      rw [t] at i4
      linarith

/-! ### Near an equilibrium of any scene -/

omit [DecidableEq ι] in
/-- A bound between squared norms as a bound between largest entries. -/
theorem residual_norm (τ : ℝ) (h0 : 0 ≤ τ) (a b : ι → ℝ) (h : a ⬝ᵥ a < τ ^ 2 * (b ⬝ᵥ b)) : ‖a‖ ≤ τ * (Fintype.card ι + 1) * ‖b‖ := by
  have hc : (0 : ℝ) ≤ Fintype.card ι := Nat.cast_nonneg _
  have h1 := sq_norm_le_dot a
  have h2 := dot_le_card b _ le_rfl
  have h3 : ‖a‖ ^ 2 ≤ (τ * (Fintype.card ι + 1) * ‖b‖) ^ 2 := by
    have h4 : (Fintype.card ι : ℝ) ≤ (Fintype.card ι + 1) ^ 2 := by nlinarith
    have h5 : τ ^ 2 * (b ⬝ᵥ b) ≤ τ ^ 2 * ((Fintype.card ι + 1) ^ 2 * ‖b‖ ^ 2) :=
      mul_le_mul_of_nonneg_left (h2.trans (mul_le_mul_of_nonneg_right h4 (sq_nonneg _))) (sq_nonneg _)
    nlinarith
  exact abs_le_of_sq_le_sq' h3 (by positivity) |>.2

/-- What holds after `k` iterations near an equilibrium. -/
def NearRun (S : StaticScene ℝ ι κ) (z x0 : ι → ℝ) (θ : ℝ) (k : ℕ) (x g : ι → ℝ) : Prop :=
  (∀ i, S.fixed i = true → x i = z i) ∧ g ∈ heldSpace ℝ S.fixed ∧ ‖x - z‖ ≤ ‖x0 - z‖ / 4 ^ k ∧ (g = 0 ∨ (‖x - z‖ ≤ θ * ‖x - g - z‖ ∧ 0 < ‖x - g - z‖))

theorem near_run_step (S : StaticScene ℝ ι κ) (hJ : MapsFreeOnly S) (z : ι → ℝ) (C r G θ δ : ℝ) (hN : NewtonNear S z C r G) (hθ : θ = 1 / (4 * (C * G + 1)))
    (hδ : δ = θ / (2 * (C * G + 1))) (c : CGParams ℝ) (h0 : 0 < c.zero) (hz : c.zero ≤ c.tolerance ^ 2 * c.eps) (ht0 : 0 ≤ c.tolerance)
    (ht : c.tolerance * (Fintype.card ι + 1) ≤ δ) (hn : Fintype.card ι ≤ c.maxIterations) (precond : Matrix ι ι ℝ → (ι → ℝ) → ι → ℝ)
    (hp : precond = cgPlain ∨ precond = diagonalPrecond) (x0 : ι → ℝ) (hx0 : ‖x0 - z‖ ≤ r) (hx0' : C * ‖x0 - z‖ ≤ θ / 2) (hst : ∀ x, ‖x - z‖ ≤ ‖x0 - z‖ → HeldStable S x)
    (k : ℕ) (w : StaticWorld ℝ ι κ) (g : ι → ℝ) (hy : w.y = S.map w.x) (hI : NearRun S z x0 θ k w.x g) :
    match cgIncrement c precond (staticMatrix S w) (staticRhs S w) g with
    | none => outOfBalance S w.x < c.eps
    | some u => NearRun S z x0 θ (k + 1) (w.x + u) u := by
  obtain ⟨i1, i2, i3, i4⟩ := hI
  have hle : ‖w.x - z‖ ≤ ‖x0 - z‖ := i3.trans (div_le_self (norm_nonneg _) (one_le_pow₀ (by norm_num)))
  have hwr := hle.trans hx0
  have hC := hN.C0
  have hG := hN.G0
  have hCG : 0 ≤ C * G := by positivity
  have hθ0 : 0 < θ := by rw [hθ]; positivity
  have hθ1 : θ * (4 * (C * G + 1)) = 1 := by rw [hθ]; field_simp
  have hδ1 : δ * (2 * (C * G + 1)) = θ := by rw [hδ]; field_simp
  have hδ0 : 0 < δ := by rw [hδ]; positivity
  have hθ4 : θ ≤ 1 / 4 := by nlinarith
  have hδ2 : δ ≤ 1 / 8 := by nlinarith
  have htol : c.tolerance ≤ 1 / 8 := by
    have : (0 : ℝ) ≤ Fintype.card ι := Nat.cast_nonneg _
    nlinarith
  have hs := cgIncrement_spec c h0 hz hn precond hp (staticMatrix S w) (static_spd S hJ w hy (hst _ hle)) S.fixed (static_held S hJ w hy) (staticRhs S w) g (static_rhs_held S w) i2
  rw [← outOfBalance_eq S w hy]
  have hbb : 0 ≤ staticRhs S w ⬝ᵥ staticRhs S w := Finset.sum_nonneg fun i _ => mul_self_nonneg _
  have heps : 0 < c.eps := by
    by_contra hle
    have := mul_nonpos_of_nonneg_of_nonpos (sq_nonneg c.tolerance) (not_lt.1 hle)
    linarith
  have hforce := hN.force w hy hwr
  revert hs
  cases cgIncrement c precond (staticMatrix S w) (staticRhs S w) g with
  | none =>
    intro hs
    rcases hs with hs | hs
    · exact hs
    · exfalso
      rcases i4 with rfl | ⟨j1, j2⟩
      · rw [mulVec_zero, sub_zero] at hs
        have h3 : c.tolerance ^ 2 ≤ 1 := by nlinarith
        have := mul_le_mul_of_nonneg_right h3 hbb
        linarith
      · have h1 := (residual_norm _ ht0 _ _ hs).trans (mul_le_mul_of_nonneg_right ht (norm_nonneg _))
        have h2 : ‖staticMatrix S w *ᵥ g‖ ≤ 2 * (G * ‖w.x - z‖) := by
          have e : staticMatrix S w *ᵥ g = staticRhs S w - (staticRhs S w - staticMatrix S w *ᵥ g) := by abel
          rw [e]
          have h3 := norm_sub_le (staticRhs S w) (staticRhs S w - staticMatrix S w *ᵥ g)
          have h4 : δ * ‖staticRhs S w‖ ≤ 1 * ‖staticRhs S w‖ := mul_le_mul_of_nonneg_right (by linarith) (norm_nonneg _)
          linarith
        have h3 : ‖g‖ ≤ C * (2 * (G * ‖w.x - z‖)) := (hN.inverse w hy hwr g).trans (mul_le_mul_of_nonneg_left h2 hC.le)
        have h4 : ‖w.x - g - z‖ ≤ ‖w.x - z‖ + ‖g‖ := by
          have e : w.x - g - z = (w.x - z) - g := by abel
          rw [e]
          exact norm_sub_le _ _
        have h5 : ‖w.x - g - z‖ ≤ (1 + 2 * (C * G)) * ‖w.x - z‖ := by linarith
        have h6 : (1 + 2 * (C * G)) * ‖w.x - z‖ ≤ (1 + 2 * (C * G)) * (θ * ‖w.x - g - z‖) := mul_le_mul_of_nonneg_left j1 (by positivity)
        have h7 : (1 + 2 * (C * G)) * θ ≤ 1 / 2 := by nlinarith
        have h8 := mul_le_mul_of_nonneg_right h7 j2.le
        linarith
  | some u =>
    intro hs
    obtain ⟨s1, s2, s3⟩ := hs
    have h1 := (residual_norm _ ht0 _ _ s2).trans (mul_le_mul_of_nonneg_right ht (norm_nonneg _))
    have hunit := hN.unit w hy hwr
    obtain ⟨v, hv⟩ : ∃ v, staticMatrix S w *ᵥ v = staticRhs S w :=
      ⟨(staticMatrix S w)⁻¹ *ᵥ staticRhs S w, by
        rw [mulVec_mulVec, Matrix.mul_nonsing_inv _ ((isUnit_iff_isUnit_det _).1 hunit), one_mulVec]⟩
    have h2 := hN.step w hy hwr i1 v hv
    have h3 := hN.inverse w hy hwr (u - v)
    rw [mulVec_sub, hv, norm_sub_rev (staticMatrix S w *ᵥ u)] at h3
    have h4 : ‖u - v‖ ≤ C * (δ * (G * ‖w.x - z‖)) :=
      h3.trans (mul_le_mul_of_nonneg_left (h1.trans (mul_le_mul_of_nonneg_left hforce hδ0.le)) hC.le)
    have h5 : ‖w.x + u - z‖ ≤ ‖w.x + v - z‖ + ‖u - v‖ := by
      have e : w.x + u - z = (w.x + v - z) + (u - v) := by abel
      rw [e]
      exact norm_add_le _ _
    have h6 : C * δ * G ≤ θ / 2 := by nlinarith
    have h7 : C * ‖w.x - z‖ ≤ θ / 2 := (mul_le_mul_of_nonneg_left hle hC.le).trans hx0'
    have h8 : ‖w.x + u - z‖ ≤ θ * ‖w.x - z‖ := by
      have := mul_le_mul_of_nonneg_right h6 (norm_nonneg (w.x - z))
      have := mul_le_mul_of_nonneg_right h7 (norm_nonneg (w.x - z))
      nlinarith
    have hpos : 0 < ‖w.x - z‖ := by
      by_contra hno
      have h9 : ‖w.x - z‖ = 0 := le_antisymm (not_lt.1 hno) (norm_nonneg _)
      rw [h9, mul_zero] at hforce
      have h10 := norm_le_zero_iff.1 hforce
      rw [h10, dotProduct_zero] at s3
      linarith
    refine ⟨fun i hi => by rw [Pi.add_apply, i1 i hi, s1 i hi, add_zero], s1, ?_, Or.inr ?_⟩
    · have := mul_le_mul_of_nonneg_right hθ4 (norm_nonneg (w.x - z))
      rw [pow_succ, ← div_div]
      linarith
    · have e : w.x + u - u - z = w.x - z := by abel
      rw [e]
      exact ⟨h8, hpos⟩

/-- **C146, near an equilibrium (partial).** Near a stable equilibrium, whatever the forces are, a static solve whose conjugate gradient has a small enough tolerance divides the distance to
the equilibrium at least by four in every iteration; it ends by reporting convergence, by reaching its maximum number of iterations, because it has hardly moved, or because the forces
out of balance are negligible.  Missing: mapped points attached to fixed ones (`C84_violated`). -/
theorem C146_near_partial (S : StaticScene ℝ ι κ) (hJ : MapsFreeOnly S) (z : ι → ℝ) (ρ l : ℝ) (hρ : 0 < ρ) (hl : 0 ≤ l) (hz : RegularEquilibrium S z ρ l)
    (hst : ∀ x, ‖x - z‖ ≤ ρ → HeldStable S x) :
    ∃ τ r : ℝ, 0 < τ ∧ 0 < r ∧ ∀ (n : NewtonParams ℝ) (c : CGParams ℝ), 0 < c.zero → c.zero ≤ c.tolerance ^ 2 * c.eps → 0 ≤ c.tolerance → c.tolerance ≤ τ →
      Fintype.card ι ≤ c.maxIterations → ∀ precond : Matrix ι ι ℝ → (ι → ℝ) → ι → ℝ, precond = cgPlain ∨ precond = diagonalPrecond →
      ∀ (st : NewtonState ℝ) (x : ι → ℝ), ‖x - z‖ ≤ r → (∀ i, S.fixed i = true → x i = z i) →
      ‖(cgStaticSolve n S c precond st x).2.x - z‖ ≤ ‖x - z‖ / 4 ^ (cgStaticSolve n S c precond st x).1.residuals.length ∧
      (∀ i, S.fixed i = true → (cgStaticSolve n S c precond st x).2.x i = x i) ∧
      ((cgStaticSolve n S c precond st x).1.converged = true ∨ (cgStaticSolve n S c precond st x).1.residuals.length = n.iterations ∨
        ((cgStaticSolve n S c precond st x).2.x - x) ⬝ᵥ ((cgStaticSolve n S c precond st x).2.x - x) < n.eps ∨ outOfBalance S (cgStaticSolve n S c precond st x).2.x < c.eps) := by
  obtain ⟨C, r, G, hN⟩ := newtonNear_exists S hJ z ρ l hρ hl hz
  have hC := hN.C0
  have hG := hN.G0
  have hr := hN.r0
  have hc : (0 : ℝ) < Fintype.card ι + 1 := by positivity
  obtain ⟨θ, hθ⟩ : ∃ θ, θ = 1 / (4 * (C * G + 1)) := ⟨_, rfl⟩
  obtain ⟨δ, hδ⟩ : ∃ δ, δ = θ / (2 * (C * G + 1)) := ⟨_, rfl⟩
  have hθ0 : 0 < θ := by rw [hθ]; positivity
  have hδ0 : 0 < δ := by rw [hδ]; positivity
  refine ⟨δ / (Fintype.card ι + 1), min (min r ρ) (θ / 2 / C), by positivity, by positivity, ?_⟩
  intro n c h0 hz' ht0 ht hn precond hp st x hxr hxf
  have hx1 : ‖x - z‖ ≤ r := hxr.trans ((min_le_left _ _).trans (min_le_left _ _))
  have hx2 : ‖x - z‖ ≤ ρ := hxr.trans ((min_le_left _ _).trans (min_le_right _ _))
  have hx3 : C * ‖x - z‖ ≤ θ / 2 := by
    have := hxr.trans (min_le_right _ _)
    rw [le_div_iff₀ hC] at this
    linarith
  rw [le_div_iff₀ hc] at ht
  obtain ⟨E, e1, e2, e3, hE, hend⟩ := guess_solve n S x c precond st (NearRun S z x θ) (fun y => outOfBalance S y < c.eps)
    (fun k w g hy hI => by
      have := near_run_step S hJ z C r G θ δ hN hθ hδ c h0 hz' ht0 ht hn precond hp x hx1 hx3 (fun y hy => hst y (hy.trans hx2)) k w g hy hI
      revert this
      cases cgIncrement c precond (staticMatrix S w) (staticRhs S w) g <;> exact id)
    ⟨hxf, (heldSpace ℝ S.fixed).zero_mem, by simp, Or.inl rfl⟩
  rw [e1, e2, e3, ← hE.U]
  obtain ⟨i1, -, i3, -⟩ := hE.inv
  refine ⟨i3, fun i hi => by rw [i1 i hi, hxf i hi], ?_⟩
  rcases hend with t | t | t
  · exact Or.inl t
  · rcases hE.div t with t | t
    · exact Or.inr (Or.inr (Or.inl t))
    · exact Or.inr (Or.inr (Or.inr t))
  · exact Or.inr (Or.inl t)

/-! ### What is reported -/

theorem tiny_matrix (d : ℝ) (w : StaticWorld ℝ (Fin 1) (Fin 0)) : staticMatrix (tinySpring d) w = 1 := by
  ext i j
  fin_cases i; fin_cases j
  simp [staticMatrix, constrainMatrix, tinySpring, Matrix.mul_apply]

theorem tiny_rhs (d a : ℝ) (w : StaticWorld ℝ (Fin 1) (Fin 0)) (h : w.x = ![a]) : staticRhs (tinySpring d) w = ![d - a] := by
  funext i
  fin_cases i
  simp [staticRhs, projectResponse, tinySpring, mulVec, dotProduct, h]

theorem tiny_solve (d : ℝ) (hd : 0 < d) (c : CGParams ℝ) (he : c.eps ≤ d * d) (hz0 : 0 < c.zero) (hz : c.zero ≤ d * d) (ht0 : 0 ≤ c.tolerance) (ht : c.tolerance ≤ 1)
    (hm : 1 ≤ c.maxIterations) : cgIncrement c cgPlain (1 : Matrix (Fin 1) (Fin 1) ℝ) ![d] 0 = some ![d] := by
  obtain ⟨m, hm⟩ : ∃ m, c.maxIterations = m + 1 := ⟨c.maxIterations - 1, by omega⟩
  have e : (![d] : Fin 1 → ℝ) ⬝ᵥ ![d] = d * d := by simp [dotProduct]
  have hmax : ¬d * d < max (c.tolerance * c.tolerance * (d * d)) c.zero := by
    rw [not_lt, max_le_iff]
    refine ⟨?_, hz⟩
    have : c.tolerance * c.tolerance ≤ 1 := by nlinarith
    nlinarith [mul_pos hd hd]
  have hdd : d * d ≠ 0 := by positivity
  have hpos : 0 < max (c.tolerance * c.tolerance * (d * d)) c.zero := lt_max_of_lt_right hz0
  unfold cgIncrement cgSolve
  simp only [e, not_lt.2 he, if_false, one_mulVec, sub_zero, hmax, cgPlain, hm, cgLoop, Bool.false_eq_true, hdd, div_self hdd, one_smul, sub_self, zero_add, zero_dotProduct, hpos,
    if_true]
  rw [cgLoop_converged _ _ _ _ _ rfl]
  simp

/-- The first iteration solves the system of the spring exactly and does not notice. -/
theorem tiny_first (d : ℝ) (hd : 0 < d) (n : NewtonParams ℝ) (hn : 2 ≤ n.iterations) (hne : n.eps ≤ d * d) (hca : n.absolute ≤ 0) (hcc : n.correction * n.correction ≤ 1)
    (solver : Matrix (Fin 1) (Fin 1) ℝ → (Fin 1 → ℝ) → (Fin 1 → ℝ) → Option (Fin 1 → ℝ)) (hsol : solver 1 ![d] 0 = some ![d])
    (s : NewtonLoop (StaticWorld ℝ (Fin 1) (Fin 0) × (Fin 1 → ℝ)) (Fin 1 → ℝ) ℝ) (a1 : s.world.1.x = ![0]) (a1' : s.world.2 = 0) (a2 : s.F = ![d]) (a3 : s.U = 0) (a4 : s.R2.isNone = false)
    (a5 : s.converged = false) (a6 : s.diverged = false) (a7 : s.residuals = []) :
    let r := newtonIteration n (guessEnv (tinySpring d) solver) s
    r.world.1.x = ![d] ∧ r.F = ![0] ∧ r.converged = false ∧ r.diverged = false ∧ r.residuals.length = 1 := by
  have hs := guess_success n (tinySpring d) solver s a6 a5 a4 ![d] (by rw [tiny_matrix, a2, a1']; exact hsol)
  intro r
  obtain ⟨k1, k2, k3, k4, k5, k6, k7, k8, k9⟩ := hs
  have hx : r.world.1.x = ![d] := by
    show (newtonIteration n (guessEnv (tinySpring d) solver) s).world.1.x = _
    rw [k1, a1]; simp
  have hF : r.F = ![0] := by
    rw [(k9 (by omega)).1, tiny_rhs d d _ hx]; simp
  have hdv : r.diverged = false := by
    by_contra h
    have := k7.1 (by simpa using h)
    rw [a3, zero_add] at this
    simp [dotProduct] at this
    linarith
  refine ⟨hx, hF, ?_, hdv, by rw [k5, a7]; rfl⟩
  have ha : ∃ t : NewtonLoop (StaticWorld ℝ (Fin 1) (Fin 0) × (Fin 1 → ℝ)) (Fin 1 → ℝ) ℝ, newtonAssemble n (guessEnv (tinySpring d) solver) s = t ∧
      t.world = ({ s.world.1 with A := staticMatrix (tinySpring d) s.world.1 }, s.world.2) ∧ t.F = s.F ∧ t.U = s.U ∧ t.residuals = s.residuals ∧ t.converged = false ∧
      t.diverged = false := by
    refine ⟨_, rfl, ?_⟩
    unfold newtonAssemble
    simp only
    split_ifs <;> first | exact ⟨rfl, rfl, rfl, rfl, a5, rfl⟩ | exact ⟨rfl, rfl, rfl, rfl, a5, a6⟩
  obtain ⟨t, ht, hw, htF, hU, hres, htc, htd⟩ := ha
  have hr : r = newtonCorrect n (guessEnv (tinySpring d) solver) t := by
    show newtonIteration n (guessEnv (tinySpring d) solver) s = _
    unfold newtonIteration
    simp only [ht, htd, Bool.false_eq_true, if_false]
  have e : (guessEnv (tinySpring d) solver).solve ((guessEnv (tinySpring d) solver).factorize t.world).1 t.F = ((t.world.1, ![d]), some ![d]) := by
    simp only [guessEnv, hw, htF, a2, tiny_matrix, a1', hsol]
  have hf : ((guessEnv (tinySpring d) solver).factorize t.world).2 = true := rfl
  have hrhs : staticRhs (tinySpring d) (staticPropagate (tinySpring d) t.world.1 ![d]) = ![0] := by
    rw [tiny_rhs d d _ (by rw [hw]; simp [staticPropagate, a1])]; simp
  rw [hr]
  simp only [newtonCorrect, hf, if_true, e, if_pos (show 1 < n.iterations by omega)]
  have e2 : (guessEnv (tinySpring d) solver).rhs ((guessEnv (tinySpring d) solver).propagate (t.world.1, ![d]) ![d]) = ((staticPropagate (tinySpring d) t.world.1 ![d], ![d]), ![0]) := by
    show ((staticPropagate (tinySpring d) t.world.1 ![d], ![d]), staticRhs (tinySpring d) (staticPropagate (tinySpring d) t.world.1 ![d])) = _
    rw [hrhs]
  rw [e2]
  unfold newtonCheck
  simp only [guessEnv, hU, a3, hres, a7, Option.isNone_some, ltNan, mulNan, Option.map_some, List.nil_append, List.head?_cons, Option.join_some, zero_add]
  have e3 : (![d] : Fin 1 → ℝ) ⬝ᵥ ![d] = d * d := by simp [dotProduct]
  have e4 : (![0] : Fin 1 → ℝ) ⬝ᵥ ![0] = 0 := by simp [dotProduct]
  simp only [e3, e4, mul_zero, lt_irrefl, decide_false, Bool.and_false, Bool.false_or, decide_eq_true_eq, Bool.and_eq_true, Bool.false_eq_true, if_false, not_lt.2 hca, false_and]
  have h1 : ¬d * d < n.correction * n.correction * (d * d) := by
    rw [not_lt]
    nlinarith [mul_pos hd hd]
  split_ifs with c1 c2
  · exact htc
  · exact absurd c2.2 h1
  · exact htc

/-- **C146, negation**: a spring is brought to its exact equilibrium by the first iteration; without absolute threshold, the next iteration asks the conjugate gradient for a zero increment, it
reports a failure, and so does the solve, whatever the other thresholds and the number of iterations are. -/
theorem C146_violated (d : ℝ) (hd : 0 < d) (n : NewtonParams ℝ) (hn : 2 ≤ n.iterations) (hne : n.eps ≤ d * d) (hca : n.absolute ≤ 0) (hcc : n.correction * n.correction ≤ 1)
    (c : CGParams ℝ) (he0 : 0 < c.eps) (he : c.eps ≤ d * d) (hz0 : 0 < c.zero) (hz : c.zero ≤ d * d) (ht0 : 0 ≤ c.tolerance) (ht : c.tolerance ≤ 1) (hm : 1 ≤ c.maxIterations)
    (st : NewtonState ℝ) :
    InEquilibrium (tinySpring d) (cgStaticSolve n (tinySpring d) c cgPlain st ![0]).2.x ∧ (cgStaticSolve n (tinySpring d) c cgPlain st ![0]).1.converged = false := by
  obtain ⟨k, hk⟩ : ∃ k, n.iterations = k + 1 + 1 := ⟨n.iterations - 2, by omega⟩
  have hF : staticRhs (tinySpring d) ⟨![0], (tinySpring d).map ![0], 0⟩ = ![d] := by
    rw [tiny_rhs d 0 _ rfl, sub_zero]
  unfold cgStaticSolve newtonSolve
  simp only [Bool.not_true, Bool.false_eq_true, if_false, hk]
  have key : ∀ s : NewtonLoop (StaticWorld ℝ (Fin 1) (Fin 0) × (Fin 1 → ℝ)) (Fin 1 → ℝ) ℝ, s.world.1.x = ![0] → s.world.2 = 0 → s.F = ![d] → s.U = 0 → s.R2.isNone = false →
      s.converged = false → s.diverged = false → s.residuals = [] →
      InEquilibrium (tinySpring d) (newtonLoop n (guessEnv (tinySpring d) (cgIncrement c cgPlain)) (k + 1 + 1) s).world.1.x ∧
      (newtonLoop n (guessEnv (tinySpring d) (cgIncrement c cgPlain)) (k + 1 + 1) s).converged = false := by
    intro s a1 a1' a2 a3 a4 a5 a6 a7
    obtain ⟨f1, f2, f3, f4, -⟩ := tiny_first d hd n hn hne hca hcc (cgIncrement c cgPlain) (tiny_solve d hd c he hz0 hz ht0 ht hm) s a1 a1' a2 a3 a4 a5 a6 a7
    rw [newtonLoop, a5]
    simp only [Bool.false_eq_true, if_false, f4]
    rw [newtonLoop, f3]
    simp only [Bool.false_eq_true, if_false]
    obtain ⟨g1, -, -, -, -, g6, g7⟩ := guess_failure n (tinySpring d) (cgIncrement c cgPlain) _ f4 f3 (by
      rw [f2]
      unfold cgIncrement cgSolve
      simp [dotProduct, he0])
    simp only [g6, if_true]
    refine ⟨?_, g7⟩
    rw [g1, f1]
    intro i _
    fin_cases i
    simp [tinySpring]
  refine key _ rfl rfl hF rfl rfl ?_ rfl rfl
  simp [not_lt.2 hca]

/-- The default values of both components, except for the absolute threshold which is disabled as documented. -/
example (st : NewtonState ℝ) : (cgStaticSolve ⟨10, 1 / 10 ^ 5, 1 / 10 ^ 5, -1, 1 / 10 ^ 19, .beginningOfTimeStep⟩ (tinySpring 2) ⟨25, 1 / 10 ^ 5, 1 / 10 ^ 19, 1 / 10 ^ 307⟩ cgPlain st
    ![0]).1.converged = false :=
  (C146_violated 2 (by norm_num) _ (by norm_num) (by norm_num) (by norm_num) (by norm_num) _ (by norm_num) (by norm_num) (by positivity)
    (((div_le_one (by positivity)).2 (one_le_pow₀ (by norm_num))).trans (by norm_num)) (by norm_num) (by norm_num) (by norm_num) st).2

/-- Three degrees of freedom, one of them fixed, between linear springs. -/
def heldThree : StaticScene ℝ (Fin 3) (Fin 0) :=
  ⟨fun x => ![1, 2, 3] + !![-2, 1, 1; 1, -2, 1; 1, 1, -5] *ᵥ x, fun _ => !![-2, 1, 1; 1, -2, 1; 1, 1, -5], fun _ => ![], 0, fun _ => 0, fun _ => 0, fun i => i = 2⟩

theorem heldThree_linear : IsLinearStatic heldThree where
  force := fun x u => by simp only [heldThree, mulVec_add]; abel
  map := fun x u => by funext k; exact k.elim0
  mappedForce := fun y u => by funext k; exact k.elim0
  stiff := fun _ _ => rfl
  mappedStiff := fun _ _ => rfl

theorem heldThree_stable (x : Fin 3 → ℝ) : HeldStable heldThree x := by
  have e : forceChange heldThree x = !![-2, 1, 1; 1, -2, 1; 1, 1, -5] := by
    funext i j
    simp [forceChange, heldThree]
  refine ⟨fun i j _ _ => ?_, fun u hu hne => ?_⟩
  · rw [e]
    fin_cases i <;> fin_cases j <;> rfl
  · have h2 : u 2 = 0 := hu 2 (by simp [heldThree])
    rw [e]
    simp only [Fin.sum_univ_three, h2]
    simp
    have : 0 < (u 0) ^ 2 + (u 1) ^ 2 := by
      by_contra hle
      have h0 : u 0 = 0 := by nlinarith [sq_nonneg (u 0), sq_nonneg (u 1)]
      have h1 : u 1 = 0 := by nlinarith [sq_nonneg (u 0), sq_nonneg (u 1)]
      refine hne (funext fun i => ?_)
      fin_cases i
      · exact h0
      · exact h1
      · exact h2
    nlinarith [sq_nonneg (u 0 - u 1)]

/-- With a tolerance of one tenth and twenty iterations, the springs come to rest up to an absolute threshold of one billionth. -/
example (st : NewtonState ℝ) :
    (cgStaticSolve ⟨20, 0, 0, 1 / 10 ^ 9, 1 / 10 ^ 19, .never⟩ heldThree ⟨25, 1 / 10, 1 / 10 ^ 19, 1 / 10 ^ 200⟩ diagonalPrecond st ![0, 0, 0]).1.converged = true ∨
      ((cgStaticSolve ⟨20, 0, 0, 1 / 10 ^ 9, 1 / 10 ^ 19, .never⟩ heldThree ⟨25, 1 / 10, 1 / 10 ^ 19, 1 / 10 ^ 200⟩ diagonalPrecond st ![0, 0, 0]).2.x - ![0, 0, 0]) ⬝ᵥ
        ((cgStaticSolve ⟨20, 0, 0, 1 / 10 ^ 9, 1 / 10 ^ 19, .never⟩ heldThree ⟨25, 1 / 10, 1 / 10 ^ 19, 1 / 10 ^ 200⟩ diagonalPrecond st ![0, 0, 0]).2.x - ![0, 0, 0]) < 1 / 10 ^ 19 := by
  refine C146_reported_partial _ heldThree heldThree_linear (fun k => k.elim0) _ (by norm_num) (by norm_num) (by norm_num) (by norm_num) (by simp) _ (Or.inr rfl) st _ (heldThree_stable _)
    (by norm_num) (by norm_num) (by norm_num) ?_
  have e : outOfBalance heldThree ![0, 0, 0] = 5 := by
    simp [outOfBalance, heldThree, Fin.sum_univ_three, mulVec, dotProduct]
    norm_num
  rw [e]
  norm_num

/-- The hypotheses of the linear theorem. -/
example (st : NewtonState ℝ) : outOfBalance heldThree (cgStaticSolve ⟨20, 0, 0, 0, 1 / 10 ^ 19, .never⟩ heldThree ⟨3, 1 / 10 ^ 5, 1 / 10 ^ 19, 1 / 10 ^ 200⟩ cgPlain st ![0, 0, 0]).2.x ≤
    ((1 / 10 ^ 5) ^ 2) ^ (cgStaticSolve ⟨20, 0, 0, 0, 1 / 10 ^ 19, .never⟩ heldThree ⟨3, 1 / 10 ^ 5, 1 / 10 ^ 19, 1 / 10 ^ 200⟩ cgPlain st ![0, 0, 0]).1.residuals.length *
      outOfBalance heldThree ![0, 0, 0] :=
  (C146_linear_partial _ heldThree heldThree_linear (fun k => k.elim0) _ (by norm_num) (by norm_num) (by norm_num) (by norm_num) (by simp) _ (Or.inl rfl) st _ (heldThree_stable _)).1

/-- The stiffening spring near its equilibrium. -/
example : ∃ τ r : ℝ, 0 < τ ∧ 0 < r ∧ ∀ (n : NewtonParams ℝ) (c : CGParams ℝ), 0 < c.zero → c.zero ≤ c.tolerance ^ 2 * c.eps → 0 ≤ c.tolerance → c.tolerance ≤ τ →
    2 ≤ c.maxIterations → ∀ (st : NewtonState ℝ) (x : Fin 2 → ℝ), ‖x - ![1, 0]‖ ≤ r → x 1 = 0 →
    ‖(cgStaticSolve n stiffeningSpring c cgPlain st x).2.x - ![1, 0]‖ ≤ ‖x - ![1, 0]‖ / 4 ^ (cgStaticSolve n stiffeningSpring c cgPlain st x).1.residuals.length := by
  obtain ⟨ρ, l, hρ, hl, hreg⟩ := stiffeningSpring_regular
  obtain ⟨τ, r, hτ, hr, h⟩ := C146_near_partial stiffeningSpring (fun k => k.elim0) _ ρ l hρ hl hreg fun x _ => by
    have e : ∀ i j, forceChange stiffeningSpring x i j = !![-1 - 3 * x 0 ^ 2, 1; 0, 0] i j := by
      intro i j
      simp [forceChange, stiffeningSpring]
    refine ⟨fun i j hi hj => ?_, fun u hu hne => ?_⟩
    · fin_cases i <;> fin_cases j <;> simp [stiffeningSpring] at hi hj ⊢
    · have h1 : u 1 = 0 := hu 1 (by simp [stiffeningSpring])
      have h0 : u 0 ≠ 0 := by
        intro h0
        refine hne (funext fun i => ?_)
        fin_cases i
        · exact h0
        · exact h1
      simp only [e, Fin.sum_univ_two, h1]
      simp
      have : 0 < u 0 ^ 2 := by positivity
      nlinarith [mul_nonneg (sq_nonneg (x 0)) this.le]
  refine ⟨τ, r, hτ, hr, fun n c a b d e f st x hx hx1 => (h n c a b d e (by simpa using f) cgPlain (Or.inl rfl) st x hx fun i hi => ?_).1⟩
  fin_cases i
  · simp [stiffeningSpring] at hi
  · simpa using hx1

end Caribou

import Verif.Lemmas.CGDynamic
import Verif.Props.CGStatic

/-!
# C149: time steps with the conjugate gradient
-/

set_option autoImplicit false
set_option linter.all false

namespace Caribou

open Spec Matrix

variable {K ι κ : Type*} [Field K] [LinearOrder K] [IsStrictOrderedRing K] [Fintype ι] [Fintype κ] [DecidableEq ι]

theorem moves_shift_stable (p : BEParams K) (S : DynScene K ι κ) (hS : IsLinearDynamic S) (x u : ι → K) (h : MovesStably p S x) : MovesStably p S (x + u) :=
  ⟨h.step, h.rayleighMass, h.rayleighStiffness, h.mass_symm, h.damping_symm, by rw [moves_shift p S hS]; exact h.stiff_symm, h.mass, h.damping,
    by rw [moves_shift p S hS]; exact h.stiff⟩

theorem dynMatrix_shift (p : BEParams K) (S : DynScene K ι κ) (hS : IsLinearDynamic S) (hJ : ∀ k i, S.fixed i = true → S.J k i = 0) (s t : DynState K ι κ) (hs : s.y = S.map s.x)
    (ht : t.y = S.map t.x) : dynMatrix p S t = dynMatrix p S s := by
  have e : t.x = s.x + (t.x - s.x) := by abel
  ext i j
  rw [dyn_entry p S hJ s hs, dyn_entry p S hJ t ht]
  unfold stepCoefficient
  rw [e, moves_shift p S hS]

/-- What holds after `k` iterations of a time step from positions `x` and velocities `v`. -/
structure StepRun (p : BEParams K) (S : DynScene K ι κ) (x v : ι → K) (τ : K) (k : ℕ) (s : DynState K ι κ) (g : ι → K) : Prop where
  hx0 : s.x0 = x
  hv0 : s.v0 = v
  hy : s.y = S.map s.x
  hv : s.v = v + p.h • s.a
  ha : s.a ∈ heldSpace K S.fixed
  hg : g ∈ heldSpace K S.fixed
  stable : MovesStably p S s.x
  first : k = 0 → s.x = x ∧ s.a = 0 ∧ g = 0
  later : 1 ≤ k → s.x = x + p.h • s.v ∧ motionResidual p S s.x s.v s.a ≤ (τ ^ 2) ^ (k - 1) * (2 * τ ^ 2 * motionResidual p S x v 0 + 2 * driftForce p S x v)
  guess : (k = 1 ∧ driftForce p S x v ≠ 0) ∨ g = 0 ∨ ∃ b0, dynRhs p S s = b0 - dynMatrix p S s *ᵥ g ∧ dynRhs p S s ⬝ᵥ dynRhs p S s ≤ τ ^ 2 * (b0 ⬝ᵥ b0) ∧ 0 < b0 ⬝ᵥ b0

theorem freeForce_drift (p : BEParams K) (S : DynScene K ι κ) (x v : ι → K) : freeForce S x (p.h • v) ⬝ᵥ freeForce S x (p.h • v) = driftForce p S x v := by
  unfold freeForce driftForce dotProduct
  refine Finset.sum_congr rfl fun i _ => ?_
  by_cases hi : S.fixed i = true
  · simp [hi]
  · simp only [hi, if_false, sq]
    rfl

theorem square_sum_le (r f : ι → K) : (r + f) ⬝ᵥ (r + f) ≤ 2 * (r ⬝ᵥ r) + 2 * (f ⬝ᵥ f) := by
  have h : 0 ≤ (r - f) ⬝ᵥ (r - f) := Finset.sum_nonneg fun i _ => mul_self_nonneg _
  rw [sub_dotProduct, dotProduct_sub, dotProduct_sub] at h
  rw [add_dotProduct, dotProduct_add, dotProduct_add]
  linarith

theorem step_run_step (p : BEParams K) (S : DynScene K ι κ) (hS : IsLinearDynamic S) (hD : MappedDamping p S) (hJ : ∀ k i, S.fixed i = true → S.J k i = 0) (c : CGParams K) (h0 : 0 < c.zero)
    (hz : c.zero ≤ c.tolerance ^ 2 * c.eps) (ht0 : 0 ≤ c.tolerance) (ht : c.tolerance ≤ 1 / 3) (hn : Fintype.card ι ≤ c.maxIterations) (precond : Matrix ι ι K → (ι → K) → ι → K)
    (hp : precond = cgPlain ∨ precond = diagonalPrecond) (x v : ι → K) (k : ℕ) (s : DynState K ι κ) (g : ι → K) (hI : StepRun p S x v c.tolerance k s g) :
    match cgIncrement c precond (dynMatrix p S s) (dynRhs p S s) g with
    | none => motionResidual p S s.x s.v s.a < c.eps ∨ (k = 1 ∧ driftForce p S x v ≠ 0)
    | some u => StepRun p S x v c.tolerance (k + 1) (dynPropagate p S s u) u := by
  have hv : s.v = s.v0 + p.h • s.a := by rw [hI.hv0, hI.hv]
  have hres := motionResidual_eq p S hD s hv hI.hy
  have hs := cgIncrement_spec c h0 hz hn precond hp (dynMatrix p S s) (dyn_spd p S hJ s hI.hy hI.stable) S.fixed (dyn_held p S hJ s hI.hy) (dynRhs p S s) g (dyn_rhs_held p S s) hI.hg
  have hbb : 0 ≤ dynRhs p S s ⬝ᵥ dynRhs p S s := Finset.sum_nonneg fun i _ => mul_self_nonneg _
  have h3 : c.tolerance ^ 2 ≤ 1 / 9 := by nlinarith
  have heps : 0 < c.eps := by
    by_contra hle
    have := mul_nonpos_of_nonneg_of_nonpos (sq_nonneg c.tolerance) (not_lt.1 hle)
    linarith
  revert hs
  cases cgIncrement c precond (dynMatrix p S s) (dynRhs p S s) g with
  | none =>
    intro hs
    rcases hs with hs | hs
    · left; rw [← hres]; exact hs
    · rcases hI.guess with hk | hg | ⟨b0, j1, j2, j3⟩
      · exact Or.inr hk
      · exfalso
        rw [hg, mulVec_zero, sub_zero] at hs
        have := mul_le_mul_of_nonneg_right h3 hbb
        linarith
      · exact absurd hs (guess_bad c.tolerance ht0 ht _ b0 _ j1 j2 j3)
  | some u =>
    intro hs
    obtain ⟨s1, s2, s3⟩ := hs
    have hx' : (dynPropagate p S s u).x = x + p.h • (dynPropagate p S s u).v := by
      rw [← hI.hx0]; rfl
    have hv' : (dynPropagate p S s u).v = v + p.h • (dynPropagate p S s u).a := by
      rw [← hI.hv0]; rfl
    have hv0' : (dynPropagate p S s u).v0 = v := hI.hv0
    have hres' := motionResidual_eq p S hD (dynPropagate p S s u) (by rw [hv0', hv']) rfl
    have hst : MovesStably p S (dynPropagate p S s u).x := by
      have e : (dynPropagate p S s u).x = s.x + ((dynPropagate p S s u).x - s.x) := by abel
      rw [e]; exact moves_shift_stable p S hS _ _ hI.stable
    have hbase : ∀ d, s.x0 + p.h • (s.v0 + p.h • s.a) = s.x + d → dynRhs p S (dynPropagate p S s u) = dynRhs p S s - dynMatrix p S s *ᵥ u + freeForce S s.x d :=
      fun d hd => dyn_linear_step p S hS hD hJ s hI.hy d hd u s1
    have hmat : dynMatrix p S (dynPropagate p S s u) = dynMatrix p S s := dynMatrix_shift p S hS hJ s _ hI.hy rfl
    have hplain : dynRhs p S (dynPropagate p S s u) = dynRhs p S s - dynMatrix p S s *ᵥ u → ∃ b0, dynRhs p S (dynPropagate p S s u) = b0 - dynMatrix p S (dynPropagate p S s u) *ᵥ u ∧
        dynRhs p S (dynPropagate p S s u) ⬝ᵥ dynRhs p S (dynPropagate p S s u) ≤ c.tolerance ^ 2 * (b0 ⬝ᵥ b0) ∧ 0 < b0 ⬝ᵥ b0 := fun h =>
      ⟨dynRhs p S s, by rw [hmat]; exact h, by rw [h]; exact s2.le, heps.trans_le s3⟩
    refine ⟨hI.hx0, hI.hv0, rfl, hv', (heldSpace K S.fixed).add_mem hI.ha s1, s1, hst, fun h => by omega, fun _ => ⟨hx', ?_⟩, ?_⟩
    · rw [← hres']
      rcases Nat.eq_zero_or_pos k with hk | hk
      · obtain ⟨f1, f2, f3⟩ := hI.first hk
        have hr := hbase (p.h • v) (by rw [hI.hx0, hI.hv0, f1, f2, smul_zero, add_zero])
        have hvv : s.v = v := by rw [hI.hv, f2, smul_zero, add_zero]
        rw [hr, hk]
        rw [hres, f1, f2, hvv] at s2
        refine (square_sum_le _ _).trans ?_
        rw [f1, freeForce_drift]
        simp only [zero_add, Nat.sub_self, pow_zero, one_mul]
        linarith
      · obtain ⟨l1, l2⟩ := hI.later hk
        have hr := hbase 0 (by rw [hI.hx0, hI.hv0, add_zero, l1, hI.hv])
        have hz0 : freeForce S s.x (0 : ι → K) = 0 := by funext i; simp [freeForce]
        rw [hr, hz0, add_zero]
        rw [hres] at s2
        refine s2.le.trans ?_
        obtain ⟨m, rfl⟩ : ∃ m, k = m + 1 := ⟨k - 1, by omega⟩
        simp only [Nat.add_sub_cancel] at l2 ⊢
        rw [pow_succ (c.tolerance ^ 2) m, mul_comm _ (c.tolerance ^ 2), mul_assoc]
        exact mul_le_mul_of_nonneg_left l2 (sq_nonneg _)
    · rcases Nat.eq_zero_or_pos k with hk | hk
      · by_cases hdr : driftForce p S x v = 0
        · obtain ⟨f1, f2, f3⟩ := hI.first hk
          have hr := hbase (p.h • v) (by rw [hI.hx0, hI.hv0, f1, f2, smul_zero, add_zero])
          have hz0 : freeForce S s.x (p.h • v) = 0 := by
            rw [← freeForce_drift] at hdr
            rw [f1]
            exact dotProduct_self_eq_zero.1 hdr
          rw [hz0, add_zero] at hr
          exact Or.inr (Or.inr (hplain hr))
        · exact Or.inl ⟨by omega, hdr⟩
      · obtain ⟨l1, l2⟩ := hI.later hk
        have hr := hbase 0 (by rw [hI.hx0, hI.hv0, add_zero, l1, hI.hv])
        have hz0 : freeForce S s.x (0 : ι → K) = 0 := by funext i; simp [freeForce]
        rw [hz0, add_zero] at hr
        exact Or.inr (Or.inr (hplain hr))

/-- **C149, linear scenes (partial).** In a linear and stable scene, a time step with the conjugate gradient that is not abandoned at once moves positions with the new velocities and
velocities with the new accelerations, keeps fixed degrees of freedom, and every iteration but the first divides what the equation of motion leaves at least by the tolerance of the
conjugate gradient, the first one bringing in the change of the forces along the velocities.  The step ends by reporting convergence, by reaching its maximum number of iterations,
because the accelerations are negligible, because the equation of motion is nearly satisfied, or after its first iteration when the forces change along the velocities.  Missing:
mapped points attached to fixed ones, as in C96, and the second iteration, which can be abandoned (`C149_violated`). -/
theorem C149_linear_partial (n : NewtonParams K) (p : BEParams K) (S : DynScene K ι κ) (hS : IsLinearDynamic S) (hD : MappedDamping p S) (hJ : ∀ k i, S.fixed i = true → S.J k i = 0)
    (c : CGParams K) (h0 : 0 < c.zero) (hz : c.zero ≤ c.tolerance ^ 2 * c.eps) (ht0 : 0 ≤ c.tolerance) (ht : c.tolerance ≤ 1 / 3) (hn : Fintype.card ι ≤ c.maxIterations)
    (precond : Matrix ι ι K → (ι → K) → ι → K) (hp : precond = cgPlain ∨ precond = diagonalPrecond) (st : NewtonState K) (x v : ι → K) (hx : MovesStably p S x) :
    let r := cgDynSolve n p S c precond st x v
    (r.1.residuals = [] → r.2.x = x ∧ r.2.v = v ∧ r.2.a = 0) ∧
    (r.1.residuals ≠ [] → r.2.v = v + p.h • r.2.a ∧ r.2.x = x + p.h • r.2.v ∧
      motionResidual p S r.2.x r.2.v r.2.a ≤ (c.tolerance ^ 2) ^ (r.1.residuals.length - 1) * (2 * c.tolerance ^ 2 * motionResidual p S x v 0 + 2 * driftForce p S x v)) ∧
    (∀ i, S.fixed i = true → r.2.v i = v i) ∧
    (r.1.converged = true ∨ r.1.residuals.length = n.iterations ∨ r.2.a ⬝ᵥ r.2.a < n.eps ∨ motionResidual p S r.2.x r.2.v r.2.a < c.eps ∨
      (r.1.residuals.length = 1 ∧ driftForce p S x v ≠ 0)) := by
  intro r
  have hmain := advance_solve n (dynRhs p S) (dynMatrix p S) (dynPropagate p S) (cgIncrement c precond) (fun s => s.a) (fun w u => rfl) (StepRun p S x v c.tolerance)
    (fun k s => motionResidual p S s.x s.v s.a < c.eps ∨ (k = 1 ∧ driftForce p S x v ≠ 0))
    (fun k s g hI => step_run_step p S hS hD hJ c h0 hz ht0 ht hn precond hp x v k s g hI) st { toBEState := beBegin x v, y := S.map x, w := S.J.mulVec v } 0 rfl
    ⟨rfl, rfl, rfl, by simp [beBegin], (heldSpace K S.fixed).zero_mem, (heldSpace K S.fixed).zero_mem, hx, fun _ => ⟨rfl, rfl, rfl⟩, fun h => by omega, Or.inr (Or.inl rfl)⟩
  simp only at hmain
  change StepRun p S x v c.tolerance r.1.residuals.length r.2 _ ∧ (r.1.converged = true ∨ r.1.residuals.length = n.iterations ∨ r.2.a ⬝ᵥ r.2.a < n.eps ∨
    (motionResidual p S r.2.x r.2.v r.2.a < c.eps ∨ (r.1.residuals.length = 1 ∧ driftForce p S x v ≠ 0))) at hmain
  obtain ⟨hI, hend⟩ := hmain
  refine ⟨fun h => ?_, fun h => ?_, fun i hi => ?_, hend⟩
  · obtain ⟨f1, f2, -⟩ := hI.first (by rw [h]; rfl)
    exact ⟨f1, by rw [hI.hv, f2, smul_zero, add_zero], f2⟩
  · obtain ⟨l1, l2⟩ := hI.later (List.length_pos_iff.2 h)
    exact ⟨hI.hv, l1, l2⟩
  · have := hI.ha i hi
    rw [hI.hv]
    simp [this]

/-- A unit mass on a unit spring. -/
def springDynamic : DynScene ℚ (Fin 1) (Fin 0) where
  force x := -x
  stiff _ := !![-1]
  M := !![1]
  B := !![0]
  map _ := ![]
  J := 0
  mappedForce _ := ![]
  mappedStiff _ := 0
  mappedMBK _ _ := ![]
  fixed _ := false

/-- **C149 is violated.** The time step of a unit mass on a unit spring with the default settings and the conjugate gradient: the first increment also solves the second system, which the
conjugate gradient takes for a failure; the step is abandoned after one iteration although ten are allowed, does not report convergence, does not satisfy the equation of motion and
increases the energy. -/
theorem C149_violated :
    let r := cgDynSolve ⟨10, 1 / 10 ^ 5, 1 / 10 ^ 5, -1, 1 / 10 ^ 19, .beginningOfTimeStep⟩ ⟨1, 0, 0⟩ springDynamic ⟨25, 1 / 10 ^ 5, 1 / 10 ^ 19, 1 / 10 ^ 307⟩ cgPlain newtonFresh ![1] ![1]
    r.1.converged = false ∧ r.1.residuals.length = 1 ∧ motionResidual ⟨1, 0, 0⟩ springDynamic r.2.x r.2.v r.2.a = 1 ∧ 1 ^ 2 + 1 ^ 2 < r.2.x 0 ^ 2 + r.2.v 0 ^ 2 := by
  decide +kernel

theorem springDynamic_linear : IsLinearDynamic springDynamic where
  force := fun x u => by funext i; fin_cases i; simp [springDynamic, mulVec, dotProduct]; ring
  map := fun x u => by funext k; exact k.elim0
  mappedForce := fun y u => by funext k; exact k.elim0
  stiff := fun _ _ => rfl
  mappedStiff := fun _ _ => rfl

theorem springDynamic_damping (p : BEParams ℚ) : MappedDamping p springDynamic := fun _ => by funext k; exact k.elim0

theorem springDynamic_stable (p : BEParams ℚ) (h1 : 0 ≤ p.h) (h2 : 0 ≤ p.rayleighMass) (h3 : 0 ≤ p.rayleighStiffness) (x : Fin 1 → ℚ) : MovesStably p springDynamic x where
  step := h1
  rayleighMass := h2
  rayleighStiffness := h3
  mass_symm := fun i j _ _ => by fin_cases i; fin_cases j; rfl
  damping_symm := fun i j _ _ => by fin_cases i; fin_cases j; rfl
  stiff_symm := fun i j _ _ => by fin_cases i; fin_cases j; rfl
  mass := fun u _ hu => by
    have : u 0 ≠ 0 := fun h => hu (funext fun i => by fin_cases i; exact h)
    simp [springDynamic]
    positivity
  damping := fun u _ => by simp [springDynamic]
  stiff := fun u _ => by
    simp [springDynamic, forceChange, DynScene.atRest]
    nlinarith [sq_nonneg (u 0)]

/-- The hypotheses of the linear theorem: starting without velocity, one iteration leaves at most two ten billionths of the initial forces. -/
example : let r := cgDynSolve ⟨10, 1 / 10 ^ 5, 1 / 10 ^ 5, -1, 1 / 10 ^ 19, .beginningOfTimeStep⟩ ⟨1 / 10, 1 / 2, 1 / 3⟩ springDynamic ⟨25, 1 / 10 ^ 5, 1 / 10 ^ 19, 1 / 10 ^ 100⟩ cgPlain newtonFresh ![1] 0
    motionResidual ⟨1 / 10, 1 / 2, 1 / 3⟩ springDynamic r.2.x r.2.v r.2.a ≤ (1 / 10 ^ 10) ^ (r.1.residuals.length - 1) * (2 / 10 ^ 10) := by
  intro r
  have h := (C149_linear_partial ⟨10, 1 / 10 ^ 5, 1 / 10 ^ 5, -1, 1 / 10 ^ 19, .beginningOfTimeStep⟩ ⟨1 / 10, 1 / 2, 1 / 3⟩ springDynamic springDynamic_linear (springDynamic_damping _)
    (fun k => k.elim0) ⟨25, 1 / 10 ^ 5, 1 / 10 ^ 19, 1 / 10 ^ 100⟩ (by norm_num) (by norm_num) (by norm_num) (by norm_num) (by simp) cgPlain (Or.inl rfl) newtonFresh ![1] 0
    (springDynamic_stable _ (by norm_num) (by norm_num) (by norm_num) _)).2.1 (by decide +kernel)
  refine h.2.2.trans (le_of_eq ?_)
  have e1 : motionResidual ⟨1 / 10, 1 / 2, 1 / 3⟩ springDynamic ![1] 0 0 = 1 := by decide +kernel
  have e2 : driftForce ⟨1 / 10, 1 / 2, 1 / 3⟩ springDynamic ![1] 0 = 0 := by decide +kernel
  have e3 : ((1 / 10 ^ 5 : ℚ)) ^ 2 = 1 / 10 ^ 10 := by norm_num
  rw [e1, e2]
  show ((1 / 10 ^ 5 : ℚ) ^ 2) ^ (r.1.residuals.length - 1) * (2 * (1 / 10 ^ 5 : ℚ) ^ 2 * 1 + 2 * 0) = _
  rw [e3]
  ring

end Caribou

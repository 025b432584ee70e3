import Verif.Spec.BackwardEuler
import Verif.Lemmas.Newton
import Mathlib.Analysis.Calculus.FDeriv.Add
import Mathlib.Analysis.Calculus.FDeriv.Linear
import Mathlib.Analysis.Calculus.FDeriv.Comp
import Mathlib.Analysis.Calculus.FDeriv.Pi
import Mathlib.Analysis.Calculus.FDeriv.Pow
import Mathlib.Analysis.Calculus.Deriv.Pow
import Mathlib.Analysis.Calculus.Deriv.Mul
import Mathlib.Analysis.Calculus.Deriv.Comp
import Mathlib.Analysis.Calculus.Deriv.Prod
import Mathlib.LinearAlgebra.Matrix.DotProduct
import Mathlib.LinearAlgebra.Matrix.ToLin
import Mathlib.Topology.Algebra.Module.FiniteDimension
import Mathlib.Tactic.Module
import Mathlib.Tactic.LinearCombination
import Mathlib.Tactic.NormNum
import Mathlib.Tactic.FinCases

/-!
# Properties C56 and C77: `BackwardEulerODESolver`
-/

set_option autoImplicit false

namespace Caribou

open Spec Matrix

section

variable {K ι : Type*} [Field K] [Fintype ι]

/-- **C56** (propagation): after every increment, `a` is the accumulated acceleration, `v = v0 + h a`, `x = x0 + h v`. -/
theorem C56_propagation (p : BEParams K) (s : BEState K ι) (da : ι → K) :
    (bePropagate p s da).a = s.a + da ∧
    (bePropagate p s da).v = s.v0 + p.h • (bePropagate p s da).a ∧
    (bePropagate p s da).x = s.x0 + p.h • (bePropagate p s da).v ∧
    (bePropagate p s da).x0 = s.x0 ∧ (bePropagate p s da).v0 = s.v0 := ⟨rfl, rfl, rfl, rfl, rfl⟩

/-- **C56** (residual): whenever velocity and acceleration are consistent, the assembled right-hand side is what the
documented equation leaves unbalanced, for every force. -/
theorem C56_residual (p : BEParams K) (S : BEScene K ι) (s : BEState K ι) (hv : s.v = s.v0 + p.h • s.a) :
    beRhs p S s = unbalanced p S s.x s.v s.a := by
  simp only [beRhs, addMBKdx, unbalanced, damping, hv, mulVec_add, mulVec_smul, add_mulVec, sub_mulVec, smul_mulVec]
  module

/-- **C56** (linear forces, partial): from a state where positions and velocities follow the accumulated acceleration, one exact
solve of the assembled system gives an exact backward Euler step.  Missing: the first solve of a time step, which starts from
positions that do not (`C56_violated`). -/
theorem C56_linear_partial (p : BEParams K) (S : BEScene K ι) (P : ι → K) (A : Matrix ι ι K) (hS : IsLinear S P A)
    (s : BEState K ι) (hv : s.v = s.v0 + p.h • s.a) (hx : s.x = s.x0 + p.h • s.v) (da : ι → K)
    (hda : beMatrix p S s *ᵥ da = beRhs p S s) :
    IsBackwardEulerStep p S s.x0 s.v0 (bePropagate p s da).x (bePropagate p s da).v (bePropagate p s da).a ∧
    beRhs p S (bePropagate p s da) = 0 := by
  have hzero : beRhs p S (bePropagate p s da) = 0 := by
    have h : beRhs p S (bePropagate p s da) = beRhs p S s - beMatrix p S s *ᵥ da := by
      simp only [beRhs, beMatrix, addMBKdx, bePropagate, hS.force, hS.stiff, hx, hv, mulVec_add, mulVec_smul, add_mulVec,
        smul_mulVec]
      module
    rw [h, hda, sub_self]
  refine ⟨⟨rfl, rfl, ?_⟩, hzero⟩
  rw [← C56_residual p S (bePropagate p s da) rfl]
  exact hzero

/-- **C56, negation**: after the first exact solve of a time step with linear forces, the residual is `h K v0` instead of
zero: the first right-hand side uses the forces at the old positions `x0`, not at `x0 + h v0`. -/
theorem C56_violated (p : BEParams K) (S : BEScene K ι) (P : ι → K) (A : Matrix ι ι K) (hS : IsLinear S P A)
    (x v da : ι → K) (hda : beMatrix p S (beBegin x v) *ᵥ da = beRhs p S (beBegin x v)) :
    beRhs p S (bePropagate p (beBegin x v) da) = p.h • A *ᵥ v ∧
    (IsBackwardEulerStep p S x v (bePropagate p (beBegin x v) da).x (bePropagate p (beBegin x v) da).v
      (bePropagate p (beBegin x v) da).a ↔ p.h • A *ᵥ v = 0) := by
  have hres : beRhs p S (bePropagate p (beBegin x v) da) = p.h • A *ᵥ v := by
    have h : beRhs p S (bePropagate p (beBegin x v) da) =
        beRhs p S (beBegin x v) - beMatrix p S (beBegin x v) *ᵥ da + p.h • A *ᵥ v := by
      simp only [beRhs, beMatrix, addMBKdx, bePropagate, beBegin, hS.force, hS.stiff, mulVec_add, mulVec_smul, add_mulVec,
        smul_mulVec, mulVec_zero]
      module
    rw [h, hda, sub_self, zero_add]
  refine ⟨hres, ⟨fun h => ?_, fun h => ⟨rfl, rfl, ?_⟩⟩⟩
  · rw [← hres, C56_residual p S _ rfl]; exact h.balance
  · rw [← hres, C56_residual p S _ rfl] at h; exact h

/-- **C56** (two iterations): a second exact solve repairs the first one; the result is an exact backward Euler step. -/
theorem C56_two_iterations (p : BEParams K) (S : BEScene K ι) (P : ι → K) (A : Matrix ι ι K) (hS : IsLinear S P A)
    (x v da da' : ι → K)
    (hda' : beMatrix p S (bePropagate p (beBegin x v) da) *ᵥ da' = beRhs p S (bePropagate p (beBegin x v) da)) :
    IsBackwardEulerStep p S x v (bePropagate p (bePropagate p (beBegin x v) da) da').x
      (bePropagate p (bePropagate p (beBegin x v) da) da').v (bePropagate p (bePropagate p (beBegin x v) da) da').a :=
  (C56_linear_partial p S P A hS (bePropagate p (beBegin x v) da) rfl rfl da' hda').1

end

/-- The state of the time step started at `(x0, v0)` once the accumulated acceleration is `a`. -/
def stateAt {ι : Type*} (p : BEParams ℝ) (x0 v0 a : ι → ℝ) : BEState ℝ ι :=
  { x := x0 + p.h • (v0 + p.h • a), v := v0 + p.h • a, a := a, x0 := x0, v0 := v0 }

/-- **C56** (derivative): the assembled matrix is minus the derivative of the residual with respect to the acceleration, for
every differentiable force whose derivative is the stiffness, without Rayleigh stiffness or for a constant stiffness. -/
theorem C56_derivative {ι : Type*} [Fintype ι] [DecidableEq ι] (p : BEParams ℝ) (S : BEScene ℝ ι) (x0 v0 a : ι → ℝ)
    (hf : HasFDerivAt S.force (LinearMap.toContinuousLinearMap (toLin' (S.stiff (stateAt p x0 v0 a).x)))
      (stateAt p x0 v0 a).x)
    (hr : p.rayleighStiffness = 0 ∨ ∀ y, S.stiff y = S.stiff (stateAt p x0 v0 a).x) :
    HasFDerivAt (fun a => beRhs p S (stateAt p x0 v0 a))
      (LinearMap.toContinuousLinearMap (toLin' (-(beMatrix p S (stateAt p x0 v0 a))))) a := by
  set T := S.stiff (stateAt p x0 v0 a).x with hT
  set C : Matrix ι ι ℝ := -(1 + p.h * p.rayleighMass) • S.M + -p.h • S.B + (p.h * p.rayleighStiffness) • T with hC
  have hrk : ∀ y, p.rayleighStiffness • S.stiff y = p.rayleighStiffness • T := by
    intro y
    rcases hr with h | h
    · rw [h, zero_smul, zero_smul]
    · rw [h]
  have hfun : (fun a => beRhs p S (stateAt p x0 v0 a)) = fun a' =>
      S.force (x0 + p.h • (v0 + p.h • a')) + (-p.rayleighMass • S.M *ᵥ v0 - S.B *ᵥ v0 + p.rayleighStiffness • T *ᵥ v0)
        + LinearMap.toContinuousLinearMap (toLin' C) a' := by
    funext a'
    have e1 : ∀ u, p.rayleighStiffness • S.stiff (x0 + p.h • (v0 + p.h • a')) *ᵥ u = p.rayleighStiffness • T *ᵥ u := by
      intro u; rw [← smul_mulVec, hrk, smul_mulVec]
    simp only [beRhs, addMBKdx, stateAt, e1, mul_smul, LinearMap.coe_toContinuousLinearMap', toLin'_apply, hC, add_mulVec,
      smul_mulVec]
    module
  rw [hfun]
  have hX : HasFDerivAt (fun a' : ι → ℝ => x0 + p.h • (v0 + p.h • a')) ((p.h * p.h) • ContinuousLinearMap.id ℝ (ι → ℝ)) a := by
    have h := ((((hasFDerivAt_id (𝕜 := ℝ) a).const_smul p.h).const_add v0).const_smul p.h).const_add x0
    rw [smul_smul] at h
    exact h
  have hcomp := (HasFDerivAt.comp a (g := S.force) hf hX).add_const
    (-p.rayleighMass • S.M *ᵥ v0 - S.B *ᵥ v0 + p.rayleighStiffness • T *ᵥ v0)
  have hall := hcomp.add (LinearMap.toContinuousLinearMap (toLin' C)).hasFDerivAt
  refine hall.congr_fderiv ?_
  ext u k
  simp only [ContinuousLinearMap.add_apply, ContinuousLinearMap.comp_apply, ContinuousLinearMap.smul_apply,
    ContinuousLinearMap.id_apply, LinearMap.coe_toContinuousLinearMap', toLin'_apply, hC, beMatrix, ← hT, neg_mulVec,
    add_mulVec, smul_mulVec, mulVec_smul]
  refine congrFun ?_ k
  module

/-- A spring with force `-x²`, without mass. -/
def quadraticSpring : BEScene ℝ (Fin 1) where
  M := 0
  B := 0
  force x := fun i => -(x i) ^ 2
  stiff x := Matrix.diagonal fun i => -2 * x i

/-- **C56, negation** (derivative): with Rayleigh stiffness and a force which is not linear, the assembled matrix is not the
derivative of the residual, even though the stiffness is the derivative of the force. -/
theorem C56_rayleigh_violated :
    (∀ y : Fin 1 → ℝ, HasFDerivAt quadraticSpring.force
      (LinearMap.toContinuousLinearMap (toLin' (quadraticSpring.stiff y))) y) ∧
    ¬HasFDerivAt (fun a => beRhs ⟨1, 0, 1⟩ quadraticSpring (stateAt ⟨1, 0, 1⟩ 0 0 a))
      (LinearMap.toContinuousLinearMap (toLin' (-(beMatrix ⟨1, 0, 1⟩ quadraticSpring (stateAt ⟨1, 0, 1⟩ 0 0 1))))) 1 := by
  constructor
  · intro y
    rw [hasFDerivAt_pi']
    intro i
    have h := ((hasFDerivAt_apply (𝕜 := ℝ) i y).pow 2).neg
    refine h.congr_fderiv ?_
    ext u
    simp [quadraticSpring, Matrix.mulVec_diagonal]
  · intro h
    have hline : HasDerivAt (fun t : ℝ => (fun _ : Fin 1 => t)) (fun _ => (1 : ℝ)) 1 :=
      hasDerivAt_pi.mpr fun _ => hasDerivAt_id 1
    have h1 := (hasDerivAt_pi.mp (HasFDerivAt.comp_hasDerivAt (1 : ℝ) (f := fun t : ℝ => (fun _ : Fin 1 => t)) h hline)) 0
    have h2 : HasDerivAt (fun t : ℝ => -3 * t ^ 2) (-3 * (2 * 1)) 1 := by
      simpa using ((hasDerivAt_id (1 : ℝ)).pow 2).const_mul (-3)
    have h3 := h1.unique (h2.congr_of_eventuallyEq (Filter.Eventually.of_forall fun t => by
      simp [beRhs, addMBKdx, stateAt, quadraticSpring, Matrix.mulVec_diagonal]; ring))
    simp [beMatrix, stateAt, quadraticSpring, Matrix.mulVec_diagonal, Matrix.neg_mulVec] at h3
    norm_num at h3

section

variable {K ι : Type*} [Field K] [LinearOrder K] [Fintype ι]

/-- **C56, negation** (first test): when forces and damping vanish at the beginning of a time step, the solver declares
convergence without any iteration and leaves positions and velocities as they are, so the result is not a backward Euler step
unless the body is at rest. -/
theorem C56_frozen_violated [IsStrictOrderedRing K] (n : NewtonParams K) (hn : 0 < n.absolute) (p : BEParams K) (hh : p.h ≠ 0)
    (S : BEScene K ι) (solver : Matrix ι ι K → (ι → K) → Option (ι → K)) (c : NewtonState K) (x v : ι → K)
    (hzero : S.force x = damping p S x *ᵥ v) :
    (beSolve n p S solver c x v).1.converged = true ∧ (beSolve n p S solver c x v).2.x = x ∧
    (beSolve n p S solver c x v).2.v = v ∧ (v ≠ 0 → ∀ a, ¬IsBackwardEulerStep p S x v
      (beSolve n p S solver c x v).2.x (beSolve n p S solver c x v).2.v a) := by
  have hr : beRhs p S (beBegin x v) = 0 := by
    rw [C56_residual p S _ (by simp [beBegin])]
    simp [unbalanced, beBegin, hzero]
  have hR : leNan ((beEnv p S solver).norm2 ((beEnv p S solver).rhs (beBegin x v, 0)).2) (some (n.absolute * n.absolute)) =
      true := by
    simp only [beEnv, hr, dotProduct_zero, leNan, decide_eq_true_eq]
    exact (mul_pos hn hn).le
  have hb : (decide (0 < n.absolute) && leNan ((beEnv p S solver).norm2 ((beEnv p S solver).rhs (beBegin x v, 0)).2)
      (some (n.absolute * n.absolute))) = true := by rw [hR, decide_eq_true hn]; rfl
  have hloop : ∀ (k : ℕ) (s : NewtonLoop (BEState K ι × Matrix ι ι K) (ι → K) K), s.converged = true →
      newtonLoop n (beEnv p S solver) k s = s := by
    intro k s hs
    cases k
    · rfl
    · rw [newtonLoop, if_pos hs]
  have hsolve : (newtonSolve n (beEnv p S solver) true c (beBegin x v, 0)).1.converged = true ∧
      (newtonSolve n (beEnv p S solver) true c (beBegin x v, 0)).2.1 = (beBegin x v, 0) := by
    simp only [newtonSolve, Bool.not_true, Bool.false_eq_true, if_false]
    rw [hloop _ _ hb]
    exact ⟨hb, rfl⟩
  have hst : (beSolve n p S solver c x v).2 = beBegin x v := by simp only [beSolve, hsolve.2]
  rw [hst]
  refine ⟨hsolve.1, rfl, rfl, fun hv a h => ?_⟩
  · have hp := h.position
    have : p.h • v = 0 := by simpa [beBegin] using hp
    exact hv ((smul_eq_zero.mp this).resolve_left hh)

end

/-- A body moving without any force does not move. -/
example : (beSolve ⟨5, 1 / 10 ^ 5, 1 / 10 ^ 5, 1 / 10 ^ 15, 1 / 10 ^ 19, .beginningOfTimeStep⟩ ⟨1, 0, 0⟩
      (⟨1, 0, fun _ => 0, fun _ => 0⟩ : BEScene ℚ (Fin 1)) (fun _ f => some f) newtonFresh ![0] ![1]).2.x = ![0] :=
  (C56_frozen_violated _ (by norm_num) ⟨1, 0, 0⟩ (by norm_num) _ _ _ _ _ (by simp [damping])).2.1

/-- A linear scene with a consistent state, for which one solve is enough. -/
example : IsLinear (⟨1, 0, fun x => -x, fun _ => -1⟩ : BEScene ℚ (Fin 1)) 0 (-1) :=
  ⟨fun x => by simp [Matrix.neg_mulVec], fun _ => rfl⟩

/-! ## C77: energy -/

section

variable {K ι : Type*} [Field K] [LinearOrder K] [IsStrictOrderedRing K] [Fintype ι]

/-- **C77** (partial): an exact backward Euler step of a linear conservative scene (mass `M` and stiffness `A` symmetric and
positive semi-definite, positive semi-definite damping, no load) never increases the mechanical energy; by
`C56_two_iterations` this covers a time step with two exact iterations.  Missing: the default of one iteration
(`C77_violated`). -/
theorem C77_partial (p : BEParams K) (S : BEScene K ι) (A : Matrix ι ι K) (hS : IsLinear S 0 (-A)) (hh : 0 ≤ p.h)
    (hM : S.Mᵀ = S.M) (hA : Aᵀ = A) (hM0 : ∀ u, 0 ≤ u ⬝ᵥ S.M *ᵥ u) (hA0 : ∀ u, 0 ≤ u ⬝ᵥ A *ᵥ u)
    (hD : ∀ x u, 0 ≤ u ⬝ᵥ damping p S x *ᵥ u) (x0 v0 x1 v1 a : ι → K)
    (h : IsBackwardEulerStep p S x0 v0 x1 v1 a) : energy2 S.M A x1 v1 ≤ energy2 S.M A x0 v0 := by
  have hv : v0 = v1 - p.h • a := by rw [h.velocity]; simp
  have hx : x0 = x1 - p.h • v1 := by rw [h.position]; simp
  have hsym : ∀ (B : Matrix ι ι K), Bᵀ = B → ∀ u w, u ⬝ᵥ B *ᵥ w = w ⬝ᵥ B *ᵥ u := by
    intro B hB u w
    rw [dotProduct_mulVec, ← mulVec_transpose, hB, dotProduct_comm]
  have hbal : v1 ⬝ᵥ A *ᵥ x1 + v1 ⬝ᵥ damping p S x1 *ᵥ v1 + v1 ⬝ᵥ S.M *ᵥ a = 0 := by
    have := congrArg (fun u => v1 ⬝ᵥ u) h.balance
    simp only [unbalanced, hS.force, zero_add, neg_mulVec, dotProduct_sub, dotProduct_neg, dotProduct_zero] at this
    linear_combination -this
  have hE : energy2 S.M A x0 v0 = energy2 S.M A x1 v1 + p.h ^ 2 * (a ⬝ᵥ S.M *ᵥ a) + p.h ^ 2 * (v1 ⬝ᵥ A *ᵥ v1)
      + 2 * p.h * (v1 ⬝ᵥ damping p S x1 *ᵥ v1) := by
    simp only [energy2, hv, hx, mulVec_sub, mulVec_smul, sub_dotProduct, dotProduct_sub, smul_dotProduct, dotProduct_smul,
      smul_eq_mul]
    rw [hsym S.M hM a v1, hsym A hA x1 v1]
    linear_combination (-2 * p.h) * hbal
  rw [hE]
  have h1 := mul_nonneg (sq_nonneg p.h) (hM0 a)
  have h2 := mul_nonneg (sq_nonneg p.h) (hA0 v1)
  have h3 := mul_nonneg (mul_nonneg (by norm_num : (0 : K) ≤ 2) hh) (hD x1 v1)
  linarith

/-- **C77** (two exact iterations): the energy statement for the code. -/
theorem C77_two_iterations (p : BEParams K) (S : BEScene K ι) (A : Matrix ι ι K) (hS : IsLinear S 0 (-A)) (hh : 0 ≤ p.h)
    (hM : S.Mᵀ = S.M) (hA : Aᵀ = A) (hM0 : ∀ u, 0 ≤ u ⬝ᵥ S.M *ᵥ u) (hA0 : ∀ u, 0 ≤ u ⬝ᵥ A *ᵥ u)
    (hD : ∀ x u, 0 ≤ u ⬝ᵥ damping p S x *ᵥ u) (x v da da' : ι → K)
    (hda' : beMatrix p S (bePropagate p (beBegin x v) da) *ᵥ da' = beRhs p S (bePropagate p (beBegin x v) da)) :
    energy2 S.M A (bePropagate p (bePropagate p (beBegin x v) da) da').x
      (bePropagate p (bePropagate p (beBegin x v) da) da').v ≤ energy2 S.M A x v :=
  C77_partial p S A hS hh hM hA hM0 hA0 hD x v _ _ _ (C56_two_iterations p S 0 (-A) hS x v da da' hda')

end

/-- A unit mass on a unit spring, without damping. -/
def oscillator : BEScene ℚ (Fin 1) where
  M := 1
  B := 0
  force x := -x
  stiff _ := -1

/-- The exact linear solver for one unknown. -/
def divideSolver (A : Matrix (Fin 1) (Fin 1) ℚ) (f : Fin 1 → ℚ) : Option (Fin 1 → ℚ) :=
  if A 0 0 = 0 then none else some fun i => f i / A 0 0

/-- **C77, negation**: with the default settings (one Newton iteration) and an exact linear solver, one time step of a mass on a
spring increases the energy. -/
theorem C77_violated :
    let r := (beSolve ⟨1, 1 / 10 ^ 5, 1 / 10 ^ 5, 1 / 10 ^ 15, 1 / 10 ^ 19, .beginningOfTimeStep⟩ ⟨1, 0, 0⟩ oscillator
      divideSolver newtonFresh ![1] ![1]).2
    r.x 0 = 3 / 2 ∧ r.v 0 = 1 / 2 ∧ energy2 1 1 r.x r.v = 5 / 2 ∧ energy2 1 1 (![1] : Fin 1 → ℚ) ![1] = 2 := by
  decide +kernel

/-- With two iterations the same step loses energy. -/
example :
    let r := (beSolve ⟨2, 1 / 10 ^ 5, 1 / 10 ^ 5, 1 / 10 ^ 15, 1 / 10 ^ 19, .beginningOfTimeStep⟩ ⟨1, 0, 0⟩ oscillator
      divideSolver newtonFresh ![1] ![1]).2
    r.x 0 = 1 ∧ r.v 0 = 0 ∧ energy2 1 1 r.x r.v = 1 := by
  decide +kernel

end Caribou

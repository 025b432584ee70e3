import Verif.Spec.IntegrationFactors
import Verif.Props.LegacyScene
import Mathlib.Tactic.LinearCombination

/-!
# C152: the integration factors of the legacy static solver
-/

set_option autoImplicit false
set_option linter.all false

namespace Caribou

open Spec Matrix

variable {K ι κ : Type*} [Field K] [LinearOrder K] [IsStrictOrderedRing K] [Fintype ι] [Fintype κ] [DecidableEq ι]

theorem legacy_one_iteration (p : LegacyParams K) (hn : p.iterations = 1) (S : StaticScene K ι κ) (solver : Matrix ι ι K → (ι → K) → Option (ι → K)) (dx x v : ι → K)
    (hstart : p.residual ≤ 0 ∨ p.residual < staticRhs S ⟨x, S.map x, 0⟩ ⬝ᵥ staticRhs S ⟨x, S.map x, 0⟩)
    (u : ι → K) (hu : solver (staticMatrix S ⟨x, S.map x, 0⟩) (staticRhs S ⟨x, S.map x, 0⟩) = some u) : legacyMotion p S solver dx x v = (x + u, v) := by
  have hl : (legacyStart p (legacyScene S solver) dx ⟨x, S.map x, 0⟩).converged = false := by
    simp only [legacyStart, legacyScene, leNan, Bool.and_eq_false_iff, decide_eq_false_iff_not, not_lt, not_le]
    exact hstart
  unfold legacyMotion legacySolve
  rw [hn, legacyLoop_next p _ 0 _ hl]
  have h : (legacyIteration p (legacyScene S solver) (legacyStart p (legacyScene S solver) dx ⟨x, S.map x, 0⟩)).world.x = x + u := by
    unfold legacyIteration
    simp only [legacyStart, legacyScene, hu, Option.getD_some]
    split_ifs <;> rfl
  have h2 : ∀ l : LegacyLoop (StaticWorld K ι κ) (ι → K) K, legacyLoop p (legacyScene S solver) 0 l = l := fun _ => rfl
  rw [h2, ite_self, h]

/-- **C152 (partial).** One iteration of the legacy static solver adds the solution of its linear system to the positions and leaves the velocities.  Its integration factors tell this step exactly if the
solution is zero, and the time step or the velocities are.  The factors of the positions on the positions and on the velocities, and of the velocities on themselves, are right.  Missing: the others, see
`C152_violated`. -/
theorem C152_partial (p : LegacyParams K) (hn : p.iterations = 1) (S : StaticScene K ι κ) (solver : Matrix ι ι K → (ι → K) → Option (ι → K)) (dt : K) (dx x v : ι → K)
    (hstart : p.residual ≤ 0 ∨ p.residual < staticRhs S ⟨x, S.map x, 0⟩ ⬝ᵥ staticRhs S ⟨x, S.map x, 0⟩)
    (u : ι → K) (hu : solver (staticMatrix S ⟨x, S.map x, 0⟩) (staticRhs S ⟨x, S.map x, 0⟩) = some u) :
    (legacyMotion p S solver dx x v = (x + u, v)) ∧
    (legacyFactor dt 0 0 = some 1 ∧ legacyFactor dt 0 1 = some 0 ∧ legacyFactor dt 1 1 = some 1) ∧
    (TellsStep (legacyFactor dt) (legacySolutionFactor dt) x v u (legacyMotion p S solver dx x v).1 (legacyMotion p S solver dx x v).2 ↔ u = 0 ∧ (dt = 0 ∨ v = 0)) := by
  have hm := legacy_one_iteration p hn S solver dx x v hstart u hu
  refine ⟨hm, ⟨rfl, rfl, rfl⟩, ?_⟩
  rw [hm]
  constructor
  · rintro ⟨xx, vx, ux, xv, vv, uv, h1, h2, h3, h4, h5, h6, hx, hv⟩
    obtain rfl : 1 = xx := Option.some.inj h1
    obtain rfl : dt = vx := Option.some.inj h2
    obtain rfl : dt = ux := Option.some.inj h3
    obtain rfl : 0 = xv := Option.some.inj h4
    obtain rfl : 1 = vv := Option.some.inj h5
    obtain rfl : 1 = uv := Option.some.inj h6
    have hu0 : u = 0 := funext fun i => by have := hv i; simp only [Pi.zero_apply]; linear_combination -this
    refine ⟨hu0, ?_⟩
    by_cases hd : dt = 0
    · exact Or.inl hd
    · right
      funext i
      have := hx i
      rw [hu0] at this
      simp only [Pi.add_apply, Pi.zero_apply] at this ⊢
      have h0 : dt * v i = 0 := by linear_combination -this
      exact (mul_eq_zero.1 h0).resolve_left hd
  · rintro ⟨hu0, h⟩
    refine ⟨1, dt, dt, 0, 1, 1, rfl, rfl, rfl, rfl, rfl, rfl, fun i => ?_, fun i => ?_⟩
    · rw [hu0]
      rcases h with h | h <;> rw [h] <;> simp
    · rw [hu0]; simp

/-- Violation of C152: a unit spring at rest pulled by a unit force, with the default thresholds and any time step.  The solution moves the position by one and leaves the velocity; the solver tells that
it moves the position by the time step and the velocity by one. -/
theorem C152_violated (dt : ℚ) :
    (legacyMotion { legacyDefaults with iterations := 1 } (pulledUnitSpring 1) divideSolver 0 0 0).1 0 = 1 ∧ (legacyMotion { legacyDefaults with iterations := 1 } (pulledUnitSpring 1) divideSolver 0 0 0).2 0 = 0 ∧
    legacySolutionFactor dt 0 = some dt ∧ legacySolutionFactor dt 1 = some 1 ∧ legacyPositionFactor dt = dt ∧ (legacyVelocityFactor : ℚ) = 1 ∧
    ¬TellsStep (legacyFactor dt) (legacySolutionFactor dt) 0 0 1 (legacyMotion { legacyDefaults with iterations := 1 } (pulledUnitSpring 1) divideSolver 0 0 0).1
      (legacyMotion { legacyDefaults with iterations := 1 } (pulledUnitSpring 1) divideSolver 0 0 0).2 := by
  refine ⟨by decide +kernel, rfl, rfl, rfl, rfl, rfl, fun h => ?_⟩
  have hu : divideSolver (staticMatrix (pulledUnitSpring 1) ⟨0, (pulledUnitSpring 1).map 0, 0⟩) (staticRhs (pulledUnitSpring 1) ⟨0, (pulledUnitSpring 1).map 0, 0⟩) = some 1 := by decide +kernel
  have := ((C152_partial { legacyDefaults with iterations := 1 } rfl (pulledUnitSpring 1) divideSolver dt 0 0 0 (Or.inr (by decide +kernel)) 1 hu).2.2.1 h).1
  exact one_ne_zero this

/-- Derivatives of order three and more have no effect; a negative one reads outside of the table. -/
theorem C152_range (dt : K) (i o : ℤ) : (3 ≤ i ∨ 3 ≤ o → legacyFactor dt i o = some 0) ∧ (legacyFactor dt i o = none ↔ i < 3 ∧ o < 3 ∧ (i < 0 ∨ o < 0)) := by
  refine ⟨fun h => by unfold legacyFactor; rw [if_pos h], ?_⟩
  by_cases h : 3 ≤ i ∨ 3 ≤ o
  · unfold legacyFactor
    rw [if_pos h]
    simp only [reduceCtorEq, false_iff]
    omega
  · push Not at h
    by_cases hneg : i < 0 ∨ o < 0
    · refine ⟨fun _ => ⟨h.1, h.2, hneg⟩, fun _ => ?_⟩
      unfold legacyFactor
      rw [if_neg (by push Not; exact h)]
      split <;> first | rfl | omega
    · push Not at hneg
      obtain ⟨h1, h2⟩ := h
      obtain ⟨h3, h4⟩ := hneg
      interval_cases i <;> interval_cases o <;> simp [legacyFactor]

/-- The hypotheses of `C152_partial` for a unit spring and a moving body. -/
example : legacyMotion { legacyDefaults with iterations := 1 } (pulledUnitSpring 1) divideSolver 0 ![1 / 2] ![3] = (![1 / 2] + ![1 / 2], ![3]) := by
  refine (C152_partial _ rfl _ _ (1 / 10) _ _ _ (Or.inr (by decide +kernel)) _ (by decide +kernel)).1

example : legacyFactor (1 / 10 : ℚ) (-1) 0 = none ∧ legacyFactor (1 / 10 : ℚ) 5 0 = some 0 := by decide +kernel

end Caribou

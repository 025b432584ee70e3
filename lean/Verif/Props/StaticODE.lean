import Verif.Spec.StaticODE
import Mathlib.LinearAlgebra.Matrix.ToLin
import Mathlib.LinearAlgebra.Matrix.NonsingularInverse
import Mathlib.Tactic.LinearCombination
import Mathlib.Tactic.NormNum
import Mathlib.Tactic.FinCases

/-!
# Property C84: fixed points do not move and linear scenes reach equilibrium in a static solve
-/

set_option autoImplicit false

namespace Caribou

open Spec Matrix

variable {K ι κ : Type*} [Field K] [Fintype ι] [Fintype κ] [DecidableEq ι]

omit [Fintype ι] in
/-- The assembled right-hand side is zero on the fixed degrees of freedom. -/
theorem staticRhs_fixed (S : StaticScene K ι κ) (w : StaticWorld K ι κ) (i : ι) (h : S.fixed i = true) :
    staticRhs S w i = 0 := by
  simp [staticRhs, projectResponse, h]

omit [DecidableEq ι] in
theorem staticRhs_eq_zero_iff (S : StaticScene K ι κ) (w : StaticWorld K ι κ) (hy : w.y = S.map w.x) :
    staticRhs S w = 0 ↔ InEquilibrium S w.x := by
  constructor
  · intro h i hi
    have := congrFun h i
    simpa [staticRhs, projectResponse, hi, mulVec, dotProduct, hy] using this
  · intro h
    funext i
    by_cases hi : S.fixed i = true
    · simp [staticRhs, projectResponse, hi]
    · have hi' : S.fixed i = false := by simpa using hi
      have := h i hi'
      simpa [staticRhs, projectResponse, hi', mulVec, dotProduct, hy] using this

theorem constrain_mulVec_fixed (fixed : ι → Bool) (A : Matrix ι ι K) (u : ι → K) (i : ι) (h : fixed i = true) :
    (constrainMatrix fixed A *ᵥ u) i = u i := by
  simp [constrainMatrix, mulVec, dotProduct, h]

theorem mapped_mulVec_fixed (S : StaticScene K ι κ) (hJ : MapsFreeOnly S) (B : Matrix κ κ K) (u : ι → K) (i : ι)
    (h : S.fixed i = true) : ((S.Jᵀ * B * S.J) *ᵥ u) i = 0 := by
  rw [← mulVec_mulVec, ← mulVec_mulVec]
  simp only [mulVec, dotProduct, transpose_apply, hJ _ i h, zero_mul, Finset.sum_const_zero]

/-- **C84** (one system, partial): when the mapped object does not depend on fixed degrees of freedom, a solution of the
assembled system is zero on them.  Missing: mappings which do (`C84_violated`). -/
theorem C84_system_partial (S : StaticScene K ι κ) (hJ : MapsFreeOnly S) (w : StaticWorld K ι κ) (u : ι → K)
    (hu : staticMatrix S w *ᵥ u = staticRhs S w) (i : ι) (hi : S.fixed i = true) : u i = 0 := by
  have h := congrFun hu i
  rw [staticRhs_fixed S w i hi, staticMatrix, add_mulVec, Pi.add_apply, constrain_mulVec_fixed _ _ _ _ hi,
    mapped_mulVec_fixed S hJ _ _ _ hi, add_zero] at h
  exact h

/-- On the free degrees of freedom, the system is the tangent one. -/
theorem static_system_free (S : StaticScene K ι κ) (hJ : MapsFreeOnly S) (w : StaticWorld K ι κ) (u : ι → K)
    (hu : staticMatrix S w *ᵥ u = staticRhs S w) (i : ι) (hi : S.fixed i = false) :
    staticRhs S w i + (S.stiff w.x *ᵥ u) i + (S.Jᵀ *ᵥ (S.mappedStiff w.y *ᵥ (S.J *ᵥ u))) i = 0 := by
  have hz := C84_system_partial S hJ w u hu
  have h := congrFun hu i
  rw [staticMatrix, add_mulVec, Pi.add_apply] at h
  have h1 : (constrainMatrix S.fixed (-S.stiff w.x) *ᵥ u) i = -(S.stiff w.x *ᵥ u) i := by
    simp only [mulVec, dotProduct, constrainMatrix, hi, Bool.false_or, neg_apply, ← Finset.sum_neg_distrib]
    refine Finset.sum_congr rfl fun j _ => ?_
    by_cases hj : S.fixed j = true
    · rw [hz j hj]; ring
    · simp [hj]
  rw [h1, Matrix.mul_neg, Matrix.neg_mul, neg_mulVec, Pi.neg_apply, ← mulVec_mulVec, ← mulVec_mulVec] at h
  linear_combination -h

/-- One exact step on a linear scene leads to equilibrium. -/
theorem static_step_equilibrium (S : StaticScene K ι κ) (hS : IsLinearStatic S) (hJ : MapsFreeOnly S) (w : StaticWorld K ι κ)
    (hy : w.y = S.map w.x) (u : ι → K) (hu : staticMatrix S w *ᵥ u = staticRhs S w) :
    staticRhs S (staticPropagate S w u) = 0 := by
  funext i
  by_cases hi : S.fixed i = true
  · exact staticRhs_fixed S _ i hi
  · have hi' : S.fixed i = false := by simpa using hi
    have h := static_system_free S hJ w u hu i hi'
    have e : staticRhs S (staticPropagate S w u) i =
        staticRhs S w i + (S.stiff w.x *ᵥ u) i + (S.Jᵀ *ᵥ (S.mappedStiff w.y *ᵥ (S.J *ᵥ u))) i := by
      simp only [staticRhs, projectResponse, hi', staticPropagate, hS.force, hS.map, hS.mappedForce, ← hy, mulVec_add,
        Pi.add_apply, Bool.false_eq_true, if_false]
      ring
    rw [e, h]; rfl

section Loop

variable [LinearOrder K]

omit [Fintype ι] [Fintype κ] [DecidableEq ι] in
theorem newtonCheck_keeps {σ V : Type*} (p : NewtonParams K) (env : NewtonEnv σ V K) (s : NewtonLoop σ V K) (dx : V) :
    (newtonCheck p env s dx).world = s.world ∧ (newtonCheck p env s dx).F = s.F := by
  unfold newtonCheck
  simp only
  split_ifs <;> exact ⟨rfl, rfl⟩

/-- What one iteration of the Newton solver does with the world of a static scene: the linear solver fails and the positions are
kept, or its solution is added to the positions. -/
theorem static_iteration (p : NewtonParams K) (S : StaticScene K ι κ) (solver : Matrix ι ι K → (ι → K) → Option (ι → K))
    (s : NewtonLoop (StaticWorld K ι κ) (ι → K) K) (hd : s.diverged = false) :
    let r := newtonIteration p (staticEnv S solver) s
    (solver (staticMatrix S s.world) s.F = none ∧ r.diverged = true ∧ r.world.x = s.world.x ∧ r.world.y = s.world.y) ∨
    ∃ u, solver (staticMatrix S s.world) s.F = some u ∧ r.world.x = s.world.x + u ∧ r.world.y = S.map (s.world.x + u) ∧
      (1 < p.iterations → r.F = staticRhs S r.world) := by
  intro r
  have key : ∀ t : NewtonLoop (StaticWorld K ι κ) (ι → K) K, t.world = { s.world with A := staticMatrix S s.world } →
      t.F = s.F →
      (solver (staticMatrix S s.world) s.F = none ∧ (newtonCorrect p (staticEnv S solver) t).diverged = true ∧
        (newtonCorrect p (staticEnv S solver) t).world.x = s.world.x ∧
        (newtonCorrect p (staticEnv S solver) t).world.y = s.world.y) ∨
      ∃ u, solver (staticMatrix S s.world) s.F = some u ∧
        (newtonCorrect p (staticEnv S solver) t).world.x = s.world.x + u ∧
        (newtonCorrect p (staticEnv S solver) t).world.y = S.map (s.world.x + u) ∧
        (1 < p.iterations → (newtonCorrect p (staticEnv S solver) t).F =
          staticRhs S (newtonCorrect p (staticEnv S solver) t).world) := by
    intro t hw hF
    rcases hsol : solver (staticMatrix S s.world) s.F with _ | u
    · refine Or.inl ⟨rfl, ?_⟩
      have e : (staticEnv S solver).solve ((staticEnv S solver).factorize t.world).1 t.F = (t.world, none) := by
        show (t.world, solver t.world.A t.F) = _
        rw [hw, hF, hsol]
      unfold newtonCorrect
      rw [if_pos (show ((staticEnv S solver).factorize t.world).2 = true from rfl)]
      simp only [e]
      simp only [hw, and_self]
    · refine Or.inr ⟨u, rfl, ?_⟩
      have e : (staticEnv S solver).solve ((staticEnv S solver).factorize t.world).1 t.F = (t.world, some u) := by
        show (t.world, solver t.world.A t.F) = _
        rw [hw, hF, hsol]
      have hf : ((staticEnv S solver).factorize t.world).2 = true := rfl
      by_cases hp : 1 < p.iterations
      · simp only [newtonCorrect, hf, if_true, e, if_pos hp, newtonCheck_keeps]
        refine ⟨?_, ?_, fun _ => rfl⟩ <;> simp [staticEnv, staticPropagate, hw]
      · simp only [newtonCorrect, hf, if_true, e, if_neg hp, newtonCheck_keeps]
        refine ⟨?_, ?_, fun h => absurd h hp⟩ <;> simp [staticEnv, staticPropagate, hw]
  have ha : ∃ t : NewtonLoop (StaticWorld K ι κ) (ι → K) K, newtonAssemble p (staticEnv S solver) s = t ∧
      t.world = { s.world with A := staticMatrix S s.world } ∧ t.F = s.F ∧ t.diverged = false := by
    refine ⟨_, rfl, ?_⟩
    unfold newtonAssemble
    simp only
    split_ifs <;> first | exact ⟨rfl, rfl, rfl⟩ | exact ⟨rfl, rfl, hd⟩
  obtain ⟨t, ht, hw, hF, htd⟩ := ha
  have hr : r = newtonCorrect p (staticEnv S solver) t := by
    show newtonIteration p (staticEnv S solver) s = _
    unfold newtonIteration
    simp only [ht, htd, Bool.false_eq_true, if_false]
  rw [hr]
  exact key t hw hF

/-- A property of the positions which exact steps keep, and which the first one establishes. -/
theorem static_loop (p : NewtonParams K) (S : StaticScene K ι κ) (solver : Matrix ι ι K → (ι → K) → Option (ι → K))
    (hex : SolvesExactly solver) (I : (ι → K) → Prop)
    (hI : ∀ w : StaticWorld K ι κ, w.y = S.map w.x → I w.x → ∀ u, staticMatrix S w *ᵥ u = staticRhs S w → I (w.x + u)) :
    ∀ (fuel : ℕ) (s : NewtonLoop (StaticWorld K ι κ) (ι → K) K), fuel ≤ p.iterations → s.diverged = false →
      s.world.y = S.map s.world.x → s.F = staticRhs S s.world → I s.world.x →
      I (newtonLoop p (staticEnv S solver) fuel s).world.x ∧
      (newtonLoop p (staticEnv S solver) fuel s).world.y = S.map (newtonLoop p (staticEnv S solver) fuel s).world.x := by
  intro fuel
  induction fuel with
  | zero => intro s _ _ hy _ h; exact ⟨h, hy⟩
  | succ fuel ih =>
    intro s hfuel hd hy hF h
    unfold newtonLoop
    split_ifs with hc
    · exact ⟨h, hy⟩
    · simp only
      rcases static_iteration p S solver s hd with ⟨_, hdiv, hx, hy'⟩ | ⟨u, hu, hx, hy', hrhs⟩
      · rw [if_pos hdiv, hx, hy']
        exact ⟨h, hy⟩
      · have hu' := hex _ _ _ hu
        rw [hF] at hu'
        have h' : I (newtonIteration p (staticEnv S solver) s).world.x := by
          rw [hx]; exact hI s.world hy h u hu'
        have hy2 : (newtonIteration p (staticEnv S solver) s).world.y =
            S.map (newtonIteration p (staticEnv S solver) s).world.x := by rw [hx, hy']
        split_ifs with hdv
        · exact ⟨h', hy2⟩
        · by_cases hf : fuel = 0
          · subst hf; exact ⟨h', hy2⟩
          · exact ih _ (by omega) (by simpa using hdv) hy2 (hrhs (by omega)) h'

/-- **C84** (fixed degrees of freedom, partial): whatever the forces, the settings of the Newton solver and the number of
iterations, with a linear solver that only returns solutions, the fixed degrees of freedom are at the end of a static solve where
they were at the start, and the mapped positions are the image of the positions.  Missing: mappings depending on fixed degrees of
freedom (`C84_violated`). -/
theorem C84_fixed_partial (n : NewtonParams K) (S : StaticScene K ι κ) (hJ : MapsFreeOnly S)
    (solver : Matrix ι ι K → (ι → K) → Option (ι → K)) (hex : SolvesExactly solver) (c : NewtonState K) (x : ι → K) :
    (∀ i, S.fixed i = true → (staticSolve n S solver c x).2.x i = x i) ∧
    (staticSolve n S solver c x).2.y = S.map (staticSolve n S solver c x).2.x := by
  unfold staticSolve newtonSolve
  simp only [Bool.not_true, Bool.false_eq_true, if_false]
  exact static_loop n S solver hex (fun z => ∀ i, S.fixed i = true → z i = x i)
    (fun w _ h u hu i hi => by rw [Pi.add_apply, C84_system_partial S hJ w u hu i hi, add_zero]; exact h i hi)
    _ _ le_rfl rfl rfl rfl (fun _ _ => rfl)

omit [Fintype ι] [Fintype κ] [DecidableEq ι] in
theorem newtonLoop_converged {σ V : Type*} (p : NewtonParams K) (env : NewtonEnv σ V K) (fuel : ℕ) (s : NewtonLoop σ V K)
    (h : s.converged = true) : newtonLoop p env fuel s = s := by
  cases fuel
  · rfl
  · unfold newtonLoop; rw [if_pos h]

/-- The first exact step on a linear scene leads to equilibrium and the following ones stay there. -/
theorem static_first (n : NewtonParams K) (S : StaticScene K ι κ) (hS : IsLinearStatic S)
    (hJ : MapsFreeOnly S) (solver : Matrix ι ι K → (ι → K) → Option (ι → K)) (hex : SolvesExactly solver)
    (hreg : SolvesRegular solver) (w : StaticWorld K ι κ) (hy : w.y = S.map w.x) (hA : IsUnit (staticMatrix S w)) (fuel : ℕ)
    (hn : n.iterations = fuel + 1) (s : NewtonLoop (StaticWorld K ι κ) (ι → K) K) (hsw : s.world = w)
    (hsF : s.F = staticRhs S w) (hsd : s.diverged = false) (hc : s.converged = false) :
    InEquilibrium S (newtonLoop n (staticEnv S solver) (fuel + 1) s).world.x := by
  unfold newtonLoop
  rw [if_neg (by rw [hc]; simp)]
  simp only
  obtain ⟨u, hu⟩ := hreg (staticMatrix S w) (staticRhs S w) hA
  rcases static_iteration n S solver s hsd with ⟨hnone, _⟩ | ⟨u', hu', hx, hy', hrhs⟩
  · rw [hsw, hsF, hu] at hnone
    exact absurd hnone (by simp)
  · rw [hsw, hsF] at hu'
    have hst := static_step_equilibrium S hS hJ w hy u' (hex _ _ _ hu')
    have hx' : (newtonIteration n (staticEnv S solver) s).world.x = (staticPropagate S w u').x := by
      rw [hx, hsw]; rfl
    have heq : InEquilibrium S (newtonIteration n (staticEnv S solver) s).world.x := by
      rw [hx']
      exact (staticRhs_eq_zero_iff S _ rfl).1 hst
    have hy2 : (newtonIteration n (staticEnv S solver) s).world.y =
        S.map (newtonIteration n (staticEnv S solver) s).world.x := by rw [hx, hy']
    split_ifs with hdv
    · exact heq
    · by_cases hf : fuel = 0
      · subst hf; exact heq
      · refine (static_loop n S solver hex (InEquilibrium S) (fun w hwy hI u hu => ?_) fuel _ (by omega) (by simpa using hdv)
          hy2 (hrhs (by omega)) heq).1
        exact (staticRhs_eq_zero_iff S (staticPropagate S w u) rfl).1 (static_step_equilibrium S hS hJ w hwy u hu)

/-- **C84** (equilibrium, partial): on a linear scene whose constrained stiffness has an inverse, with an exact linear solver, a
static solve of at least one iteration ends in equilibrium, unless the initial forces were below the absolute threshold: then it
does nothing.  Missing: mappings depending on fixed degrees of freedom (`C84_violated`). -/
theorem C84_equilibrium_partial (n : NewtonParams K) (hn : 1 ≤ n.iterations) (S : StaticScene K ι κ) (hS : IsLinearStatic S)
    (hJ : MapsFreeOnly S) (solver : Matrix ι ι K → (ι → K) → Option (ι → K)) (hex : SolvesExactly solver)
    (hreg : SolvesRegular solver) (x : ι → K) (hA : IsUnit (staticMatrix S ⟨x, S.map x, 0⟩)) (c : NewtonState K) :
    InEquilibrium S (staticSolve n S solver c x).2.x ∨
    ((staticSolve n S solver c x).2.x = x ∧ 0 < n.absolute ∧
      ∑ i, staticRhs S ⟨x, S.map x, 0⟩ i ^ 2 ≤ n.absolute ^ 2) := by
  obtain ⟨fuel, hfuel⟩ : ∃ fuel, n.iterations = fuel + 1 := ⟨n.iterations - 1, by omega⟩
  by_cases hc : (decide (0 < n.absolute) && leNan ((staticEnv S solver).norm2 (staticRhs S ⟨x, S.map x, 0⟩))
      (some (n.absolute * n.absolute))) = true
  · right
    have e : (staticSolve n S solver c x).2.x = x := by
      unfold staticSolve newtonSolve
      simp only [Bool.not_true, Bool.false_eq_true, if_false, hfuel]
      refine (congrArg (fun l => l.world.x) (newtonLoop_converged n (staticEnv S solver) (fuel + 1) _ ?_)).trans rfl
      exact hc
    refine ⟨e, ?_⟩
    simp only [Bool.and_eq_true, decide_eq_true_eq, leNan, staticEnv] at hc
    refine ⟨hc.1, ?_⟩
    have h2 := hc.2
    simp only [dotProduct] at h2
    simpa only [sq] using h2
  · left
    unfold staticSolve newtonSolve
    simp only [Bool.not_true, Bool.false_eq_true, if_false, hfuel]
    exact static_first n S hS hJ solver hex hreg ⟨x, S.map x, 0⟩ rfl hA fuel hfuel _ rfl rfl rfl (Bool.eq_false_iff.2 hc)

end Loop

/-- Two points on a line, held by unit springs and joined by a unit spring, the first one fixed, a unit load on the second one,
and a point in the middle held by a spring of stiffness 4. -/
def midpointScene : StaticScene ℚ (Fin 2) (Fin 1) where
  force x := ![x 1 - 2 * x 0, 1 + x 0 - 2 * x 1]
  stiff _ := !![-2, 1; 1, -2]
  map x := ![(x 0 + x 1) / 2]
  J := !![1 / 2, 1 / 2]
  mappedForce y := ![-4 * y 0]
  mappedStiff _ := !![-4]
  fixed := ![true, false]

/-- Cramer's rule for two unknowns. -/
def cramer2 (A : Matrix (Fin 2) (Fin 2) ℚ) (f : Fin 2 → ℚ) : Option (Fin 2 → ℚ) :=
  let d := A 0 0 * A 1 1 - A 0 1 * A 1 0
  if d = 0 then none else some ![(f 0 * A 1 1 - A 0 1 * f 1) / d, (A 0 0 * f 1 - f 0 * A 1 0) / d]

theorem cramer2_exact : SolvesExactly cramer2 := by
  intro A f u h
  unfold cramer2 at h
  simp only at h
  split_ifs at h with hd
  cases h
  funext i
  fin_cases i
  · show A 0 ⬝ᵥ _ = f 0
    simp only [dotProduct, Fin.sum_univ_two, Matrix.cons_val_zero, Matrix.cons_val_one]
    rw [mul_div_assoc', mul_div_assoc', ← add_div, div_eq_iff hd]
    ring
  · show A 1 ⬝ᵥ _ = f 1
    simp only [dotProduct, Fin.sum_univ_two, Matrix.cons_val_zero, Matrix.cons_val_one]
    rw [mul_div_assoc', mul_div_assoc', ← add_div, div_eq_iff hd]
    ring

theorem cramer2_regular : SolvesRegular cramer2 := by
  intro A f hA
  have hd : A 0 0 * A 1 1 - A 0 1 * A 1 0 ≠ 0 := by
    have := (Matrix.isUnit_iff_isUnit_det A).1 hA
    rw [det_fin_two] at this
    exact this.ne_zero
  unfold cramer2
  simp only [if_neg hd]
  exact ⟨_, rfl⟩

theorem midpointScene_linear : IsLinearStatic midpointScene where
  force x u := by
    funext i
    fin_cases i <;> simp [midpointScene, mulVec, dotProduct, Fin.sum_univ_two] <;> ring
  map x u := by
    funext i
    fin_cases i
    simp [midpointScene, mulVec, dotProduct, Fin.sum_univ_two]; ring
  mappedForce y u := by
    funext i
    fin_cases i
    simp [midpointScene, mulVec, dotProduct]; ring
  stiff _ _ := rfl
  mappedStiff _ _ := rfl

/-- **C84, negation**: with a linear scene, an exact linear solver and the default settings, a static solve moves a fixed degree
of freedom and does not reach equilibrium: the stiffness of mapped objects is added after the constraints were applied to the
matrix. -/
theorem C84_violated :
    IsLinearStatic midpointScene ∧ SolvesExactly cramer2 ∧ SolvesRegular cramer2 ∧ midpointScene.fixed 0 = true ∧
    (let r := (staticSolve ⟨1, 1 / 10 ^ 5, 1 / 10 ^ 5, 1 / 10 ^ 15, 1 / 10 ^ 19, .beginningOfTimeStep⟩ midpointScene cramer2
      newtonFresh ![0, 0]).2
    r.x 0 = -1 / 5 ∧ r.x 1 = 2 / 5 ∧ ¬InEquilibrium midpointScene r.x) := by
  refine ⟨midpointScene_linear, cramer2_exact, cramer2_regular, rfl, ?_⟩
  have h0 : (staticSolve ⟨1, 1 / 10 ^ 5, 1 / 10 ^ 5, 1 / 10 ^ 15, 1 / 10 ^ 19, .beginningOfTimeStep⟩ midpointScene cramer2
      newtonFresh ![0, 0]).2.x 0 = -1 / 5 := by decide +kernel
  have h1 : (staticSolve ⟨1, 1 / 10 ^ 5, 1 / 10 ^ 5, 1 / 10 ^ 15, 1 / 10 ^ 19, .beginningOfTimeStep⟩ midpointScene cramer2
      newtonFresh ![0, 0]).2.x 1 = 2 / 5 := by decide +kernel
  refine ⟨h0, h1, fun h => ?_⟩
  have := h 1 rfl
  revert this
  generalize (staticSolve ⟨1, 1 / 10 ^ 5, 1 / 10 ^ 5, 1 / 10 ^ 15, 1 / 10 ^ 19, .beginningOfTimeStep⟩ midpointScene cramer2
      newtonFresh ![0, 0]).2.x = x at h0 h1
  simp only [midpointScene, Fin.sum_univ_one, Matrix.cons_val, Matrix.of_apply, h0, h1]
  norm_num

/-- The same scene without the spring on the middle: a point mapped from the free end only. -/
def endScene : StaticScene ℚ (Fin 2) (Fin 1) :=
  { midpointScene with map := fun x => ![x 1], J := !![0, 1] }

example :
    MapsFreeOnly endScene ∧
    (let r := (staticSolve ⟨3, 1 / 10 ^ 5, 1 / 10 ^ 5, 1 / 10 ^ 15, 1 / 10 ^ 19, .beginningOfTimeStep⟩ endScene cramer2
      newtonFresh ![2, 0]).2
    r.x 0 = 2 ∧ r.x 1 = 1 / 2 ∧ r.y 0 = 1 / 2) := by
  refine ⟨?_, by decide +kernel⟩
  intro k i hi
  fin_cases i
  · fin_cases k; simp [endScene]
  · simp [endScene, midpointScene] at hi

end Caribou

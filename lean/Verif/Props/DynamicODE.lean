import Verif.Spec.DynamicODE
import Verif.Props.BackwardEuler
import Verif.Props.StaticODE

/-!
# Property C96: time steps keep fixed points, carry mapped points along and balance the free degrees of freedom
-/

set_option autoImplicit false

namespace Caribou

open Spec Matrix

section Loop

variable {K σ ι : Type*} [Field K] [LinearOrder K] [Fintype ι]

/-- A Newton environment made of a right-hand side, a matrix, a propagation and a linear solver. -/
def systemEnv (R : σ → ι → K) (A : σ → Matrix ι ι K) (prop : σ → (ι → K) → σ)
    (solver : Matrix ι ι K → (ι → K) → Option (ι → K)) : NewtonEnv (σ × Matrix ι ι K) (ι → K) K where
  rhs w := (w, R w.1)
  matrix w := (w.1, A w.1)
  analyze w := (w, true)
  factorize w := (w, true)
  solve w f := (w, solver w.2 f)
  propagate w da := (prop w.1 da, w.2)
  zero := 0
  add := (· + ·)
  norm2 v := some (dotProduct v v)

theorem system_iteration (n : NewtonParams K) (R : σ → ι → K) (A : σ → Matrix ι ι K) (prop : σ → (ι → K) → σ)
    (solver : Matrix ι ι K → (ι → K) → Option (ι → K))
    (s : NewtonLoop (σ × Matrix ι ι K) (ι → K) K) (hd : s.diverged = false) :
    let r := newtonIteration n (systemEnv R A prop solver) s
    (solver (A s.world.1) s.F = none ∧ r.diverged = true ∧ r.world.1 = s.world.1) ∨
    ∃ u, solver (A s.world.1) s.F = some u ∧ r.world.1 = prop s.world.1 u ∧
      (1 < n.iterations → r.F = R r.world.1) := by
  intro r
  have key : ∀ t : NewtonLoop (σ × Matrix ι ι K) (ι → K) K, t.world = (s.world.1, A s.world.1) →
      t.F = s.F →
      (solver (A s.world.1) s.F = none ∧ (newtonCorrect n (systemEnv R A prop solver) t).diverged = true ∧
        (newtonCorrect n (systemEnv R A prop solver) t).world.1 = s.world.1) ∨
      ∃ u, solver (A s.world.1) s.F = some u ∧
        (newtonCorrect n (systemEnv R A prop solver) t).world.1 = prop s.world.1 u ∧
        (1 < n.iterations → (newtonCorrect n (systemEnv R A prop solver) t).F =
          R (newtonCorrect n (systemEnv R A prop solver) t).world.1) := by
    intro t hw hF
    rcases hsol : solver (A s.world.1) s.F with _ | u
    · refine Or.inl ⟨rfl, ?_⟩
      have e : (systemEnv R A prop solver).solve ((systemEnv R A prop solver).factorize t.world).1 t.F = (t.world, none) := by
        show (t.world, solver t.world.2 t.F) = _
        rw [hw, hF, hsol]
      unfold newtonCorrect
      rw [if_pos (show ((systemEnv R A prop solver).factorize t.world).2 = true from rfl)]
      simp only [e]
      simp only [hw, and_self]
    · refine Or.inr ⟨u, rfl, ?_⟩
      have e : (systemEnv R A prop solver).solve ((systemEnv R A prop solver).factorize t.world).1 t.F = (t.world, some u) := by
        show (t.world, solver t.world.2 t.F) = _
        rw [hw, hF, hsol]
      have hf : ((systemEnv R A prop solver).factorize t.world).2 = true := rfl
      by_cases hp : 1 < n.iterations
      · simp only [newtonCorrect, hf, if_true, e, if_pos hp, newtonCheck_keeps]
        refine ⟨?_, fun _ => rfl⟩
        simp [systemEnv, hw]
      · simp only [newtonCorrect, hf, if_true, e, if_neg hp, newtonCheck_keeps]
        refine ⟨?_, fun h => absurd h hp⟩
        simp [systemEnv, hw]
  have ha : ∃ t : NewtonLoop (σ × Matrix ι ι K) (ι → K) K, newtonAssemble n (systemEnv R A prop solver) s = t ∧
      t.world = (s.world.1, A s.world.1) ∧ t.F = s.F ∧ t.diverged = false := by
    refine ⟨_, rfl, ?_⟩
    unfold newtonAssemble
    simp only
    split_ifs <;> first | exact ⟨rfl, rfl, rfl⟩ | exact ⟨rfl, rfl, hd⟩
  obtain ⟨t, ht, hw, hF, htd⟩ := ha
  have hr : r = newtonCorrect n (systemEnv R A prop solver) t := by
    show newtonIteration n (systemEnv R A prop solver) s = _
    unfold newtonIteration
    simp only [ht, htd, Bool.false_eq_true, if_false]
  rw [hr]
  exact key t hw hF

/-- A property of the states which exact increments keep. -/
theorem system_loop (n : NewtonParams K) (R : σ → ι → K) (A : σ → Matrix ι ι K) (prop : σ → (ι → K) → σ)
    (solver : Matrix ι ι K → (ι → K) → Option (ι → K)) (hex : SolvesExactly solver) (I : σ → Prop)
    (hI : ∀ w : σ, I w → ∀ u, A w *ᵥ u = R w → I (prop w u)) :
    ∀ (fuel : ℕ) (s : NewtonLoop (σ × Matrix ι ι K) (ι → K) K), fuel ≤ n.iterations → s.diverged = false →
      s.F = R s.world.1 → I s.world.1 → I (newtonLoop n (systemEnv R A prop solver) fuel s).world.1 := by
  intro fuel
  induction fuel with
  | zero => intro s _ _ _ h; exact h
  | succ fuel ih =>
    intro s hfuel hd hF h
    unfold newtonLoop
    split_ifs with hc
    · exact h
    · simp only
      rcases system_iteration n R A prop solver s hd with ⟨_, hdiv, hx⟩ | ⟨u, hu, hx, hrhs⟩
      · rw [if_pos hdiv, hx]
        exact h
      · have hu' := hex _ _ _ hu
        rw [hF] at hu'
        have h' : I (newtonIteration n (systemEnv R A prop solver) s).world.1 := by
          rw [hx]; exact hI _ h u hu'
        split_ifs with hdv
        · exact h'
        · by_cases hf : fuel = 0
          · subst hf; exact h'
          · exact ih _ (by omega) (by simpa using hdv) (hrhs (by omega)) h'

/-- The same for a whole solve. -/
theorem system_solve (n : NewtonParams K) (R : σ → ι → K) (A : σ → Matrix ι ι K) (prop : σ → (ι → K) → σ)
    (solver : Matrix ι ι K → (ι → K) → Option (ι → K)) (hex : SolvesExactly solver) (I : σ → Prop)
    (hI : ∀ w : σ, I w → ∀ u, A w *ᵥ u = R w → I (prop w u)) (c : NewtonState K) (w0 : σ) (A0 : Matrix ι ι K) (h0 : I w0) :
    I (newtonSolve n (systemEnv R A prop solver) true c (w0, A0)).2.1.1 := by
  unfold newtonSolve
  simp only [Bool.not_true, Bool.false_eq_true, if_false]
  exact system_loop n R A prop solver hex I hI _ _ le_rfl rfl rfl h0

end Loop

section

variable {K ι κ : Type*} [Field K] [Fintype ι] [Fintype κ] [DecidableEq ι]

/-- **C96** (one system, partial): when the mapped object does not depend on fixed degrees of freedom, a solution of the assembled system
gives them no acceleration.  Missing: mappings which do (`C96_mapped_violated`). -/
theorem C96_system_partial (p : BEParams K) (S : DynScene K ι κ) (hJ : ∀ k i, S.fixed i = true → S.J k i = 0) (s : DynState K ι κ)
    (u : ι → K) (hu : dynMatrix p S s *ᵥ u = dynRhs p S s) (i : ι) (hi : S.fixed i = true) : u i = 0 := by
  have h := congrFun hu i
  have h1 : dynRhs p S s i = 0 := by simp [dynRhs, projectResponse, hi]
  have h2 : ∀ B : Matrix κ κ K, ((S.Jᵀ * B * S.J) *ᵥ u) i = 0 := by
    intro B
    rw [← mulVec_mulVec, ← mulVec_mulVec]
    simp only [mulVec, dotProduct, transpose_apply, hJ _ i hi, zero_mul, Finset.sum_const_zero]
  rw [h1, dynMatrix, add_mulVec, Pi.add_apply, constrain_mulVec_fixed _ _ _ _ hi, h2, add_zero] at h
  exact h

/-- On a linear scene, from a state whose velocities and positions follow the accumulated acceleration, an exact solve makes the
right-hand side vanish. -/
theorem dyn_step_zero (p : BEParams K) (S : DynScene K ι κ) (hS : IsLinearDynamic S) (hD : MappedDamping p S)
    (hJ : ∀ k i, S.fixed i = true → S.J k i = 0) (s : DynState K ι κ) (hv : s.v = s.v0 + p.h • s.a) (hx : s.x = s.x0 + p.h • s.v)
    (hy : s.y = S.map s.x) (u : ι → K) (hu : dynMatrix p S s *ᵥ u = dynRhs p S s) :
    dynRhs p S (dynPropagate p S s u) = 0 := by
  have hz := C96_system_partial p S hJ s u hu
  funext i
  by_cases hi : S.fixed i = true
  · simp [dynRhs, projectResponse, hi]
  have hi' : S.fixed i = false := by simpa using hi
  have h := congrFun hu i
  have e1 : (constrainMatrix S.fixed (beMatrix p S.toBEScene s.toBEState) *ᵥ u) i = (beMatrix p S.toBEScene s.toBEState *ᵥ u) i := by
    simp only [mulVec, dotProduct, constrainMatrix, hi', Bool.false_or]
    refine Finset.sum_congr rfl fun j _ => ?_
    by_cases hj : S.fixed j = true
    · rw [hz j hj]; ring
    · simp [hj]
  have hxn : (bePropagate p s.toBEState u).x = s.x + (p.h * p.h) • u := by
    simp only [bePropagate, hx, hv]; module
  have e2 : beRhs p S.toBEScene (bePropagate p s.toBEState u) =
      beRhs p S.toBEScene s.toBEState - beMatrix p S.toBEScene s.toBEState *ᵥ u := by
    have hf := hS.force s.x ((p.h * p.h) • u)
    have hst := hS.stiff s.x ((p.h * p.h) • u)
    simp only [beRhs, hxn, addMBKdx]
    rw [hf, hst]
    simp only [beMatrix, bePropagate, mulVec_add, mulVec_smul, add_mulVec, smul_mulVec]
    module
  have e3 : S.mappedForce (dynPropagate p S s u).y + S.mappedMBK p (dynPropagate p S s u) =
      S.mappedForce s.y + S.mappedMBK p s + (p.h * (p.h + p.rayleighStiffness)) • (S.mappedStiff s.y *ᵥ (S.J *ᵥ u)) := by
    have hyn : (dynPropagate p S s u).y = s.y + S.J *ᵥ ((p.h * p.h) • u) := by
      show S.map (bePropagate p s.toBEState u).x = _
      rw [hxn, hS.map, ← hy]
    rw [hD, hD, hyn, hS.mappedForce, hS.mappedStiff]
    simp only [dynPropagate, bePropagate, mulVec_add, mulVec_smul]
    module
  have e4 : ((S.Jᵀ * ((-p.h * (p.h + p.rayleighStiffness)) • S.mappedStiff s.y) * S.J) *ᵥ u) i =
      -(p.h * (p.h + p.rayleighStiffness)) * (S.Jᵀ *ᵥ (S.mappedStiff s.y *ᵥ (S.J *ᵥ u))) i := by
    rw [← mulVec_mulVec, ← mulVec_mulVec, smul_mulVec, mulVec_smul, Pi.smul_apply, smul_eq_mul]
    ring
  rw [dynMatrix, add_mulVec, Pi.add_apply, e1, e4] at h
  have e5 : dynRhs p S (dynPropagate p S s u) i = beRhs p S.toBEScene (bePropagate p s.toBEState u) i +
      (S.Jᵀ *ᵥ (S.mappedForce (dynPropagate p S s u).y + S.mappedMBK p (dynPropagate p S s u))) i := by
    simp only [dynRhs, projectResponse, hi']
    rfl
  have e6 : dynRhs p S s i = beRhs p S.toBEScene s.toBEState i + (S.Jᵀ *ᵥ (S.mappedForce s.y + S.mappedMBK p s)) i := by
    simp only [dynRhs, projectResponse, hi']
    rfl
  rw [e5, e2, e3, mulVec_add, mulVec_smul, Pi.add_apply, Pi.smul_apply, smul_eq_mul, Pi.sub_apply, Pi.zero_apply]
  rw [e6] at h
  linear_combination -h

/-- The right-hand side of a consistent state vanishes when the equation of motion holds on the free degrees of freedom. -/
theorem dynRhs_eq_zero_iff (p : BEParams K) (S : DynScene K ι κ) (hD : MappedDamping p S) (s : DynState K ι κ)
    (hv : s.v = s.v0 + p.h • s.a) (hy : s.y = S.map s.x) :
    dynRhs p S s = 0 ↔ InMotionBalance p S s.x s.v s.a := by
  have key : ∀ i, S.fixed i = false → dynRhs p S s i = unbalanced p S.toBEScene s.x s.v s.a i +
      (∑ k, S.J k i * (S.mappedForce (S.map s.x) k + p.rayleighStiffness * (S.mappedStiff (S.map s.x)).mulVec (S.J.mulVec s.v) k)) := by
    intro i hi
    have h1 : dynRhs p S s i = beRhs p S.toBEScene s.toBEState i + (S.Jᵀ *ᵥ (S.mappedForce s.y + S.mappedMBK p s)) i := by
      simp only [dynRhs, projectResponse, hi]
      rfl
    rw [h1, C56_residual p S.toBEScene s.toBEState hv, hD, hy, hv]
    rfl
  constructor
  · intro h i hi
    rw [← key i hi, h]; rfl
  · intro h
    funext i
    by_cases hi : S.fixed i = true
    · simp [dynRhs, projectResponse, hi]
    · have hi' : S.fixed i = false := by simpa using hi
      rw [key i hi', h i hi']; rfl

variable [LinearOrder K]

/-- **C96** (one time step, partial): whatever the forces and the settings, with a linear solver that only returns solutions, a time step
leaves everything as it was, or it moves the fixed degrees of freedom with the velocity they had, which they keep; in both cases the
mapped object follows.  Missing: mappings depending on fixed degrees of freedom (`C96_mapped_violated`). -/
theorem C96_step_partial (n : NewtonParams K) (p : BEParams K) (S : DynScene K ι κ) (hJ : ∀ k i, S.fixed i = true → S.J k i = 0)
    (solver : Matrix ι ι K → (ι → K) → Option (ι → K)) (hex : SolvesExactly solver) (c : NewtonState K) (x v : ι → K) :
    let r := (dynSolve n p S solver c x v (S.map x) (S.J *ᵥ v)).2
    ((r.x = x ∧ r.v = v) ∨ ∀ i, S.fixed i = true → r.x i = x i + p.h * v i ∧ r.v i = v i) ∧
    r.y = S.map r.x ∧ r.w = S.J *ᵥ r.v := by
  intro r
  have h := system_solve n (dynRhs p S) (dynMatrix p S) (dynPropagate p S) solver hex
    (fun s => s.x0 = x ∧ s.v0 = v ∧ (∀ i, S.fixed i = true → s.a i = 0) ∧
      ((s.x = x ∧ s.v = v) ∨ (s.v = s.v0 + p.h • s.a ∧ s.x = s.x0 + p.h • s.v)) ∧ s.y = S.map s.x ∧ s.w = S.J *ᵥ s.v)
    (fun s hs u hu => by
      obtain ⟨h1, h2, h3, _, _, _⟩ := hs
      refine ⟨h1, h2, fun i hi => ?_, Or.inr ⟨rfl, rfl⟩, rfl, rfl⟩
      show s.a i + u i = 0
      rw [h3 i hi, C96_system_partial p S hJ s u hu i hi, add_zero])
    c { toBEState := beBegin x v, y := S.map x, w := S.J *ᵥ v } 0
    ⟨rfl, rfl, fun _ _ => rfl, Or.inl ⟨rfl, rfl⟩, rfl, rfl⟩
  obtain ⟨h1, h2, h3, h4, h5, h6⟩ := h
  refine ⟨?_, h5, h6⟩
  rcases h4 with h4 | ⟨h4, h4'⟩
  · exact Or.inl h4
  · refine Or.inr fun i hi => ?_
    have hv : r.v i = v i := by
      have := congrFun h4 i
      rw [Pi.add_apply, Pi.smul_apply, h3 i hi, smul_zero, add_zero, h2] at this
      exact this
    refine ⟨?_, hv⟩
    have := congrFun h4' i
    rw [Pi.add_apply, Pi.smul_apply, smul_eq_mul, h1] at this
    rw [← hv]
    exact this

/-- **C96** (simulations, partial): over any number of time steps, each with its settings and forces, fixed degrees of freedom which are
at rest at the beginning stay at rest where they are, and the mapped object is at the image of the others.  Missing: fixed degrees of
freedom with a velocity (`C96_drift_violated`), mappings depending on fixed degrees of freedom (`C96_mapped_violated`). -/
theorem C96_fixed_partial (map : (ι → K) → κ → K) (J : Matrix κ ι K) (fixed : ι → Bool) (hJ : ∀ k i, fixed i = true → J k i = 0)
    (solver : Matrix ι ι K → (ι → K) → Option (ι → K)) (hex : SolvesExactly solver) (steps : List (TimeStep K ι κ))
    (hscene : ∀ t ∈ steps, t.scene.map = map ∧ t.scene.J = J ∧ t.scene.fixed = fixed) (x v : ι → K)
    (hv : ∀ i, fixed i = true → v i = 0) :
    let r := steps.foldl (fun (s : DynState K ι κ) t => (dynSolve t.newton t.params t.scene solver t.solver s.x s.v s.y s.w).2)
      { toBEState := beBegin x v, y := map x, w := J *ᵥ v }
    (∀ i, fixed i = true → r.x i = x i ∧ r.v i = 0) ∧ r.y = map r.x ∧ r.w = J *ᵥ r.v := by
  have key : ∀ (L : List (TimeStep K ι κ)), (∀ t ∈ L, t.scene.map = map ∧ t.scene.J = J ∧ t.scene.fixed = fixed) →
      ∀ s : DynState K ι κ, ((∀ i, fixed i = true → s.x i = x i ∧ s.v i = 0) ∧ s.y = map s.x ∧ s.w = J *ᵥ s.v) →
      let r := L.foldl (fun (s : DynState K ι κ) t => (dynSolve t.newton t.params t.scene solver t.solver s.x s.v s.y s.w).2) s
      (∀ i, fixed i = true → r.x i = x i ∧ r.v i = 0) ∧ r.y = map r.x ∧ r.w = J *ᵥ r.v := by
    intro L
    induction L with
    | nil => intro _ s hs; exact hs
    | cons t L ih =>
      intro hL s ⟨h1, h2, h3⟩
      obtain ⟨e1, e2, e3⟩ := hL t List.mem_cons_self
      refine ih (fun t' ht' => hL t' (List.mem_cons_of_mem _ ht')) _ ?_
      have h := C96_step_partial t.newton t.params t.scene (by rw [e2, e3]; exact hJ) solver hex t.solver s.x s.v
      rw [e1, e2, ← h2, ← h3] at h
      obtain ⟨h4, h5, h6⟩ := h
      refine ⟨fun i hi => ?_, h5, h6⟩
      rcases h4 with ⟨h4, h4'⟩ | h4
      · rw [h4, h4']; exact h1 i hi
      · obtain ⟨q1, q2⟩ := h4 i (by rw [e3]; exact hi)
        rw [q1, q2, (h1 i hi).1, (h1 i hi).2]
        simp
  exact key steps hscene _ ⟨fun i hi => ⟨rfl, hv i hi⟩, rfl, rfl⟩

omit [LinearOrder K] in
/-- **C96** (motion, partial): on a linear scene, the state reached by two exact solves satisfies the equation of motion on all free degrees
of freedom, forces and damping of the mapped object included.  Missing: the first solve of a time step (`C56_violated`) and mappings
depending on fixed degrees of freedom. -/
theorem C96_motion_partial (p : BEParams K) (S : DynScene K ι κ) (hS : IsLinearDynamic S) (hD : MappedDamping p S)
    (hJ : ∀ k i, S.fixed i = true → S.J k i = 0) (s : DynState K ι κ) (u u' : ι → K)
    (hu' : dynMatrix p S (dynPropagate p S s u) *ᵥ u' = dynRhs p S (dynPropagate p S s u)) :
    let r := dynPropagate p S (dynPropagate p S s u) u'
    InMotionBalance p S r.x r.v r.a ∧ r.v = s.v0 + p.h • r.a ∧ r.x = s.x0 + p.h • r.v :=
  ⟨(dynRhs_eq_zero_iff p S hD _ rfl rfl).1 (dyn_step_zero p S hS hD hJ _ rfl rfl rfl u' hu'), rfl, rfl⟩

end

/-- Two unit masses without springs, the first one fixed but with a unit velocity, a unit load on the second one. -/
def driftScene : DynScene ℚ (Fin 2) (Fin 1) where
  M := 1
  B := 0
  force _ := ![0, 1]
  stiff _ := 0
  map x := ![x 1]
  J := !![0, 1]
  mappedForce _ := 0
  mappedStiff _ := 0
  mappedMBK _ _ := 0
  fixed := ![true, false]

theorem driftScene_free : ∀ k i, driftScene.fixed i = true → driftScene.J k i = 0 := by
  intro k i
  fin_cases k
  fin_cases i <;> simp [driftScene]

/-- **C96, negation** (velocity): a fixed degree of freedom with a velocity moves with it; nothing projects velocities on the
constraints. -/
theorem C96_drift_violated :
    let r := (dynSolve ⟨1, 1 / 10 ^ 5, 1 / 10 ^ 5, 1 / 10 ^ 15, 1 / 10 ^ 19, .beginningOfTimeStep⟩ ⟨1 / 10, 0, 0⟩ driftScene cramer2
      newtonFresh 0 ![1, 0] 0 0).2
    driftScene.fixed 0 = true ∧ (∀ k i, driftScene.fixed i = true → driftScene.J k i = 0) ∧ r.x 0 = 1 / 10 ∧ r.v 0 = 1 := by
  intro r
  refine ⟨rfl, driftScene_free, ?_, ?_⟩ <;> decide +kernel

/-- Two unit masses at rest held by unit springs and joined by a unit spring, the first one fixed, a unit load on the second one, and a
point in the middle held by a spring of stiffness 4. -/
def midpointDynamic : DynScene ℚ (Fin 2) (Fin 1) where
  M := 1
  B := 0
  force x := ![x 1 - 2 * x 0, 1 + x 0 - 2 * x 1]
  stiff _ := !![-2, 1; 1, -2]
  map x := ![(x 0 + x 1) / 2]
  J := !![1 / 2, 1 / 2]
  mappedForce y := ![-4 * y 0]
  mappedStiff _ := !![-4]
  mappedMBK _ _ := 0
  fixed := ![true, false]

/-- **C96, negation** (mappings): with a mapped object that depends on a fixed degree of freedom, a time step moves this one although it is
at rest: the stiffness of mapped objects is added after the constraints were applied to the matrix. -/
theorem C96_mapped_violated :
    let r := (dynSolve ⟨1, 1 / 10 ^ 5, 1 / 10 ^ 5, 1 / 10 ^ 15, 1 / 10 ^ 19, .beginningOfTimeStep⟩ ⟨1, 0, 0⟩ midpointDynamic cramer2
      newtonFresh 0 0 0 0).2
    midpointDynamic.fixed 0 = true ∧ r.x 0 ≠ 0 ∧ r.v 0 ≠ 0 := by
  decide +kernel

/-- Three time steps of the first scene with the fixed point at rest: the hypotheses of the theorems are met, and the free point moves. -/
example :
    let t : TimeStep ℚ (Fin 2) (Fin 1) :=
      ⟨⟨1, 1 / 10 ^ 5, 1 / 10 ^ 5, 1 / 10 ^ 15, 1 / 10 ^ 19, .beginningOfTimeStep⟩, ⟨1 / 10, 0, 0⟩, driftScene, newtonFresh⟩
    let r := [t, t, t].foldl (fun (s : DynState ℚ (Fin 2) (Fin 1)) t =>
      (dynSolve t.newton t.params t.scene cramer2 t.solver s.x s.v s.y s.w).2)
      { toBEState := beBegin ![5, 0] 0, y := driftScene.map ![5, 0], w := driftScene.J *ᵥ 0 }
    (r.x 0 = 5 ∧ r.v 0 = 0) ∧ r.x 1 = 6 / 100 ∧ IsLinearDynamic driftScene ∧ MappedDamping ⟨1 / 10, 0, 0⟩ driftScene := by
  intro t r
  refine ⟨(C96_fixed_partial driftScene.map driftScene.J driftScene.fixed driftScene_free cramer2 cramer2_exact [t, t, t]
    (by simp [t]) ![5, 0] 0 (fun _ _ => rfl)).1 0 rfl, by decide +kernel, ?_, ?_⟩
  · refine ⟨fun x u => ?_, fun x u => ?_, fun _ _ => ?_, fun _ _ => rfl, fun _ _ => rfl⟩
    · simp [driftScene]
    · funext i; fin_cases i; simp [driftScene, mulVec, dotProduct, Fin.sum_univ_two]
    · simp [driftScene]
  · intro s
    simp [driftScene]

end Caribou

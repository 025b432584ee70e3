import Verif.Lemmas.FenicsScript
import Verif.Props.Hyperelastic

/-!
# Property C147: the reference computation solves the problem of the plugin
-/

set_option autoImplicit false
set_option linter.all false

namespace Caribou

open Spec Matrix

/-- **C147** (the derivative): the Jacobian of the script is the derivative of its residual. -/
theorem C147_derivative {N n M : ℕ} (m l : ℝ) (idx : Fin M → Fin n → Fin N) (qs : Fin M → List (QNode n)) (load : Dof N → ℝ) (fixed : Fin N → Bool) (u v : Dof N → ℝ) (d : Dof N) :
    HasDerivAt (fun t : ℝ => (Fenics.problem m l idx qs load fixed).R (u + t • v) d) (((Fenics.problem m l idx qs load fixed).J u).mulVec v d) 0 := by
  have hslope : ∀ (q : QNode n) (w : Fin n → Fin 3 → ℝ) (u : Fin n → Fin 3 → ℝ) (v : Fin n → Fin 3 → ℝ), Fenics.workSlope m l q.dN u v w =
      ∑ j, ∑ b, Fenics.workSlope m l q.dN u (Fenics.basis j b) w * v j b := by
    intro q w u v
    have hg : ∀ v : Fin n → Fin 3 → ℝ, Fenics.nablaGrad q.dN v = ∑ j, ∑ b, v j b • Fenics.nablaGrad q.dN (Fenics.basis j b) := by
      intro v
      ext i k
      simp only [Matrix.sum_apply, Matrix.smul_apply, smul_eq_mul, Fenics.nablaGrad_basis, mul_ite, mul_zero, Finset.sum_ite_eq, Finset.mem_univ, if_true]
      simp only [Fenics.nablaGrad, Matrix.of_apply]
      exact Finset.sum_congr rfl fun j _ => mul_comm _ _
    let L : Mat3 →ₗ[ℝ] ℝ :=
      { toFun := fun V => Fenics.inner (Fenics.stress m l ((1 / 2 : ℝ) • (V.transpose * Fenics.defGrad q.dN u + (Fenics.defGrad q.dN u).transpose * V))) (Fenics.strainSlope q.dN u w) +
          Fenics.inner (Fenics.stress m l (Fenics.strain q.dN u)) ((1 / 2 : ℝ) • ((Fenics.nablaGrad q.dN w).transpose * V + V.transpose * Fenics.nablaGrad q.dN w))
        map_add' := by
          intro A B
          simp only [Fenics.inner, Fenics.stress, Matrix.trace, Matrix.diag_apply, Matrix.add_apply, Matrix.smul_apply, Matrix.mul_apply, Matrix.transpose_apply, smul_eq_mul, Fin.sum_univ_three]
          ring
        map_smul' := by
          intro c A
          simp only [Fenics.inner, Fenics.stress, Matrix.trace, Matrix.diag_apply, Matrix.add_apply, Matrix.smul_apply, Matrix.mul_apply, Matrix.transpose_apply, smul_eq_mul, Fin.sum_univ_three,
            RingHom.id_apply]
          ring }
    have hL : ∀ v, Fenics.workSlope m l q.dN u v w = L (Fenics.nablaGrad q.dN v) := fun v => rfl
    rw [hL, hg v, map_sum]
    refine Finset.sum_congr rfl fun j _ => ?_
    rw [map_sum]
    refine Finset.sum_congr rfl fun b _ => ?_
    rw [map_smul, hL, smul_eq_mul, mul_comm]
  have hel : ∀ (e : Fin M) (i : Fin n) (a : Fin 3), HasDerivAt (fun t : ℝ => Fenics.elementResidual m l (qs e) (fun k b => (u + t • v) (idx e k, b)) i a)
      (∑ j, ∑ b, Fenics.elementJacobian m l (qs e) (fun k b => u (idx e k, b)) i a j b * v (idx e j, b)) 0 := by
    intro e i a
    have hd : HasDerivAt (fun t : ℝ => Fenics.elementResidual m l (qs e) (fun k b => (u + t • v) (idx e k, b)) i a)
        ((qs e).map fun g => Fenics.workSlope m l g.dN (fun k b => u (idx e k, b)) (fun k b => v (idx e k, b)) (Fenics.basis i a) * (g.detJ * g.weight)).sum 0 := by
      refine list_sum_deriv (qs e) (fun g t => Fenics.work m l g.dN (fun k b => (u + t • v) (idx e k, b)) (Fenics.basis i a) * (g.detJ * g.weight)) _ 0 fun g _ => ?_
      exact (Fenics.work_hasDeriv m l g.dN (fun k b => u (idx e k, b)) (fun k b => v (idx e k, b)) (Fenics.basis i a)).mul_const _
    refine hd.congr_deriv ?_
    simp only [Fenics.elementJacobian]
    have e1 : ∀ j, (∑ b, ((qs e).map fun g => Fenics.workSlope m l g.dN (fun k b => u (idx e k, b)) (Fenics.basis j b) (Fenics.basis i a) * (g.detJ * g.weight)).sum * v (idx e j, b)) =
        ((qs e).map fun g => ∑ b, Fenics.workSlope m l g.dN (fun k b => u (idx e k, b)) (Fenics.basis j b) (Fenics.basis i a) * (g.detJ * g.weight) * v (idx e j, b)).sum := by
      intro j
      rw [← list_sum_finset]
      exact Finset.sum_congr rfl fun b _ => by rw [list_sum_mul_right]
    simp only [e1]
    rw [list_sum_finset]
    refine list_sum_congr _ _ _ fun g _ => ?_
    rw [hslope, Finset.sum_mul]
    refine Finset.sum_congr rfl fun j _ => ?_
    rw [Finset.sum_mul]
    exact Finset.sum_congr rfl fun b _ => by ring
  have htot : HasDerivAt (fun t : ℝ => (Fenics.problem m l idx qs load fixed).R (u + t • v) d)
      (∑ e, ∑ i, if idx e i = d.1 then ∑ j, ∑ b, Fenics.elementJacobian m l (qs e) (fun k b => u (idx e k, b)) i d.2 j b * v (idx e j, b) else 0) 0 := by
    simp only [Fenics.problem]
    refine HasDerivAt.sub_const _ (HasDerivAt.fun_sum fun e _ => HasDerivAt.fun_sum fun i _ => ?_)
    by_cases h : idx e i = d.1
    · simp only [h, if_true]; exact hel e i d.2
    · simp only [h, if_false]; exact hasDerivAt_const _ _
  refine htot.congr_deriv ?_
  simp only [Fenics.problem, mulVec, dotProduct, Matrix.of_apply, Finset.sum_mul]
  symm
  rw [Finset.sum_comm]
  refine Finset.sum_congr rfl fun e _ => ?_
  rw [Finset.sum_comm]
  refine Finset.sum_congr rfl fun i _ => ?_
  rw [Finset.sum_comm]
  by_cases h : idx e i = d.1
  · simp only [h, if_true, true_and]
    refine Finset.sum_congr rfl fun j _ => ?_
    rw [Fintype.sum_prod_type, Finset.sum_eq_single (idx e j)]
    · simp
    · intro c _ hc
      simp [Ne.symm hc]
    · simp
  · simp [h]

/-- **C147** (one problem): on every mesh of solid elements without degenerate quadrature points, with the same quadrature, the force field with the Saint Venant-Kirchhoff material and the forms of
the script describe one problem, although the script works with the transposed gradient. -/
theorem C147_same (T : SolidType) {N M : ℕ} (idx : Fin M → Fin T.numNodes → Fin N) (hinj : ∀ e, Function.Injective (idx e)) (X : Fin N → Fin 3 → ℝ)
    (hJ : ∀ e, ∀ g ∈ T.gauss, (T.elem.jacobian (fun i => X (idx e i)) g.position : Mat3).det ≠ 0) (young poisson : ℝ) (load : Dof N → ℝ) (fixed : Fin N → Bool) :
    SameProblem (fun d => X d.1 d.2)
      (withLoad (hyperScene (HyperMesh.initialize T.elem T.gauss idx X) (saintVenantKirchhoff (lameMu young poisson) (lameL young poisson)) fixed) load)
      (Fenics.problem (Fenics.mu young poisson) (Fenics.lmbda young poisson) idx (fun e => getGaussNodes T.elem T.gauss fun i => X (idx e i)) load fixed) := by
  have hX : ∀ e, ∀ g ∈ getGaussNodes T.elem T.gauss (fun i => X (idx e i)), deformationGradient g.dN (fun i => X (idx e i)) = 1 := by
    intro e g hg
    obtain ⟨q, hq, rfl⟩ := List.mem_map.1 hg
    exact gaussNodeOf_grad T.elem _ q (hJ e q hq)
  have hu : ∀ (u : Dof N → ℝ) (e : Fin M), (fun k b => u (idx e k, b)) = fun k => (HyperMesh.initialize T.elem T.gauss idx X).gather
      (fun p a => ((fun d : Dof N => X d.1 d.2) + u) (p, a)) e k - X (idx e k) := by
    intro u e
    funext k b
    simp [HyperMesh.gather, HyperMesh.initialize]
  refine ⟨inferInstance, rfl, fun u => ?_, fun u => ?_⟩
  · funext d
    simp only [withLoad, hyperScene, HyperMesh.addForce, Pi.sub_apply, Pi.zero_apply, Finset.sum_apply, Pi.neg_apply, Fenics.problem]
    have : ∀ e i, (if idx e i = d.1 then Fenics.elementResidual (Fenics.mu young poisson) (Fenics.lmbda young poisson) (getGaussNodes T.elem T.gauss fun i => X (idx e i))
        (fun k b => u (idx e k, b)) i d.2 else 0) = (if (HyperMesh.initialize T.elem T.gauss idx X).idx e i = d.1 then
        nodalForces (saintVenantKirchhoff (lameMu young poisson) (lameL young poisson)) ((HyperMesh.initialize T.elem T.gauss idx X).qnodes e)
          ((HyperMesh.initialize T.elem T.gauss idx X).gather (fun p a => ((fun d : Dof N => X d.1 d.2) + u) (p, a)) e) i else 0) d.2 := by
      intro e i
      by_cases h : idx e i = d.1
      · rw [if_pos h, if_pos (show (HyperMesh.initialize T.elem T.gauss idx X).idx e i = d.1 from h), hu u e]
        exact Fenics.elementResidual_eq _ _ _ _ _ (hX e) i d.2
      · rw [if_neg h, if_neg (show ¬ (HyperMesh.initialize T.elem T.gauss idx X).idx e i = d.1 from h)]; rfl
    simp only [this]
    ring
  · ext d d'
    simp only [withLoad, hyperScene, Matrix.of_apply, Matrix.neg_apply, Fenics.problem]
    rw [addStored_eq, fullK_storedK _ _ _ hinj (fun J => (C41_rest_and_symmetry _ _ J).2.2.1) (fun J => (C41_rest_and_symmetry _ _ J).2.2.2), tangentK, Pi.zero_apply, Pi.zero_apply, zero_sub, one_mul]
    congr 1
    refine Finset.sum_congr rfl fun e _ => Finset.sum_congr rfl fun i _ => Finset.sum_congr rfl fun j _ => ?_
    by_cases h : idx e i = d.1 ∧ idx e j = d'.1
    · rw [if_pos h, if_pos (show (HyperMesh.initialize T.elem T.gauss idx X).idx e i = d.1 ∧ (HyperMesh.initialize T.elem T.gauss idx X).idx e j = d'.1 from h), hu u e]
      exact (Fenics.elementJacobian_eq _ _ _ _ _ (hX e) i j d.2 d'.2).symm
    · rw [if_neg h, if_neg (show ¬ ((HyperMesh.initialize T.elem T.gauss idx X).idx e i = d.1 ∧ (HyperMesh.initialize T.elem T.gauss idx X).idx e j = d'.1) from h)]

/-- **C147** (the loads): the load steps are equal and the last one applies the whole traction. -/
theorem C147_loads (traction : ℝ) (nsteps : ℕ) (hn : 0 < nsteps) :
    Fenics.stepTraction traction nsteps (nsteps - 1) = -traction ∧ Fenics.stepTraction traction nsteps 0 = -traction / nsteps ∧
    ∀ i, Fenics.stepTraction traction nsteps (i + 1) - Fenics.stepTraction traction nsteps i = -traction / nsteps := by
  have h : (nsteps : ℝ) ≠ 0 := Nat.cast_ne_zero.2 (by omega)
  refine ⟨?_, ?_, fun i => ?_⟩
  · have e : ((nsteps - 1 : ℕ) : ℝ) + 1 = nsteps := by
      rw [← Nat.cast_add_one]; congr 1; omega
    rw [Fenics.stepTraction, e]
    field_simp
  · simp [Fenics.stepTraction]
  · simp only [Fenics.stepTraction, Nat.cast_add, Nat.cast_one]
    ring

section Run

variable {ι κ : Type*} [Fintype ι] [DecidableEq ι] [Fintype κ]

/-- **C147** (the run, partial): when the plugin, with the tolerances, the number of iterations and the linear solver of the script, reports convergence at every load step after at least one iteration,
the script ends with the same positions.  Missing: steps whose first iteration leaves exactly no force (`C147_violated`). -/
theorem C147_run_partial (X : ι → ℝ) (p : NewtonParams ℝ) (solver : Matrix ι ι ℝ → (ι → ℝ) → Option (ι → ℝ)) (aTol rTol : ℝ) (ha : 0 < aTol) (hr : 0 < rTol)
    (hp : 1 < p.iterations) (heps : 0 < p.eps) (h1 : p.correction = rTol) (h2 : p.residual = rTol) (h3 : p.absolute = aTol) (Ss : List (StaticScene ℝ ι κ))
    (Ps : List (Fenics.Problem ι)) (same : List.Forall₂ (SameProblem X) Ss Ps) (c : NewtonState ℝ) (u y : ι → ℝ) (h : AllStepsConverge p solver Ss c (X + u) y) :
    ∃ v, Fenics.run solver aTol rTol p.iterations Ps u = .ok v ∧ y = X + v := by
  induction same generalizing c u with
  | nil =>
    cases h
    exact ⟨u, rfl, rfl⟩
  | cons hs _ ih =>
    cases h with
    | step _ _ _ _ _ r hc hf hl hrest =>
      obtain ⟨v, hv, hx⟩ := fenics_step X _ _ hs p solver aTol rTol ha hr hp heps h1 h2 h3 c u hc r hf hl
      rw [hx] at hrest
      obtain ⟨w, hw, hy⟩ := ih _ v hrest
      exact ⟨w, by simp only [Fenics.run, hv, hw], hy⟩

end Run

/-- The division of the right-hand side by the only entry of the matrix. -/
noncomputable def quotientSolver (A : Matrix (Fin 1) (Fin 1) ℝ) (f : Fin 1 → ℝ) : Option (Fin 1 → ℝ) := if A 0 0 = 0 then none else some fun _ => f 0 / A 0 0

theorem quotientSolver_exact : SolvesExactly quotientSolver ∧ SolvesRegular quotientSolver := by
  constructor
  · intro A f u h
    simp only [quotientSolver] at h
    split_ifs at h with h0
    simp only [Option.some.injEq] at h
    subst h
    funext i
    fin_cases i
    simp only [mulVec, dotProduct, Finset.univ_unique, Finset.sum_singleton, Fin.default_eq_zero, Fin.zero_eta]
    field_simp
  · intro A f hA
    have : A 0 0 ≠ 0 := by
      intro h
      have hd := (Matrix.isUnit_iff_isUnit_det A).1 hA
      rw [Matrix.det_fin_one, h] at hd
      exact not_isUnit_zero hd
    exact ⟨_, by rw [quotientSolver, if_neg this]⟩

/-- A spring with force `-x - q x²` pulled by a unit force, for the plugin. -/
noncomputable def pulledSpring (q : ℝ) : StaticScene ℝ (Fin 1) (Fin 0) where
  force x := fun i => 1 - x i - q * x i ^ 2
  stiff x := Matrix.of fun i _ => -1 - 2 * q * x i
  map _ := Fin.elim0
  J := 0
  mappedForce _ := 0
  mappedStiff _ := 0
  fixed _ := false

/-- The same for the script. -/
noncomputable def pulledForms (q : ℝ) : Fenics.Problem (Fin 1) where
  R u := fun i => -(1 - u i - q * u i ^ 2)
  J u := Matrix.of fun i _ => 1 + 2 * q * u i
  fixed _ := false

theorem pulled_same (q : ℝ) : SameProblem 0 (pulledSpring q) (pulledForms q) :=
  ⟨inferInstance, rfl, fun u => by funext i; simp [pulledSpring, pulledForms], fun u => by ext i j; simp [pulledSpring, pulledForms]; ring⟩

theorem pulled_matrix (q : ℝ) (w : StaticWorld ℝ (Fin 1) (Fin 0)) : staticMatrix (pulledSpring q) w 0 0 = 1 + 2 * q * w.x 0 := by
  simp [staticMatrix, constrainMatrix, pulledSpring]
  ring

theorem pulled_rhs (q : ℝ) (w : StaticWorld ℝ (Fin 1) (Fin 0)) : staticRhs (pulledSpring q) w = fun _ => 1 - w.x 0 - q * w.x 0 ^ 2 := by
  funext i
  fin_cases i
  simp [staticRhs, projectResponse, pulledSpring]

/-- One step of the plugin from `x` with displacement `d` and force `1 - x - q x²`. -/
theorem pulled_iteration (q : ℝ) (p : NewtonParams ℝ) (hp : 1 < p.iterations) (s : NewtonLoop (StaticWorld ℝ (Fin 1) (Fin 0)) (Fin 1 → ℝ) ℝ) (hd : s.diverged = false)
    (hc : s.converged = false) (hF : s.F = staticRhs (pulledSpring q) s.world) (d : ℝ) (h0 : 1 + 2 * q * s.world.x 0 ≠ 0)
    (hstep : (1 - s.world.x 0 - q * s.world.x 0 ^ 2) / (1 + 2 * q * s.world.x 0) = d) :
    let r := newtonIteration p (staticEnv (pulledSpring q) quotientSolver) s
    let y := s.world.x 0 + d
    let f := 1 - y - q * y ^ 2
    r.world.x 0 = y ∧ r.F = staticRhs (pulledSpring q) r.world ∧ r.U 0 = s.U 0 + d ∧ r.residuals = s.residuals ++ [some (f * f)] ∧
    (r.diverged = true ↔ (s.U 0 + d) * (s.U 0 + d) < p.eps) ∧
    (r.diverged = false → ∀ h, r.residuals.head? = some (some h) → (r.converged = true ↔
      (0 < p.correction ∧ d * d < p.correction * p.correction * ((s.U 0 + d) * (s.U 0 + d))) ∨ (0 < p.residual ∧ f * f < p.residual * p.residual * h) ∨
      (0 < p.absolute ∧ f * f < p.absolute * p.absolute))) := by
  have hsol : quotientSolver (staticMatrix (pulledSpring q) s.world) s.F = some fun _ => d := by
    rw [quotientSolver, pulled_matrix, if_neg h0, hF, pulled_rhs, hstep]
  obtain ⟨k1, k2, k3, k4, k5, k6, k7, k8⟩ := static_iter_some p (pulledSpring q) quotientSolver s hd hc hp _ hsol
  intro r y f
  have hy : r.world.x 0 = y := congrFun k1 0
  have hf : r.F ⬝ᵥ r.F = f * f := by
    rw [show r.F = _ from k3, pulled_rhs]
    have hy' : (newtonIteration p (staticEnv (pulledSpring q) quotientSolver) s).world.x 0 = y := hy
    simp [dotProduct, hy', f]
  refine ⟨hy, k3, congrFun k4 0, by rw [show r.residuals = _ from k5, hf], ?_, fun hdv h hh => ?_⟩
  · rw [k6]; simp [dotProduct]
  · rw [k8 hdv h hh, show newtonIteration p (staticEnv (pulledSpring q) quotientSolver) s = r from rfl, hf]
    simp [dotProduct]

/-- **C147** (the violation): a linear spring is solved by the first iteration and the plugin reports convergence, but the script divides by the norm of the forces that are left. -/
theorem C147_violated : ∃ (p : NewtonParams ℝ) (S : StaticScene ℝ (Fin 1) (Fin 0)) (P : Fenics.Problem (Fin 1)), SameProblem 0 S P ∧ IsLinearStatic S ∧
    SolvesExactly quotientSolver ∧ SolvesRegular quotientSolver ∧ p.iterations = 10 ∧ p.correction = 1 / 10 ^ 10 ∧ p.residual = 1 / 10 ^ 10 ∧ p.absolute = 1 / 10 ^ 10 ∧ 0 < p.eps ∧
    (staticSolve p S quotientSolver newtonFresh 0).1.converged = true ∧ (staticSolve p S quotientSolver newtonFresh 0).1.residuals = [some 0] ∧
    InEquilibrium S (staticSolve p S quotientSolver newtonFresh 0).2.x ∧
    Fenics.run quotientSolver (1 / 10 ^ 10) (1 / 10 ^ 10) 10 [P] 0 = .throws (staticSolve p S quotientSolver newtonFresh 0).2.x := by
  let p : NewtonParams ℝ := ⟨10, 1 / 10 ^ 10, 1 / 10 ^ 10, 1 / 10 ^ 10, 1 / 10 ^ 15, .never⟩
  have hlin : IsLinearStatic (pulledSpring 0) := by
    refine ⟨fun x u => ?_, fun x u => ?_, fun y u => ?_, fun x u => ?_, fun y u => ?_⟩
    · funext i; fin_cases i; simp [pulledSpring, mulVec, dotProduct]; ring
    · exact Subsingleton.elim _ _
    · simp [pulledSpring]
    · ext i j; simp [pulledSpring]
    · simp [pulledSpring]
  have hsolve : ∃ t : NewtonLoop (StaticWorld ℝ (Fin 1) (Fin 0)) (Fin 1 → ℝ) ℝ, staticSolve p (pulledSpring 0) quotientSolver newtonFresh 0 =
      (⟨t.analyzed, t.converged, t.residuals, some ((staticRhs (pulledSpring 0) ⟨0, (pulledSpring 0).map 0, 0⟩) ⬝ᵥ (staticRhs (pulledSpring 0) ⟨0, (pulledSpring 0).map 0, 0⟩))⟩, t.world) ∧
      t.converged = true ∧ t.residuals = [some 0] ∧ t.world.x 0 = 1 := by
    let s : NewtonLoop (StaticWorld ℝ (Fin 1) (Fin 0)) (Fin 1 → ℝ) ℝ :=
      { world := ⟨0, (pulledSpring 0).map 0, 0⟩, F := staticRhs (pulledSpring 0) ⟨0, (pulledSpring 0).map 0, 0⟩, U := 0
        R2 := some (staticRhs (pulledSpring 0) ⟨0, (pulledSpring 0).map 0, 0⟩ ⬝ᵥ staticRhs (pulledSpring 0) ⟨0, (pulledSpring 0).map 0, 0⟩), analyzed := false, residuals := []
        converged := false, diverged := false, calls := [] }
    obtain ⟨k1, k2, k3, k4, k5, k6⟩ := pulled_iteration 0 p (by norm_num [p]) s rfl rfl rfl 1 (by simp [s]) (by simp [s])
    have hx : s.world.x 0 = 0 := rfl
    have hU : s.U 0 = 0 := rfl
    rw [hx] at k1 k4 k6
    rw [hU] at k5 k6
    generalize ht : newtonIteration p (staticEnv (pulledSpring 0) quotientSolver) s = t at *
    have hdiv : t.diverged = false := by
      rw [← Bool.not_eq_true, k5]; norm_num [p]
    have hres : t.residuals = [some 0] := by rw [k4]; simp [s]
    have hconv : t.converged = true := by
      rw [k6 hdiv 0 (by rw [hres]; rfl)]
      right; right
      norm_num [p]
    refine ⟨t, ?_, hconv, hres, by rw [k1]; norm_num⟩
    have hloop : newtonLoop p (staticEnv (pulledSpring 0) quotientSolver) 10 s = t := by
      unfold newtonLoop
      rw [if_neg (by simp [s])]
      simp only [ht, hdiv, Bool.false_eq_true, if_false]
      unfold newtonLoop
      rw [if_pos hconv]
    have h0 : (decide (0 < p.absolute) && leNan ((staticEnv (pulledSpring 0) quotientSolver).norm2 ((staticEnv (pulledSpring 0) quotientSolver).rhs ⟨0, (pulledSpring 0).map 0, 0⟩).2)
        (some (p.absolute * p.absolute))) = false := by
      show (decide (0 < p.absolute) && decide (staticRhs (pulledSpring 0) ⟨0, (pulledSpring 0).map 0, 0⟩ ⬝ᵥ staticRhs (pulledSpring 0) ⟨0, (pulledSpring 0).map 0, 0⟩ ≤ p.absolute * p.absolute)) = false
      rw [pulled_rhs]
      norm_num [p, dotProduct]
    simp only [staticSolve, newtonSolve, Bool.not_true, Bool.false_eq_true, if_false, h0]
    have hs : ({ world := ((staticEnv (pulledSpring 0) quotientSolver).rhs ⟨0, (pulledSpring 0).map 0, 0⟩).1, F := ((staticEnv (pulledSpring 0) quotientSolver).rhs ⟨0, (pulledSpring 0).map 0, 0⟩).2
                 U := (staticEnv (pulledSpring 0) quotientSolver).zero
                 R2 := (staticEnv (pulledSpring 0) quotientSolver).norm2 ((staticEnv (pulledSpring 0) quotientSolver).rhs ⟨0, (pulledSpring 0).map 0, 0⟩).2
                 analyzed := if p.strategy = .beginningOfTimeStep then false else (newtonFresh (K := ℝ)).analyzed, residuals := [], converged := false, diverged := false, calls := [] } :
        NewtonLoop (StaticWorld ℝ (Fin 1) (Fin 0)) (Fin 1 → ℝ) ℝ) = s := by
      simp only [p, newtonFresh, ite_self]
      rfl
    rw [hs, show p.iterations = 10 from rfl, hloop]
    rfl
  obtain ⟨t, e, hc, hr, hx⟩ := hsolve
  have hxt : t.world.x = fun _ => 1 := by
    funext i; rw [Subsingleton.elim i 0]; exact hx
  refine ⟨p, pulledSpring 0, pulledForms 0, pulled_same 0, hlin, quotientSolver_exact.1, quotientSolver_exact.2, rfl, rfl, rfl, rfl, by norm_num [p], by rw [e]; exact hc, by rw [e]; exact hr, ?_, ?_⟩
  · rw [e]
    intro i _
    simp [pulledSpring, hxt]
  · rw [e]
    show Fenics.run _ _ _ _ _ _ = .throws t.world.x
    have hlu : quotientSolver (constrainMatrix (pulledForms 0).fixed ((pulledForms 0).J 0)) (projectResponse (pulledForms 0).fixed (-(pulledForms 0).R 0)) = some fun _ => 1 := by
      simp [quotientSolver, constrainMatrix, pulledForms, projectResponse]
    have hf : Fenics.l2 (projectResponse (pulledForms 0).fixed ((pulledForms 0).R fun _ => 1)) = 0 := by
      simp [Fenics.l2, projectResponse, pulledForms, dotProduct]
    simp only [Fenics.run, Fenics.newton, hlu, Option.getD_none, hf, true_or, if_true, hxt, zero_add]

/-- A spring which is not linear: the plugin needs two iterations, from zero to one and to two thirds, and so does the script. -/
example : ∃ (p : NewtonParams ℝ) (y : Fin 1 → ℝ), 1 < p.iterations ∧ 0 < p.eps ∧ p.correction = 1 / 2 ∧ p.residual = 1 / 2 ∧ p.absolute = 1 / 100 ∧
    List.Forall₂ (SameProblem 0) [pulledSpring 1] [pulledForms 1] ∧ AllStepsConverge p quotientSolver [pulledSpring 1] newtonFresh (0 + 0) y ∧ y 0 = 2 / 3 ∧
    Fenics.run quotientSolver (1 / 100) (1 / 2) p.iterations [pulledForms 1] 0 = .ok y := by
  let p : NewtonParams ℝ := ⟨10, 1 / 2, 1 / 2, 1 / 100, 1 / 10 ^ 15, .never⟩
  let s : NewtonLoop (StaticWorld ℝ (Fin 1) (Fin 0)) (Fin 1 → ℝ) ℝ :=
    { world := ⟨0, (pulledSpring 1).map 0, 0⟩, F := staticRhs (pulledSpring 1) ⟨0, (pulledSpring 1).map 0, 0⟩, U := 0
      R2 := some (staticRhs (pulledSpring 1) ⟨0, (pulledSpring 1).map 0, 0⟩ ⬝ᵥ staticRhs (pulledSpring 1) ⟨0, (pulledSpring 1).map 0, 0⟩), analyzed := false, residuals := []
      converged := false, diverged := false, calls := [] }
  obtain ⟨k1, k2, k3, k4, k5, k6⟩ := pulled_iteration 1 p (by norm_num [p]) s rfl rfl rfl 1 (by simp [s]) (by simp [s])
  have hx : s.world.x 0 = 0 := rfl
  have hU : s.U 0 = 0 := rfl
  rw [hx] at k1 k4 k6
  rw [hU] at k3 k5 k6
  generalize ht : newtonIteration p (staticEnv (pulledSpring 1) quotientSolver) s = t at *
  have hdiv : t.diverged = false := by
    rw [← Bool.not_eq_true, k5]; norm_num [p]
  have hres : t.residuals = [some 1] := by rw [k4]; norm_num [s]
  have hconv : t.converged = false := by
    rw [← Bool.not_eq_true, k6 hdiv 1 (by rw [hres]; rfl)]
    norm_num [p]
  have hxt : t.world.x 0 = 1 := by rw [k1]; norm_num
  have hUt : t.U 0 = 1 := by rw [k3]; norm_num
  obtain ⟨l1, l2, l3, l4, l5, l6⟩ := pulled_iteration 1 p (by norm_num [p]) t hdiv hconv k2 (-1 / 3) (by rw [hxt]; norm_num) (by rw [hxt]; norm_num)
  rw [hxt] at l1 l4 l6
  rw [hUt] at l3 l5 l6
  generalize hv : newtonIteration p (staticEnv (pulledSpring 1) quotientSolver) t = v at *
  have hdiv2 : v.diverged = false := by
    rw [← Bool.not_eq_true, l5]; norm_num [p]
  have hhead : v.residuals.head? = some (some 1) := by rw [l4, hres]; rfl
  have hconv2 : v.converged = true := by
    rw [l6 hdiv2 1 hhead]
    right; left
    norm_num [p]
  have hloop : newtonLoop p (staticEnv (pulledSpring 1) quotientSolver) 10 s = v := by
    unfold newtonLoop
    rw [if_neg (by simp [s])]
    simp only [ht, hdiv, Bool.false_eq_true, if_false]
    unfold newtonLoop
    rw [if_neg (by simp [hconv])]
    simp only [hv, hdiv2, Bool.false_eq_true, if_false]
    unfold newtonLoop
    rw [if_pos hconv2]
  have h0 : (decide (0 < p.absolute) && leNan ((staticEnv (pulledSpring 1) quotientSolver).norm2 ((staticEnv (pulledSpring 1) quotientSolver).rhs ⟨0, (pulledSpring 1).map 0, 0⟩).2)
      (some (p.absolute * p.absolute))) = false := by
    show (decide (0 < p.absolute) && decide (staticRhs (pulledSpring 1) ⟨0, (pulledSpring 1).map 0, 0⟩ ⬝ᵥ staticRhs (pulledSpring 1) ⟨0, (pulledSpring 1).map 0, 0⟩ ≤ p.absolute * p.absolute)) = false
    rw [pulled_rhs]
    norm_num [p, dotProduct]
  have e : staticSolve p (pulledSpring 1) quotientSolver newtonFresh 0 = (⟨v.analyzed, v.converged, v.residuals, s.R2⟩, v.world) := by
    simp only [staticSolve, newtonSolve, Bool.not_true, Bool.false_eq_true, if_false, h0]
    have hs : ({ world := ((staticEnv (pulledSpring 1) quotientSolver).rhs ⟨0, (pulledSpring 1).map 0, 0⟩).1, F := ((staticEnv (pulledSpring 1) quotientSolver).rhs ⟨0, (pulledSpring 1).map 0, 0⟩).2
                 U := (staticEnv (pulledSpring 1) quotientSolver).zero
                 R2 := (staticEnv (pulledSpring 1) quotientSolver).norm2 ((staticEnv (pulledSpring 1) quotientSolver).rhs ⟨0, (pulledSpring 1).map 0, 0⟩).2
                 analyzed := if p.strategy = .beginningOfTimeStep then false else (newtonFresh (K := ℝ)).analyzed, residuals := [], converged := false, diverged := false, calls := [] } :
        NewtonLoop (StaticWorld ℝ (Fin 1) (Fin 0)) (Fin 1 → ℝ) ℝ) = s := by
      simp only [p, newtonFresh, ite_self]
      rfl
    rw [hs, show p.iterations = 10 from rfl, hloop]
    rfl
  have hall : AllStepsConverge p quotientSolver [pulledSpring 1] newtonFresh (0 + 0) v.world.x := by
    rw [add_zero]
    have h2 : v.world.x = (staticSolve p (pulledSpring 1) quotientSolver newtonFresh 0).2.x := by rw [e]
    rw [h2]
    exact .step _ _ _ _ _ 1 (by rw [e]; exact hconv2) (by rw [e]; exact hhead) one_ne_zero (.done _ _)
  obtain ⟨w, hw, hy⟩ := C147_run_partial 0 p quotientSolver (1 / 100) (1 / 2) (by norm_num) (by norm_num) (by norm_num [p]) (by norm_num [p]) rfl rfl rfl [pulledSpring 1] [pulledForms 1]
    (.cons (pulled_same 1) .nil) newtonFresh 0 _ hall
  refine ⟨p, v.world.x, by norm_num [p], by norm_num [p], rfl, rfl, rfl, .cons (pulled_same 1) .nil, hall, by rw [l1]; norm_num, ?_⟩
  rw [hw, hy, zero_add]

/-- The unit tetrahedron meets the hypotheses of `C147_same`. -/
example : ∀ (e : Fin 1), ∀ g ∈ SolidType.tetra1.gauss, (SolidType.tetra1.elem.jacobian (fun i => (![![0, 0, 0], ![1, 0, 0], ![0, 1, 0], ![0, 0, 1]] : Fin 4 → Fin 3 → ℝ) i) g.position : Mat3).det ≠ 0 := by
  intro e g _
  have : ((tetra1 (K := ℝ)).jacobian (![![0, 0, 0], ![1, 0, 0], ![0, 1, 0], ![0, 0, 1]] : Fin 4 → Fin 3 → ℝ) g.position : Mat3) = 1 := by
    ext i j
    fin_cases i <;> fin_cases j <;> simp [Elem.jacobian, tetra1, Fin.sum_univ_four]
  change ((tetra1 (K := ℝ)).jacobian (![![0, 0, 0], ![1, 0, 0], ![0, 1, 0], ![0, 0, 1]] : Fin 4 → Fin 3 → ℝ) g.position : Mat3).det ≠ 0
  rw [this, Matrix.det_one]
  exact one_ne_zero

/-- The values of the script: five steps of a traction of thirty. -/
example : (List.range 5).map (fun i => Fenics.stepTraction 30 5 i) = [-6, -12, -18, -24, -30] := by
  norm_num [List.range, List.range.loop, Fenics.stepTraction]

end Caribou

import Verif.Spec.FenicsScript
import Verif.Lemmas.Hyperelastic
import Mathlib.Tactic.Ring
import Mathlib.Analysis.Calculus.Deriv.Pow
import Mathlib.Tactic.LinearCombination
import Mathlib.Tactic.FieldSimp
import Mathlib.Data.Fintype.Basic
import Mathlib.Tactic.FinCases

/-!
# Lemmas for the comparison with the reference computation
-/

set_option autoImplicit false
set_option linter.all false

namespace Caribou

open Spec Matrix

namespace Fenics

section Kinematics

variable {n : ℕ}

theorem nablaGrad_eq (dN u : Fin n → Fin 3 → ℝ) : nablaGrad dN u = (deformationGradient dN u).transpose := by
  ext i j
  simp only [nablaGrad, Matrix.of_apply, Matrix.transpose_apply, defGrad_apply]
  exact Finset.sum_congr rfl fun k _ => mul_comm _ _

theorem nablaGrad_basis (dN : Fin n → Fin 3 → ℝ) (i : Fin n) (a : Fin 3) (p q : Fin 3) : nablaGrad dN (basis i a) p q = if q = a then dN i p else 0 := by
  simp only [nablaGrad, Matrix.of_apply, basis]
  rw [Finset.sum_eq_single i]
  · by_cases h : q = a <;> simp [h]
  · intro k _ hk; simp [hk]
  · intro h; exact absurd (Finset.mem_univ i) h

/-- With `F` the deformation gradient, the work of the script is the one of the force field. -/
theorem work_matrix (m l : ℝ) (F : Mat3) (d : Fin 3 → ℝ) (W : Mat3) (a : Fin 3) (hW : ∀ p q, W p q = if q = a then d p else 0) (J : ℝ) :
    inner (stress m l ((1 / 2 : ℝ) • (F.transpose.transpose * F.transpose - 1))) ((1 / 2 : ℝ) • (W.transpose * F.transpose + F.transpose.transpose * W)) =
      ((F * (saintVenantKirchhoff m l).stress J (F.transpose * F)).mulVec d) a := by
  have hW' : W = Matrix.of fun p q => if q = a then d p else 0 := by ext p q; exact hW p q
  subst hW'
  fin_cases a <;>
  simp [inner, stress, saintVenantKirchhoff, greenStrain, Matrix.trace, Matrix.mulVec, dotProduct, Matrix.mul_apply, Fin.sum_univ_three, Matrix.smul_apply, Matrix.one_apply,
    Matrix.sub_apply, Matrix.add_apply, Matrix.transpose_apply] <;> ring

/-- The same for the derivative. -/
theorem workSlope_matrix (m l : ℝ) (F : Mat3) (d e : Fin 3 → ℝ) (W V : Mat3) (a b : Fin 3) (hW : ∀ p q, W p q = if q = a then d p else 0)
    (hV : ∀ p q, V p q = if q = b then e p else 0) (J : ℝ) :
    inner (stress m l ((1 / 2 : ℝ) • (V.transpose * F.transpose + F.transpose.transpose * V))) ((1 / 2 : ℝ) • (W.transpose * F.transpose + F.transpose.transpose * W)) +
      inner (stress m l ((1 / 2 : ℝ) • (F.transpose.transpose * F.transpose - 1))) ((1 / 2 : ℝ) • (W.transpose * V + V.transpose * W)) =
      ((d ⬝ᵥ ((saintVenantKirchhoff m l).stress J (F.transpose * F)).mulVec e) • (1 : Mat3) +
        (strainMatrix F d).transpose * (saintVenantKirchhoff m l).jacobian J (F.transpose * F) * strainMatrix F e) a b := by
  have hW' : W = Matrix.of fun p q => if q = a then d p else 0 := by ext p q; exact hW p q
  have hV' : V = Matrix.of fun p q => if q = b then e p else 0 := by ext p q; exact hV p q
  subst hW' hV'
  fin_cases a <;> fin_cases b <;>
  simp [inner, stress, saintVenantKirchhoff, greenStrain, strainMatrix, Matrix.trace, Matrix.mulVec, dotProduct, Matrix.mul_apply, Fin.sum_univ_three, Fin.sum_univ_six, Matrix.smul_apply,
    Matrix.one_apply, Matrix.sub_apply, Matrix.add_apply, Matrix.transpose_apply] <;> ring

/-- At a quadrature node with the right gradients, the deformation gradient of the script is the transposed one. -/
theorem defGrad_eq (dN X x : Fin n → Fin 3 → ℝ) (hX : deformationGradient dN X = 1) : defGrad dN (fun k => x k - X k) = (deformationGradient dN x).transpose := by
  rw [defGrad, nablaGrad_eq, defGrad_sub, hX, Matrix.transpose_sub, Matrix.transpose_one]
  abel

theorem work_eq (m l : ℝ) (dN X x : Fin n → Fin 3 → ℝ) (hX : deformationGradient dN X = 1) (i : Fin n) (a : Fin 3) (J : ℝ) :
    work m l dN (fun k => x k - X k) (basis i a) =
      ((deformationGradient dN x * (saintVenantKirchhoff m l).stress J ((deformationGradient dN x).transpose * deformationGradient dN x)).mulVec (dN i)) a := by
  rw [work, strain, strainSlope, defGrad_eq dN X x hX]
  exact work_matrix m l _ _ _ a (nablaGrad_basis dN i a) J

theorem workSlope_eq (m l : ℝ) (dN X x : Fin n → Fin 3 → ℝ) (hX : deformationGradient dN X = 1) (i j : Fin n) (a b : Fin 3) (J : ℝ) :
    workSlope m l dN (fun k => x k - X k) (basis j b) (basis i a) =
      (let F := deformationGradient dN x
       ((dN i ⬝ᵥ ((saintVenantKirchhoff m l).stress J (F.transpose * F)).mulVec (dN j)) • (1 : Mat3) +
        (strainMatrix F (dN i)).transpose * (saintVenantKirchhoff m l).jacobian J (F.transpose * F) * strainMatrix F (dN j)) a b) := by
  rw [workSlope, strain, strainSlope, strainSlope, strainCurvature, defGrad_eq dN X x hX]
  exact workSlope_matrix m l _ _ _ _ _ a b (nablaGrad_basis dN i a) (nablaGrad_basis dN j b) J

theorem elementResidual_eq (m l : ℝ) (qs : List (QNode n)) (X x : Fin n → Fin 3 → ℝ) (hX : ∀ g ∈ qs, deformationGradient g.dN X = 1) (i : Fin n) (a : Fin 3) :
    elementResidual m l qs (fun k => x k - X k) i a = nodalForces (saintVenantKirchhoff m l) qs x i a := by
  rw [elementResidual, nodalForces, list_sum_apply]
  refine list_sum_congr _ _ _ fun g hg => ?_
  rw [work_eq m l g.dN X x (hX g hg) i a (deformationGradient g.dN x).det, gaussForce]
  simp only [Matrix.smul_mul, Matrix.smul_mulVec, Pi.smul_apply, smul_eq_mul]
  ring

theorem elementJacobian_eq (m l : ℝ) (qs : List (QNode n)) (X x : Fin n → Fin 3 → ℝ) (hX : ∀ g ∈ qs, deformationGradient g.dN X = 1) (i j : Fin n) (a b : Fin 3) :
    elementJacobian m l qs (fun k => x k - X k) i a j b = (qs.map fun g => gaussBlock (saintVenantKirchhoff m l) g x i j a b).sum := by
  rw [elementJacobian]
  refine list_sum_congr _ _ _ fun g hg => ?_
  rw [workSlope_eq m l g.dN X x (hX g hg) i j a b (deformationGradient g.dN x).det, gaussBlock]
  simp only [Matrix.smul_apply, smul_eq_mul]
  ring

/-! ### `derivative` is the derivative -/

theorem nablaGrad_line (dN u v : Fin n → Fin 3 → ℝ) (t : ℝ) : nablaGrad dN (fun k b => u k b + t * v k b) = nablaGrad dN u + t • nablaGrad dN v := by
  ext i j
  simp only [nablaGrad, Matrix.of_apply, Matrix.add_apply, Matrix.smul_apply, smul_eq_mul, Finset.mul_sum, ← Finset.sum_add_distrib]
  exact Finset.sum_congr rfl fun k _ => by ring

theorem inner_line (A B C D E : Mat3) (t : ℝ) : inner (A + t • B + (t * t) • C) (D + t • E) =
    inner A D + t * (inner B D + inner A E) + t ^ 2 * (inner C D + inner B E) + t ^ 3 * inner C E := by
  simp only [inner, Finset.mul_sum, ← Finset.sum_add_distrib, Matrix.add_apply, Matrix.smul_apply, smul_eq_mul]
  exact Finset.sum_congr rfl fun i _ => Finset.sum_congr rfl fun j _ => by ring

theorem stress_line (m l : ℝ) (A B C : Mat3) (t : ℝ) : stress m l (A + t • B + (t * t) • C) = stress m l A + t • stress m l B + (t * t) • stress m l C := by
  simp only [stress, Matrix.trace_add, Matrix.trace_smul, smul_eq_mul]
  ext i j
  simp only [Matrix.add_apply, Matrix.smul_apply, smul_eq_mul]
  ring

theorem strain_line (dN u v : Fin n → Fin 3 → ℝ) (t : ℝ) : strain dN (fun k b => u k b + t * v k b) =
    strain dN u + t • strainSlope dN u v + (t * t) • ((1 / 2 : ℝ) • ((nablaGrad dN v).transpose * nablaGrad dN v)) := by
  simp only [strain, strainSlope, defGrad, nablaGrad_line]
  ext i j
  simp only [Matrix.add_apply, Matrix.smul_apply, Matrix.sub_apply, Matrix.mul_apply, Matrix.transpose_apply, smul_eq_mul, Fin.sum_univ_three]
  ring

theorem strainSlope_line (dN u v w : Fin n → Fin 3 → ℝ) (t : ℝ) : strainSlope dN (fun k b => u k b + t * v k b) w = strainSlope dN u w + t • strainCurvature dN v w := by
  simp only [strainSlope, strainCurvature, defGrad, nablaGrad_line]
  ext i j
  simp only [Matrix.add_apply, Matrix.smul_apply, Matrix.mul_apply, Matrix.transpose_apply, smul_eq_mul, Fin.sum_univ_three]
  ring

theorem work_hasDeriv (m l : ℝ) (dN u v w : Fin n → Fin 3 → ℝ) : HasDerivAt (fun t : ℝ => work m l dN (fun k b => u k b + t * v k b) w) (workSlope m l dN u v w) 0 := by
  have e : (fun t : ℝ => work m l dN (fun k b => u k b + t * v k b) w) = fun t => inner (stress m l (strain dN u)) (strainSlope dN u w) + t * workSlope m l dN u v w +
      t ^ 2 * (inner (stress m l ((1 / 2 : ℝ) • ((nablaGrad dN v).transpose * nablaGrad dN v))) (strainSlope dN u w) +
        inner (stress m l (strainSlope dN u v)) (strainCurvature dN v w)) +
      t ^ 3 * inner (stress m l ((1 / 2 : ℝ) • ((nablaGrad dN v).transpose * nablaGrad dN v))) (strainCurvature dN v w) := by
    funext t
    rw [work, strain_line, strainSlope_line, stress_line, inner_line, workSlope]
  rw [e]
  have h1 := (hasDerivAt_id (0 : ℝ)).mul_const (workSlope m l dN u v w)
  have h2 := ((hasDerivAt_id (0 : ℝ)).fun_pow 2).mul_const (inner (stress m l ((1 / 2 : ℝ) • ((nablaGrad dN v).transpose * nablaGrad dN v))) (strainSlope dN u w) +
        inner (stress m l (strainSlope dN u v)) (strainCurvature dN v w))
  have h3 := ((hasDerivAt_id (0 : ℝ)).fun_pow 3).mul_const (inner (stress m l ((1 / 2 : ℝ) • ((nablaGrad dN v).transpose * nablaGrad dN v))) (strainCurvature dN v w))
  have := (((hasDerivAt_const (0 : ℝ) (inner (stress m l (strain dN u)) (strainSlope dN u w))).add h1).add h2).add h3
  refine this.congr_deriv ?_
  simp

end Kinematics

end Fenics

section Loop

variable {ι κ : Type*} [Fintype ι] [DecidableEq ι] [Fintype κ]

/-- The loop only appends to the list of residuals. -/
theorem newtonLoop_residuals {σ V K : Type*} [Field K] [LinearOrder K] (p : NewtonParams K) (env : NewtonEnv σ V K) (fuel : ℕ) :
    ∀ s : NewtonLoop σ V K, ∃ l, (newtonLoop p env fuel s).residuals = s.residuals ++ l := by
  have hcheck : ∀ (s : NewtonLoop σ V K) (dx : V), ∃ l, (newtonCheck p env s dx).residuals = s.residuals ++ l := by
    intro s dx
    refine ⟨[s.R2], ?_⟩
    unfold newtonCheck
    simp only
    split_ifs <;> rfl
  have hassemble : ∀ s : NewtonLoop σ V K, (newtonAssemble p env s).residuals = s.residuals := by
    intro s
    unfold newtonAssemble
    simp only
    split_ifs <;> rfl
  have hcorrect : ∀ s : NewtonLoop σ V K, ∃ l, (newtonCorrect p env s).residuals = s.residuals ++ l := by
    intro s
    unfold newtonCorrect
    simp only
    split_ifs with h1 h2
    · rcases env.solve (env.factorize s.world).1 s.F with ⟨w, _ | dx⟩
      · exact ⟨[], by simp⟩
      · simp only [if_pos h2]; exact hcheck _ _
    · rcases env.solve (env.factorize s.world).1 s.F with ⟨w, _ | dx⟩
      · exact ⟨[], by simp⟩
      · simp only [if_neg h2]; exact hcheck _ _
    · exact ⟨[], by simp⟩
  have hit : ∀ s : NewtonLoop σ V K, ∃ l, (newtonIteration p env s).residuals = s.residuals ++ l := by
    intro s
    unfold newtonIteration
    simp only
    split_ifs with h
    · exact ⟨[], by rw [hassemble]; simp⟩
    · obtain ⟨l, hl⟩ := hcorrect (newtonAssemble p env s)
      exact ⟨l, by rw [hl, hassemble]⟩
  induction fuel with
  | zero => intro s; exact ⟨[], by simp [newtonLoop]⟩
  | succ fuel ih =>
    intro s
    unfold newtonLoop
    split_ifs with h
    · exact ⟨[], by simp⟩
    obtain ⟨l, hl⟩ := hit s
    simp only
    split_ifs with h2
    · exact ⟨l, hl⟩
    · obtain ⟨l', hl'⟩ := ih (newtonIteration p env s)
      exact ⟨l ++ l', by rw [hl', hl, List.append_assoc]⟩

/-- A failed iteration is not a converged one. -/
theorem static_iter_none (p : NewtonParams ℝ) (S : StaticScene ℝ ι κ) (solver : Matrix ι ι ℝ → (ι → ℝ) → Option (ι → ℝ)) (s : NewtonLoop (StaticWorld ℝ ι κ) (ι → ℝ) ℝ)
    (hd : s.diverged = false) (hc : s.converged = false) (hu : solver (staticMatrix S s.world) s.F = none) :
    let r := newtonIteration p (staticEnv S solver) s
    r.diverged = true ∧ r.converged = false := by
  have ha : ∃ t : NewtonLoop (StaticWorld ℝ ι κ) (ι → ℝ) ℝ, newtonAssemble p (staticEnv S solver) s = t ∧
      t.world = { s.world with A := staticMatrix S s.world } ∧ t.F = s.F ∧ t.converged = false ∧ t.diverged = false := by
    refine ⟨_, rfl, ?_⟩
    unfold newtonAssemble
    simp only
    split_ifs <;> first | exact ⟨rfl, rfl, hc, rfl⟩ | exact ⟨rfl, rfl, hc, hd⟩
  obtain ⟨t, ht, hw, hF, htc, htd⟩ := ha
  intro r
  have hr : r = newtonCorrect p (staticEnv S solver) t := by
    show newtonIteration p (staticEnv S solver) s = _
    unfold newtonIteration
    simp only [ht, htd, Bool.false_eq_true, if_false]
  have e : (staticEnv S solver).solve ((staticEnv S solver).factorize t.world).1 t.F = (t.world, none) := by
    show (t.world, solver t.world.A t.F) = _
    rw [hw, hF]
    show ((_ : StaticWorld ℝ ι κ), solver (staticMatrix S s.world) s.F) = _
    rw [hu]
  have hf : ((staticEnv S solver).factorize t.world).2 = true := rfl
  rw [hr]
  simp only [newtonCorrect, hf, if_true, e]
  exact ⟨trivial, htc⟩

/-- One iteration whose linear system is solved by `du`. -/
theorem static_iter_some (p : NewtonParams ℝ) (S : StaticScene ℝ ι κ) (solver : Matrix ι ι ℝ → (ι → ℝ) → Option (ι → ℝ)) (s : NewtonLoop (StaticWorld ℝ ι κ) (ι → ℝ) ℝ)
    (hd : s.diverged = false) (hc : s.converged = false) (hp : 1 < p.iterations) (du : ι → ℝ) (hu : solver (staticMatrix S s.world) s.F = some du) :
    let r := newtonIteration p (staticEnv S solver) s
    r.world.x = s.world.x + du ∧ r.world.y = S.map (s.world.x + du) ∧ r.F = staticRhs S r.world ∧ r.U = s.U + du ∧
    r.residuals = s.residuals ++ [some (r.F ⬝ᵥ r.F)] ∧
    (r.diverged = true ↔ (s.U + du) ⬝ᵥ (s.U + du) < p.eps) ∧ (r.diverged = true → r.converged = false) ∧
    (r.diverged = false → ∀ h, r.residuals.head? = some (some h) → (r.converged = true ↔
      (0 < p.correction ∧ du ⬝ᵥ du < p.correction * p.correction * ((s.U + du) ⬝ᵥ (s.U + du))) ∨ (0 < p.residual ∧ r.F ⬝ᵥ r.F < p.residual * p.residual * h) ∨
      (0 < p.absolute ∧ r.F ⬝ᵥ r.F < p.absolute * p.absolute))) := by
  have ha : ∃ t : NewtonLoop (StaticWorld ℝ ι κ) (ι → ℝ) ℝ, newtonAssemble p (staticEnv S solver) s = t ∧
      t.world = { s.world with A := staticMatrix S s.world } ∧ t.F = s.F ∧ t.U = s.U ∧ t.residuals = s.residuals ∧ t.converged = false ∧ t.diverged = false := by
    refine ⟨_, rfl, ?_⟩
    unfold newtonAssemble
    simp only
    split_ifs <;> first | exact ⟨rfl, rfl, rfl, rfl, hc, rfl⟩ | exact ⟨rfl, rfl, rfl, rfl, hc, hd⟩
  obtain ⟨t, ht, hw, hF, hU, hres, htc, htd⟩ := ha
  intro r
  have hr : r = newtonCorrect p (staticEnv S solver) t := by
    show newtonIteration p (staticEnv S solver) s = _
    unfold newtonIteration
    simp only [ht, htd, Bool.false_eq_true, if_false]
  have e : (staticEnv S solver).solve ((staticEnv S solver).factorize t.world).1 t.F = (t.world, some du) := by
    show (t.world, solver t.world.A t.F) = _
    rw [hw, hF]
    show ((_ : StaticWorld ℝ ι κ), solver (staticMatrix S s.world) s.F) = _
    rw [hu]
  have hf : ((staticEnv S solver).factorize t.world).2 = true := rfl
  have hr2 : r = newtonCheck p (staticEnv S solver) { t with
      world := staticPropagate S t.world du, calls := t.calls ++ [NewtonCall.factorize true, NewtonCall.solve true]
      F := staticRhs S (staticPropagate S t.world du), R2 := some (staticRhs S (staticPropagate S t.world du) ⬝ᵥ staticRhs S (staticPropagate S t.world du)) } du := by
    rw [hr]
    simp only [newtonCorrect, hf, if_true, e, if_pos hp]
    rfl
  have key : ∀ q : NewtonLoop (StaticWorld ℝ ι κ) (ι → ℝ) ℝ, q.diverged = false → q.converged = false → q.R2 = some (q.F ⬝ᵥ q.F) →
      let r := newtonCheck p (staticEnv S solver) q du
      r.world = q.world ∧ r.F = q.F ∧ r.U = q.U + du ∧ r.residuals = q.residuals ++ [some (q.F ⬝ᵥ q.F)] ∧
      (r.diverged = true ↔ (q.U + du) ⬝ᵥ (q.U + du) < p.eps) ∧ (r.diverged = true → r.converged = false) ∧
      (r.diverged = false → ∀ h, r.residuals.head? = some (some h) → (r.converged = true ↔
        (0 < p.correction ∧ du ⬝ᵥ du < p.correction * p.correction * ((q.U + du) ⬝ᵥ (q.U + du))) ∨ (0 < p.residual ∧ q.F ⬝ᵥ q.F < p.residual * p.residual * h) ∨
        (0 < p.absolute ∧ q.F ⬝ᵥ q.F < p.absolute * p.absolute))) := by
    intro q h1 h2 h3
    unfold newtonCheck
    have lt_some : ∀ a b : ℝ, ltNan (some a) (some b) = decide (a < b) := fun _ _ => rfl
    simp only [h3, Option.isNone_some, Bool.false_or, staticEnv, lt_some, mulNan, Option.map_some, decide_eq_true_eq, Bool.and_eq_true]
    by_cases c1 : (q.U + du) ⬝ᵥ (q.U + du) < p.eps
    · rw [if_pos c1]
      exact ⟨rfl, rfl, rfl, rfl, ⟨fun _ => c1, fun _ => rfl⟩, fun _ => h2, fun h => absurd h (by simp)⟩
    rw [if_neg c1]
    by_cases c2 : 0 < p.correction ∧ du ⬝ᵥ du < p.correction * p.correction * ((q.U + du) ⬝ᵥ (q.U + du))
    · rw [if_pos c2]
      exact ⟨rfl, rfl, rfl, rfl, ⟨fun h => absurd h (by simp [h1]), fun h => absurd h c1⟩, fun h => absurd h (by simp [h1]), fun _ _ _ => ⟨fun _ => Or.inl c2, fun _ => rfl⟩⟩
    rw [if_neg c2]
    by_cases c3 : 0 < p.residual ∧ ltNan (some (q.F ⬝ᵥ q.F)) (Option.map (fun b => p.residual * p.residual * b) (q.residuals ++ [some (q.F ⬝ᵥ q.F)]).head?.join) = true
    · rw [if_pos c3]
      refine ⟨rfl, rfl, rfl, rfl, ⟨fun h => absurd h (by simp [h1]), fun h => absurd h c1⟩, fun h => absurd h (by simp [h1]), fun _ h hh => ?_⟩
      simp only at hh
      rw [hh] at c3
      have c3' : 0 < p.residual ∧ q.F ⬝ᵥ q.F < p.residual * p.residual * h := by simpa [lt_some] using c3
      exact ⟨fun _ => Or.inr (Or.inl c3'), fun _ => rfl⟩
    rw [if_neg c3]
    by_cases c4 : 0 < p.absolute ∧ q.F ⬝ᵥ q.F < p.absolute * p.absolute
    · rw [if_pos c4]
      exact ⟨rfl, rfl, rfl, rfl, ⟨fun h => absurd h (by simp [h1]), fun h => absurd h c1⟩, fun h => absurd h (by simp [h1]), fun _ _ _ => ⟨fun _ => Or.inr (Or.inr c4), fun _ => rfl⟩⟩
    rw [if_neg c4]
    refine ⟨rfl, rfl, rfl, rfl, ⟨fun h => absurd h (by simp [h1]), fun h => absurd h c1⟩, fun h => absurd h (by simp [h1]), fun _ h hh => ?_⟩
    simp only at hh
    rw [hh] at c3
    have c3' : ¬ (0 < p.residual ∧ q.F ⬝ᵥ q.F < p.residual * p.residual * h) := by simpa [lt_some] using c3
    simp only [h2, Bool.false_eq_true, false_iff, not_or]
    exact ⟨c2, c3', c4⟩
  have k := key { t with
      world := staticPropagate S t.world du, calls := t.calls ++ [NewtonCall.factorize true, NewtonCall.solve true]
      F := staticRhs S (staticPropagate S t.world du), R2 := some (staticRhs S (staticPropagate S t.world du) ⬝ᵥ staticRhs S (staticPropagate S t.world du)) } htd htc rfl
  simp only at k
  rw [← hr2, hU, hres] at k
  obtain ⟨k1, k2, k3, k4, k5, k6, k7⟩ := k
  refine ⟨by rw [k1, hw]; rfl, by rw [k1, hw]; rfl, by rw [k2, k1], k3, by rw [k4, k2], k5, k6, ?_⟩
  rw [k2]
  exact k7

/-! ### The script and the plugin side by side -/

theorem l2_lt {v : ι → ℝ} {a : ℝ} (ha : 0 < a) : Fenics.l2 v < a ↔ v ⬝ᵥ v < a * a := by
  rw [Fenics.l2, Real.sqrt_lt' ha, sq]

theorem dot_self_nonneg (v : ι → ℝ) : 0 ≤ v ⬝ᵥ v := Finset.sum_nonneg fun i _ => mul_self_nonneg (v i)

theorem l2_sq (v : ι → ℝ) : Fenics.l2 v * Fenics.l2 v = v ⬝ᵥ v := Real.mul_self_sqrt (dot_self_nonneg v)

theorem l2_div_lt {v : ι → ℝ} {f a : ℝ} (ha : 0 < a) (hf : 0 < f) : Fenics.l2 v / f < a ↔ v ⬝ᵥ v < a * a * (f * f) := by
  rw [div_lt_iff₀ hf, l2_lt (mul_pos ha hf)]
  constructor <;> intro h <;> linarith [h]

theorem sameProblem_matrix {X : ι → ℝ} {S : StaticScene ℝ ι κ} {P : Fenics.Problem ι} (h : SameProblem X S P) (w : StaticWorld ℝ ι κ) (u : ι → ℝ) (hw : w.x = X + u) :
    staticMatrix S w = constrainMatrix P.fixed (P.J u) := by
  have := h.nothingMapped
  rw [staticMatrix, hw, h.jacobian, h.held, neg_neg]
  ext i j
  simp [Matrix.mul_apply]

theorem sameProblem_rhs {X : ι → ℝ} {S : StaticScene ℝ ι κ} {P : Fenics.Problem ι} (h : SameProblem X S P) (w : StaticWorld ℝ ι κ) (u : ι → ℝ) (hw : w.x = X + u) :
    staticRhs S w = projectResponse P.fixed (-P.R u) := by
  have := h.nothingMapped
  rw [staticRhs, h.held]
  congr 1
  funext i
  rw [hw, h.residual]
  simp [Matrix.mulVec, dotProduct]

theorem project_neg (fixed : ι → Bool) (f : ι → ℝ) : projectResponse fixed (-f) ⬝ᵥ projectResponse fixed (-f) = projectResponse fixed f ⬝ᵥ projectResponse fixed f := by
  simp only [dotProduct, projectResponse]
  refine Finset.sum_congr rfl fun i _ => ?_
  by_cases h : fixed i <;> simp [h]

theorem fenics_loop (X : ι → ℝ) (S : StaticScene ℝ ι κ) (P : Fenics.Problem ι) (same : SameProblem X S P) (p : NewtonParams ℝ)
    (solver : Matrix ι ι ℝ → (ι → ℝ) → Option (ι → ℝ)) (aTol rTol : ℝ) (ha : 0 < aTol) (hr : 0 < rTol) (hp : 1 < p.iterations) (heps : 0 < p.eps)
    (h1 : p.correction = rTol) (h2 : p.residual = rTol) (h3 : p.absolute = aTol) :
    ∀ (fuel : ℕ) (s : NewtonLoop (StaticWorld ℝ ι κ) (ι → ℝ) ℝ) (u U : ι → ℝ) (f0 : Option ℝ), s.converged = false → s.diverged = false → s.world.x = X + u →
      s.F = staticRhs S s.world → (f0 = none → s.residuals = [] ∧ s.U = 0) → (∀ f, f0 = some f → s.U = U ∧ s.residuals.head? = some (some (f * f)) ∧ 0 < f) →
      (newtonLoop p (staticEnv S solver) fuel s).converged = true →
      ∀ r, (newtonLoop p (staticEnv S solver) fuel s).residuals.head? = some (some r) → r ≠ 0 →
      ∃ y, Fenics.newton P solver aTol rTol fuel u U f0 = .ok y ∧ (newtonLoop p (staticEnv S solver) fuel s).world.x = X + y := by
  intro fuel
  induction fuel with
  | zero => intro s u U f0 hc _ _ _ _ _ hcv; exact absurd hcv (by simp [newtonLoop, hc])
  | succ fuel ih =>
    intro s u U f0 hc hd hx hF hnone hsome hcv r hhead hr0
    have hsys : solver (staticMatrix S s.world) s.F = solver (constrainMatrix P.fixed (P.J u)) (projectResponse P.fixed (-P.R u)) := by
      rw [sameProblem_matrix same _ u hx, hF, sameProblem_rhs same _ u hx]
    unfold newtonLoop at hcv hhead ⊢
    simp only [hc, Bool.false_eq_true, if_false] at hcv hhead ⊢
    unfold Fenics.newton
    cases hsol : solver (constrainMatrix P.fixed (P.J u)) (projectResponse P.fixed (-P.R u)) with
    | none =>
      obtain ⟨k1, k2⟩ := static_iter_none p S solver s hd hc (by rw [hsys, hsol])
      rw [if_pos k1] at hcv
      exact absurd hcv (by rw [k2]; simp)
    | some du =>
      simp only
      obtain ⟨k1, k2, k3, k4, k5, k6, k7, k8⟩ := static_iter_some p S solver s hd hc hp du (by rw [hsys, hsol])
      generalize newtonIteration p (staticEnv S solver) s = t at *
      by_cases hdiv : t.diverged = true
      · rw [if_pos hdiv] at hcv
        exact absurd hcv (by rw [k7 hdiv]; simp)
      rw [if_neg hdiv] at hcv hhead ⊢
      have hdiv' : t.diverged = false := by simpa using hdiv
      have hxt : t.world.x = X + (u + du) := by rw [k1, hx, add_assoc]
      have hFt : t.F ⬝ᵥ t.F = projectResponse P.fixed (P.R (u + du)) ⬝ᵥ projectResponse P.fixed (P.R (u + du)) := by
        rw [k3, sameProblem_rhs same _ (u + du) hxt, project_neg]
      -- the displacement of the step
      have hU : Fenics.total f0 U du = t.U := by
        cases f0 with
        | none => simp only [Fenics.total, k4, (hnone rfl).2, zero_add]
        | some f => simp only [Fenics.total, k4, (hsome f rfl).1]
      have hUpos : 0 < t.U ⬝ᵥ t.U := by
        refine lt_of_lt_of_le heps (not_lt.1 fun h => hdiv (k6.2 ?_))
        rw [← k4]; exact h
      -- the first residual
      have hne : t.residuals.head? = some (some r) := by
        obtain ⟨l, hl⟩ := newtonLoop_residuals p (staticEnv S solver) fuel t
        rw [hl, k5] at hhead
        rw [k5]
        cases hres : s.residuals with
        | nil => rw [hres] at hhead; simpa using hhead
        | cons a b => rw [hres] at hhead; simpa using hhead
      have hf0 : ∃ f, f0.getD (Fenics.l2 (projectResponse P.fixed (P.R (u + du)))) = f ∧ f * f = r ∧ 0 < f := by
        cases f0 with
        | none =>
          refine ⟨_, rfl, ?_⟩
          rw [k5, (hnone rfl).1] at hne
          have e : t.F ⬝ᵥ t.F = r := by simpa using hne
          have e' : Fenics.l2 (projectResponse P.fixed (P.R (u + du))) * Fenics.l2 (projectResponse P.fixed (P.R (u + du))) = r := by rw [l2_sq, ← hFt, e]
          simp only [Option.getD_none]
          refine ⟨e', lt_of_le_of_ne (Real.sqrt_nonneg _) fun h => hr0 ?_⟩
          rw [← e', ← h, mul_zero]
        | some f =>
          refine ⟨f, rfl, ?_, (hsome f rfl).2.2⟩
          have := (hsome f rfl).2.1
          rw [k5] at hne
          cases hres : s.residuals with
          | nil => rw [hres] at this; simp at this
          | cons a b =>
            rw [hres] at this hne
            simp only [List.head?_cons, Option.some.injEq, List.cons_append] at this hne
            rw [this] at hne
            simpa using hne
      obtain ⟨f, ef, ff, fpos⟩ := hf0
      rw [hU, ef]
      have hUl2 : 0 < Fenics.l2 t.U := Real.sqrt_pos.2 hUpos
      rw [if_neg (not_or.2 ⟨ne_of_gt fpos, ne_of_gt hUl2⟩)]
      have hconv := k8 hdiv' r hne
      rw [h1, h2, h3, hFt, ← k4] at hconv
      have c1 : Fenics.l2 (projectResponse P.fixed (P.R (u + du))) < aTol ↔ projectResponse P.fixed (P.R (u + du)) ⬝ᵥ projectResponse P.fixed (P.R (u + du)) < aTol * aTol := l2_lt ha
      have c2 : Fenics.l2 (projectResponse P.fixed (P.R (u + du))) / f < rTol ↔
          projectResponse P.fixed (P.R (u + du)) ⬝ᵥ projectResponse P.fixed (P.R (u + du)) < rTol * rTol * r := by rw [l2_div_lt hr fpos, ff]
      have c3 : Fenics.l2 du / Fenics.l2 t.U < rTol ↔ du ⬝ᵥ du < rTol * rTol * (t.U ⬝ᵥ t.U) := by rw [l2_div_lt hr hUl2, l2_sq]
      by_cases ht : t.converged = true
      · have hsame : newtonLoop p (staticEnv S solver) fuel t = t := by
          cases fuel with
          | zero => rfl
          | succ k => unfold newtonLoop; rw [if_pos ht]
        rw [hsame]
        refine ⟨u + du, ?_, hxt⟩
        rcases hconv.1 ht with ⟨_, h⟩ | ⟨_, h⟩ | ⟨_, h⟩
        · have := c3.2 h
          split_ifs <;> rfl
        · have := c2.2 h
          split_ifs <;> rfl
        · rw [if_pos (c1.2 h)]
      · have hno : ¬ _ := fun h => ht (hconv.2 h)
        simp only [ha, hr, true_and, not_or] at hno
        rw [if_neg (fun h => hno.2.2 (c1.1 h)), if_neg (fun h => hno.2.1 (c2.1 h)), if_neg (fun h => hno.1 (c3.1 h))]
        exact ih t (u + du) t.U (some f) (by simpa using ht) hdiv' hxt k3 (fun h => by simp at h)
          (fun f' h => by simp only [Option.some.injEq] at h; subst h; exact ⟨rfl, by rw [hne, ff], fpos⟩) hcv r hhead hr0

theorem fenics_step (X : ι → ℝ) (S : StaticScene ℝ ι κ) (P : Fenics.Problem ι) (same : SameProblem X S P) (p : NewtonParams ℝ)
    (solver : Matrix ι ι ℝ → (ι → ℝ) → Option (ι → ℝ)) (aTol rTol : ℝ) (ha : 0 < aTol) (hr : 0 < rTol) (hp : 1 < p.iterations) (heps : 0 < p.eps)
    (h1 : p.correction = rTol) (h2 : p.residual = rTol) (h3 : p.absolute = aTol) (c : NewtonState ℝ) (u : ι → ℝ)
    (hcv : (staticSolve p S solver c (X + u)).1.converged = true) (r : ℝ) (hhead : (staticSolve p S solver c (X + u)).1.residuals.head? = some (some r)) (hr0 : r ≠ 0) :
    ∃ y, Fenics.newton P solver aTol rTol p.iterations u 0 none = .ok y ∧ (staticSolve p S solver c (X + u)).2.x = X + y := by
  simp only [staticSolve, newtonSolve, Bool.not_true, Bool.false_eq_true, if_false] at hcv hhead ⊢
  by_cases h0 : (decide (0 < p.absolute) && leNan ((staticEnv S solver).norm2 ((staticEnv S solver).rhs ⟨X + u, S.map (X + u), 0⟩).2) (some (p.absolute * p.absolute))) = true
  · exfalso
    rw [h0] at hhead
    obtain ⟨k, hk⟩ : ∃ k, p.iterations = k + 1 := ⟨p.iterations - 1, by omega⟩
    rw [hk] at hhead
    unfold newtonLoop at hhead
    simp at hhead
  · have h0' : (decide (0 < p.absolute) && leNan ((staticEnv S solver).norm2 ((staticEnv S solver).rhs ⟨X + u, S.map (X + u), 0⟩).2) (some (p.absolute * p.absolute))) = false := by
      simpa using h0
    rw [h0'] at hcv hhead ⊢
    exact fenics_loop X S P same p solver aTol rTol ha hr hp heps h1 h2 h3 p.iterations _ u 0 none rfl rfl rfl rfl (fun _ => ⟨rfl, rfl⟩) (fun f h => by simp at h) hcv r hhead hr0

end Loop

end Caribou

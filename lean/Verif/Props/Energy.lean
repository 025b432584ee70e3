import Verif.Props.Hyperelastic
import Verif.Props.Stability
import Verif.Spec.Energy
import Verif.Props.Canonical
import Mathlib.Analysis.Matrix.Spectrum
import Mathlib.Analysis.Matrix.PosDef
import Mathlib.Algebra.Order.Star.Real

/-!
# Property C95: the elastic energy is never negative
-/

set_option autoImplicit false

namespace Caribou

open Spec

/-! ### Energy densities -/

/-- The Saint Venant-Kirchhoff density is not negative and vanishes without strain only. -/
theorem svk_energy_nonneg {mu l : ℝ} (hmu : 0 < mu) (hl : 0 < 3 * l + 2 * mu) (J : ℝ) (C : Mat3) (hC : ∀ i j, C i j = C j i) :
    0 ≤ (saintVenantKirchhoff mu l).energy J C ∧ ((saintVenantKirchhoff mu l).energy J C = 0 ↔ C = 1) := by
  have h10 := hC 1 0
  have h20 := hC 2 0
  have h21 := hC 2 1
  have key : (saintVenantKirchhoff mu l).energy J C =
      (3 * l + 2 * mu) / 6 * (1 / 2 * (C 0 0 + C 1 1 + C 2 2 - 3)) ^ 2 +
        mu * (1 / 12 * ((C 0 0 - C 1 1) ^ 2 + (C 1 1 - C 2 2) ^ 2 + (C 2 2 - C 0 0) ^ 2) +
          1 / 2 * (C 0 1 ^ 2 + C 0 2 ^ 2 + C 1 2 ^ 2)) := by
    simp only [saintVenantKirchhoff, greenStrain, Matrix.trace, Matrix.diag, sum_fin3, Matrix.mul_apply, Matrix.smul_apply,
      Matrix.sub_apply, Matrix.one_apply, smul_eq_mul, h10, h20, h21, if_true, if_false, Fin.reduceEq, Fin.isValue]
    ring
  rw [key]
  set a := (1 / 2 * (C 0 0 + C 1 1 + C 2 2 - 3)) with ha
  have ha0 := sq_nonneg a
  have hb0 : 0 ≤ 1 / 12 * ((C 0 0 - C 1 1) ^ 2 + (C 1 1 - C 2 2) ^ 2 + (C 2 2 - C 0 0) ^ 2) +
      1 / 2 * (C 0 1 ^ 2 + C 0 2 ^ 2 + C 1 2 ^ 2) := by positivity
  have p1 : 0 ≤ (3 * l + 2 * mu) / 6 * a ^ 2 := mul_nonneg (by linarith) ha0
  have p2 := mul_nonneg hmu.le hb0
  refine ⟨add_nonneg p1 p2, fun h => ?_, fun h => ?_⟩
  · have q1 : (3 * l + 2 * mu) / 6 * a ^ 2 = 0 := by linarith
    have q2 := by
      have : mu * (1 / 12 * ((C 0 0 - C 1 1) ^ 2 + (C 1 1 - C 2 2) ^ 2 + (C 2 2 - C 0 0) ^ 2) +
          1 / 2 * (C 0 1 ^ 2 + C 0 2 ^ 2 + C 1 2 ^ 2)) = 0 := by linarith
      exact (mul_eq_zero.1 this).resolve_left hmu.ne'
    have r0 : a = 0 := by
      have := (mul_eq_zero.1 q1).resolve_left (by linarith)
      exact pow_eq_zero_iff (two_ne_zero) |>.1 this
    have s1 := sq_nonneg (C 0 0 - C 1 1)
    have s2 := sq_nonneg (C 1 1 - C 2 2)
    have s3 := sq_nonneg (C 2 2 - C 0 0)
    have s4 := sq_nonneg (C 0 1)
    have s5 := sq_nonneg (C 0 2)
    have s6 := sq_nonneg (C 1 2)
    have e1 : C 0 0 - C 1 1 = 0 := pow_eq_zero_iff two_ne_zero |>.1 (by linarith)
    have e2 : C 1 1 - C 2 2 = 0 := pow_eq_zero_iff two_ne_zero |>.1 (by linarith)
    have e4 : C 0 1 = 0 := pow_eq_zero_iff two_ne_zero |>.1 (by linarith)
    have e5 : C 0 2 = 0 := pow_eq_zero_iff two_ne_zero |>.1 (by linarith)
    have e6 : C 1 2 = 0 := pow_eq_zero_iff two_ne_zero |>.1 (by linarith)
    have d0 : C 0 0 = 1 := by linarith
    have d1 : C 1 1 = 1 := by linarith
    have d2 : C 2 2 = 1 := by linarith
    ext i j
    fin_cases i <;> fin_cases j <;> simp [h10, h20, h21, e4, e5, e6, d0, d1, d2]
  · rw [ha, h]
    simp
    right
    norm_num

/-- A positive definite matrix of trace `t` and determinant `d` has `log d ≤ t - 3`, with equality for the identity only. -/
theorem log_det_le_trace {C : Mat3} (hC : C.PosDef) :
    Real.log C.det ≤ C.trace - 3 ∧ (Real.log C.det = C.trace - 3 → C = 1) := by
  have hH := hC.isHermitian
  have hpos := hC.eigenvalues_pos
  have hd : C.det = ∏ i, hH.eigenvalues i := by simpa using hH.det_eq_prod_eigenvalues
  have ht : C.trace = ∑ i, hH.eigenvalues i := by simpa using hH.trace_eq_sum_eigenvalues
  have hle : ∀ i, Real.log (hH.eigenvalues i) ≤ hH.eigenvalues i - 1 := fun i => Real.log_le_sub_one_of_pos (hpos i)
  have hlog : Real.log C.det = ∑ i, Real.log (hH.eigenvalues i) := by
    rw [hd, Real.log_prod fun i _ => (hpos i).ne']
  have h3 : C.trace - 3 = ∑ i, (hH.eigenvalues i - 1) := by
    rw [ht, Finset.sum_sub_distrib]; simp
  rw [hlog, h3]
  refine ⟨Finset.sum_le_sum fun i _ => hle i, fun h => ?_⟩
  have h1 := (Finset.sum_eq_sum_iff_of_le fun i _ => hle i).1 h
  have h2 : ∀ i, hH.eigenvalues i = 1 := by
    intro i
    by_contra hne
    exact (Real.log_lt_sub_one_of_pos (hpos i) hne).ne (h1 i (Finset.mem_univ i))
  rw [hH.spectral_theorem]
  have : (RCLike.ofReal ∘ hH.eigenvalues : Fin 3 → ℝ) = fun _ => 1 := by funext i; simp [h2 i]
  rw [this]
  have h4 : Matrix.diagonal (fun _ : Fin 3 => (1 : ℝ)) = 1 := Matrix.diagonal_one
  rw [h4, map_one]

/-- The neo-Hookean density of a gradient of positive determinant is not negative and vanishes without strain only, when `l ≥ 0`. -/
theorem nh_energy_nonneg {mu l : ℝ} (hmu : 0 < mu) (hl : 0 ≤ l) (F : Mat3) (hF : 0 < F.det) :
    0 ≤ (neoHookean mu l).energy F.det (F.transpose * F) ∧
      ((neoHookean mu l).energy F.det (F.transpose * F) = 0 ↔ F.transpose * F = 1) := by
  have hpd : (F.transpose * F).PosDef := by
    have := Matrix.PosDef.conjTranspose_mul_self F (Matrix.mulVec_injective_iff_isUnit.2
      ((Matrix.isUnit_iff_isUnit_det F).2 (isUnit_iff_ne_zero.2 hF.ne')))
    simpa using this
  obtain ⟨h1, h2⟩ := log_det_le_trace hpd
  have hdet : Real.log (F.transpose * F).det = 2 * Real.log F.det := by
    rw [Matrix.det_mul, Matrix.det_transpose, Real.log_mul hF.ne' hF.ne']; ring
  rw [hdet] at h1 h2
  have key : (neoHookean mu l).energy F.det (F.transpose * F) =
      mu / 2 * ((F.transpose * F).trace - 3 - 2 * Real.log F.det) + l / 2 * Real.log F.det ^ 2 := by
    simp only [neoHookean]; ring
  have p1 : 0 ≤ mu / 2 * ((F.transpose * F).trace - 3 - 2 * Real.log F.det) := mul_nonneg (by linarith) (by linarith)
  have p2 : 0 ≤ l / 2 * Real.log F.det ^ 2 := mul_nonneg (by linarith) (sq_nonneg _)
  rw [key]
  refine ⟨add_nonneg p1 p2, fun h => h2 ?_, fun h => ?_⟩
  · have : mu / 2 * ((F.transpose * F).trace - 3 - 2 * Real.log F.det) = 0 := by linarith
    have := (mul_eq_zero.1 this).resolve_left (by linarith)
    linarith
  · have hd : F.det ^ 2 = 1 := by
      have := congrArg Matrix.det h
      rw [Matrix.det_mul, Matrix.det_transpose, Matrix.det_one] at this
      rw [sq, this]
    have hd1 : F.det = 1 := by nlinarith
    rw [h, hd1, Real.log_one]
    simp [Matrix.trace]

/-! ### Meshes -/

/-- The gradient read by `getPotentialEnergy` is the product of the Jacobian of the deformed element and the inverse of the one of the
rest element. -/
theorem strainF_jacobian {n : ℕ} (E : Elem ℝ 3 n) (X x : Fin n → Fin 3 → ℝ) (g : GaussNode 3)
    (hJ : (E.jacobian X g.position : Mat3).det ≠ 0) :
    strainF (gaussNodeOf E X g).dN (fun i => x i - X i) = (E.jacobian x g.position : Mat3) * (E.jacobian X g.position : Mat3)⁻¹ := by
  have e : ∀ y : Fin n → Fin 3 → ℝ, deformationGradient (gaussNodeOf E X g).dN y =
      (E.jacobian y g.position : Mat3) * (E.jacobian X g.position : Mat3)⁻¹ := by
    intro y
    ext a b
    rw [defGrad_apply]
    simp only [gaussNodeOf_dN, Matrix.mul_apply, Elem.jacobian, Finset.mul_sum, Finset.sum_mul]
    rw [Finset.sum_comm]
    exact Finset.sum_congr rfl fun k _ => Finset.sum_congr rfl fun i _ => by ring
  rw [strainF_eq, defGrad_sub, e, e, Matrix.mul_nonsing_inv _ (isUnit_iff_ne_zero.2 hJ), sub_add_cancel]

/-- No strain at a point means that the metric of the rest element is kept there. -/
theorem gram_eq_one_iff {A B : Mat3} (hB : B.det ≠ 0) : (A * B⁻¹).transpose * (A * B⁻¹) = 1 ↔ SameMetric A B := by
  have hu := isUnit_iff_ne_zero.2 hB
  have hiff : SameMetric A B ↔ A.transpose * A = B.transpose * B := by
    constructor
    · intro h
      ext i j
      have := h (Pi.single i 1) (Pi.single j 1)
      simpa [Matrix.mulVec_single_one, dotProduct, Matrix.mul_apply, Matrix.transpose_apply] using this
    · intro h u v
      have e : ∀ M : Mat3, (M.mulVec u) ⬝ᵥ (M.mulVec v) = u ⬝ᵥ ((M.transpose * M).mulVec v) := by
        intro M
        rw [← Matrix.mulVec_mulVec, Matrix.dotProduct_mulVec u, Matrix.vecMul_transpose]
      rw [e, e, h]
  rw [hiff]
  constructor
  · intro h
    have h1 := congrArg (fun M => B.transpose * M * B) h
    simp only [Matrix.transpose_mul, mul_one] at h1
    have e1 : B.transpose * (B⁻¹.transpose * A.transpose * (A * B⁻¹)) * B =
        (B⁻¹ * B).transpose * (A.transpose * A) * (B⁻¹ * B) := by
      rw [Matrix.transpose_mul]; simp only [Matrix.mul_assoc]
    rw [e1, Matrix.nonsing_inv_mul _ hu, Matrix.transpose_one, one_mul, mul_one] at h1
    exact h1
  · intro h
    have e1 : (A * B⁻¹).transpose * (A * B⁻¹) = B⁻¹.transpose * (A.transpose * A) * B⁻¹ := by
      rw [Matrix.transpose_mul]; simp only [Matrix.mul_assoc]
    rw [e1, h, ← Matrix.mul_assoc, ← Matrix.transpose_mul, Matrix.mul_nonsing_inv _ hu, Matrix.transpose_one, one_mul,
      Matrix.mul_nonsing_inv _ hu]

theorem solid_weight_pos (T : SolidType) : ∀ g ∈ T.gauss, 0 < g.weight := by
  cases T
  · exact fun g hg => (C12_inside_positive .tetra1 g hg).2
  · exact fun g hg => (C12_inside_positive .tetra2 g hg).2
  · exact fun g hg => (C12_inside_positive .hexa1 g hg).2
  · exact fun g hg => (C12_inside_positive .hexa2 g hg).2

/-- From densities to meshes. -/
theorem energy_nonneg_core (T : SolidType) {N M : ℕ} (idx : Fin M → Fin T.numNodes → Fin N) (X : Fin N → Fin 3 → ℝ)
    (hJ : ∀ e, ∀ g ∈ T.gauss, (T.elem.jacobian (fun i => X (idx e i)) g.position : Mat3).det ≠ 0) (mat : Material)
    (x : Fin N → Fin 3 → ℝ)
    (hE : ∀ e, ∀ g ∈ T.gauss, ∀ F : Mat3, F = (T.elem.jacobian (fun i => x (idx e i)) g.position : Mat3) *
        (T.elem.jacobian (fun i => X (idx e i)) g.position : Mat3)⁻¹ →
      0 ≤ mat.energy F.det (F.transpose * F) ∧ (mat.energy F.det (F.transpose * F) = 0 ↔ F.transpose * F = 1)) :
    0 ≤ (HyperMesh.initialize T.elem T.gauss idx X).potentialEnergy mat X x ∧
    ((HyperMesh.initialize T.elem T.gauss idx X).potentialEnergy mat X x = 0 ↔
      ∀ e, ∀ g ∈ T.gauss, SameMetric (T.elem.jacobian (fun i => x (idx e i)) g.position)
        (T.elem.jacobian (fun i => X (idx e i)) g.position)) := by
  have hterm : ∀ e, ∀ g ∈ T.gauss, ∃ c : ℝ, 0 < c ∧ ∃ w : ℝ, 0 ≤ w ∧
      (w = 0 ↔ SameMetric (T.elem.jacobian (fun i => x (idx e i)) g.position)
        (T.elem.jacobian (fun i => X (idx e i)) g.position)) ∧
      (let q := gaussNodeOf T.elem (fun i => X (idx e i)) g
       let F := strainF q.dN (fun i => x (idx e i) - X (idx e i))
       (q.detJ * q.weight) * mat.energy F.det (F.transpose * F)) = c * w := by
    intro e g hg
    refine ⟨_, mul_pos (abs_pos.2 (hJ e g hg)) (solid_weight_pos T g hg), _, ?_, ?_, rfl⟩
    · rw [strainF_jacobian _ _ (fun i => x (idx e i)) _ (hJ e g hg)]
      exact (hE e g hg _ rfl).1
    · rw [strainF_jacobian _ _ (fun i => x (idx e i)) _ (hJ e g hg), (hE e g hg _ rfl).2]
      exact gram_eq_one_iff (hJ e g hg)
  have hform : (HyperMesh.initialize T.elem T.gauss idx X).potentialEnergy mat X x = ∑ e, (T.gauss.map fun g =>
      let q := gaussNodeOf T.elem (fun i => X (idx e i)) g
      let F := strainF q.dN (fun i => x (idx e i) - X (idx e i))
      (q.detJ * q.weight) * mat.energy F.det (F.transpose * F)).sum := by
    refine Finset.sum_congr rfl fun e _ => ?_
    simp only [HyperMesh.initialize, getGaussNodes, List.map_map]
    rfl
  have hlist : ∀ (L : List (GaussNode 3)) (f : GaussNode 3 → ℝ) (P : GaussNode 3 → Prop),
      (∀ g ∈ L, ∃ c : ℝ, 0 < c ∧ ∃ w : ℝ, 0 ≤ w ∧ (w = 0 ↔ P g) ∧ f g = c * w) →
      0 ≤ (L.map f).sum ∧ ((L.map f).sum = 0 ↔ ∀ g ∈ L, P g) := by
    intro L f P
    induction L with
    | nil => intro _; simp
    | cons g L ih =>
      intro h
      obtain ⟨i1, i2⟩ := ih fun g' hg' => h g' (List.mem_cons_of_mem _ hg')
      obtain ⟨c, hc, w, hw, hP, hf⟩ := h g List.mem_cons_self
      have hn : 0 ≤ f g := by rw [hf]; exact mul_nonneg hc.le hw
      have hz : f g = 0 ↔ P g := by
        rw [hf, ← hP]
        constructor
        · intro h0; exact (mul_eq_zero.1 h0).resolve_left hc.ne'
        · intro h0; rw [h0, mul_zero]
      rw [List.map_cons, List.sum_cons]
      refine ⟨add_nonneg hn i1, ?_⟩
      rw [add_eq_zero_iff_of_nonneg hn i1, hz, i2]
      simp
  rw [hform]
  refine ⟨Finset.sum_nonneg fun e _ => (hlist _ _ _ (hterm e)).1, ?_⟩
  rw [Finset.sum_eq_zero_iff_of_nonneg fun e _ => (hlist _ _ _ (hterm e)).1]
  constructor
  · intro h e
    exact (hlist _ _ _ (hterm e)).2.1 (h e (Finset.mem_univ e))
  · intro h e _
    exact (hlist _ _ _ (hterm e)).2.2 (h e)

/-- **C95 (Saint Venant-Kirchhoff).** With a positive Young modulus and a Poisson ratio in `(-1, 1/2)`, the potential energy of the
force field is never negative, and it vanishes exactly when the deformed elements measure the same lengths and angles as the rest
elements at all integration points. -/
theorem C95_svk (T : SolidType) {N M : ℕ} (idx : Fin M → Fin T.numNodes → Fin N) (X : Fin N → Fin 3 → ℝ)
    (hJ : ∀ e, ∀ g ∈ T.gauss, (T.elem.jacobian (fun i => X (idx e i)) g.position : Mat3).det ≠ 0)
    (young poisson : ℝ) (h1 : 0 < young) (h2 : -1 < poisson) (h3 : poisson < 1 / 2) (x : Fin N → Fin 3 → ℝ) :
    let E := (HyperMesh.initialize T.elem T.gauss idx X).potentialEnergy
      (saintVenantKirchhoff (lameMu young poisson) (lameL young poisson)) X x
    0 ≤ E ∧ (E = 0 ↔ ∀ e, ∀ g ∈ T.gauss, SameMetric (T.elem.jacobian (fun i => x (idx e i)) g.position)
        (T.elem.jacobian (fun i => X (idx e i)) g.position)) :=
  energy_nonneg_core T idx X hJ _ x fun _ _ _ F _ =>
    svk_energy_nonneg (lame_strict h1 h2 h3).1 (lame_strict h1 h2 h3).2 _ _ (gram_symm F)

/-- **C95 (neo-Hookean), partial.** The same for the neo-Hookean material when no element is inverted, but only for Poisson ratios that
are not negative: see `C95_violated`. -/
theorem C95_neohookean_partial (T : SolidType) {N M : ℕ} (idx : Fin M → Fin T.numNodes → Fin N) (X : Fin N → Fin 3 → ℝ)
    (hJ : ∀ e, ∀ g ∈ T.gauss, (T.elem.jacobian (fun i => X (idx e i)) g.position : Mat3).det ≠ 0)
    (young poisson : ℝ) (h1 : 0 < young) (h2 : 0 ≤ poisson) (h3 : poisson < 1 / 2) (x : Fin N → Fin 3 → ℝ)
    (hx : ∀ e, ∀ g ∈ T.gauss, 0 < (T.elem.jacobian (fun i => x (idx e i)) g.position : Mat3).det *
      (T.elem.jacobian (fun i => X (idx e i)) g.position : Mat3).det) :
    let E := (HyperMesh.initialize T.elem T.gauss idx X).potentialEnergy
      (neoHookean (lameMu young poisson) (lameL young poisson)) X x
    0 ≤ E ∧ (E = 0 ↔ ∀ e, ∀ g ∈ T.gauss, SameMetric (T.elem.jacobian (fun i => x (idx e i)) g.position)
        (T.elem.jacobian (fun i => X (idx e i)) g.position)) := by
  refine energy_nonneg_core T idx X hJ _ x fun e g hg F hF =>
    nh_energy_nonneg (lame_strict h1 (by linarith) h3).1 ?_ F ?_
  · exact div_nonneg (mul_nonneg h1.le h2) (mul_nonneg (by linarith) (by linarith))
  · have hu := isUnit_iff_ne_zero.2 (hJ e g hg)
    have h0 := hx e g hg
    have e1 : F.det * (T.elem.jacobian (fun i => X (idx e i)) g.position : Mat3).det =
        (T.elem.jacobian (fun i => x (idx e i)) g.position : Mat3).det := by
      rw [hF, ← Matrix.det_mul, Matrix.mul_assoc, Matrix.nonsing_inv_mul _ hu, mul_one]
    rw [← e1] at h0
    have : 0 < (T.elem.jacobian (fun i => X (idx e i)) g.position : Mat3).det ^ 2 :=
      lt_of_le_of_ne (sq_nonneg _) (Ne.symm (pow_ne_zero 2 (hJ e g hg)))
    nlinarith

/-- **C95 (linear tetrahedra).** The metric of a linear tetrahedron is kept exactly when the distances of its nodes are. -/
theorem C95_distances (X x : Fin 4 → Fin 3 → ℝ) (ξ : Fin 3 → ℝ) :
    SameMetric (tetra1.jacobian x ξ) (tetra1.jacobian X ξ) ↔ ∀ i j, sqDist (x i) (x j) = sqDist (X i) (X j) := by
  have hcol : ∀ (w : Fin 4 → Fin 3 → ℝ) (a k : Fin 3), (tetra1.jacobian w ξ : Mat3) a k = w k.succ a - w 0 a := by
    intro w a k
    fin_cases k <;> simp [Elem.jacobian, tetra1, sum_fin4] <;> ring
  have hsum : ∀ (w : Fin 4 → Fin 3 → ℝ) (u : Fin 3 → ℝ) (a : Fin 3), (tetra1.jacobian w ξ : Mat3).mulVec u a =
      u 0 * (w 1 a - w 0 a) + u 1 * (w 2 a - w 0 a) + u 2 * (w 3 a - w 0 a) := by
    intro w u a
    simp only [Matrix.mulVec, dotProduct, sum_fin3, hcol]
    change (w 1 a - w 0 a) * u 0 + (w 2 a - w 0 a) * u 1 + (w 3 a - w 0 a) * u 2 = _
    ring
  constructor
  · intro h
    have key : ∀ i j, ∃ u : Fin 3 → ℝ, ∀ w : Fin 4 → Fin 3 → ℝ, ∀ a, (tetra1.jacobian w ξ : Mat3).mulVec u a = w i a - w j a := by
      have h0 : ∀ i, ∃ u : Fin 3 → ℝ, ∀ w : Fin 4 → Fin 3 → ℝ, ∀ a, (tetra1.jacobian w ξ : Mat3).mulVec u a = w i a - w 0 a := by
        intro i
        fin_cases i
        · exact ⟨0, fun w a => by rw [hsum]; simp⟩
        · exact ⟨![1, 0, 0], fun w a => by rw [hsum]; simp⟩
        · exact ⟨![0, 1, 0], fun w a => by rw [hsum]; simp⟩
        · exact ⟨![0, 0, 1], fun w a => by rw [hsum]; simp⟩
      intro i j
      obtain ⟨u, hu⟩ := h0 i
      obtain ⟨v, hv⟩ := h0 j
      exact ⟨u - v, fun w a => by rw [Matrix.mulVec_sub, Pi.sub_apply, hu, hv]; ring⟩
    intro i j
    obtain ⟨u, hu⟩ := key i j
    have := h u u
    simp only [dotProduct, hu] at this
    simpa only [sqDist, sq] using this
  · intro h u v
    have h01 := h 1 0
    have h02 := h 2 0
    have h03 := h 3 0
    have h12 := h 1 2
    have h13 := h 1 3
    have h23 := h 2 3
    simp only [dotProduct, hsum]
    simp only [sqDist, sum_fin3] at *
    linear_combination (u 0 * v 0 + (u 0 * v 1 + u 1 * v 0) / 2 + (u 0 * v 2 + u 2 * v 0) / 2) * h01 +
      (u 1 * v 1 + (u 0 * v 1 + u 1 * v 0) / 2 + (u 1 * v 2 + u 2 * v 1) / 2) * h02 +
      (u 2 * v 2 + (u 0 * v 2 + u 2 * v 0) / 2 + (u 1 * v 2 + u 2 * v 1) / 2) * h03 -
      (u 0 * v 1 + u 1 * v 0) / 2 * h12 - (u 0 * v 2 + u 2 * v 0) / 2 * h13 - (u 1 * v 2 + u 2 * v 1) / 2 * h23

/-- **C95 violated.** With the admissible Poisson ratio `-1/2`, compressing one neo-Hookean tetrahedron by `exp (-2)` in all directions
(no element is inverted) gives a negative energy. -/
theorem C95_violated :
    let s := Real.exp (-2)
    let X := (tetra1 (K := ℝ)).node
    0 < (tetra1.jacobian (fun i => s • X i) 0 : Mat3).det ∧
    (HyperMesh.initialize SolidType.tetra1.elem SolidType.tetra1.gauss (fun (_ : Fin 1) (i : Fin 4) => i) X).potentialEnergy
      (neoHookean (lameMu 1 (-1 / 2)) (lameL 1 (-1 / 2))) X (fun i => s • X i) < 0 := by
  intro s X
  have hs : 0 < s := Real.exp_pos _
  have hX : ∀ ξ : Fin 3 → ℝ, (tetra1.jacobian X ξ : Mat3) = 1 := by
    intro ξ
    ext a b
    fin_cases a <;> fin_cases b <;> simp [X, Elem.jacobian, tetra1, sum_fin4]
  have hx : ∀ ξ : Fin 3 → ℝ, (tetra1.jacobian (fun i => s • X i) ξ : Mat3) = s • (1 : Mat3) := by
    intro ξ
    rw [← hX ξ]
    ext a b
    simp only [Elem.jacobian, Matrix.smul_apply, Pi.smul_apply, smul_eq_mul, Finset.mul_sum]
    exact Finset.sum_congr rfl fun i _ => by ring
  refine ⟨by rw [hx, Matrix.det_smul, Matrix.det_one]; simpa using pow_pos hs 3, ?_⟩
  have hF := strainF_jacobian tetra1 X (fun i => s • X i) ⟨![1/4, 1/4, 1/4], 1/6⟩ (by rw [hX]; simp)
  rw [hX, hx, inv_one, mul_one] at hF
  have hE : (HyperMesh.initialize SolidType.tetra1.elem SolidType.tetra1.gauss (fun (_ : Fin 1) (i : Fin 4) => i) X).potentialEnergy
      (neoHookean (lameMu 1 (-1 / 2)) (lameL 1 (-1 / 2))) X (fun i => s • X i) =
      1 / 6 * (neoHookean (lameMu 1 (-1 / 2)) (lameL 1 (-1 / 2))).energy (s • (1 : Mat3)).det
        ((s • (1 : Mat3)).transpose * (s • (1 : Mat3))) := by
    rw [← hF]
    refine Eq.trans (b := ∑ _ : Fin 1, ([gaussNodeOf tetra1 X ⟨![1/4, 1/4, 1/4], 1/6⟩].map fun g =>
      let F := strainF g.dN (fun i => s • X i - X i)
      (g.detJ * g.weight) * (neoHookean (lameMu 1 (-1 / 2)) (lameL 1 (-1 / 2))).energy F.det (F.transpose * F)).sum) rfl ?_
    rw [Fin.sum_univ_one, List.map_cons, List.map_nil, List.sum_cons, List.sum_nil, add_zero]
    have hd : (gaussNodeOf tetra1 X ⟨![1/4, 1/4, 1/4], 1/6⟩).detJ * (gaussNodeOf tetra1 X ⟨![1/4, 1/4, 1/4], 1/6⟩).weight = 1 / 6 := by
      simp only [gaussNodeOf, hX]
      simp
    simp only [hd]
  rw [hE]
  have hlog : Real.log (s • (1 : Mat3)).det = -6 := by
    rw [Matrix.det_smul, Matrix.det_one, mul_one, Fintype.card_fin, Real.log_pow, Real.log_exp]
    norm_num
  have htr : ((s • (1 : Mat3)).transpose * (s • (1 : Mat3))).trace = 3 * s ^ 2 := by
    simp [Matrix.trace]
    ring
  have hs1 : s < 1 := by
    have := Real.exp_lt_exp.2 (show (-2 : ℝ) < 0 by norm_num)
    rwa [Real.exp_zero] at this
  simp only [neoHookean, hlog, htr, lameMu, lameL]
  nlinarith

/-- A tetrahedron stretched to twice its length along the first axis stores energy, with both materials. -/
example :
    let X := (tetra1 (K := ℝ)).node
    let x : Fin 4 → Fin 3 → ℝ := ![![0, 0, 0], ![2, 0, 0], ![0, 1, 0], ![0, 0, 1]]
    let m := HyperMesh.initialize SolidType.tetra1.elem SolidType.tetra1.gauss (fun (_ : Fin 1) (i : Fin 4) => i) X
    0 < m.potentialEnergy (saintVenantKirchhoff (lameMu 1000 (3 / 10)) (lameL 1000 (3 / 10))) X x ∧
    0 < m.potentialEnergy (neoHookean (lameMu 1000 (3 / 10)) (lameL 1000 (3 / 10))) X x := by
  intro X x m
  have hX : ∀ ξ : Fin 3 → ℝ, (tetra1.jacobian X ξ : Mat3) = 1 := by
    intro ξ
    ext a b
    fin_cases a <;> fin_cases b <;> simp [X, Elem.jacobian, tetra1, sum_fin4]
  have hx : ∀ ξ : Fin 3 → ℝ, (tetra1.jacobian x ξ : Mat3) = Matrix.diagonal ![2, 1, 1] := by
    intro ξ
    ext a b
    fin_cases a <;> fin_cases b <;> simp [x, Elem.jacobian, tetra1, sum_fin4, Matrix.diagonal]
  have hne : ¬ ∀ _ : Fin 1, ∀ g ∈ SolidType.tetra1.gauss, SameMetric (tetra1.jacobian x g.position) (tetra1.jacobian X g.position) := by
    intro h
    have := (C95_distances X x _).1 (h 0 ⟨![1/4, 1/4, 1/4], 1/6⟩ (List.mem_singleton.2 rfl)) 1 0
    simp [sqDist, X, x, tetra1, sum_fin3] at this
    norm_num at this
  have h1 := C95_svk .tetra1 (fun (_ : Fin 1) (i : Fin 4) => i) X (fun _ g _ => by
    change (tetra1.jacobian X g.position : Mat3).det ≠ 0
    rw [hX]; simp) 1000 (3 / 10) (by norm_num) (by norm_num) (by norm_num) x
  have h2 := C95_neohookean_partial .tetra1 (fun (_ : Fin 1) (i : Fin 4) => i) X (fun _ g _ => by
    change (tetra1.jacobian X g.position : Mat3).det ≠ 0
    rw [hX]; simp) 1000 (3 / 10) (by norm_num) (by norm_num) (by norm_num) x (fun _ g _ => by
    change 0 < (tetra1.jacobian x g.position : Mat3).det * (tetra1.jacobian X g.position : Mat3).det
    rw [hX, hx, Matrix.det_diagonal]; simp [Fin.prod_univ_three])
  exact ⟨lt_of_le_of_ne h1.1 fun h => hne (h1.2.1 h.symm), lt_of_le_of_ne h2.1 fun h => hne (h2.2.1 h.symm)⟩

end Caribou

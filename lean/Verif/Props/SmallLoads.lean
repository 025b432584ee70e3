import Verif.Lemmas.SmallLoads

/-!
# C127: held bodies under small loads
-/

set_option autoImplicit false

namespace Caribou

open Spec Matrix

variable {ι κ : Type*} [Fintype ι] [Fintype κ] [DecidableEq ι]

/-- **C127, the equilibrium.** Around a regular equilibrium of the scene without load: every small load has an equilibrium, at a distance at most proportional to the load, the only one
near the first; it is the one of the linear theory up to the square of the load. -/
theorem C127_equilibrium (S : StaticScene ℝ ι κ) (hJ : MapsFreeOnly S) (z₀ : ι → ℝ) (ρ l : ℝ) (hρ : 0 < ρ) (hl : 0 ≤ l) (h : RegularEquilibrium S z₀ ρ l) :
    ∃ c r η : ℝ, 0 < c ∧ 0 < r ∧ 0 < η ∧ ∀ f, ‖f‖ ≤ η → ∃ z, HeldEquilibrium (withLoad S f) z₀ z ∧ ‖z - z₀‖ ≤ c * ‖f‖ ∧
      (∀ y, ‖y - z₀‖ ≤ r → HeldEquilibrium (withLoad S f) z₀ y → y = z) ∧ ∀ u, LinearResponse S z₀ f u → ‖z - (z₀ + u)‖ ≤ c * ‖f‖ ^ 2 := by
  obtain ⟨c, r, η, hc, hr, hη, hex, huniq⟩ := small_equilibrium S z₀ ρ l hρ hl h
  obtain ⟨C, r', G, hC, hr', _, _, hN⟩ := newtonNear_family S hJ z₀ ρ l hρ hl h
  refine ⟨c + C * c ^ 2, r, min η (min (r / c) (r' / c)), by positivity, hr, by positivity, fun f hf => ?_⟩
  obtain ⟨z, hz, hzc⟩ := hex f (hf.trans (min_le_left _ _))
  have hfr : c * ‖f‖ ≤ r := by
    have := hf.trans ((min_le_right _ _).trans (min_le_left _ _))
    rw [le_div_iff₀ hc] at this
    linarith
  have hfr' : c * ‖f‖ ≤ r' := by
    have := hf.trans ((min_le_right _ _).trans (min_le_right _ _))
    rw [le_div_iff₀ hc] at this
    linarith
  have hn := norm_nonneg f
  refine ⟨z, hz, hzc.trans (mul_le_mul_of_nonneg_right (by nlinarith [sq_nonneg c]) hn), fun y hy hyeq => huniq f y z hy (hzc.trans hfr) hyeq hz, fun u hu => ?_⟩
  have hNN := hN f z (hzc.trans hfr') hz.1
  have hs := hNN.step ⟨z₀, S.map z₀, 0⟩ rfl (by rw [norm_sub_rev]; exact hzc.trans hfr') (fun i hi => (hz.2 i hi).symm) u ?_
  · rw [norm_sub_rev]
    refine hs.trans ?_
    have h1 : ‖z₀ - z‖ ^ 2 ≤ (c * ‖f‖) ^ 2 := by
      rw [norm_sub_rev]
      exact pow_le_pow_left₀ (norm_nonneg _) hzc 2
    have h2 := mul_le_mul_of_nonneg_left h1 hC.le
    have h3 : 0 ≤ c * ‖f‖ ^ 2 := by positivity
    nlinarith
  · rw [staticRhs_total (withLoad S f) _ rfl, withLoad_total]
    funext i
    rw [show staticMatrix (withLoad S f) ⟨z₀, S.map z₀, 0⟩ = staticMatrix S ⟨z₀, S.map z₀, 0⟩ from rfl, staticMatrix_total S hJ _ rfl, show (withLoad S f).fixed = S.fixed from rfl]
    have hp : projectResponse S.fixed u = u := by
      funext j
      unfold projectResponse
      split_ifs with hj
      · exact (hu.1 j hj).symm
      · rfl
    rw [hp]
    unfold projectResponse
    split_ifs with hi
    · exact hu.1 i hi
    · have h1 := hu.2 i (by simpa using hi)
      have h2 := h.equilibrium i (by simpa using hi)
      simp only [Pi.add_apply, totalForce]
      linarith

/-- **C127, the static solve (partial).** The static solve started at the equilibrium without load goes to the one with the load: every iteration squares the distance, up to a constant, and
halves it; with enough iterations it reports convergence.  Missing: loads so small that the solve hardly moves (`C126_violated`), mapped points attached to fixed ones. -/
theorem C127_solve_partial (S : StaticScene ℝ ι κ) (hJ : MapsFreeOnly S) (z₀ : ι → ℝ) (ρ l : ℝ) (hρ : 0 < ρ) (hl : 0 ≤ l) (h : RegularEquilibrium S z₀ ρ l) :
    ∃ C r : ℝ, 0 < C ∧ 0 < r ∧ C * r ≤ 1 / 2 ∧
      (∀ f z, ‖z - z₀‖ ≤ r → HeldEquilibrium (withLoad S f) z₀ z → ∀ (n : NewtonParams ℝ) (solver : Matrix ι ι ℝ → (ι → ℝ) → Option (ι → ℝ)), SolvesExactly solver →
        SolvesRegular solver → ∀ s : NewtonState ℝ,
        C * ‖(staticSolve n (withLoad S f) solver s z₀).2.x - z‖ ≤ (C * ‖z₀ - z‖) ^ 2 ^ (staticSolve n (withLoad S f) solver s z₀).1.residuals.length ∧
        ‖(staticSolve n (withLoad S f) solver s z₀).2.x - z‖ ≤ ‖z₀ - z‖ / 2 ^ (staticSolve n (withLoad S f) solver s z₀).1.residuals.length) ∧
      ∀ a : ℝ, 0 < a → ∃ N : ℕ, ∀ f z, ‖z - z₀‖ ≤ r → HeldEquilibrium (withLoad S f) z₀ z → ∀ n : NewtonParams ℝ, N ≤ n.iterations → 2 ≤ n.iterations → 0 < n.eps →
        (n.correction = a ∨ n.absolute = a) → ∀ solver : Matrix ι ι ℝ → (ι → ℝ) → Option (ι → ℝ), SolvesExactly solver → SolvesRegular solver → ∀ s : NewtonState ℝ,
        (staticSolve n (withLoad S f) solver s z₀).1.converged = true ∨
          ((staticSolve n (withLoad S f) solver s z₀).2.x - z₀) ⬝ᵥ ((staticSolve n (withLoad S f) solver s z₀).2.x - z₀) < n.eps := by
  obtain ⟨C, r, G, hC, hr, hCr, hG, hN⟩ := newtonNear_family S hJ z₀ ρ l hρ hl h
  refine ⟨C, r, hC, hr, hCr, fun f z hz he n solver hex hreg s => ?_, fun a ha => ?_⟩
  · obtain ⟨E, e1, e2, _, hE, _⟩ := quad_solve (withLoad S f) hJ z C r G (hN f z hz he.1) n solver hex hreg s z₀ (by rwa [norm_sub_rev]) fun i hi => (he.2 i hi).symm
    rw [e1, e2]
    exact ⟨hE.quad, hE.half⟩
  · obtain ⟨N, hrep⟩ := quad_reported (ι := ι) (κ := κ) C r G a hG ha
    exact ⟨N, fun f z hz he n h1 h2 h3 h4 solver hex hreg s =>
      hrep (withLoad S f) hJ z (hN f z hz he.1) n h1 h2 h3 h4 solver hex hreg s z₀ (by rwa [norm_sub_rev]) fun i hi => (he.2 i hi).symm⟩

/-- **C127, hyperelastic bodies at rest.** At the rest positions of a hyperelastic body three nodes of which are fixed in every piece, and at all rigid motions of them, the hypotheses of the two
theorems above hold, for both materials. -/
theorem C127_rest (T : SolidType) (hT : T ≠ .hexa2) {N M : ℕ} (idx : Fin M → Fin T.numNodes → Fin N)
    (hinj : ∀ e, Function.Injective (idx e)) (X : Fin N → Fin 3 → ℝ) (hshape : ∀ e, RegularShape T fun i => X (idx e i))
    (young poisson : ℝ) (h1 : 0 < young) (h2 : -1 < poisson) (h3 : poisson < 1 / 2) (fixed : Fin N → Bool)
    (hheld : WellHeld idx X fixed) (Q : Mat3) (hQ : IsRotation Q) (c : Fin 3 → ℝ) (mat : Material)
    (hmat : mat = saintVenantKirchhoff (lameMu young poisson) (lameL young poisson) ∨
      mat = neoHookean (lameMu young poisson) (lameL young poisson)) :
    ∃ ρ l : ℝ, 0 < ρ ∧ 0 ≤ l ∧
      RegularEquilibrium (hyperScene (HyperMesh.initialize T.elem T.gauss idx X) mat fixed) (fun d => (Q.mulVec (X d.1) + c) d.2) ρ l := by
  have hJ : ∀ e, ∀ g ∈ T.gauss, (T.elem.jacobian (fun i => X (idx e i)) g.position : Mat3).det ≠ 0 := fun e g hg => (hshape e).det_ne hg
  have hspd := C101_hyperelastic_partial T hT idx hinj X hshape young poisson h1 h2 h3 fixed hheld Q hQ c mat hmat
  have hfree : StressFree mat := by
    rcases hmat with rfl | rfl
    · exact (C41_rest_and_symmetry _ _ 1).2.1
    · exact (C42_rest_and_symmetry _ _).2.1
  have hrest := C48_hyperelastic T idx X 0 hJ mat hfree Q hQ c
  obtain ⟨m, hm⟩ : ∃ m, m = HyperMesh.initialize T.elem T.gauss idx X := ⟨_, rfl⟩
  have hpos : ∀ e, ∀ q ∈ m.qnodes e, 0 < (deformationGradient q.dN (m.gather (fun p a => (Q.mulVec (X p) + c) a) e)).det := by
    intro e q hq
    rw [hm] at hq ⊢
    have hF : deformationGradient q.dN ((HyperMesh.initialize T.elem T.gauss idx X).gather (fun p => Q.mulVec (X p) + c) e) = Q :=
      (C45_affine T (fun i => X (idx e i)) (hJ e) Q c q hq).1
    rw [hF, hQ.2]
    exact one_pos
  have hinj' : ∀ e, Function.Injective (m.idx e) := by rw [hm]; exact hinj
  rw [← hm] at hspd hrest ⊢
  have hf : totalForce (hyperScene m mat fixed) = fun y d => m.addForce mat (fun p a => y (p, a)) 0 d.1 d.2 := by
    funext y d
    simp [totalForce, hyperScene]
  have hline : ∀ (x u : Dof N → ℝ) (p : Fin N) (a : Fin 3), HasDerivAt (fun s : ℝ => x (p, a) + s * u (p, a)) (u (p, a)) 0 := by
    intro x u p a
    simpa using ((hasDerivAt_id (0 : ℝ)).mul_const (u (p, a))).const_add (x (p, a))
  have hsm : ∀ᶠ x : Dof N → ℝ in nhds fun d => (Q.mulVec (X d.1) + c) d.2, SmoothAt m mat x ∧
      HasFDerivAt (totalForce (hyperScene m mat fixed)) (LinearMap.toContinuousLinearMap (totalStiff (hyperScene m mat fixed) x).mulVecLin) x := by
    rcases hmat with rfl | rfl
    · refine Filter.Eventually.of_forall fun x => ⟨smoothAt_svk _ _ m x, hyper_hasFDeriv m _ fixed x (smoothAt_svk _ _ m x) fun u d => ?_⟩
      have := C47_derivative_svk (lameMu young poisson) (lameL young poisson) m hinj' (fun s p a => x (p, a) + s * u (p, a)) (fun p a => u (p, a)) 0 (hline x u) 0 d.1 d.2
      simpa using this
    · refine (eventually_positive m (fun d => (Q.mulVec (X d.1) + c) d.2) hpos).mono fun x hx => ⟨smoothAt_nh _ _ m x hx, hyper_hasFDeriv m _ fixed x (smoothAt_nh _ _ m x hx) fun u d => ?_⟩
      have := C47_derivative_neohookean (lameMu young poisson) (lameL young poisson) m hinj' (fun s p a => x (p, a) + s * u (p, a)) (fun p a => u (p, a)) 0 (hline x u)
        (by simpa using hx) 0 d.1 d.2
      simpa using this
  refine C126_smooth _ _ ?_ ?_ (hsm.mono fun x hx => hx.2) ?_
  · intro d _
    have := congrFun (congrFun hrest d.1) d.2
    simp only [hyperScene, Finset.univ_eq_empty, Finset.sum_empty, add_zero]
    exact this
  · rw [hf, contDiffAt_pi]
    exact fun d => addForce_smooth m mat _ hsm.self_of_nhds.1 d
  · intro u hu hfr
    have hu0 : constrainMatrix (fun d : Dof N => fixed d.1) (-(Matrix.of (addStoredToMatrix 1 (m.storedK mat fun p => Q.mulVec (X p) + c) 0))) *ᵥ u = 0 := by
      have hst : staticMatrix (hyperScene m mat fixed) ⟨fun d => (Q.mulVec (X d.1) + c) d.2, Fin.elim0, 0⟩ =
          constrainMatrix (fun d : Dof N => fixed d.1) (-(Matrix.of (addStoredToMatrix 1 (m.storedK mat fun p => Q.mulVec (X p) + c) 0))) := by
        show constrainMatrix _ _ + (0 : Matrix (Fin 0) (Dof N) ℝ).transpose * _ * 0 = _
        rw [Matrix.mul_zero, add_zero]
        rfl
      rw [← hst]
      funext d
      rw [staticMatrix_total _ (fun k => k.elim0) _ (by funext k; exact k.elim0)]
      have hp : projectResponse (hyperScene m mat fixed).fixed u = u := by
        funext j
        unfold projectResponse
        split_ifs with hj
        · exact (hu j hj).symm
        · rfl
      rw [hp]
      split_ifs with hd
      · exact hu d hd
      · rw [hfr d (by simpa using hd), neg_zero]; rfl
    have hunit := (C101_solvable hspd).1
    generalize constrainMatrix (fun d : Dof N => fixed d.1) (-(Matrix.of (addStoredToMatrix 1 (m.storedK mat fun p => Q.mulVec (X p) + c) 0))) = A at hunit hu0
    rw [Matrix.isUnit_iff_isUnit_det] at hunit
    have := congrArg (fun w => A⁻¹ *ᵥ w) hu0
    simpa [mulVec_mulVec, Matrix.nonsing_inv_mul _ hunit] using this

/-- **C127, hyperelastic bodies (partial).** A hyperelastic body three nodes of which are fixed in every piece, with a small load: there is one equilibrium near the rest positions, at a distance at
most proportional to the load, and it is the one of the linear theory up to the square of the load; a static solve from the rest positions with enough iterations reports convergence or hardly moves,
and each of its iterations squares the distance to that equilibrium.  Missing: loads so small that the solve hardly moves (`C126_violated`); curved quadratic elements (`C101_tetra2_violated`,
`C101_hexa2_violated`). -/
theorem C127_hyperelastic_partial (T : SolidType) (hT : T ≠ .hexa2) {N M : ℕ} (idx : Fin M → Fin T.numNodes → Fin N)
    (hinj : ∀ e, Function.Injective (idx e)) (X : Fin N → Fin 3 → ℝ) (hshape : ∀ e, RegularShape T fun i => X (idx e i))
    (young poisson : ℝ) (h1 : 0 < young) (h2 : -1 < poisson) (h3 : poisson < 1 / 2) (fixed : Fin N → Bool) (hheld : WellHeld idx X fixed) (mat : Material)
    (hmat : mat = saintVenantKirchhoff (lameMu young poisson) (lameL young poisson) ∨ mat = neoHookean (lameMu young poisson) (lameL young poisson)) :
    let S := hyperScene (HyperMesh.initialize T.elem T.gauss idx X) mat fixed
    let x₀ : Dof N → ℝ := fun d => X d.1 d.2
    ∃ c r η : ℝ, 0 < c ∧ 0 < r ∧ 0 < η ∧ ∀ a : ℝ, 0 < a → ∃ k : ℕ, ∀ f : Dof N → ℝ, ‖f‖ ≤ η → ∃ z,
      HeldEquilibrium (withLoad S f) x₀ z ∧ ‖z - x₀‖ ≤ c * ‖f‖ ∧ (∀ y, ‖y - x₀‖ ≤ r → HeldEquilibrium (withLoad S f) x₀ y → y = z) ∧
      (∀ u, LinearResponse S x₀ f u → ‖z - (x₀ + u)‖ ≤ c * ‖f‖ ^ 2) ∧
      ∀ (n : NewtonParams ℝ) (solver : Matrix (Dof N) (Dof N) ℝ → (Dof N → ℝ) → Option (Dof N → ℝ)), SolvesExactly solver → SolvesRegular solver → ∀ s : NewtonState ℝ,
        ‖(staticSolve n (withLoad S f) solver s x₀).2.x - z‖ ≤ ‖x₀ - z‖ / 2 ^ (staticSolve n (withLoad S f) solver s x₀).1.residuals.length ∧
        c⁻¹ * ‖(staticSolve n (withLoad S f) solver s x₀).2.x - z‖ ≤ (1 / 2) ^ 2 ^ (staticSolve n (withLoad S f) solver s x₀).1.residuals.length ∧
        (k ≤ n.iterations → 2 ≤ n.iterations → 0 < n.eps → (n.correction = a ∨ n.absolute = a) →
          (staticSolve n (withLoad S f) solver s x₀).1.converged = true ∨
          ((staticSolve n (withLoad S f) solver s x₀).2.x - x₀) ⬝ᵥ ((staticSolve n (withLoad S f) solver s x₀).2.x - x₀) < n.eps) := by
  intro S x₀
  have hrot : IsRotation (1 : Mat3) := ⟨by show (1 : Mat3).transpose * 1 = 1; rw [Matrix.transpose_one, Matrix.one_mul], Matrix.det_one⟩
  obtain ⟨ρ, l, hρ, hl, hreg⟩ := C127_rest T hT idx hinj X hshape young poisson h1 h2 h3 fixed hheld 1 hrot 0 mat hmat
  have hx : (fun d : Dof N => ((1 : Mat3).mulVec (X d.1) + 0) d.2) = x₀ := by funext d; simp [x₀]
  rw [hx] at hreg
  have hJ : MapsFreeOnly S := fun k => k.elim0
  obtain ⟨c, r, η, hc, hr, hη, heq⟩ := C127_equilibrium S hJ x₀ ρ l hρ hl hreg
  obtain ⟨C, r', hC, hr', hCr, hq, hrep⟩ := C127_solve_partial S hJ x₀ ρ l hρ hl hreg
  obtain ⟨b, hb⟩ : ∃ b : ℝ, b = c + C⁻¹ := ⟨_, rfl⟩
  have hCi : 0 < C⁻¹ := inv_pos.2 hC
  have hcb : c ≤ b := by rw [hb]; linarith
  have hb0 : 0 < b := by rw [hb]; positivity
  refine ⟨b, r, min η (r' / c), hb0, hr, by positivity, fun a ha => ?_⟩
  obtain ⟨k, hk⟩ := hrep a ha
  refine ⟨k, fun f hf => ?_⟩
  obtain ⟨z, hz, hzc, huni, hlin⟩ := heq f (hf.trans (min_le_left _ _))
  have hfr' : ‖z - x₀‖ ≤ r' := by
    have := hf.trans (min_le_right _ _)
    rw [le_div_iff₀ hc] at this
    linarith
  refine ⟨z, hz, hzc.trans (mul_le_mul_of_nonneg_right hcb (norm_nonneg _)), huni, fun u hu => (hlin u hu).trans (mul_le_mul_of_nonneg_right hcb (by positivity)), fun n solver hex hre s => ?_⟩
  obtain ⟨q1, q2⟩ := hq f z hfr' hz n solver hex hre s
  refine ⟨q2, ?_, fun k1 k2 k3 k4 => hk f z hfr' hz n k1 k2 k3 k4 solver hex hre s⟩
  have hbi : b⁻¹ ≤ C := by
    rw [inv_le_comm₀ hb0 hC, hb]
    linarith
  refine (mul_le_mul_of_nonneg_right hbi (norm_nonneg _)).trans (q1.trans (pow_le_pow_left₀ (by positivity) ?_ _))
  rw [norm_sub_rev]
  exact (mul_le_mul_of_nonneg_left hfr' hC.le).trans hCr

/-- A neo-Hookean hexahedron three nodes of which are fixed. -/
example : ∃ η : ℝ, 0 < η ∧ ∀ f : Dof 8 → ℝ, ‖f‖ ≤ η → ∃ z, HeldEquilibrium (withLoad (hyperScene (HyperMesh.initialize SolidType.hexa1.elem SolidType.hexa1.gauss
    (fun (_ : Fin 1) (i : Fin 8) => i) (hexa1 : Elem ℝ 3 8).node) (neoHookean (lameMu 1000 (3 / 10)) (lameL 1000 (3 / 10))) fun p => p = 0 ∨ p = 1 ∨ p = 3) f)
    (fun d => (hexa1 : Elem ℝ 3 8).node d.1 d.2) z := by
  obtain ⟨c, r, η, _, _, hη, h⟩ := C127_hyperelastic_partial .hexa1 (by decide) (N := 8) (M := 1) (fun _ i => i) (fun _ => Function.injective_id) _
    (fun _ => .inl (canonical_shape _)) 1000 (3 / 10) (by norm_num) (by norm_num) (by norm_num) _ oneHexa_held _ (Or.inr rfl)
  obtain ⟨k, hk⟩ := h 1 one_pos
  exact ⟨η, hη, fun f hf => (hk f hf).imp fun z hz => hz.1⟩

end Caribou

import Verif.Spec.SmallLoads
import Verif.Props.Quadratic
import Verif.Props.HeldBody
import Mathlib.Analysis.Calculus.InverseFunctionTheorem.FDeriv
import Mathlib.Analysis.SpecialFunctions.Log.Deriv

set_option autoImplicit false
set_option linter.all false

namespace Caribou

open Spec Matrix

variable {ι κ : Type*} [Fintype ι] [Fintype κ] [DecidableEq ι]

/-! ### Equilibria for small loads -/

/-- The positions of the fixed degrees of freedom and the forces on the free ones. -/
def heldMap (S : StaticScene ℝ ι κ) (x : ι → ℝ) : ι → ℝ := fun i => if S.fixed i then x i else totalForce S x i

def heldLin (S : StaticScene ℝ ι κ) (x : ι → ℝ) : (ι → ℝ) →ₗ[ℝ] (ι → ℝ) where
  toFun u := fun i => if S.fixed i then u i else (totalStiff S x *ᵥ u) i
  map_add' u v := by
    funext i
    simp only [Pi.add_apply, mulVec_add]
    split_ifs <;> rfl
  map_smul' c u := by
    funext i
    simp only [Pi.smul_apply, mulVec_smul, RingHom.id_apply]
    split_ifs <;> rfl

theorem held_strict (S : StaticScene ℝ ι κ) (z₀ : ι → ℝ) (ρ l : ℝ) (hρ : 0 < ρ) (hl : 0 ≤ l) (h : RegularEquilibrium S z₀ ρ l) :
    HasStrictFDerivAt (heldMap S) (LinearMap.toContinuousLinearMap (heldLin S z₀)) z₀ := by
  refine hasStrictFDerivAt_of_hasFDerivAt_of_continuousAt (f' := fun x => LinearMap.toContinuousLinearMap (heldLin S x)) ?_ ?_
  · rw [Metric.eventually_nhds_iff]
    refine ⟨ρ, hρ, fun x hx => ?_⟩
    rw [dist_eq_norm] at hx
    have hd := hasFDerivAt_pi'.1 (h.derivative x hx.le)
    refine hasFDerivAt_pi'.2 fun i => ?_
    by_cases hi : S.fixed i = true
    · have h1 : HasFDerivAt (fun y : ι → ℝ => y i) (ContinuousLinearMap.proj (R := ℝ) (φ := fun _ : ι => ℝ) i) x := hasFDerivAt_apply i x
      have e : (fun y => heldMap S y i) = fun y : ι → ℝ => y i := by funext y; simp [heldMap, hi]
      rw [e]
      refine HasFDerivAt.congr_fderiv h1 (ContinuousLinearMap.ext fun u => ?_)
      simp [heldLin, hi]
    · have e : (fun y => heldMap S y i) = fun y => totalForce S y i := by funext y; simp [heldMap, hi]
      rw [e]
      refine HasFDerivAt.congr_fderiv (hd i) (ContinuousLinearMap.ext fun u => ?_)
      simp [heldLin, hi]
  · rw [Metric.continuousAt_iff]
    intro ε hε
    refine ⟨min ρ (ε / (l + 1)), by positivity, fun x hx => ?_⟩
    rw [dist_eq_norm] at hx
    have h1 : ‖x - z₀‖ < ρ := lt_of_lt_of_le hx (min_le_left _ _)
    have h2 : ‖x - z₀‖ < ε / (l + 1) := lt_of_lt_of_le hx (min_le_right _ _)
    rw [lt_div_iff₀ (by positivity)] at h2
    rw [dist_eq_norm]
    refine lt_of_le_of_lt (ContinuousLinearMap.opNorm_le_bound _ (by positivity : 0 ≤ l * ‖x - z₀‖) fun u => ?_) (by nlinarith [norm_nonneg (x - z₀)])
    refine (pi_norm_le_iff_of_nonneg (by positivity)).2 fun i => ?_
    have h3 := h.lipschitz x h1.le z₀ (by simp [hρ.le]) u
    have h4 := norm_le_pi_norm (totalStiff S x *ᵥ u - totalStiff S z₀ *ᵥ u) i
    show ‖(if S.fixed i then u i else (totalStiff S x *ᵥ u) i) - (if S.fixed i then u i else (totalStiff S z₀ *ᵥ u) i)‖ ≤ _
    split_ifs
    · rw [sub_self, norm_zero]; positivity
    · exact h4.trans h3

theorem held_injective (S : StaticScene ℝ ι κ) (z₀ : ι → ℝ) (ρ l : ℝ) (h : RegularEquilibrium S z₀ ρ l) : Function.Injective (heldLin S z₀) := by
  rw [← LinearMap.ker_eq_bot, LinearMap.ker_eq_bot']
  intro u hu
  refine h.regular u (fun i hi => ?_) fun i hi => ?_
  · have := congrFun hu i
    simpa [heldLin, hi] using this
  · have := congrFun hu i
    simpa [heldLin, hi] using this

theorem small_equilibrium (S : StaticScene ℝ ι κ) (z₀ : ι → ℝ) (ρ l : ℝ) (hρ : 0 < ρ) (hl : 0 ≤ l) (h : RegularEquilibrium S z₀ ρ l) :
    ∃ c r η : ℝ, 0 < c ∧ 0 < r ∧ 0 < η ∧ (∀ f, ‖f‖ ≤ η → ∃ z, HeldEquilibrium (withLoad S f) z₀ z ∧ ‖z - z₀‖ ≤ c * ‖f‖) ∧
      ∀ f y z, ‖y - z₀‖ ≤ r → ‖z - z₀‖ ≤ r → HeldEquilibrium (withLoad S f) z₀ y → HeldEquilibrium (withLoad S f) z₀ z → y = z := by
  let e : (ι → ℝ) ≃L[ℝ] (ι → ℝ) := (LinearEquiv.ofInjectiveEndo (heldLin S z₀) (held_injective S z₀ ρ l h)).toContinuousLinearEquiv
  have hst : HasStrictFDerivAt (heldMap S) (e : (ι → ℝ) →L[ℝ] (ι → ℝ)) z₀ := held_strict S z₀ ρ l hρ hl h
  have hr := hst.eventually_right_inverse
  have hli := hst.eventually_left_inverse
  have hg := hst.to_localInverse.hasFDerivAt
  have hO := hg.isBigO_sub
  obtain ⟨c, hc0, hc⟩ := hO.exists_pos
  rw [Asymptotics.isBigOWith_iff] at hc
  obtain ⟨η, hη, hηball⟩ := Metric.eventually_nhds_iff.1 (hr.and hc)
  obtain ⟨r, hr0, hrball⟩ := Metric.eventually_nhds_iff.1 hli
  have himg : hst.localInverse (heldMap S) e z₀ (heldMap S z₀) = z₀ := hst.localInverse_apply_image
  have hchar : ∀ f y, HeldEquilibrium (withLoad S f) z₀ y ↔ heldMap S y = fun i => if S.fixed i then z₀ i else -f i := by
    intro f y
    constructor
    · rintro ⟨h1, h2⟩
      funext i
      unfold heldMap
      split_ifs with hi
      · exact h2 i hi
      · have := h1 i (by simpa [withLoad] using hi)
        simp only [withLoad] at this
        simp only [totalForce]
        linarith
    · intro hy
      refine ⟨fun i hi => ?_, fun i hi => ?_⟩
      · have := congrFun hy i
        simp only [withLoad] at hi ⊢
        simp only [heldMap, hi, Bool.false_eq_true, if_false, totalForce] at this
        linarith
      · have := congrFun hy i
        simp only [withLoad] at hi
        simpa [heldMap, hi] using this
  refine ⟨c, r / 2, η / 2, hc0, by positivity, by positivity, fun f hf => ?_, fun f y z hy hz h1 h2 => ?_⟩
  · have hd : ‖(fun i => if S.fixed i then z₀ i else -f i) - heldMap S z₀‖ ≤ ‖f‖ := by
      refine (pi_norm_le_iff_of_nonneg (norm_nonneg _)).2 fun i => ?_
      rw [Pi.sub_apply]
      unfold heldMap
      split_ifs with hi
      · simp
      · have := h.equilibrium i (by simpa using hi)
        rw [totalForce, this, sub_zero, norm_neg]
        exact norm_le_pi_norm f i
    obtain ⟨h1, h2⟩ := hηball (y := fun i => if S.fixed i then z₀ i else -f i) (by rw [dist_eq_norm]; linarith)
    refine ⟨hst.localInverse (heldMap S) e z₀ (fun i => if S.fixed i then z₀ i else -f i), (hchar f _).2 h1, ?_⟩
    rw [himg] at h2
    exact h2.trans (mul_le_mul_of_nonneg_left hd hc0.le)
  · have a := hrball (y := y) (by rw [dist_eq_norm]; linarith)
    have b := hrball (y := z) (by rw [dist_eq_norm]; linarith)
    rw [← a, ← b, (hchar f y).1 h1, (hchar f z).1 h2]

/-! ### Smoothness of the hyperelastic forces -/

section Smooth

variable {E : Type*} [NormedAddCommGroup E] [NormedSpace ℝ E]

/-- All coefficients are twice continuously differentiable. -/
def MatSmooth (A : E → Mat3) (x : E) : Prop := ∀ i j, ContDiffAt ℝ 2 (fun y => A y i j) x

theorem MatSmooth.mul {A B : E → Mat3} {x : E} (hA : MatSmooth A x) (hB : MatSmooth B x) : MatSmooth (fun y => A y * B y) x := by
  intro i j
  simp only [Matrix.mul_apply, sum_fin3]
  exact (((hA i 0).mul (hB 0 j)).add ((hA i 1).mul (hB 1 j))).add ((hA i 2).mul (hB 2 j))

theorem MatSmooth.transpose {A : E → Mat3} {x : E} (hA : MatSmooth A x) : MatSmooth (fun y => (A y).transpose) x := fun i j => hA j i

theorem MatSmooth.add {A B : E → Mat3} {x : E} (hA : MatSmooth A x) (hB : MatSmooth B x) : MatSmooth (fun y => A y + B y) x := fun i j => (hA i j).add (hB i j)

theorem MatSmooth.sub {A B : E → Mat3} {x : E} (hA : MatSmooth A x) (hB : MatSmooth B x) : MatSmooth (fun y => A y - B y) x := fun i j => (hA i j).sub (hB i j)

theorem MatSmooth.smul {c : E → ℝ} {A : E → Mat3} {x : E} (hc : ContDiffAt ℝ 2 c x) (hA : MatSmooth A x) : MatSmooth (fun y => c y • A y) x := fun i j => hc.mul (hA i j)

theorem MatSmooth.const (A : Mat3) (x : E) : MatSmooth (fun _ => A) x := fun i j => contDiffAt_const

theorem MatSmooth.det {A : E → Mat3} {x : E} (hA : MatSmooth A x) : ContDiffAt ℝ 2 (fun y => (A y).det) x := by
  simp only [Matrix.det_fin_three]
  have h := hA
  exact (((((((h 0 0).mul (h 1 1)).mul (h 2 2)).sub (((h 0 0).mul (h 1 2)).mul (h 2 1))).sub (((h 0 1).mul (h 1 0)).mul (h 2 2))).add
    (((h 0 1).mul (h 1 2)).mul (h 2 0))).add (((h 0 2).mul (h 1 0)).mul (h 2 1))).sub (((h 0 2).mul (h 1 1)).mul (h 2 0))

theorem MatSmooth.inv {A : E → Mat3} {x : E} (hA : MatSmooth A x) (h0 : (A x).det ≠ 0) : MatSmooth (fun y => (A y)⁻¹) x := by
  have e : (fun y => (A y)⁻¹) = fun y => ((A y).det)⁻¹ • (A y).adjugate := by
    funext y
    rw [Matrix.inv_def, Ring.inverse_eq_inv']
  rw [e]
  refine MatSmooth.smul (hA.det.inv h0) ?_
  have h := hA
  have hp : ∀ a b c d e f g k : Fin 3, ContDiffAt ℝ 2 (fun y => A y a b * A y c d - A y e f * A y g k) x := fun a b c d e f g k =>
    ((h a b).mul (h c d)).sub ((h e f).mul (h g k))
  have hn : ∀ a b c d e f g k : Fin 3, ContDiffAt ℝ 2 (fun y => -(A y a b * A y c d) + A y e f * A y g k) x := fun a b c d e f g k =>
    ((h a b).mul (h c d)).neg.add ((h e f).mul (h g k))
  intro i j
  simp only [Matrix.adjugate_fin_three]
  fin_cases i <;> fin_cases j <;> first | exact hp _ _ _ _ _ _ _ _ | exact hn _ _ _ _ _ _ _ _

theorem svk_smooth (mu l : ℝ) {F : E → Mat3} {x : E} (hF : MatSmooth F x) : MatSmooth (fun y => (saintVenantKirchhoff mu l).stress (F y).det ((F y).transpose * F y)) x := by
  have hC := hF.transpose.mul hF
  have hE : MatSmooth (fun y => greenStrain ((F y).transpose * F y)) x := MatSmooth.smul contDiffAt_const (hC.sub (MatSmooth.const 1 x))
  have ht : ContDiffAt ℝ 2 (fun y => l * (greenStrain ((F y).transpose * F y)).trace) x := by
    simp only [Matrix.trace, Matrix.diag_apply, sum_fin3]
    exact contDiffAt_const.mul (((hE 0 0).add (hE 1 1)).add (hE 2 2))
  exact (MatSmooth.smul ht (MatSmooth.const 1 x)).add (MatSmooth.smul contDiffAt_const hE)

theorem nh_smooth (mu l : ℝ) {F : E → Mat3} {x : E} (hF : MatSmooth F x) (hpos : 0 < (F x).det) :
    MatSmooth (fun y => (neoHookean mu l).stress (F y).det ((F y).transpose * F y)) x := by
  have hC := hF.transpose.mul hF
  have hi := hC.inv (by rw [Matrix.det_mul, Matrix.det_transpose]; positivity)
  exact (MatSmooth.smul contDiffAt_const ((MatSmooth.const 1 x).sub hi)).add (MatSmooth.smul (contDiffAt_const.mul (hF.det.log hpos.ne')) hi)

theorem list_smooth {β : Type*} (L : List β) (g : β → E → ℝ) (x : E) (h : ∀ b ∈ L, ContDiffAt ℝ 2 (g b) x) : ContDiffAt ℝ 2 (fun y => (L.map fun b => g b y).sum) x := by
  induction L with
  | nil => simpa using contDiffAt_const
  | cons b L ih =>
    simp only [List.map_cons, List.sum_cons]
    exact (h b (by simp)).add (ih fun c hc => h c (by simp [hc]))

end Smooth

/-- The deformation gradient as a function of the positions. -/
theorem defGrad_smooth {N n M : ℕ} (m : HyperMesh N n M) (e : Fin M) (q : QNode n) (x : Dof N → ℝ) :
    MatSmooth (fun y : Dof N → ℝ => deformationGradient q.dN (m.gather (fun p a => y (p, a)) e)) x := by
  intro a b
  simp only [deformationGradient, Matrix.mul_apply, Matrix.transpose_apply, Matrix.of_apply, HyperMesh.gather]
  exact ContDiffAt.sum fun i _ => (contDiffAt_apply ..).mul contDiffAt_const

/-- The material is smooth at the deformation of every quadrature point. -/
def SmoothAt {N n M : ℕ} (m : HyperMesh N n M) (mat : Material) (x : Dof N → ℝ) : Prop :=
  ∀ e, ∀ q ∈ m.qnodes e, MatSmooth (fun y : Dof N → ℝ => mat.stress (deformationGradient q.dN (m.gather (fun p a => y (p, a)) e)).det
    ((deformationGradient q.dN (m.gather (fun p a => y (p, a)) e)).transpose * deformationGradient q.dN (m.gather (fun p a => y (p, a)) e))) x

theorem addForce_smooth {N n M : ℕ} (m : HyperMesh N n M) (mat : Material) (x : Dof N → ℝ) (h : SmoothAt m mat x) (d : Dof N) :
    ContDiffAt ℝ 2 (fun y : Dof N → ℝ => m.addForce mat (fun p a => y (p, a)) 0 d.1 d.2) x := by
  have hit : ∀ (y : Dof N → ℝ) (e : Fin M) (i : Fin n),
      (if m.idx e i = d.1 then nodalForces mat (m.qnodes e) (m.gather (fun p a => y (p, a)) e) i else 0) d.2 =
      if m.idx e i = d.1 then nodalForces mat (m.qnodes e) (m.gather (fun p a => y (p, a)) e) i d.2 else 0 := by
    intro s e i; split_ifs <;> rfl
  simp only [HyperMesh.addForce, Pi.sub_apply, Finset.sum_apply, hit]
  refine contDiffAt_const.sub (ContDiffAt.sum fun e _ => ContDiffAt.sum fun i _ => ?_)
  split_ifs
  · simp only [nodalForces_apply]
    refine list_smooth _ _ _ fun q hq => ?_
    have hm := (MatSmooth.smul (contDiffAt_const (c := q.detJ * q.weight)) (defGrad_smooth m e q x)).mul (h e q hq)
    simp only [gaussForce, mulVec, dotProduct, sum_fin3]
    exact (((hm _ 0).mul contDiffAt_const).add ((hm _ 1).mul contDiffAt_const)).add ((hm _ 2).mul contDiffAt_const)
  · exact contDiffAt_const

/-- A differentiable force with the stiffness as derivative along all lines. -/
theorem hyper_hasFDeriv {N n M : ℕ} (m : HyperMesh N n M) (mat : Material) (fixed : Fin N → Bool) (x : Dof N → ℝ) (h : SmoothAt m mat x)
    (hd : ∀ (u : Dof N → ℝ) (d : Dof N), HasDerivAt (fun s : ℝ => m.addForce mat (fun p a => x (p, a) + s * u (p, a)) 0 d.1 d.2)
      (applyStored 1 (m.storedK mat fun p a => x (p, a)) u 0 d) 0) :
    HasFDerivAt (totalForce (hyperScene m mat fixed)) (LinearMap.toContinuousLinearMap (totalStiff (hyperScene m mat fixed) x).mulVecLin) x := by
  refine hasFDerivAt_pi'.2 fun d => ?_
  have e : (fun y => totalForce (hyperScene m mat fixed) y d) = fun y : Dof N → ℝ => m.addForce mat (fun p a => y (p, a)) 0 d.1 d.2 := by
    funext y
    simp [totalForce, hyperScene]
  rw [e]
  have h1 := ((addForce_smooth m mat x h d).differentiableAt (by norm_num)).hasFDerivAt
  refine HasFDerivAt.congr_fderiv h1 (ContinuousLinearMap.ext fun u => ?_)
  have hl : HasDerivAt (fun s : ℝ => fun k => x k + s * u k) u 0 := by
    refine hasDerivAt_pi.2 fun k => ?_
    simpa using ((hasDerivAt_id (0 : ℝ)).mul_const (u k)).const_add (x k)
  have h0 : (fun k => x k + (0 : ℝ) * u k) = x := by funext k; simp
  have h2 := HasFDerivAt.comp_hasDerivAt (l := fun y : Dof N → ℝ => m.addForce mat (fun p a => y (p, a)) 0 d.1 d.2) (f := fun s : ℝ => fun k => x k + s * u k) (x := 0)
    (by rw [h0]; exact h1) hl
  rw [(hd u d).unique h2 |>.symm, (C47_same_operator 1 _ 0 u 0 d).1]
  simp [totalStiff, hyperScene, mulVec, dotProduct]

theorem smoothAt_svk (mu l : ℝ) {N n M : ℕ} (m : HyperMesh N n M) (x : Dof N → ℝ) : SmoothAt m (saintVenantKirchhoff mu l) x :=
  fun e q _ => svk_smooth mu l (defGrad_smooth m e q x)

theorem smoothAt_nh (mu l : ℝ) {N n M : ℕ} (m : HyperMesh N n M) (x : Dof N → ℝ)
    (hpos : ∀ e, ∀ q ∈ m.qnodes e, 0 < (deformationGradient q.dN (m.gather (fun p a => x (p, a)) e)).det) : SmoothAt m (neoHookean mu l) x :=
  fun e q hq => nh_smooth mu l (defGrad_smooth m e q x) (hpos e q hq)

theorem eventually_positive {N n M : ℕ} (m : HyperMesh N n M) (x : Dof N → ℝ)
    (hpos : ∀ e, ∀ q ∈ m.qnodes e, 0 < (deformationGradient q.dN (m.gather (fun p a => x (p, a)) e)).det) :
    ∀ᶠ y : Dof N → ℝ in nhds x, ∀ e, ∀ q ∈ m.qnodes e, 0 < (deformationGradient q.dN (m.gather (fun p a => y (p, a)) e)).det := by
  refine Filter.eventually_all.2 fun e => (Filter.eventually_all_finite (m.qnodes e).finite_toSet).2 fun q hq => ?_
  exact (defGrad_smooth m e q x).det.continuousAt.eventually (lt_mem_nhds (hpos e q hq))

end Caribou

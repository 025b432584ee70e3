import Verif.Props.Canonical
import Verif.Props.Shape
import Verif.Props.Rectangular
import Verif.Lemmas.PolyDegree
import Verif.Lemmas.CanonicalIntegral
import Verif.Lemmas.ElementsD
import Mathlib.MeasureTheory.Function.Jacobian
import Mathlib.Analysis.Calculus.Deriv.Pi
import Mathlib.Analysis.Calculus.ContDiff.Basic

/-!
# Property C83: quadrature measures the elements
-/

set_option autoImplicit false

namespace Caribou

open Spec MeasureTheory

/-- The volume of an element as the library computes it: the sum over the Gauss nodes of weight times determinant of
the Jacobian (in absolute value). -/
noncomputable def quadratureVolume (T : ElementType) (X : Fin T.numNodes → Fin T.dim → ℝ) : ℝ :=
  gaussSum T.gauss fun ξ => |(T.elem.jacobian X ξ).det|

/-- The element as a set of points of the space. -/
def elementRegion (T : ElementType) (X : Fin T.numNodes → Fin T.dim → ℝ) : Set (Fin T.dim → ℝ) :=
  T.elem.worldCoordinates X '' canonicalSet T.shape T.dim

/-- The element is not folded: its points are the images of a single local position each and its Jacobian does not
change sign. -/
def Unfolded (T : ElementType) (X : Fin T.numNodes → Fin T.dim → ℝ) : Prop :=
  Set.InjOn (T.elem.worldCoordinates X) (canonicalSet T.shape T.dim) ∧
  ((∀ ξ ∈ canonicalSet T.shape T.dim, 0 ≤ (T.elem.jacobian X ξ).det) ∨
   (∀ ξ ∈ canonicalSet T.shape T.dim, (T.elem.jacobian X ξ).det ≤ 0))

theorem elem_L_differentiable (T : ElementType) (i : Fin T.numNodes) :
    Differentiable ℝ fun ξ : Fin T.dim → ℝ => T.elem.L ξ i := by
  have s1 : ∀ i, Differentiable ℝ fun ξ => (segment1 (K := ℝ)).L ξ i := by
    intro i; fin_cases i <;> simp only [segment1, Matrix.cons_val, Fin.isValue, Fin.reduceFinMk, Fin.zero_eta, Fin.mk_one] <;> fun_prop
  have s2 : ∀ i, Differentiable ℝ fun ξ => (segment2 (K := ℝ)).L ξ i := by
    intro i; fin_cases i <;> simp only [segment2, Matrix.cons_val, Fin.isValue, Fin.reduceFinMk, Fin.zero_eta, Fin.mk_one] <;> fun_prop
  have t1 : ∀ i, Differentiable ℝ fun ξ => (triangle1 (K := ℝ)).L ξ i := by
    intro i; fin_cases i <;> simp only [triangle1, Matrix.cons_val, Fin.isValue, Fin.reduceFinMk, Fin.zero_eta, Fin.mk_one] <;> fun_prop
  have t2 : ∀ i, Differentiable ℝ fun ξ => (triangle2 (K := ℝ)).L ξ i := by
    intro i; fin_cases i <;> simp only [triangle2, Matrix.cons_val, Fin.isValue, Fin.reduceFinMk, Fin.zero_eta, Fin.mk_one] <;> fun_prop
  have q1 : ∀ i, Differentiable ℝ fun ξ => (quad1 (K := ℝ)).L ξ i := by
    intro i; fin_cases i <;> simp only [quad1, Matrix.cons_val, Fin.isValue, Fin.reduceFinMk, Fin.zero_eta, Fin.mk_one] <;> fun_prop
  have q2 : ∀ i, Differentiable ℝ fun ξ => (quad2 (K := ℝ)).L ξ i := by
    intro i; fin_cases i <;> simp only [quad2, Matrix.cons_val, Fin.isValue, Fin.reduceFinMk, Fin.zero_eta, Fin.mk_one] <;> fun_prop
  have e1 : ∀ i, Differentiable ℝ fun ξ => (tetra1 (K := ℝ)).L ξ i := by
    intro i; fin_cases i <;> simp only [tetra1, Matrix.cons_val, Fin.isValue, Fin.reduceFinMk, Fin.zero_eta, Fin.mk_one] <;> fun_prop
  have e2 : ∀ i, Differentiable ℝ fun ξ => (tetra2 (K := ℝ)).L ξ i := by
    intro i; fin_cases i <;> simp only [tetra2, Matrix.cons_val, Fin.isValue, Fin.reduceFinMk, Fin.zero_eta, Fin.mk_one] <;> fun_prop
  have h1 : ∀ i, Differentiable ℝ fun ξ => (hexa1 (K := ℝ)).L ξ i := by
    intro i; fin_cases i <;> simp only [hexa1, Matrix.cons_val, Fin.isValue, Fin.reduceFinMk, Fin.zero_eta, Fin.mk_one] <;> fun_prop
  have h2 : ∀ i, Differentiable ℝ fun ξ => (hexa2 (K := ℝ)).L ξ i := by
    intro i; fin_cases i <;> simp only [hexa2, hexa2Mid, Matrix.cons_val, Fin.isValue, Fin.reduceFinMk, Fin.zero_eta, Fin.mk_one] <;> fun_prop
  cases T
  exacts [s1 i, s2 i, t1 i, t2 i, q1 i, q2 i, e1 i, e2 i, h1 i, h2 i, q1 i, q2 i, h1 i, h2 i]

theorem elem_dL_continuous (T : ElementType) (i : Fin T.numNodes) (j : Fin T.dim) :
    Continuous fun ξ : Fin T.dim → ℝ => T.elem.dL ξ i j := by
  have s1 : ∀ i j, Continuous fun ξ => (segment1 (K := ℝ)).dL ξ i j := by
    intro i j; fin_cases i <;> fin_cases j <;> simp only [segment1, Matrix.cons_val, Fin.isValue, Fin.reduceFinMk, Fin.zero_eta, Fin.mk_one] <;> fun_prop
  have s2 : ∀ i j, Continuous fun ξ => (segment2 (K := ℝ)).dL ξ i j := by
    intro i j; fin_cases i <;> fin_cases j <;> simp only [segment2, Matrix.cons_val, Fin.isValue, Fin.reduceFinMk, Fin.zero_eta, Fin.mk_one] <;> fun_prop
  have t1 : ∀ i j, Continuous fun ξ => (triangle1 (K := ℝ)).dL ξ i j := by
    intro i j; fin_cases i <;> fin_cases j <;> simp only [triangle1, Matrix.cons_val, Fin.isValue, Fin.reduceFinMk, Fin.zero_eta, Fin.mk_one] <;> fun_prop
  have t2 : ∀ i j, Continuous fun ξ => (triangle2 (K := ℝ)).dL ξ i j := by
    intro i j; fin_cases i <;> fin_cases j <;> simp only [triangle2, Matrix.cons_val, Fin.isValue, Fin.reduceFinMk, Fin.zero_eta, Fin.mk_one] <;> fun_prop
  have q1 : ∀ i j, Continuous fun ξ => (quad1 (K := ℝ)).dL ξ i j := by
    intro i j; fin_cases i <;> fin_cases j <;> simp only [quad1, Matrix.cons_val, Fin.isValue, Fin.reduceFinMk, Fin.zero_eta, Fin.mk_one] <;> fun_prop
  have q2 : ∀ i j, Continuous fun ξ => (quad2 (K := ℝ)).dL ξ i j := by
    intro i j; fin_cases i <;> fin_cases j <;> simp only [quad2, Matrix.cons_val, Fin.isValue, Fin.reduceFinMk, Fin.zero_eta, Fin.mk_one] <;> fun_prop
  have e1 : ∀ i j, Continuous fun ξ => (tetra1 (K := ℝ)).dL ξ i j := by
    intro i j; fin_cases i <;> fin_cases j <;> simp only [tetra1, Matrix.cons_val, Fin.isValue, Fin.reduceFinMk, Fin.zero_eta, Fin.mk_one] <;> fun_prop
  have e2 : ∀ i j, Continuous fun ξ => (tetra2 (K := ℝ)).dL ξ i j := by
    intro i j; fin_cases i <;> fin_cases j <;> simp only [tetra2, Matrix.cons_val, Fin.isValue, Fin.reduceFinMk, Fin.zero_eta, Fin.mk_one] <;> fun_prop
  have h1 : ∀ i j, Continuous fun ξ => (hexa1 (K := ℝ)).dL ξ i j := by
    intro i j; fin_cases i <;> fin_cases j <;> simp only [hexa1, Matrix.cons_val, Fin.isValue, Fin.reduceFinMk, Fin.zero_eta, Fin.mk_one] <;> fun_prop
  have h2 : ∀ i j, Continuous fun ξ => (hexa2 (K := ℝ)).dL ξ i j := by
    intro i j; fin_cases i <;> fin_cases j <;> simp only [hexa2, hexa2dMid, Matrix.cons_val, Fin.isValue, Fin.reduceFinMk, Fin.zero_eta, Fin.mk_one] <;> fun_prop
  cases T
  exacts [s1 i j, s2 i j, t1 i j, t2 i j, q1 i j, q2 i j, e1 i j, e2 i j, h1 i j, h2 i j, q1 i j, q2 i j, h1 i j, h2 i j]

/-- The Jacobian of the library is the derivative of the map from local to world coordinates. -/
theorem world_hasFDerivAt (T : ElementType) {m : ℕ} (X : Fin T.numNodes → Fin m → ℝ) (ξ : Fin T.dim → ℝ) :
    HasFDerivAt (T.elem.worldCoordinates X) (Matrix.toLin' (T.elem.jacobian X ξ)).toContinuousLinearMap ξ := by
  have hd : DifferentiableAt ℝ (T.elem.worldCoordinates X) ξ := by
    rw [differentiableAt_pi]
    intro a
    simp only [Elem.worldCoordinates, Elem.interpolate]
    refine DifferentiableAt.fun_sum fun i _ => ?_
    exact ((elem_L_differentiable T i) ξ).const_mul _
  have h := hd.hasFDerivAt
  convert h using 1
  refine ContinuousLinearMap.coe_injective ((Pi.basisFun ℝ (Fin T.dim)).ext fun j => ?_)
  funext a
  simp only [Pi.basisFun_apply, LinearMap.coe_toContinuousLinearMap, Matrix.toLin'_apply, Matrix.mulVec_single_one]
  have h1 : HasDerivAt (fun t => T.elem.worldCoordinates X (Function.update ξ j t) a)
      (fderiv ℝ (T.elem.worldCoordinates X) ξ (Pi.single j 1) a) (ξ j) := by
    have h2 := hasDerivAt_update ξ j (ξ j)
    have h3 : HasFDerivAt (T.elem.worldCoordinates X) (fderiv ℝ (T.elem.worldCoordinates X) ξ)
        (Function.update ξ j (ξ j)) := by rwa [Function.update_eq_self]
    exact (hasDerivAt_pi.1 (h3.comp_hasDerivAt (ξ j) h2)) a
  exact (C07_jacobian_is_derivative T X ξ a j).unique h1

theorem jacobian_det_continuous (T : ElementType) (X : Fin T.numNodes → Fin T.dim → ℝ) :
    Continuous fun ξ => (T.elem.jacobian X ξ).det := by
  refine Continuous.matrix_det ?_
  refine continuous_matrix fun a j => ?_
  simp only [Elem.jacobian]
  exact continuous_finset_sum _ fun i _ => continuous_const.mul (elem_dL_continuous T i j)

/-- The iterated integral of `ElementType.integral` is the integral over the canonical element. -/
theorem integral_eq_setIntegral (T : ElementType) {f : (Fin T.dim → ℝ) → ℝ} (hf : Continuous f) :
    T.integral f = ∫ ξ in canonicalSet T.shape T.dim, f ξ := by
  cases T
  exacts [setIntegral_cube1.symm, setIntegral_cube1.symm, (setIntegral_simplex2 hf).symm, (setIntegral_simplex2 hf).symm,
    (setIntegral_cube2 hf).symm, (setIntegral_cube2 hf).symm, (setIntegral_simplex3 hf).symm,
    (setIntegral_simplex3 hf).symm, (setIntegral_cube3 hf).symm, (setIntegral_cube3 hf).symm,
    (setIntegral_cube2 hf).symm, (setIntegral_cube2 hf).symm, (setIntegral_cube3 hf).symm, (setIntegral_cube3 hf).symm]

/-- The measure of an unfolded element is the integral of its Jacobian determinant. -/
theorem volume_region (T : ElementType) (X : Fin T.numNodes → Fin T.dim → ℝ) (h : Unfolded T X) :
    volume (elementRegion T X) = ENNReal.ofReal |T.integral fun ξ => (T.elem.jacobian X ξ).det| := by
  have hS := canonicalSet_isCompact T.shape T.dim
  have hc := jacobian_det_continuous T X
  have hv := lintegral_abs_det_fderiv_eq_addHaar_image (μ := volume) hS.measurableSet
    (fun ξ _ => (world_hasFDerivAt T X ξ).hasFDerivWithinAt) h.1
  have hdet : ∀ ξ, (Matrix.toLin' (T.elem.jacobian X ξ)).toContinuousLinearMap.det = (T.elem.jacobian X ξ).det := by
    intro ξ
    rw [ContinuousLinearMap.det, LinearMap.coe_toContinuousLinearMap, LinearMap.det_toLin']
  simp only [hdet] at hv
  rw [elementRegion, ← hv, integral_eq_setIntegral T hc]
  have hi : IntegrableOn (fun ξ => |(T.elem.jacobian X ξ).det|) (canonicalSet T.shape T.dim) :=
    hc.abs.continuousOn.integrableOn_compact hS
  rw [← ofReal_integral_eq_lintegral_ofReal hi (Filter.Eventually.of_forall fun ξ => abs_nonneg _)]
  congr 1
  rcases h.2 with h | h
  · rw [setIntegral_congr_fun hS.measurableSet fun ξ hξ => abs_of_nonneg (h ξ hξ)]
    exact (abs_of_nonneg (setIntegral_nonneg hS.measurableSet h)).symm
  · rw [setIntegral_congr_fun hS.measurableSet fun ξ hξ => abs_of_nonpos (h ξ hξ), integral_neg]
    exact (abs_of_nonpos (setIntegral_nonpos hS.measurableSet h)).symm

theorem gaussSum_abs (T : ElementType) (X : Fin T.numNodes → Fin T.dim → ℝ) (h : Unfolded T X) :
    quadratureVolume T X = |gaussSum T.gauss fun ξ => (T.elem.jacobian X ξ).det| := by
  have hmem : ∀ g ∈ T.gauss, g.position ∈ canonicalSet T.shape T.dim ∧ 0 < g.weight := C12_inside_positive T
  rcases h.2 with h | h
  · rw [abs_of_nonneg]
    · refine congrArg List.sum (List.map_congr_left fun g hg => ?_)
      simp only
      rw [abs_of_nonneg (h _ (hmem g hg).1)]
    · refine List.sum_nonneg fun x hx => ?_
      obtain ⟨g, hg, rfl⟩ := List.mem_map.1 hx
      exact mul_nonneg (hmem g hg).2.le (h _ (hmem g hg).1)
  · have e : quadratureVolume T X = -gaussSum T.gauss fun ξ => (T.elem.jacobian X ξ).det := by
      rw [eq_neg_iff_add_eq_zero, quadratureVolume, gaussSum, gaussSum, ← List.sum_map_add]
      refine List.sum_eq_zero fun x hx => ?_
      obtain ⟨g, hg, rfl⟩ := List.mem_map.1 hx
      rw [abs_of_nonpos (h _ (hmem g hg).1)]
      ring
    rw [e, abs_of_nonpos]
    have : 0 ≤ quadratureVolume T X := by
      refine List.sum_nonneg fun x hx => ?_
      obtain ⟨g, hg, rfl⟩ := List.mem_map.1 hx
      exact mul_nonneg (hmem g hg).2.le (abs_nonneg _)
    linarith

/-- The rule is exact on the Jacobian determinant of the element. -/
def ExactOnDet (T : ElementType) (X : Fin T.numNodes → Fin T.dim → ℝ) : Prop :=
  (gaussSum T.gauss fun ξ => (T.elem.jacobian X ξ).det) = T.integral fun ξ => (T.elem.jacobian X ξ).det

/-- The property C83 for one element: the quadrature gives the measure of the region it occupies. -/
def MeasuresVolume (T : ElementType) (X : Fin T.numNodes → Fin T.dim → ℝ) : Prop :=
  Unfolded T X → volume (elementRegion T X) = ENNReal.ofReal (quadratureVolume T X)

theorem measures_of_exact (T : ElementType) (X : Fin T.numNodes → Fin T.dim → ℝ) (h : ExactOnDet T X) :
    MeasuresVolume T X := fun hu => by
  rw [volume_region T X hu, gaussSum_abs T X hu, h]

/-- **C83 (exactness).** For every element class except the quadratic solids, the Gauss rule integrates exactly the
Jacobian determinant, whatever the positions of the nodes. -/
theorem C83_exact (T : ElementType) (h1 : T ≠ .tetra2) (h2 : T ≠ .hexa2) (h3 : T ≠ .rectHexa2)
    (X : Fin T.numNodes → Fin T.dim → ℝ) : ExactOnDet T X := by
  obtain ⟨t1, t2, t3, t4, t5, t6, t7, t8, t9, t10⟩ := C12_tensor_exact
  have det1 : ∀ M : Matrix (Fin 1) (Fin 1) ℝ, M.det = M 0 0 := Matrix.det_fin_one
  have s2 : ∀ X : Fin 3 → Fin 1 → ℝ, ∃ c, (fun ξ => ((segment2 (K := ℝ)).jacobian X ξ).det) = cubic1 c := by
    intro X
    refine deg_cubic1 ?_
    simp only [det1]
    exact (Deg.linear _ fun k => segment2_dL_deg k 0).mono (by decide)
  have q1 : ∀ X : Fin 4 → Fin 2 → ℝ, ∃ c, (fun ξ => ((quad1 (K := ℝ)).jacobian X ξ).det) = cubic2 c := by
    intro X
    have h : ∀ i j, Deg (![![0, 1], ![1, 0]] j) fun ξ => (quad1 (K := ℝ)).jacobian X ξ i j := by
      intro i j
      fin_cases j
      · exact Deg.linear _ fun k => (quad1_dL_deg k).1
      · exact Deg.linear _ fun k => (quad1_dL_deg k).2
    exact deg_cubic2 ((deg_det2 h).mono (by decide))
  have q2 : ∀ X : Fin 8 → Fin 2 → ℝ, ∃ c, (fun ξ => ((quad2 (K := ℝ)).jacobian X ξ).det) = cubic2 c := by
    intro X
    have h : ∀ i j, Deg (![![1, 2], ![2, 1]] j) fun ξ => (quad2 (K := ℝ)).jacobian X ξ i j := by
      intro i j
      fin_cases j
      · exact Deg.linear _ fun k => (quad2_dL_deg k).1
      · exact Deg.linear _ fun k => (quad2_dL_deg k).2
    exact deg_cubic2 ((deg_det2 h).mono (by decide))
  have x1 : ∀ X : Fin 8 → Fin 3 → ℝ, ∃ c, (fun ξ => ((hexa1 (K := ℝ)).jacobian X ξ).det) = cubic3 c := by
    intro X
    have h : ∀ i j, Deg (![![0, 1, 1], ![1, 0, 1], ![1, 1, 0]] j) fun ξ => (hexa1 (K := ℝ)).jacobian X ξ i j := by
      intro i j
      fin_cases j
      · exact Deg.linear _ fun k => (hexa1_dL_deg k).1
      · exact Deg.linear _ fun k => (hexa1_dL_deg k).2.1
      · exact Deg.linear _ fun k => (hexa1_dL_deg k).2.2
    exact deg_cubic3 ((deg_det3 h).mono (by decide))
  cases T with
  | segment1 =>
    change gaussSum gaussSegment1 (fun ξ => ((segment1 (K := ℝ)).jacobian X ξ).det)
      = intCube1 fun ξ => ((segment1 (K := ℝ)).jacobian X ξ).det
    have h : (fun ξ => ((segment1 (K := ℝ)).jacobian X ξ).det)
        = affineFn (d := 1) (((segment1 (K := ℝ)).jacobian X 0).det) 0 := by
      funext ξ
      simp only [affineFn, Pi.zero_apply, zero_mul, Finset.sum_const_zero, add_zero]
      rfl
    rw [h]
    exact t1 _ _
  | segment2 =>
    obtain ⟨c, hc⟩ := s2 X; exact (congrArg _ hc).trans ((t2 c).trans (congrArg _ hc.symm))
  | triangle1 =>
    change gaussSum gaussTriangle1 (fun ξ => ((triangle1 (K := ℝ)).jacobian X ξ).det)
      = intSimplex2 fun ξ => ((triangle1 (K := ℝ)).jacobian X ξ).det
    have h : (fun ξ => ((triangle1 (K := ℝ)).jacobian X ξ).det)
        = affineFn (d := 2) (((triangle1 (K := ℝ)).jacobian X 0).det) 0 := by
      funext ξ
      simp only [affineFn, Pi.zero_apply, zero_mul, Finset.sum_const_zero, add_zero]
      rfl
    rw [h]
    exact C12_triangle_exact.1 _ _
  | triangle2 =>
    change gaussSum gaussTriangle2 (fun ξ => ((triangle2 (K := ℝ)).jacobian X ξ).det)
      = intSimplex2 fun ξ => ((triangle2 (K := ℝ)).jacobian X ξ).det
    have hd : Tot 2 fun ξ => ((triangle2 (K := ℝ)).jacobian X ξ).det :=
      (tot_det2 (a := 1) fun i j => Tot.linear _ fun k => triangle2_dL_tot k j).mono (by decide)
    obtain ⟨c, g, H, hc⟩ := tot_quadratic2 hd
    rw [hc]
    exact C12_triangle_exact.2 c g H
  | quad1 => obtain ⟨c, hc⟩ := q1 X; exact (congrArg _ hc).trans ((t3 c).trans (congrArg _ hc.symm))
  | quad2 => obtain ⟨c, hc⟩ := q2 X; exact (congrArg _ hc).trans ((t3 c).trans (congrArg _ hc.symm))
  | tetra1 =>
    change gaussSum gaussTetra1 (fun ξ => ((tetra1 (K := ℝ)).jacobian X ξ).det)
      = intSimplex3 fun ξ => ((tetra1 (K := ℝ)).jacobian X ξ).det
    have h : (fun ξ => ((tetra1 (K := ℝ)).jacobian X ξ).det)
        = affineFn (d := 3) (((tetra1 (K := ℝ)).jacobian X 0).det) 0 := by
      funext ξ
      simp only [affineFn, Pi.zero_apply, zero_mul, Finset.sum_const_zero, add_zero]
      rfl
    rw [h]
    exact C12_tetra.1 _ _
  | tetra2 => exact absurd rfl h1
  | hexa1 => obtain ⟨c, hc⟩ := x1 X; exact (congrArg _ hc).trans ((t7 c).trans (congrArg _ hc.symm))
  | hexa2 => exact absurd rfl h2
  | rectQuad1 => obtain ⟨c, hc⟩ := q1 X; exact (congrArg _ hc).trans ((t3 c).trans (congrArg _ hc.symm))
  | rectQuad2 => obtain ⟨c, hc⟩ := q2 X; exact (congrArg _ hc).trans ((t3 c).trans (congrArg _ hc.symm))
  | rectHexa1 => obtain ⟨c, hc⟩ := x1 X; exact (congrArg _ hc).trans ((t7 c).trans (congrArg _ hc.symm))
  | rectHexa2 => exact absurd rfl h3

/-- The rule of every class is exact on constants. -/
theorem gaussSum_const (T : ElementType) (c : ℝ) : gaussSum T.gauss (fun _ => c) = T.integral fun _ => c := by
  have h1 : gaussSum T.gauss (fun _ => c) = (T.gauss.map GaussNode.weight).sum * c := by
    rw [gaussSum, List.sum_map_mul_right]
  have h2 : T.integral (fun _ => c) = T.integral (fun _ => 1) * c := by
    rw [integral_eq_setIntegral T continuous_const, integral_eq_setIntegral T continuous_const]
    simp
  rw [h1, h2, (C12_weights T).1]

/-- Two sets of nodes with the same geometry have the same Jacobian. -/
theorem jacobian_eq_of_world (T T' : ElementType) (hd : T.dim = T'.dim) {m : ℕ} (X : Fin T.numNodes → Fin m → ℝ)
    (X' : Fin T'.numNodes → Fin m → ℝ)
    (h : ∀ ξ, T.elem.worldCoordinates X ξ = T'.elem.worldCoordinates X' (ξ ∘ Fin.cast hd.symm)) (ξ : Fin T.dim → ℝ)
    (a : Fin m) (j : Fin T.dim) :
    T.elem.jacobian X ξ a j = T'.elem.jacobian X' (ξ ∘ Fin.cast hd.symm) a (Fin.cast hd j) := by
  refine (C07_jacobian_is_derivative T X ξ a j).unique ?_
  have h2 := C07_jacobian_is_derivative T' X' (ξ ∘ Fin.cast hd.symm) a (Fin.cast hd j)
  have hu : ∀ t, Function.update ξ j t ∘ Fin.cast hd.symm
      = Function.update (ξ ∘ Fin.cast hd.symm) (Fin.cast hd j) t := by
    intro t
    funext k
    simp only [Function.comp, Function.update]
    by_cases hk : Fin.cast hd.symm k = j
    · subst hk; simp
    · rw [dif_neg hk, dif_neg]
      rintro rfl
      exact hk (by simp)
  simp only [h, hu]
  exact h2

/-- **C83 (affine images).** Any class is exact on the affine images of its canonical element; this covers the
rectangular classes, whose nodes are always such images. -/
theorem C83_affine (T : ElementType) (c : Fin T.dim → ℝ) (A : Matrix (Fin T.dim) (Fin T.dim) ℝ)
    (X : Fin T.numNodes → Fin T.dim → ℝ) (hX : ∀ i, X i = c + A.mulVec (T.elem.node i)) : ExactOnDet T X := by
  have h : ∀ ξ, T.elem.jacobian X ξ = A := by
    intro ξ
    ext a j
    simp only [Elem.jacobian, hX, Pi.add_apply, Matrix.mulVec, dotProduct, add_mul, Finset.sum_add_distrib,
      Finset.sum_mul]
    rw [← Finset.mul_sum, C04_derivatives_sum_to_zero, mul_zero, zero_add, Finset.sum_comm]
    simp only [mul_assoc, ← Finset.mul_sum, elem_dcoord]
    simp
  rw [ExactOnDet]
  simp only [h]
  exact gaussSum_const T _

/-- **C83 (straight edges).** The quadratic solids built from linear ones are measured exactly. -/
theorem C83_straight :
    (∀ X : Fin 4 → Fin 3 → ℝ, ExactOnDet .tetra2 (tetra2OfLinear X)) ∧
    (∀ X : Fin 8 → Fin 3 → ℝ, ExactOnDet .hexa2 (hexa2OfLinear X)) := by
  refine ⟨fun X => ?_, fun X => ?_⟩
  · have h : ∀ ξ, (tetra2 (K := ℝ)).jacobian (tetra2OfLinear X) ξ = (tetra1 (K := ℝ)).jacobian X 0 := by
      intro ξ
      ext a j
      exact (jacobian_eq_of_world .tetra2 .tetra1 rfl (tetra2OfLinear X) X (fun ξ => C08_tetra_from_linear X ξ) ξ a j)
    have h' := fun ξ => congrArg Matrix.det (h ξ)
    refine (congrArg (gaussSum ElementType.tetra2.gauss) (funext h')).trans ((gaussSum_const .tetra2 _).trans ?_)
    exact congrArg ElementType.tetra2.integral (funext h').symm
  · have h : ∀ ξ, (hexa2 (K := ℝ)).jacobian (hexa2OfLinear X) ξ = (hexa1 (K := ℝ)).jacobian X ξ := by
      intro ξ
      ext a j
      exact (jacobian_eq_of_world .hexa2 .hexa1 rfl (hexa2OfLinear X) X (fun ξ => C08_hexa_from_linear X ξ) ξ a j)
    have h' := fun ξ => congrArg Matrix.det (h ξ)
    refine (congrArg (gaussSum ElementType.hexa2.gauss) (funext h')).trans
      (Eq.trans (C83_exact .hexa1 (by decide) (by decide) (by decide) X) ?_)
    exact congrArg ElementType.hexa2.integral (funext h').symm

/-- **C83 (partial).** The sum of weight times Jacobian determinant over the Gauss nodes is the measure of the region
occupied by the element: for every class but the quadratic tetrahedron and hexahedron, for arbitrary nodes; for these
two, for affine images and for straight edges.  Missing: quadratic solids with curved edges, where it is false. -/
theorem C83_partial :
    (∀ (T : ElementType), T ≠ .tetra2 → T ≠ .hexa2 → T ≠ .rectHexa2 → ∀ X, MeasuresVolume T X) ∧
    (∀ (T : ElementType) (c : Fin T.dim → ℝ) (A : Matrix (Fin T.dim) (Fin T.dim) ℝ) (X : Fin T.numNodes → Fin T.dim → ℝ),
      (∀ i, X i = c + A.mulVec (T.elem.node i)) → MeasuresVolume T X) ∧
    (∀ X : Fin 4 → Fin 3 → ℝ, MeasuresVolume .tetra2 (tetra2OfLinear X)) ∧
    (∀ X : Fin 8 → Fin 3 → ℝ, MeasuresVolume .hexa2 (hexa2OfLinear X)) :=
  ⟨fun T h1 h2 h3 X => measures_of_exact T X (C83_exact T h1 h2 h3 X),
    fun T c A X hX => measures_of_exact T X (C83_affine T c A X hX),
    fun X => measures_of_exact _ _ (C83_straight.1 X), fun X => measures_of_exact _ _ (C83_straight.2 X)⟩

/-- The nodes of a bent quadratic hexahedron: the middles of the four edges along `u` are moved outwards. -/
noncomputable def bentHexa : Fin 20 → Fin 3 → ℝ :=
  fun i => ![hexa2.node i 0, hexa2.node i 1 * (2 - hexa2.node i 0 ^ 2), hexa2.node i 2 * (2 - hexa2.node i 0 ^ 2)]

/-- The nodes of a bent quadratic tetrahedron. -/
noncomputable def bentTetra : Fin 10 → Fin 3 → ℝ :=
  fun i => ![tetra2.node i 0 + tetra2.node i 0 ^ 2 / 2, tetra2.node i 1 * (1 + tetra2.node i 0),
    tetra2.node i 2 * (1 + tetra2.node i 0)]

theorem bentHexa_world (ξ : Fin 3 → ℝ) :
    hexa2.worldCoordinates bentHexa ξ = ![ξ 0, ξ 1 * (2 - ξ 0 ^ 2), ξ 2 * (2 - ξ 0 ^ 2)] := by
  funext a
  fin_cases a <;>
    simp only [Elem.worldCoordinates, Elem.interpolate, sum_fin20, bentHexa, hexa2, hexa2Mid, Matrix.cons_val,
      Fin.isValue, Fin.reduceFinMk, Fin.zero_eta, Fin.mk_one] <;> ring

theorem bentTetra_world (ξ : Fin 3 → ℝ) :
    tetra2.worldCoordinates bentTetra ξ = ![ξ 0 + ξ 0 ^ 2 / 2, ξ 1 * (1 + ξ 0), ξ 2 * (1 + ξ 0)] := by
  funext a
  fin_cases a <;>
    simp only [Elem.worldCoordinates, Elem.interpolate, sum_fin10, bentTetra, tetra2, Matrix.cons_val,
      Fin.isValue, Fin.reduceFinMk, Fin.zero_eta, Fin.mk_one] <;> ring

theorem bentHexa_det (ξ : Fin 3 → ℝ) : (hexa2.jacobian bentHexa ξ).det = (2 - ξ 0 ^ 2) ^ 2 := by
  have h : hexa2.jacobian bentHexa ξ
      = !![1, 0, 0; ξ 1 * (-2 * ξ 0), 2 - ξ 0 ^ 2, 0; ξ 2 * (-2 * ξ 0), 0, 2 - ξ 0 ^ 2] := by
    ext a j
    fin_cases a <;> fin_cases j <;>
      simp only [Elem.jacobian, sum_fin20, bentHexa, hexa2, hexa2dMid, Matrix.of_apply, Matrix.cons_val,
        Fin.isValue, Fin.reduceFinMk, Fin.zero_eta, Fin.mk_one] <;> ring
  rw [h, Matrix.det_fin_three]
  simp only [Matrix.of_apply, Matrix.cons_val]
  ring

theorem bentTetra_det (ξ : Fin 3 → ℝ) : (tetra2.jacobian bentTetra ξ).det = (1 + ξ 0) ^ 3 := by
  have h : tetra2.jacobian bentTetra ξ = !![1 + ξ 0, 0, 0; ξ 1, 1 + ξ 0, 0; ξ 2, 0, 1 + ξ 0] := by
    ext a j
    fin_cases a <;> fin_cases j <;>
      simp only [Elem.jacobian, sum_fin10, bentTetra, tetra2, Matrix.of_apply, Matrix.cons_val,
        Fin.isValue, Fin.reduceFinMk, Fin.zero_eta, Fin.mk_one] <;> ring
  rw [h, Matrix.det_fin_three]
  simp only [Matrix.of_apply, Matrix.cons_val]
  ring

theorem bentHexa_unfolded : Unfolded .hexa2 bentHexa := by
  have hu : ∀ ξ : Fin 3 → ℝ, ξ ∈ canonicalSet .cube 3 → 0 < 2 - ξ 0 ^ 2 := by
    intro ξ hξ
    have h1 := (hξ 0).1
    have h2 := (hξ 0).2
    nlinarith
  refine ⟨?_, Or.inl fun ξ _ => ?_⟩
  · intro (ξ : Fin 3 → ℝ) (hξ : ξ ∈ canonicalSet .cube 3) (η : Fin 3 → ℝ) hη (h : hexa2.worldCoordinates bentHexa ξ = hexa2.worldCoordinates bentHexa η)
    rw [bentHexa_world, bentHexa_world] at h
    have h0 : ξ 0 = η 0 := congrFun h 0
    have h1 : ξ 1 * (2 - ξ 0 ^ 2) = η 1 * (2 - η 0 ^ 2) := congrFun h 1
    have h2 : ξ 2 * (2 - ξ 0 ^ 2) = η 2 * (2 - η 0 ^ 2) := congrFun h 2
    rw [← h0] at h1 h2
    have hp := (hu ξ hξ).ne'
    funext (a : Fin 3)
    fin_cases a
    exacts [h0, mul_right_cancel₀ hp h1, mul_right_cancel₀ hp h2]
  · exact (bentHexa_det ξ).symm ▸ sq_nonneg _

theorem bentTetra_unfolded : Unfolded .tetra2 bentTetra := by
  have hu : ∀ ξ : Fin 3 → ℝ, ξ ∈ canonicalSet .simplex 3 → 0 ≤ ξ 0 := fun ξ hξ => hξ.1 0
  refine ⟨?_, Or.inl fun ξ hξ => ?_⟩
  · intro (ξ : Fin 3 → ℝ) (hξ : ξ ∈ canonicalSet .simplex 3) (η : Fin 3 → ℝ) (hη : η ∈ canonicalSet .simplex 3)
      (h : tetra2.worldCoordinates bentTetra ξ = tetra2.worldCoordinates bentTetra η)
    rw [bentTetra_world, bentTetra_world] at h
    have h0 : ξ 0 + ξ 0 ^ 2 / 2 = η 0 + η 0 ^ 2 / 2 := congrFun h 0
    have h1 : ξ 1 * (1 + ξ 0) = η 1 * (1 + η 0) := congrFun h 1
    have h2 : ξ 2 * (1 + ξ 0) = η 2 * (1 + η 0) := congrFun h 2
    have p1 := hu ξ hξ
    have p2 := hu η hη
    have h0' : ξ 0 = η 0 := by
      have : (ξ 0 - η 0) * (1 + (ξ 0 + η 0) / 2) = 0 := by linear_combination h0
      rcases mul_eq_zero.1 this with h | h
      · linarith
      · exfalso; linarith
    rw [← h0'] at h1 h2
    have hp : 1 + ξ 0 ≠ 0 := by positivity
    funext (a : Fin 3)
    fin_cases a
    exacts [h0', mul_right_cancel₀ hp h1, mul_right_cancel₀ hp h2]
  · exact (bentTetra_det ξ).symm ▸ pow_nonneg (by have := hu ξ hξ; linarith) 3

/-- **C83 is violated by the code** for quadratic solids with curved edges: their two-point and four-point rules do
not give the volume, here `200/9` instead of `344/15` and about `0.35036` instead of `7/20`. -/
theorem C83_violated :
    (∃ X, Unfolded .hexa2 X ∧ volume (elementRegion .hexa2 X) ≠ ENNReal.ofReal (quadratureVolume .hexa2 X)) ∧
    (∃ X, Unfolded .tetra2 X ∧ volume (elementRegion .tetra2 X) ≠ ENNReal.ofReal (quadratureVolume .tetra2 X)) := by
  refine ⟨⟨bentHexa, bentHexa_unfolded, ?_⟩, ⟨bentTetra, bentTetra_unfolded, ?_⟩⟩
  · rw [volume_region _ _ bentHexa_unfolded, gaussSum_abs _ _ bentHexa_unfolded]
    intro h
    rw [ENNReal.ofReal_eq_ofReal_iff (abs_nonneg _) (abs_nonneg _)] at h
    have e1 : (ElementType.hexa2.integral fun ξ => (ElementType.hexa2.elem.jacobian bentHexa ξ).det)
        = intCube3 fun ξ => (2 - ξ 0 ^ 2) ^ 2 := congrArg intCube3 (funext bentHexa_det)
    have e2 : (gaussSum ElementType.hexa2.gauss fun ξ => (ElementType.hexa2.elem.jacobian bentHexa ξ).det)
        = gaussSum gaussHexa fun ξ => (2 - ξ 0 ^ 2) ^ 2 := congrArg (gaussSum gaussHexa) (funext bentHexa_det)
    have e3 : intCube3 (fun ξ => (2 - ξ 0 ^ 2) ^ 2) = 344 / 15 := by
      have hp : ∀ u : ℝ, 2 * (2 * (2 - u ^ 2) ^ 2) = 16 + 0 * u + (-16) * u ^ 2 + 0 * u ^ 3 + 4 * u ^ 4 := by
        intro u; ring
      simp only [intCube3, Matrix.cons_val, intervalIntegral.integral_const, smul_eq_mul]
      norm_num only
      simp only [hp, int_poly4]
      norm_num
    have e4 : gaussSum gaussHexa (fun ξ => (2 - ξ 0 ^ 2) ^ 2) = 200 / 9 := by
      simp only [gaussSum, gaussHexa, List.map_cons, List.map_nil, List.sum_cons, List.sum_nil, Matrix.cons_val, neg_sq,
        g3_sq]
      norm_num
    have h' : |(344 / 15 : ℝ)| = |200 / 9| := by
      rw [← e3, ← e4]
      exact (congrArg abs e1).symm.trans (h.trans (congrArg abs e2))
    norm_num at h'
  · rw [volume_region _ _ bentTetra_unfolded, gaussSum_abs _ _ bentTetra_unfolded]
    intro h
    rw [ENNReal.ofReal_eq_ofReal_iff (abs_nonneg _) (abs_nonneg _)] at h
    have e1 : (ElementType.tetra2.integral fun ξ => (ElementType.tetra2.elem.jacobian bentTetra ξ).det)
        = intSimplex3 fun ξ => (1 + ξ 0) ^ 3 := congrArg intSimplex3 (funext bentTetra_det)
    have e2 : (gaussSum ElementType.tetra2.gauss fun ξ => (ElementType.tetra2.elem.jacobian bentTetra ξ).det)
        = gaussSum gaussTetra2 fun ξ => (1 + ξ 0) ^ 3 := congrArg (gaussSum gaussTetra2) (funext bentTetra_det)
    have e3 : intSimplex3 (fun ξ => (1 + ξ 0) ^ 3) = 7 / 20 := by
      simp only [intSimplex3, Matrix.cons_val, intervalIntegral.integral_const, smul_eq_mul]
      have hq : ∀ u v : ℝ, (1 - u - v - 0) * (1 + u) ^ 3
          = (1 - u) * (1 + u) ^ 3 + -(1 + u) ^ 3 * v + 0 * v ^ 2 + 0 * v ^ 3 + 0 * v ^ 4 := by intro u v; ring
      have hp : ∀ u : ℝ, (1 - u) * (1 + u) ^ 3 * (1 - u - 0) + -(1 + u) ^ 3 * (((1 - u) ^ 2 - 0 ^ 2) / 2)
          + 0 * (((1 - u) ^ 3 - 0 ^ 3) / 3) + 0 * (((1 - u) ^ 4 - 0 ^ 4) / 4) + 0 * (((1 - u) ^ 5 - 0 ^ 5) / 5)
          = (1 - u) ^ 2 * (1 + u) ^ 3 / 2 := by intro u; ring
      simp only [hq, int_poly4, hp]
      have hd : ∀ x : ℝ, HasDerivAt (fun x : ℝ => (x + x ^ 2 / 2 - 2 * x ^ 3 / 3 - 2 * x ^ 4 / 4 + x ^ 5 / 5 + x ^ 6 / 6) / 2)
          ((1 - x) ^ 2 * (1 + x) ^ 3 / 2) x := by
        intro x
        have h1 := hasDerivAt_id x
        have h2 := (hasDerivAt_pow 2 x).div_const 2
        have h3 := ((hasDerivAt_pow 3 x).const_mul 2).div_const 3
        have h4 := ((hasDerivAt_pow 4 x).const_mul 2).div_const 4
        have h5 := (hasDerivAt_pow 5 x).div_const 5
        have h6 := (hasDerivAt_pow 6 x).div_const 6
        have h := (((((h1.add h2).sub h3).sub h4).add h5).add h6).div_const 2
        refine h.congr_deriv ?_
        push_cast
        ring
      rw [intervalIntegral.integral_eq_sub_of_hasDerivAt (fun x _ => hd x) (Continuous.intervalIntegrable (by fun_prop) _ _)]
      norm_num
    have h' : |(7 / 20 : ℝ)| = |gaussSum gaussTetra2 fun ξ => (1 + ξ 0) ^ 3| := by
      rw [← e3]
      exact (congrArg abs e1).symm.trans (h.trans (congrArg abs e2))
    simp only [gaussSum, gaussTetra2, List.map_cons, List.map_nil, List.sum_cons, List.sum_nil, Matrix.cons_val, tetraA,
      tetraB] at h'
    norm_num at h'

/-- A distorted quad, neither a rectangle nor a parallelogram, meets the hypotheses of C83. -/
theorem C83_example : Unfolded .quad1 ![![0, 0], ![4, 0], ![3, 2], ![0, 2]] := by
  have hw : ∀ ξ : Fin 2 → ℝ, quad1.worldCoordinates ![![0, 0], ![4, 0], ![3, 2], ![0, 2]] ξ
      = ![(1 + ξ 0) * (7 - ξ 1) / 4, 1 + ξ 1] := by
    intro ξ
    funext a
    fin_cases a <;>
      simp only [Elem.worldCoordinates, Elem.interpolate, sum_fin4, quad1, Matrix.cons_val,
        Fin.isValue, Fin.reduceFinMk, Fin.zero_eta, Fin.mk_one] <;> ring
  have hj : ∀ ξ : Fin 2 → ℝ, (quad1.jacobian ![![0, 0], ![4, 0], ![3, 2], ![0, 2]] ξ).det = (7 - ξ 1) / 4 := by
    intro ξ
    rw [Matrix.det_fin_two]
    simp only [Elem.jacobian, sum_fin4, quad1, Matrix.cons_val]
    ring
  have hu : ∀ ξ : Fin 2 → ℝ, ξ ∈ canonicalSet .cube 2 → 0 < 7 - ξ 1 := fun ξ hξ => by linarith [(hξ 1).2]
  refine ⟨?_, Or.inl fun ξ hξ => ?_⟩
  · intro (ξ : Fin 2 → ℝ) (hξ : ξ ∈ canonicalSet .cube 2) (η : Fin 2 → ℝ) hη
      (h : quad1.worldCoordinates ![![0, 0], ![4, 0], ![3, 2], ![0, 2]] ξ
        = quad1.worldCoordinates ![![0, 0], ![4, 0], ![3, 2], ![0, 2]] η)
    rw [hw, hw] at h
    have h0 : (1 + ξ 0) * (7 - ξ 1) / 4 = (1 + η 0) * (7 - η 1) / 4 := congrFun h 0
    have h1 : 1 + ξ 1 = 1 + η 1 := congrFun h 1
    have h1' : ξ 1 = η 1 := by linarith
    rw [← h1'] at h0
    have h0' : (1 + ξ 0) * (7 - ξ 1) = (1 + η 0) * (7 - ξ 1) := by linarith
    have := mul_right_cancel₀ (hu ξ hξ).ne' h0'
    funext (a : Fin 2)
    fin_cases a
    exacts [by simpa using this, h1']
  · have := hu ξ hξ
    exact (hj ξ).symm ▸ (by linarith)

/-- Its area is what the quadrature gives. -/
example : volume (elementRegion .quad1 ![![0, 0], ![4, 0], ![3, 2], ![0, 2]])
    = ENNReal.ofReal (quadratureVolume .quad1 ![![0, 0], ![4, 0], ![3, 2], ![0, 2]]) :=
  C83_partial.1 .quad1 (by decide) (by decide) (by decide) _ C83_example

end Caribou

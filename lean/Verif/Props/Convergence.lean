import Verif.Lemmas.Convergence2
import Verif.Lemmas.NodeRegion
import Verif.Props.Manufactured
import Verif.Props.Accuracy
import Mathlib.Topology.UniformSpace.HeineCantor

/-!
# C122: the integrals computed on meshes converge to the integrals over the body
-/

set_option autoImplicit false

namespace Caribou

open Spec MeasureTheory Manufactured

variable {N M : ℕ} {T : ElementType}

theorem gaussFactor_square {d : ℕ} (J : Matrix (Fin d) (Fin d) ℝ) : gaussFactor J = |J.det| := by
  unfold gaussFactor
  rw [dif_pos rfl]
  rfl

/-- `integrate` with a function of the position is the sum of the quadratures. -/
theorem integrateOver_quadrature (idx : Fin M → Fin T.numNodes → Fin N) (X u : Fin N → Fin T.dim → ℝ) (f : (Fin T.dim → ℝ) → ℝ) :
    (integrateOver T.elem T.gauss idx X u fun _ x _ => f x).getD 0 = ∑ e, quadratureOf T (fun i => X (idx e i)) f := by
  rw [integrateOver_eq]
  refine Finset.sum_congr rfl fun e _ => congrArg List.sum (List.map_congr_left fun g _ => ?_)
  rw [gaussFactor_square, smul_eq_mul]

namespace Spec.MeshOf

variable {idx : Fin M → Fin T.numNodes → Fin N} {X : Fin N → Fin T.dim → ℝ} {Ω : Set (Fin T.dim → ℝ)} {h : ℝ}

theorem sub (m : MeshOf T idx X Ω h) (e : Fin M) : elementRegion T (fun i => X (idx e i)) ⊆ Ω := by
  rw [← m.fills]
  exact Set.subset_iUnion (fun e => elementRegion T fun i => X (idx e i)) e

theorem compact (m : MeshOf T idx X Ω h) : IsCompact Ω := by
  rw [← m.fills]
  exact isCompact_iUnion fun e => region_compact T _

theorem aedisjoint (m : MeshOf T idx X Ω h) : Pairwise (Function.onFun (AEDisjoint volume) fun e => elementRegion T fun i => X (idx e i)) :=
  fun e e' hee => m.apart e e' hee

theorem integral_eq (m : MeshOf T idx X Ω h) {f : (Fin T.dim → ℝ) → ℝ} (hf : ContinuousOn f Ω) :
    ∫ x in Ω, f x = ∑ e, ∫ x in elementRegion T (fun i => X (idx e i)), f x := by
  have hi : IntegrableOn f (⋃ e, elementRegion T fun i => X (idx e i)) := by
    rw [m.fills]
    exact hf.integrableOn_compact m.compact
  have h := integral_iUnion_ae (fun e => (region_compact T fun i => X (idx e i)).measurableSet.nullMeasurableSet) m.aedisjoint hi
  rw [m.fills, tsum_fintype] at h
  exact h

theorem volume_eq (m : MeshOf T idx X Ω h) : (volume Ω).toReal = ∑ e, (volume (elementRegion T fun i => X (idx e i))).toReal := by
  have h := measure_iUnion₀ m.aedisjoint fun e => (region_compact T fun i => X (idx e i)).measurableSet.nullMeasurableSet
  rw [m.fills, tsum_fintype] at h
  rw [h, ENNReal.toReal_sum]
  intro e _
  exact (region_compact T _).measure_lt_top.ne

end Spec.MeshOf

/-- **C122 (first order).** When a function changes by at most `δ` over distances up to the mesh size, its integral computed by `integrate` differs from the
integral over the body by at most `δ` times the volume. -/
theorem C122_first (idx : Fin M → Fin T.numNodes → Fin N) (X u : Fin N → Fin T.dim → ℝ) (Ω : Set (Fin T.dim → ℝ)) (h : ℝ) (m : MeshOf T idx X Ω h)
    (f : (Fin T.dim → ℝ) → ℝ) (hf : ContinuousOn f Ω) (δ : ℝ) (hδ : ∀ x ∈ Ω, ∀ y ∈ Ω, ‖x - y‖ ≤ h → |f x - f y| ≤ δ) :
    |(integrateOver T.elem T.gauss idx X u fun _ x _ => f x).getD 0 - ∫ x in Ω, f x| ≤ δ * (volume Ω).toReal := by
  rw [integrateOver_quadrature, m.integral_eq hf, m.volume_eq, ← Finset.sum_sub_distrib, Finset.mul_sum]
  refine (Finset.abs_sum_le_sum_abs _ _).trans (Finset.sum_le_sum fun e _ => ?_)
  exact quadrature_first T _ (m.measured e) (m.unfolded e) f (hf.mono (m.sub e)) δ fun x hx y hy => hδ x (m.sub e hx) y (m.sub e hy) (m.size e x hx y hy)

/-- **C122 (constants).** The volume computed on a mesh is the volume of the body. -/
theorem C122_volume (idx : Fin M → Fin T.numNodes → Fin N) (X u : Fin N → Fin T.dim → ℝ) (Ω : Set (Fin T.dim → ℝ)) (h : ℝ) (m : MeshOf T idx X Ω h) :
    (integrateOver T.elem T.gauss idx X u fun _ _ _ => (1 : ℝ)).getD 0 = (volume Ω).toReal := by
  have h0 := C122_first idx X u Ω h m (fun _ => 1) continuousOn_const 0 fun _ _ _ _ _ => by simp
  rw [zero_mul, setIntegral_const, smul_eq_mul, mul_one] at h0
  exact sub_eq_zero.mp (abs_eq_zero.mp (le_antisymm h0 (abs_nonneg _)))

/-- **C122 (second order).** With linear elements of any shape, or quadratic elements with straight sides, the error on a function whose derivative changes by at
most `B` per unit of length is at most `B` times the square of the mesh size times the volume. -/
theorem C122_second (idx : Fin M → Fin T.numNodes → Fin N) (X u : Fin N → Fin T.dim → ℝ) (Ω : Set (Fin T.dim → ℝ)) (h : ℝ) (m : MeshOf T idx X Ω h)
    (hT : T.IsQuadratic → ∀ e, ∃ (c : Fin T.dim → ℝ) (A : Matrix (Fin T.dim) (Fin T.dim) ℝ), ∀ i, X (idx e i) = c + A.mulVec (T.elem.node i))
    (S : Set (Fin T.dim → ℝ)) (hS : Ω ⊆ S) (f : (Fin T.dim → ℝ) → ℝ) (f' : (Fin T.dim → ℝ) → (Fin T.dim → ℝ) →L[ℝ] ℝ) (B : ℝ) (hB : 0 ≤ B)
    (hf : SmoothOn S f f' B) :
    |(integrateOver T.elem T.gauss idx X u fun _ x _ => f x).getD 0 - ∫ x in Ω, f x| ≤ B * h ^ 2 * (volume Ω).toReal := by
  have hfc : ContinuousOn f Ω := fun x hx => (hf.deriv x (hS hx)).continuousAt.continuousWithinAt
  rw [integrateOver_quadrature, m.integral_eq hfc, m.volume_eq, ← Finset.sum_sub_distrib, Finset.mul_sum]
  refine (Finset.abs_sum_le_sum_abs _ _).trans (Finset.sum_le_sum fun e _ => ?_)
  have he : ExactOnAffine T fun i => X (idx e i) := by
    by_cases hq : T.IsQuadratic
    · obtain ⟨c, A, hX⟩ := hT hq e
      exact exactOnAffine_affine T c A _ hX
    · exact exactOnAffine_linear T hq _
  exact quadrature_second T _ (m.measured e) (m.unfolded e) he S ((m.sub e).trans hS) f f' B h hB hf (m.size e)

theorem uniform_close {D : ℕ} {V : Type*} [NormedAddCommGroup V] {Ω : Set (Fin D → ℝ)} (hΩ : IsCompact Ω) {f : (Fin D → ℝ) → V} (hf : ContinuousOn f Ω) (ε : ℝ)
    (hε : 0 < ε) : ∃ h > 0, ∀ x ∈ Ω, ∀ y ∈ Ω, ‖x - y‖ ≤ h → ‖f x - f y‖ ≤ ε := by
  obtain ⟨h, h0, hh⟩ := Metric.uniformContinuousOn_iff.mp (hΩ.uniformContinuousOn_of_continuous hf) ε hε
  refine ⟨h / 2, half_pos h0, fun x hx y hy hxy => ?_⟩
  rw [← dist_eq_norm]
  refine (hh x hx y hy ?_).le
  rw [dist_eq_norm]
  linarith

/-- **C122 (convergence).** For every continuous function, the integrals computed on all meshes which are fine enough are as close as wanted to the integral over the
body. -/
theorem C122_converges (T : ElementType) (Ω : Set (Fin T.dim → ℝ)) (hΩ : IsCompact Ω) (f : (Fin T.dim → ℝ) → ℝ) (hf : ContinuousOn f Ω) (ε : ℝ) (hε : 0 < ε) :
    ∃ h > 0, ∀ {N M : ℕ} (idx : Fin M → Fin T.numNodes → Fin N) (X u : Fin N → Fin T.dim → ℝ), MeshOf T idx X Ω h →
      |(integrateOver T.elem T.gauss idx X u fun _ x _ => f x).getD 0 - ∫ x in Ω, f x| ≤ ε := by
  set V := (volume Ω).toReal with hV
  have hV0 : 0 ≤ V := ENNReal.toReal_nonneg
  obtain ⟨h, h0, hh⟩ := uniform_close hΩ hf (ε / (V + 1)) (by positivity)
  refine ⟨h, h0, fun idx X u m => (C122_first idx X u Ω h m f hf _ hh).trans ?_⟩
  rw [← hV, div_mul_eq_mul_div, div_le_iff₀ (by positivity)]
  nlinarith

theorem interpolated_close (X : Fin T.numNodes → Fin T.dim → ℝ) (v : (Fin T.dim → ℝ) → Fin T.dim → ℝ) (ε : ℝ) (hε : 0 ≤ ε)
    (hv : ∀ x ∈ elementRegion T X, ∀ y ∈ elementRegion T X, ‖v x - v y‖ ≤ ε) (ξ : Fin T.dim → ℝ) (hξ : T.shape.Mem ξ) :
    ‖T.elem.interpolate ξ (fun i => v (X i)) - v (T.elem.worldCoordinates X ξ)‖ ≤ shapeBound T * ε := by
  have e : T.elem.interpolate ξ (fun i => v (X i)) - v (T.elem.worldCoordinates X ξ) = ∑ i, (T.elem (K := ℝ)).L ξ i • (v (X i) - v (T.elem.worldCoordinates X ξ)) := by
    simp only [smul_sub, Finset.sum_sub_distrib]
    rw [← Finset.sum_smul, C01_partition_of_unity, one_smul, interpolate_smul]
  rw [e]
  exact weighted_norm_le _ _ hε (fun i => hv _ (node_mem_region T X i) _ ⟨ξ, hξ, rfl⟩) (shape_abs T ξ hξ)

theorem shapeBound_pos (T : ElementType) : 0 < shapeBound T := by
  cases T <;> norm_num [shapeBound]

/-- **C122 (loads).** The work of the loads assembled from a continuous density, in the nodal values of a continuous displacement, is as close as wanted to the work
of the density in the displacement on all meshes which are fine enough. -/
theorem C122_loads (T : ElementType) (Ω : Set (Fin T.dim → ℝ)) (hΩ : IsCompact Ω) (f v : (Fin T.dim → ℝ) → Fin T.dim → ℝ) (hf : ContinuousOn f Ω)
    (hv : ContinuousOn v Ω) (ε : ℝ) (hε : 0 < ε) :
    ∃ h > 0, ∀ {N M : ℕ} (idx : Fin M → Fin T.numNodes → Fin N) (X : Fin N → Fin T.dim → ℝ), MeshOf T idx X Ω h →
      |∑ p, ∑ a, assembleLoads T.elem T.gauss idx X (fun _ x => f x) p a * v (X p) a - ∫ x in Ω, ∑ a, f x a * v x a| ≤ ε := by
  set V := (volume Ω).toReal with hV
  have hV0 : 0 ≤ V := ENNReal.toReal_nonneg
  have hfv : ContinuousOn (fun x => ∑ a, f x a * v x a) Ω := by
    refine continuousOn_finset_sum _ fun a _ => ContinuousOn.mul ?_ ?_
    · exact (continuous_apply a).comp_continuousOn hf
    · exact (continuous_apply a).comp_continuousOn hv
  obtain ⟨C, hC⟩ := hΩ.exists_bound_of_continuousOn hf
  set K := (T.dim : ℝ) * (|C| + 1) * shapeBound T * (V + 1) with hK
  have hdim : 0 < (T.dim : ℝ) := by
    have : 0 < T.dim := by cases T <;> decide
    exact_mod_cast this
  have hK0 : 0 < K := by
    have := shapeBound_pos T
    positivity
  obtain ⟨h1, h10, hh1⟩ := C122_converges T Ω hΩ _ hfv (ε / 2) (half_pos hε)
  obtain ⟨h2, h20, hh2⟩ := uniform_close hΩ hv (ε / 2 / K) (by positivity)
  refine ⟨min h1 h2, lt_min h10 h20, fun {N M} idx X m => ?_⟩
  have m1 : MeshOf T idx X Ω h1 := { m with size := fun e x hx y hy => (m.size e x hx y hy).trans (min_le_left _ _) }
  have hA := hh1 idx X (fun p => v (X p)) m1
  rw [C120_work]
  have hB : |(integrateOver T.elem T.gauss idx X (fun p => v (X p)) fun _ x U => ∑ a, f x a * U a).getD 0 -
      (integrateOver T.elem T.gauss idx X (fun p => v (X p)) fun _ x _ => ∑ a, f x a * v x a).getD 0| ≤ ε / 2 := by
    rw [integrateOver_eq, integrateOver_eq, ← Finset.sum_sub_distrib]
    have hone : ∀ e, |(T.gauss.map fun g => (g.weight * gaussFactor (T.elem.jacobian (fun i => X (idx e i)) g.position)) •
          ∑ a, f (T.elem.worldCoordinates (fun i => X (idx e i)) g.position) a * ∑ i, v (X (idx e i)) a * (T.elem (K := ℝ)).L g.position i).sum -
        (T.gauss.map fun g => (g.weight * gaussFactor (T.elem.jacobian (fun i => X (idx e i)) g.position)) •
          ∑ a, f (T.elem.worldCoordinates (fun i => X (idx e i)) g.position) a * v (T.elem.worldCoordinates (fun i => X (idx e i)) g.position) a).sum| ≤
        ε / 2 / (V + 1) * (volume (elementRegion T fun i => X (idx e i))).toReal := by
      intro e
      rw [measured_volume T _ (m.measured e) (m.unfolded e), ENNReal.toReal_ofReal (quadratureVolume_nonneg T _)]
      have e1 : ∀ (a b : GaussNode T.dim → ℝ), (T.gauss.map a).sum - (T.gauss.map b).sum = (T.gauss.map fun g => a g - b g).sum := by
        intro a b
        rw [sub_eq_iff_eq_add, ← List.sum_map_add]
        exact congrArg List.sum (List.map_congr_left fun g _ => by ring)
      rw [e1]
      refine (list_abs_sum_le _ _ (fun g => ε / 2 / (V + 1) * (g.weight * |(T.elem.jacobian (fun i => X (idx e i)) g.position).det|)) fun g hg => ?_).trans (le_of_eq ?_)
      · have hw : 0 ≤ g.weight * |(T.elem.jacobian (fun i => X (idx e i)) g.position).det| := mul_nonneg (C12_inside_positive T g hg).2.le (abs_nonneg _)
        rw [gaussFactor_square, ← smul_sub, smul_eq_mul, abs_mul, abs_of_nonneg hw, mul_comm (ε / 2 / (V + 1))]
        refine mul_le_mul_of_nonneg_left ?_ hw
        rw [← Finset.sum_sub_distrib]
        have hc := interpolated_close (T := T) (fun i => X (idx e i)) v (ε / 2 / K) (by positivity)
          (fun x hx y hy => hh2 x (m.sub e hx) y (m.sub e hy) ((m.size e x hx y hy).trans (min_le_right _ _))) g.position (C12_inside_positive T g hg).1
        refine (Finset.abs_sum_le_sum_abs _ _).trans ((Finset.sum_le_card_nsmul _ _ ((|C| + 1) * (shapeBound T * (ε / 2 / K))) fun a _ => ?_).trans (le_of_eq ?_))
        · rw [← mul_sub, abs_mul]
          refine mul_le_mul ?_ ?_ (abs_nonneg _) (by positivity)
          · have := (norm_le_pi_norm _ a).trans (hC _ (m.sub e (gauss_mem_region T (fun i => X (idx e i)) hg)))
            rw [Real.norm_eq_abs] at this
            exact this.trans ((le_abs_self C).trans (by linarith))
          · exact (norm_le_pi_norm _ a).trans hc
        · rw [Finset.card_univ, Fintype.card_fin, nsmul_eq_mul, hK]
          have := (shapeBound_pos T).ne'
          field_simp
      · rw [List.sum_map_mul_left]
        rfl
    refine (Finset.abs_sum_le_sum_abs _ _).trans ((Finset.sum_le_sum fun e _ => hone e).trans ?_)
    rw [← Finset.mul_sum, ← m.volume_eq, ← hV, div_mul_eq_mul_div, div_le_iff₀ (by positivity)]
    nlinarith
  calc _ ≤ _ := abs_sub_le _ _ _
    _ ≤ ε / 2 + ε / 2 := add_le_add hB hA
    _ = ε := by ring

end Caribou

import Verif.Spec.Refinement
import Verif.Props.Galerkin
import Mathlib.Analysis.Convex.Measure

/-!
# Lemmas on two meshes of the same body
-/

set_option autoImplicit false
set_option linter.all false

namespace Caribou

open Spec MeasureTheory

theorem split_integral {M M' : ℕ} {S : Fin M → Set (Fin 3 → ℝ)} {S' : Fin M' → Set (Fin 3 → ℝ)} (hS : ∀ e, IsCompact (S e)) (hS' : ∀ e, IsCompact (S' e))
    (hapart : ∀ e e', e ≠ e' → volume (S' e ∩ S' e') = 0) (hU : (⋃ e, S e) ⊆ ⋃ e, S' e) {f : Fin M → (Fin 3 → ℝ) → ℝ} (hf : ∀ e, ContinuousOn (f e) (S e)) :
    ∑ e, ∫ x in S e, f e x = ∑ e, ∑ e', ∫ x in S e ∩ S' e', f e x := by
  refine Finset.sum_congr rfl fun e _ => ?_
  have e1 : S e = ⋃ e', S e ∩ S' e' := by
    rw [← Set.inter_iUnion]
    exact (Set.inter_eq_left.2 ((Set.subset_iUnion S e).trans hU)).symm
  have hi : IntegrableOn (f e) (⋃ e', S e ∩ S' e') := by
    rw [← e1]
    exact (hf e).integrableOn_compact (hS e)
  have h := integral_iUnion_ae (μ := volume) (s := fun e' => S e ∩ S' e') (fun e' => ((hS e).measurableSet.inter (hS' e').measurableSet).nullMeasurableSet)
    (fun a b hab => measure_mono_null (show (S e ∩ S' a) ∩ (S e ∩ S' b) ⊆ S' a ∩ S' b from fun x hx => ⟨hx.1.2, hx.2.2⟩) (hapart a b hab)) hi
  rw [tsum_fintype] at h
  rw [← h, ← e1]

/-- Two integrals over the same body, cut in two ways, of functions which agree. -/
theorem glue_integral {M M' : ℕ} {S : Fin M → Set (Fin 3 → ℝ)} {S' : Fin M' → Set (Fin 3 → ℝ)} (hS : ∀ e, IsCompact (S e)) (hS' : ∀ e, IsCompact (S' e))
    (hc : ∀ e, Convex ℝ (S e)) (hc' : ∀ e, Convex ℝ (S' e))
    (ha : ∀ e e', e ≠ e' → volume (S e ∩ S e') = 0) (ha' : ∀ e e', e ≠ e' → volume (S' e ∩ S' e') = 0) (hU : (⋃ e, S e) = ⋃ e, S' e)
    {f : Fin M → (Fin 3 → ℝ) → ℝ} {f' : Fin M' → (Fin 3 → ℝ) → ℝ} (hf : ∀ e, ContinuousOn (f e) (S e)) (hf' : ∀ e, ContinuousOn (f' e) (S' e))
    (h : ∀ e e', ∀ x ∈ interior (S e ∩ S' e'), f e x = f' e' x) :
    ∑ e, ∫ x in S e, f e x = ∑ e, ∫ x in S' e, f' e x := by
  rw [split_integral hS hS' ha' hU.subset hf, split_integral hS' hS ha hU.symm.subset hf', Finset.sum_comm]
  refine Finset.sum_congr rfl fun e' _ => Finset.sum_congr rfl fun e _ => ?_
  have hn : volume (frontier (S e ∩ S' e')) = 0 := ((hc e).inter (hc' e')).addHaar_frontier volume
  have hae : (interior (S e ∩ S' e') : Set (Fin 3 → ℝ)) =ᵐ[volume] (S e ∩ S' e' : Set (Fin 3 → ℝ)) := interior_ae_eq_of_null_frontier hn
  rw [Set.inter_comm (S' e') (S e), ← setIntegral_congr_set hae, ← setIntegral_congr_set hae]
  exact setIntegral_congr_fun isOpen_interior.measurableSet fun x hx => h e e' x hx

section

variable {N M : ℕ} (C : CorotClass) {idx : Fin M → Fin C.nodes → Fin N} {X : Fin N → Fin 3 → ℝ}

theorem class_hasFDerivAt (V : Fin C.nodes → Fin 3 → ℝ) (ξ : Fin 3 → ℝ) :
    HasFDerivAt (fun ξ => C.elem.interpolate ξ V) (Matrix.toLin' (C.elem.jacobian V ξ : Mat3)).toContinuousLinearMap ξ := by
  cases C
  · exact world_hasFDerivAt .tetra1 V ξ
  · exact world_hasFDerivAt .hexa1 V ξ

/-- The points of an element. -/
def classRegion (idx : Fin M → Fin C.nodes → Fin N) (X : Fin N → Fin 3 → ℝ) (e : Fin M) : Set (Fin 3 → ℝ) :=
  C.elem.worldCoordinates (fun i => X (idx e i)) '' C.canonical

/-- What is used of the mesh. -/
theorem class_regions {Ω : Set (Fin 3 → ℝ)} {h : ℝ} (m : C.MeshOf Ω h X idx) :
    (⋃ e, classRegion C idx X e) = Ω ∧ (∀ e e', e ≠ e' → volume (classRegion C idx X e ∩ classRegion C idx X e') = 0) ∧
    (∀ e, IsCompact (classRegion C idx X e)) ∧
    ∀ e (f : (Fin 3 → ℝ) → ℝ), ∫ x in classRegion C idx X e, f x =
      ∫ ξ in C.canonical, |(C.elem.jacobian (fun i => X (idx e i)) ξ : Mat3).det| * f (C.elem.worldCoordinates (fun i => X (idx e i)) ξ) := by
  cases C
  · exact ⟨Spec.MeshOf.fills (T := .tetra1) m, Spec.MeshOf.apart (T := .tetra1) m, fun e => region_compact .tetra1 _,
      fun e f => region_integral .tetra1 _ (Spec.MeshOf.unfolded (T := .tetra1) m e) f⟩
  · exact ⟨Spec.MeshOf.fills (T := .hexa1) m, Spec.MeshOf.apart (T := .hexa1) m, fun e => region_compact .hexa1 _,
      fun e f => region_integral .hexa1 _ (Spec.MeshOf.unfolded (T := .hexa1) m e) f⟩

variable {c : Fin M → Fin 3 → ℝ} {A : Fin M → Mat3}

/-- The gradient of the interpolated displacement at the position `x`. -/
noncomputable def gradientAt (idx : Fin M → Fin C.nodes → Fin N) (c : Fin M → Fin 3 → ℝ) (A : Fin M → Mat3) (V : Fin N → Fin 3 → ℝ) (e : Fin M) (x : Fin 3 → ℝ) : Mat3 :=
  (C.elem.jacobian (fun i => V (idx e i)) ((A e)⁻¹.mulVec (x - c e)) : Mat3) * (A e)⁻¹

theorem class_convex (hX : ∀ e i, X (idx e i) = c e + (A e).mulVec (C.elem.node i)) (e : Fin M) : Convex ℝ (classRegion C idx X e) := by
  have e1 : classRegion C idx X e = (fun x => c e + x) '' (Matrix.toLin' (A e) '' C.canonical) := by
    rw [classRegion, Set.image_image]
    refine Set.image_congr fun ζ _ => ?_
    rw [C.good.straight (c e) (A e) _ (hX e), Matrix.toLin'_apply]
  rw [e1]
  exact (C.good.convex.linear_image _).translate _

theorem local_world (hdet : ∀ e, 0 < (A e).det) (hX : ∀ e i, X (idx e i) = c e + (A e).mulVec (C.elem.node i)) (e : Fin M) (ξ : Fin 3 → ℝ) :
    (A e)⁻¹.mulVec (C.elem.worldCoordinates (fun i => X (idx e i)) ξ - c e) = ξ := by
  rw [C.good.straight (c e) (A e) _ (hX e), add_sub_cancel_left, Matrix.mulVec_mulVec, Matrix.nonsing_inv_mul _ (isUnit_iff_ne_zero.2 (hdet e).ne'), Matrix.one_mulVec]

theorem gradientAt_continuous (V : Fin N → Fin 3 → ℝ) (e : Fin M) (a b : Fin 3) : Continuous fun x => gradientAt C idx c A V e x a b := by
  simp only [gradientAt, Matrix.mul_apply, Elem.jacobian]
  refine continuous_finset_sum _ fun k _ => Continuous.mul (continuous_finset_sum _ fun i _ => continuous_const.mul ((C.good.deriv i k).comp ?_)) continuous_const
  exact Continuous.matrix_mulVec continuous_const (continuous_id.sub continuous_const)

theorem gradientAt_world (hdet : ∀ e, 0 < (A e).det) (hX : ∀ e i, X (idx e i) = c e + (A e).mulVec (C.elem.node i)) {V : Fin N → Fin 3 → ℝ}
    {G : Fin M → (Fin 3 → ℝ) → Mat3} (hG : FieldGradient C.elem C.canonical idx X V G) (e : Fin M) (ξ : Fin 3 → ℝ) (hξ : ξ ∈ C.canonical) :
    gradientAt C idx c A V e (C.elem.worldCoordinates (fun i => X (idx e i)) ξ) = G e ξ := by
  rw [gradientAt, local_world C hdet hX, fieldGradient_eq (fun e ξ => C.good.affine (c e) (A e) _ (hX e) ξ) hdet hG e ξ hξ]

/-- The interpolated displacement as a function of the position. -/
noncomputable def fieldAt (idx : Fin M → Fin C.nodes → Fin N) (c : Fin M → Fin 3 → ℝ) (A : Fin M → Mat3) (V : Fin N → Fin 3 → ℝ) (e : Fin M) (x : Fin 3 → ℝ) : Fin 3 → ℝ :=
  C.elem.interpolate ((A e)⁻¹.mulVec (x - c e)) fun i => V (idx e i)

theorem fieldAt_deriv (V : Fin N → Fin 3 → ℝ) (e : Fin M) (x : Fin 3 → ℝ) :
    HasFDerivAt (fieldAt C idx c A V e) (Matrix.toLin' (gradientAt C idx c A V e x)).toContinuousLinearMap x := by
  have h1 : HasFDerivAt (fun x : Fin 3 → ℝ => (A e)⁻¹.mulVec (x - c e)) (Matrix.toLin' (A e)⁻¹).toContinuousLinearMap x := by
    have h2 : HasFDerivAt (fun x : Fin 3 → ℝ => x - c e) (ContinuousLinearMap.id ℝ (Fin 3 → ℝ)) x := (hasFDerivAt_id x).sub_const _
    have h3 := (Matrix.toLin' (A e)⁻¹).toContinuousLinearMap.hasFDerivAt.comp x h2
    exact h3
  have h4 := (class_hasFDerivAt C (fun i => V (idx e i)) ((A e)⁻¹.mulVec (x - c e))).comp x h1
  refine h4.congr_fderiv ?_
  ext v : 1
  simp [gradientAt, Matrix.toLin'_apply, Matrix.mulVec_mulVec]

end

section

variable {N M N' M' : ℕ} {C C' : CorotClass} {idx : Fin M → Fin C.nodes → Fin N} {X : Fin N → Fin 3 → ℝ} {idx' : Fin M' → Fin C'.nodes → Fin N'} {X' : Fin N' → Fin 3 → ℝ}
  {c : Fin M → Fin 3 → ℝ} {A : Fin M → Mat3} {c' : Fin M' → Fin 3 → ℝ} {A' : Fin M' → Mat3}

theorem same_gradient (hdet : ∀ e, 0 < (A e).det) (hX : ∀ e i, X (idx e i) = c e + (A e).mulVec (C.elem.node i))
    (hdet' : ∀ e, 0 < (A' e).det) (hX' : ∀ e i, X' (idx' e i) = c' e + (A' e).mulVec (C'.elem.node i)) {V : Fin N → Fin 3 → ℝ} {V' : Fin N' → Fin 3 → ℝ}
    (hV : SameField C.elem C.canonical idx X V C'.elem C'.canonical idx' X' V') (e : Fin M) (e' : Fin M') (x : Fin 3 → ℝ)
    (hx : x ∈ interior (classRegion C idx X e ∩ classRegion C' idx' X' e')) : gradientAt C idx c A V e x = gradientAt C' idx' c' A' V' e' x := by
  have he : fieldAt C idx c A V e =ᶠ[nhds x] fieldAt C' idx' c' A' V' e' := by
    filter_upwards [isOpen_interior.mem_nhds hx] with y hy
    obtain ⟨⟨ξ, hξ, rfl⟩, ξ', hξ', h0⟩ := interior_subset hy
    have h1 : fieldAt C idx c A V e (C.elem.worldCoordinates (fun i => X (idx e i)) ξ) = C.elem.interpolate ξ fun i => V (idx e i) := by
      rw [fieldAt, local_world C hdet hX]
    have h2 : fieldAt C' idx' c' A' V' e' (C.elem.worldCoordinates (fun i => X (idx e i)) ξ) = C'.elem.interpolate ξ' fun i => V' (idx' e' i) := by
      rw [← h0, fieldAt, local_world C' hdet' hX']
    rw [h1, h2]
    exact hV e ξ hξ e' ξ' hξ' h0.symm
  have h3 := ((fieldAt_deriv C (idx := idx) (c := c) (A := A) V e x).congr_of_eventuallyEq he.symm).unique (fieldAt_deriv C' (idx := idx') (c := c') (A := A') V' e' x)
  exact Matrix.toLin'.injective (LinearMap.toContinuousLinearMap.injective h3)

/-- Integrals of the gradients of fields which are displacements of both meshes. -/
theorem same_integral (hdet : ∀ e, 0 < (A e).det) (hX : ∀ e i, X (idx e i) = c e + (A e).mulVec (C.elem.node i))
    (hdet' : ∀ e, 0 < (A' e).det) (hX' : ∀ e i, X' (idx' e i) = c' e + (A' e).mulVec (C'.elem.node i)) {Ω : Set (Fin 3 → ℝ)} {h h' : ℝ}
    (m : C.MeshOf Ω h X idx) (m' : C'.MeshOf Ω h' X' idx') {V : Fin N → Fin 3 → ℝ} {V' : Fin N' → Fin 3 → ℝ}
    (hV : SameField C.elem C.canonical idx X V C'.elem C'.canonical idx' X' V') {GV : Fin M → (Fin 3 → ℝ) → Mat3} {GV' : Fin M' → (Fin 3 → ℝ) → Mat3}
    (hGV : FieldGradient C.elem C.canonical idx X V GV) (hGV' : FieldGradient C'.elem C'.canonical idx' X' V' GV')
    (φ : (Fin 3 → ℝ) → Mat3 → ℝ) (hφ : ∀ P : (Fin 3 → ℝ) → Mat3, (∀ a b, Continuous fun x => P x a b) → ContinuousOn (fun x => φ x (P x)) Ω) :
    overElements C.elem C.canonical idx X (fun e ξ => φ (C.elem.worldCoordinates (fun i => X (idx e i)) ξ) (GV e ξ)) =
      overElements C'.elem C'.canonical idx' X' (fun e ξ => φ (C'.elem.worldCoordinates (fun i => X' (idx' e i)) ξ) (GV' e ξ)) := by
  obtain ⟨r1, r2, r3, r4⟩ := class_regions C m
  obtain ⟨s1, s2, s3, s4⟩ := class_regions C' m'
  have h1 : overElements C.elem C.canonical idx X (fun e ξ => φ (C.elem.worldCoordinates (fun i => X (idx e i)) ξ) (GV e ξ)) =
      ∑ e, ∫ x in classRegion C idx X e, φ x (gradientAt C idx c A V e x) := by
    refine Finset.sum_congr rfl fun e _ => ?_
    rw [r4]
    refine setIntegral_congr_fun C.good.compact.measurableSet fun ξ hξ => ?_
    show _ * _ = _ * _
    rw [gradientAt_world C hdet hX hGV e ξ hξ]
  have h2 : overElements C'.elem C'.canonical idx' X' (fun e ξ => φ (C'.elem.worldCoordinates (fun i => X' (idx' e i)) ξ) (GV' e ξ)) =
      ∑ e, ∫ x in classRegion C' idx' X' e, φ x (gradientAt C' idx' c' A' V' e x) := by
    refine Finset.sum_congr rfl fun e _ => ?_
    rw [s4]
    refine setIntegral_congr_fun C'.good.compact.measurableSet fun ξ hξ => ?_
    show _ * _ = _ * _
    rw [gradientAt_world C' hdet' hX' hGV' e ξ hξ]
  rw [h1, h2]
  refine glue_integral r3 s3 (class_convex C hX) (class_convex C' hX') r2 s2 (r1.trans s1.symm) (fun e => ?_) (fun e => ?_) fun e e' x hx => ?_
  · exact (hφ _ fun a b => gradientAt_continuous C V e a b).mono (r1 ▸ Set.subset_iUnion (classRegion C idx X) e)
  · exact (hφ _ fun a b => gradientAt_continuous C' V' e a b).mono (s1 ▸ Set.subset_iUnion (classRegion C' idx' X') e)
  · rw [same_gradient hdet hX hdet' hX' hV e e' x hx]

end

end Caribou

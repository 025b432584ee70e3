import Verif.Lemmas.MaterialContinuity
import Verif.Props.GridMesh
import Verif.Props.Hyperelastic
import Mathlib.Topology.Instances.Matrix

/-!
# C123: the hyperelastic force field is consistent with the continuous body
-/

set_option autoImplicit false
set_option linter.all false

namespace Caribou

open Spec MeasureTheory Manufactured

/-- The quadrature of a function over a solid. -/
noncomputable def solidQuadrature (T : SolidType) (X : Fin T.numNodes → Fin 3 → ℝ) (f : (Fin 3 → ℝ) → ℝ) : ℝ :=
  (T.gauss.map fun g => g.weight * |(T.elem.jacobian X g.position : Mat3).det| * f (T.elem.worldCoordinates X g.position)).sum

theorem meshOf_quadrature {N M : ℕ} {T : ElementType} (idx : Fin M → Fin T.numNodes → Fin N) (X : Fin N → Fin T.dim → ℝ) (Ω : Set (Fin T.dim → ℝ)) (h : ℝ)
    (m : MeshOf T idx X Ω h) (f : (Fin T.dim → ℝ) → ℝ) (hf : ContinuousOn f Ω) (δ : ℝ) (hδ : ∀ x ∈ Ω, ∀ y ∈ Ω, ‖x - y‖ ≤ h → |f x - f y| ≤ δ) :
    |∑ e, quadratureOf T (fun i => X (idx e i)) f - ∫ x in Ω, f x| ≤ δ * (volume Ω).toReal := by
  rw [← integrateOver_quadrature idx X X]
  exact C122_first idx X X Ω h m f hf δ hδ

theorem meshOf_quadrature_one {N M : ℕ} {T : ElementType} (idx : Fin M → Fin T.numNodes → Fin N) (X : Fin N → Fin T.dim → ℝ) (Ω : Set (Fin T.dim → ℝ)) (h : ℝ)
    (m : MeshOf T idx X Ω h) : ∑ e, quadratureOf T (fun i => X (idx e i)) (fun _ => 1) = (volume Ω).toReal := by
  rw [← integrateOver_quadrature idx X X]
  exact C122_volume idx X X Ω h m

theorem meshOf_points {N M : ℕ} {T : ElementType} (idx : Fin M → Fin T.numNodes → Fin N) (X : Fin N → Fin T.dim → ℝ) (Ω : Set (Fin T.dim → ℝ)) (h : ℝ)
    (m : MeshOf T idx X Ω h) (e : Fin M) : (∀ i, X (idx e i) ∈ Ω) ∧ ∀ g ∈ T.gauss, T.elem.worldCoordinates (fun i => X (idx e i)) g.position ∈ Ω ∧
      ∀ i, ‖X (idx e i) - T.elem.worldCoordinates (fun i => X (idx e i)) g.position‖ ≤ h :=
  ⟨fun i => m.sub e (node_mem_region T (fun i => X (idx e i)) i), fun g hg => ⟨m.sub e (gauss_mem_region T _ hg), fun i =>
    m.size e _ (node_mem_region T (fun i => X (idx e i)) i) _ (gauss_mem_region T _ hg)⟩⟩

section Solid

variable {T : SolidType} {N M : ℕ} {idx : Fin M → Fin T.numNodes → Fin N} {X : Fin N → Fin 3 → ℝ} {Ω : Set (Fin 3 → ℝ)} {h : ℝ}

theorem solidMesh_quadrature (m : SolidMeshOf T idx X Ω h) (f : (Fin 3 → ℝ) → ℝ) (hf : ContinuousOn f Ω) (δ : ℝ)
    (hδ : ∀ x ∈ Ω, ∀ y ∈ Ω, ‖x - y‖ ≤ h → |f x - f y| ≤ δ) :
    |∑ e, solidQuadrature T (fun i => X (idx e i)) f - ∫ x in Ω, f x| ≤ δ * (volume Ω).toReal := by
  cases T
  · exact meshOf_quadrature (T := .tetra1) idx X Ω h m f hf δ hδ
  · exact meshOf_quadrature (T := .tetra2) idx X Ω h m f hf δ hδ
  · exact meshOf_quadrature (T := .hexa1) idx X Ω h m f hf δ hδ
  · exact meshOf_quadrature (T := .hexa2) idx X Ω h m f hf δ hδ

theorem solidMesh_one (m : SolidMeshOf T idx X Ω h) : ∑ e, solidQuadrature T (fun i => X (idx e i)) (fun _ => 1) = (volume Ω).toReal := by
  cases T
  · exact meshOf_quadrature_one (T := .tetra1) idx X Ω h m
  · exact meshOf_quadrature_one (T := .tetra2) idx X Ω h m
  · exact meshOf_quadrature_one (T := .hexa1) idx X Ω h m
  · exact meshOf_quadrature_one (T := .hexa2) idx X Ω h m

theorem solidMesh_points (m : SolidMeshOf T idx X Ω h) (e : Fin M) :
    (∀ i, X (idx e i) ∈ Ω) ∧ ∀ g ∈ T.gauss, T.elem.worldCoordinates (fun i => X (idx e i)) g.position ∈ Ω ∧
      ∀ i, ‖X (idx e i) - T.elem.worldCoordinates (fun i => X (idx e i)) g.position‖ ≤ h := by
  cases T
  · exact meshOf_points (T := .tetra1) idx X Ω h m e
  · exact meshOf_points (T := .tetra2) idx X Ω h m e
  · exact meshOf_points (T := .hexa1) idx X Ω h m e
  · exact meshOf_points (T := .hexa2) idx X Ω h m e

end Solid

theorem solid_weight (T : SolidType) : ∀ g ∈ T.gauss, 0 ≤ g.weight := by
  cases T
  · exact fun g hg => (C12_inside_positive .tetra1 g hg).2.le
  · exact fun g hg => (C12_inside_positive .tetra2 g hg).2.le
  · exact fun g hg => (C12_inside_positive .hexa1 g hg).2.le
  · exact fun g hg => (C12_inside_positive .hexa2 g hg).2.le

/-- Sums over the integration points of a function of quantities which are close to those of the continuous body. -/
theorem quadrature_consistent (T : SolidType) (Ω : Set (Fin 3 → ℝ)) (hΩ : IsCompact Ω) {E : Type*} [NormedAddCommGroup E] (G : (Fin 3 → ℝ) → E)
    (hG : ContinuousOn G Ω) (W : E → ℝ) (hW : ∀ x ∈ Ω, ContinuousAt W (G x)) (C ε : ℝ) (hε : 0 < ε) :
    ∃ h₀ > 0, ∀ h, 0 ≤ h → h ≤ h₀ → ∀ {N M : ℕ} (idx : Fin M → Fin T.numNodes → Fin N) (X : Fin N → Fin 3 → ℝ), SolidMeshOf T idx X Ω h →
      ∀ q : Fin M → GaussNode 3 → E, (∀ e, ∀ g ∈ T.gauss, ‖q e g - G (T.elem.worldCoordinates (fun i => X (idx e i)) g.position)‖ ≤ C * h) →
      |∑ e, (T.gauss.map fun g => g.weight * |(T.elem.jacobian (fun i => X (idx e i)) g.position : Mat3).det| * W (q e g)).sum - ∫ x in Ω, W (G x)| ≤ ε := by
  set V := (volume Ω).toReal with hV
  have hV0 : 0 ≤ V := ENNReal.toReal_nonneg
  have hWG : ContinuousOn (fun x => W (G x)) Ω := fun x hx => (hW x hx).comp_continuousWithinAt (hG x hx)
  set η := ε / (2 * (V + 1)) with hη
  have hη0 : 0 < η := by positivity
  obtain ⟨h₁, h₁0, hh₁⟩ := uniform_close hΩ hWG η hη0
  have hu := (hΩ.image_of_continuousOn hG).uniformContinuousAt_of_continuousAt W (by rintro _ ⟨x, hx, rfl⟩; exact hW x hx) (Metric.dist_mem_uniformity hη0)
  obtain ⟨δ, hδ0, hδ⟩ := Metric.mem_uniformity_dist.mp hu
  refine ⟨min h₁ (δ / (2 * (|C| + 1))), lt_min h₁0 (by positivity), fun h h0 hh N M idx X m q hq => ?_⟩
  have hha := hh.trans (min_le_left _ _)
  have hhb := hh.trans (min_le_right _ _)
  have hCh : C * h < δ := by
    have h1 : C * h ≤ (|C| + 1) * (δ / (2 * (|C| + 1))) := by
      refine mul_le_mul ((le_abs_self C).trans (by linarith)) hhb h0 (by positivity)
    have h2 : (|C| + 1) * (δ / (2 * (|C| + 1))) = δ / 2 := by field_simp
    linarith
  have hA := solidMesh_quadrature m (fun x => W (G x)) hWG η fun x hx y hy hxy => hh₁ x hx y hy (hxy.trans hha)
  have hB : |∑ e, (T.gauss.map fun g => g.weight * |(T.elem.jacobian (fun i => X (idx e i)) g.position : Mat3).det| * W (q e g)).sum -
      ∑ e, solidQuadrature T (fun i => X (idx e i)) fun x => W (G x)| ≤ η * V := by
    rw [hV, ← solidMesh_one m, ← Finset.sum_sub_distrib, Finset.mul_sum]
    refine (Finset.abs_sum_le_sum_abs _ _).trans (Finset.sum_le_sum fun e _ => ?_)
    have hsub : (T.gauss.map fun g => g.weight * |(T.elem.jacobian (fun i => X (idx e i)) g.position : Mat3).det| * W (q e g)).sum -
        solidQuadrature T (fun i => X (idx e i)) (fun x => W (G x)) =
        (T.gauss.map fun g => g.weight * |(T.elem.jacobian (fun i => X (idx e i)) g.position : Mat3).det| *
          (W (q e g) - W (G (T.elem.worldCoordinates (fun i => X (idx e i)) g.position)))).sum := by
      rw [solidQuadrature, sub_eq_iff_eq_add, ← List.sum_map_add]
      exact congrArg List.sum (List.map_congr_left fun g _ => by ring)
    rw [hsub]
    refine (list_abs_sum_le _ _ (fun g => η * (g.weight * |(T.elem.jacobian (fun i => X (idx e i)) g.position : Mat3).det| * 1)) fun g hg => ?_).trans (le_of_eq ?_)
    · have hw : 0 ≤ g.weight * |(T.elem.jacobian (fun i => X (idx e i)) g.position : Mat3).det| := mul_nonneg (solid_weight T g hg) (abs_nonneg _)
      rw [abs_mul, abs_of_nonneg hw, mul_one, mul_comm η]
      refine mul_le_mul_of_nonneg_left ?_ hw
      have hx := ((solidMesh_points m e).2 g hg).1
      have hd : dist (G (T.elem.worldCoordinates (fun i => X (idx e i)) g.position)) (q e g) < δ := by
        rw [dist_comm, dist_eq_norm]
        exact (hq e g hg).trans_lt hCh
      have := hδ hd ⟨_, hx, rfl⟩
      rw [Set.mem_setOf_eq, dist_comm, Real.dist_eq] at this
      exact this.le
    · rw [List.sum_map_mul_left, solidQuadrature]
  have hsum : η * V + η * V ≤ ε := by
    rw [hη, ← two_mul, div_mul_eq_mul_div, mul_div_assoc', div_le_iff₀ (by positivity)]
    nlinarith
  calc _ ≤ _ := abs_sub_le _ (∑ e, solidQuadrature T (fun i => X (idx e i)) fun x => W (G x)) _
    _ ≤ η * V + η * V := add_le_add hB hA
    _ ≤ ε := hsum

/-- A bound of the sums of the derivatives of the shape functions at the integration points. -/
noncomputable def derivBound (T : SolidType) : ℝ := (T.gauss.map fun g => ∑ i, ∑ k, |T.elem.dL g.position i k|).sum

theorem derivBound_le (T : SolidType) (g : GaussNode 3) (hg : g ∈ T.gauss) (k : Fin 3) : ∑ i, |T.elem.dL g.position i k| ≤ derivBound T := by
  have h1 : ∑ i, |T.elem.dL g.position i k| ≤ ∑ i, ∑ k, |T.elem.dL g.position i k| :=
    Finset.sum_le_sum fun i _ => Finset.single_le_sum (f := fun k => |T.elem.dL g.position i k|) (fun _ _ => abs_nonneg _) (Finset.mem_univ k)
  refine h1.trans (List.single_le_sum (l := T.gauss.map fun g => ∑ i, ∑ k, |T.elem.dL g.position i k|) (fun x hx => ?_) _ (List.mem_map.2 ⟨g, hg, rfl⟩))
  obtain ⟨g, _, rfl⟩ := List.mem_map.1 hx
  exact Finset.sum_nonneg fun i _ => Finset.sum_nonneg fun k _ => abs_nonneg _

theorem derivBound_nonneg (T : SolidType) : 0 ≤ derivBound T := by
  refine List.sum_nonneg fun x hx => ?_
  obtain ⟨g, _, rfl⟩ := List.mem_map.1 hx
  exact Finset.sum_nonneg fun i _ => Finset.sum_nonneg fun k _ => abs_nonneg _

section Gradient

variable {T : SolidType} {N M : ℕ} {idx : Fin M → Fin T.numNodes → Fin N} {X : Fin N → Fin 3 → ℝ} {Ω : Set (Fin 3 → ℝ)} {h : ℝ}

theorem shapeGradient_sum {σ : ℝ} (h0 : 0 ≤ h) (r : ShapeRegular T idx X σ h) (e : Fin M) (g : GaussNode 3) (hg : g ∈ T.gauss) (b : Fin 3) :
    (∑ i, |(gaussNodeOf T.elem (fun i => X (idx e i)) g).dN i b|) * h ≤ 3 * derivBound T * σ := by
  have h1 : (∑ i, |(gaussNodeOf T.elem (fun i => X (idx e i)) g).dN i b|) ≤
      ∑ k, derivBound T * |(T.elem.jacobian (fun i => X (idx e i)) g.position : Mat3)⁻¹ k b| := by
    simp only [gaussNodeOf_dN]
    refine (Finset.sum_le_sum fun i _ => Finset.abs_sum_le_sum_abs _ _).trans ?_
    rw [Finset.sum_comm]
    refine Finset.sum_le_sum fun k _ => ?_
    simp only [abs_mul]
    rw [← Finset.sum_mul]
    exact mul_le_mul_of_nonneg_right (derivBound_le T g hg k) (abs_nonneg _)
  refine (mul_le_mul_of_nonneg_right h1 h0).trans ?_
  rw [Finset.sum_mul]
  refine (Finset.sum_le_sum fun k _ => ?_).trans (le_of_eq (b := 3 * derivBound T * σ) (a := ∑ _k : Fin 3, derivBound T * σ) ?_)
  · rw [mul_assoc]
    exact mul_le_mul_of_nonneg_left ((r e g hg).2 k b) (derivBound_nonneg T)
  · rw [Finset.sum_const, Finset.card_univ, Fintype.card_fin]
    simp only [nsmul_eq_mul]
    push_cast
    ring

/-- The gradient computed from the nodal values of a smooth field. -/
theorem gradient_close {σ : ℝ} (h0 : 0 ≤ h) (m : SolidMeshOf T idx X Ω h) (r : ShapeRegular T idx X σ h) (S : Set (Fin 3 → ℝ)) (hS : Ω ⊆ S)
    (φ : (Fin 3 → ℝ) → Fin 3 → ℝ) (φ' : (Fin 3 → ℝ) → (Fin 3 → ℝ) →L[ℝ] (Fin 3 → ℝ)) (B : ℝ) (hB : 0 ≤ B) (hφ : SmoothOn S φ φ' B) (e : Fin M)
    (g : GaussNode 3) (hg : g ∈ T.gauss) (a b : Fin 3) :
    |deformationGradient (gaussNodeOf T.elem (fun i => X (idx e i)) g).dN (fun i => φ (X (idx e i))) a b -
      gradientMatrix (φ' (T.elem.worldCoordinates (fun i => X (idx e i)) g.position)) a b| ≤ 3 * derivBound T * σ * (B / 2) * h := by
  obtain ⟨p1, p2⟩ := solidMesh_points m e
  refine (C121_gradient T (fun i => X (idx e i)) g (r e g hg).1 S φ φ' B h hB hφ (fun i => hS (p1 i)) (hS (p2 g hg).1) (p2 g hg).2 a b).trans ?_
  have := mul_le_mul_of_nonneg_right (shapeGradient_sum h0 r e g hg b) (show 0 ≤ B / 2 * h by positivity)
  calc _ = (∑ i, |(gaussNodeOf T.elem (fun i => X (idx e i)) g).dN i b|) * h * (B / 2 * h) := by ring
    _ ≤ _ := this
    _ = _ := by ring

end Gradient

theorem gradientMatrix_continuous {S Ω : Set (Fin 3 → ℝ)} (hS : Ω ⊆ S) {φ : (Fin 3 → ℝ) → Fin 3 → ℝ} {φ' : (Fin 3 → ℝ) → (Fin 3 → ℝ) →L[ℝ] (Fin 3 → ℝ)} {B : ℝ}
    (hB : 0 ≤ B) (hφ : SmoothOn S φ φ' B) : ContinuousOn (fun x => (gradientMatrix (φ' x) : Fin 3 → Fin 3 → ℝ)) Ω := by
  have hc : ContinuousOn φ' Ω := by
    have : LipschitzOnWith ⟨B, hB⟩ φ' Ω := LipschitzOnWith.of_dist_le_mul fun x hx y hy => by
      rw [dist_eq_norm, dist_eq_norm]
      exact hφ.lipschitz x (hS hx) y (hS hy)
    exact this.continuousOn
  refine continuousOn_pi.mpr fun a => continuousOn_pi.mpr fun b => ?_
  have h2 : Continuous fun A : (Fin 3 → ℝ) →L[ℝ] (Fin 3 → ℝ) => A (Pi.single b 1) a :=
    (continuous_apply a).comp (ContinuousLinearMap.apply ℝ (Fin 3 → ℝ) (Pi.single b 1)).continuous
  exact h2.comp_continuousOn hc

theorem mat_norm_le {A : Fin 3 → Fin 3 → ℝ} {c : ℝ} (hc : 0 ≤ c) (h : ∀ a b, |A a b| ≤ c) : ‖A‖ ≤ c := by
  refine (pi_norm_le_iff_of_nonneg hc).mpr fun a => (pi_norm_le_iff_of_nonneg hc).mpr fun b => ?_
  rw [Real.norm_eq_abs]
  exact h a b

/-- **C123 (energy).** The potential energy of the image of the nodes by a motion tends to the energy of the motion. -/
theorem C123_energy (T : SolidType) (mat : Material) (hmat : ContinuousMaterial mat) (Ω S : Set (Fin 3 → ℝ)) (hΩ : IsCompact Ω) (hS : Ω ⊆ S)
    (φ : (Fin 3 → ℝ) → Fin 3 → ℝ) (φ' : (Fin 3 → ℝ) → (Fin 3 → ℝ) →L[ℝ] (Fin 3 → ℝ)) (B : ℝ) (hB : 0 ≤ B) (hφ : SmoothOn S φ φ' B)
    (hdet : ∀ x ∈ Ω, 0 < (gradientMatrix (φ' x)).det) (σ ε : ℝ) (hε : 0 < ε) :
    ∃ h₀ > 0, ∀ h, 0 ≤ h → h ≤ h₀ → ∀ {N M : ℕ} (idx : Fin M → Fin T.numNodes → Fin N) (X : Fin N → Fin 3 → ℝ), SolidMeshOf T idx X Ω h →
      ShapeRegular T idx X σ h →
      |(HyperMesh.initialize T.elem T.gauss idx X).potentialEnergy mat X (fun p => φ (X p)) -
        ∫ x in Ω, mat.energy (gradientMatrix (φ' x)).det ((gradientMatrix (φ' x)).transpose * gradientMatrix (φ' x))| ≤ ε := by
  obtain ⟨h₀, hpos, hh⟩ := quadrature_consistent T Ω hΩ (E := Fin 3 → Fin 3 → ℝ) (fun x => gradientMatrix (φ' x)) (gradientMatrix_continuous hS hB hφ)
    (fun F => (fun G : Mat3 => mat.energy G.det (G.transpose * G)) F) (fun x hx => (hmat _ (hdet x hx)).1) (3 * derivBound T * |σ| * (B / 2)) ε hε
  refine ⟨h₀, hpos, fun h h0 hle N M idx X m r => ?_⟩
  have hq := hh h h0 hle idx X m (fun e g => deformationGradient (gaussNodeOf T.elem (fun i => X (idx e i)) g).dN (fun i => φ (X (idx e i)))) fun e g hg => by
    have hD := derivBound_nonneg T
    refine mat_norm_le (by positivity) fun a b => ?_
    refine (gradient_close h0 m r S hS φ φ' B hB hφ e g hg a b).trans ?_
    have : 3 * derivBound T * σ ≤ 3 * derivBound T * |σ| := mul_le_mul_of_nonneg_left (le_abs_self σ) (by positivity)
    have h3 := mul_le_mul_of_nonneg_right (mul_le_mul_of_nonneg_right this (show 0 ≤ B / 2 by positivity)) h0
    linarith
  refine le_of_eq_of_le ?_ hq
  congr 2
  refine Finset.sum_congr rfl fun e _ => ?_
  refine (congrArg List.sum (List.map_map ..)).trans (congrArg List.sum (List.map_congr_left fun g hg => ?_))
  have hF := C45_displacement_eq_position T (fun i => X (idx e i)) (fun i => φ (X (idx e i))) (fun g hg => (r e g hg).1)
    (gaussNodeOf T.elem (fun i => X (idx e i)) g) (List.mem_map.2 ⟨g, hg, rfl⟩)
  simp only [Function.comp_apply]
  refine Eq.trans (b := (gaussNodeOf T.elem (fun i => X (idx e i)) g).detJ * g.weight * (fun F : Mat3 => mat.energy F.det (F.transpose * F))
    (strainF (gaussNodeOf T.elem (fun i => X (idx e i)) g).dN fun i => φ (X (idx e i)) - X (idx e i))) rfl ?_
  rw [hF, mul_comm _ g.weight]
  rfl

/-- The work of the forces on nodal values, as a sum over the integration points. -/
theorem addForce_work (T : SolidType) {N M : ℕ} (idx : Fin M → Fin T.numNodes → Fin N) (X x v : Fin N → Fin 3 → ℝ) (mat : Material) :
    ∑ p, ∑ a, (HyperMesh.initialize T.elem T.gauss idx X).addForce mat x 0 p a * v p a =
      -∑ e, (T.gauss.map fun g => g.weight * |(T.elem.jacobian (fun i => X (idx e i)) g.position : Mat3).det| *
        (fun F H : Mat3 => ddot (F * mat.stress F.det (F.transpose * F)) H) (deformationGradient (gaussNodeOf T.elem (fun i => X (idx e i)) g).dN fun i => x (idx e i))
          (deformationGradient (gaussNodeOf T.elem (fun i => X (idx e i)) g).dN fun i => v (idx e i))).sum := by
  obtain ⟨m, hm⟩ : ∃ m, m = HyperMesh.initialize T.elem T.gauss idx X := ⟨_, rfl⟩
  rw [← hm]
  have hidx : m.idx = idx := by rw [hm]; rfl
  have hqn : ∀ e, m.qnodes e = T.gauss.map (gaussNodeOf T.elem fun i => X (idx e i)) := by intro e; rw [hm]; rfl
  have hit : ∀ (p : Fin N) (a : Fin 3) (e : Fin M) (i : Fin T.numNodes),
      (if m.idx e i = p then nodalForces mat (m.qnodes e) (m.gather x e) i else 0) a =
      if m.idx e i = p then nodalForces mat (m.qnodes e) (m.gather x e) i a else 0 := by
    intro p a e i; split_ifs <;> rfl
  have hpow : - ∑ p, ∑ a, m.addForce mat x 0 p a * v p a =
      ∑ e, ∑ i, ∑ a, nodalForces mat (m.qnodes e) (m.gather x e) i a * v (m.idx e i) a := by
    simp only [HyperMesh.addForce, Pi.sub_apply, Finset.sum_apply, hit, Pi.zero_apply, zero_sub, neg_mul,
      Finset.sum_neg_distrib, neg_neg, Finset.sum_mul]
    rw [Finset.sum_congr rfl fun p _ => Finset.sum_comm, Finset.sum_comm]
    refine Finset.sum_congr rfl fun e _ => ?_
    rw [Finset.sum_congr rfl fun p _ => Finset.sum_comm, Finset.sum_comm]
    refine Finset.sum_congr rfl fun i _ => ?_
    rw [Finset.sum_comm]
    refine Finset.sum_congr rfl fun a _ => ?_
    simp
  rw [← neg_eq_iff_eq_neg, hpow]
  refine Finset.sum_congr rfl fun e _ => ?_
  simp only [nodalForces_apply, list_sum_mul_right, list_sum_finset]
  rw [hqn, List.map_map]
  refine list_sum_congr _ _ _ fun g _ => ?_
  simp only [Function.comp_apply, gaussForce, Matrix.smul_mul, hidx]
  rw [← power_core]
  have hgx : m.gather x e = fun i => x (idx e i) := by
    funext i
    rw [HyperMesh.gather, hidx]
  rw [hgx, mul_comm _ (gaussNodeOf T.elem (fun i => X (idx e i)) g).weight]
  rfl

theorem ddot_continuousAt {F H : Mat3} {P : Mat3 → Mat3} (hP : ContinuousAt P F) :
    ContinuousAt (fun z : Mat3 × Mat3 => ddot (z.1 * P z.1) z.2) (F, H) := by
  have hP' : ContinuousAt (fun z : Mat3 × Mat3 => P z.1) (F, H) := ContinuousAt.comp (f := fun z : Mat3 × Mat3 => z.1) hP continuousAt_fst
  have hPe : ∀ i j, ContinuousAt (fun z : Mat3 × Mat3 => P z.1 i j) (F, H) := fun i j =>
    (Continuous.matrix_elem continuous_id i j).continuousAt.comp hP'
  simp only [ddot, Matrix.mul_apply]
  refine tendsto_finset_sum _ fun i _ => tendsto_finset_sum _ fun j _ => ContinuousAt.mul ?_ ?_
  · refine tendsto_finset_sum _ fun k _ => ContinuousAt.mul ?_ (hPe k j)
    exact (Continuous.matrix_elem continuous_fst i k).continuousAt
  · exact (Continuous.matrix_elem continuous_snd i j).continuousAt

/-- **C123 (forces).** The work of the forces on the nodal values of a smooth field tends to minus the integral of the first Piola-Kirchhoff stress of the
motion contracted with the gradient of the field. -/
theorem C123_forces (T : SolidType) (mat : Material) (hmat : ContinuousMaterial mat) (Ω S : Set (Fin 3 → ℝ)) (hΩ : IsCompact Ω) (hS : Ω ⊆ S)
    (φ v : (Fin 3 → ℝ) → Fin 3 → ℝ) (φ' v' : (Fin 3 → ℝ) → (Fin 3 → ℝ) →L[ℝ] (Fin 3 → ℝ)) (B : ℝ) (hB : 0 ≤ B) (hφ : SmoothOn S φ φ' B) (hv : SmoothOn S v v' B)
    (hdet : ∀ x ∈ Ω, 0 < (gradientMatrix (φ' x)).det) (σ ε : ℝ) (hε : 0 < ε) :
    ∃ h₀ > 0, ∀ h, 0 ≤ h → h ≤ h₀ → ∀ {N M : ℕ} (idx : Fin M → Fin T.numNodes → Fin N) (X : Fin N → Fin 3 → ℝ), SolidMeshOf T idx X Ω h →
      ShapeRegular T idx X σ h →
      |∑ p, ∑ a, (HyperMesh.initialize T.elem T.gauss idx X).addForce mat (fun p => φ (X p)) 0 p a * v (X p) a +
        ∫ x in Ω, ddot (gradientMatrix (φ' x) * mat.stress (gradientMatrix (φ' x)).det ((gradientMatrix (φ' x)).transpose * gradientMatrix (φ' x)))
          (gradientMatrix (v' x))| ≤ ε := by
  obtain ⟨h₀, hpos, hh⟩ := quadrature_consistent T Ω hΩ (E := (Fin 3 → Fin 3 → ℝ) × (Fin 3 → Fin 3 → ℝ)) (fun x => (gradientMatrix (φ' x), gradientMatrix (v' x)))
    ((gradientMatrix_continuous hS hB hφ).prodMk (gradientMatrix_continuous hS hB hv))
    (fun z => (fun F H : Mat3 => ddot (F * mat.stress F.det (F.transpose * F)) H) z.1 z.2) (fun x hx => ddot_continuousAt (F := gradientMatrix (φ' x)) (H := gradientMatrix (v' x)) (P := fun F => mat.stress F.det (F.transpose * F)) (hmat (gradientMatrix (φ' x)) (hdet x hx)).2.1)
    (3 * derivBound T * |σ| * (B / 2)) ε hε
  refine ⟨h₀, hpos, fun h h0 hle N M idx X m r => ?_⟩
  have hD := derivBound_nonneg T
  have hb : 3 * derivBound T * σ * (B / 2) * h ≤ 3 * derivBound T * |σ| * (B / 2) * h := by
    have : 3 * derivBound T * σ ≤ 3 * derivBound T * |σ| := mul_le_mul_of_nonneg_left (le_abs_self σ) (by positivity)
    exact mul_le_mul_of_nonneg_right (mul_le_mul_of_nonneg_right this (show 0 ≤ B / 2 by positivity)) h0
  have hq := hh h h0 hle idx X m (fun e g => (deformationGradient (gaussNodeOf T.elem (fun i => X (idx e i)) g).dN (fun i => φ (X (idx e i))),
      deformationGradient (gaussNodeOf T.elem (fun i => X (idx e i)) g).dN (fun i => v (X (idx e i))))) fun e g hg => by
    refine norm_prod_le_iff.mpr ⟨mat_norm_le (by positivity) fun a b => ?_, mat_norm_le (by positivity) fun a b => ?_⟩
    · exact (gradient_close h0 m r S hS φ φ' B hB hφ e g hg a b).trans hb
    · exact (gradient_close h0 m r S hS v v' B hB hv e g hg a b).trans hb
  rw [addForce_work T idx X (fun p => φ (X p)) (fun p => v (X p)) mat, neg_add_eq_sub, abs_sub_comm]
  exact hq

/-- **C123 (materials).** Both materials are continuous wherever the deformation is not inverted. -/
theorem C123_materials (mu l : ℝ) : ContinuousMaterial (saintVenantKirchhoff mu l) ∧ ContinuousMaterial (neoHookean mu l) :=
  materials_continuous mu l

/-! ### Stiffness -/

theorem gaussBlock_form {n : ℕ} (mat : Material) (hS : SymmetricStress mat) (g : QNode n) (x u v : Fin n → Fin 3 → ℝ) :
    ∑ i, ∑ a, v i a * ∑ j, (gaussBlock mat g x i j).mulVec (u j) a =
      g.detJ * g.weight * secondVariation mat (deformationGradient g.dN x) (deformationGradient g.dN u) (deformationGradient g.dN v) := by
  set F := deformationGradient g.dN x with hF
  have hSs := hS F.det _ (gram_symm F)
  simp only [gaussBlock_apply, ← hF]
  rw [secondVariation, strain_increment F g.dN v _ rfl, strain_increment F g.dN u _ rfl]
  set S := mat.stress F.det (F.transpose * F) with hSd
  set D := mat.jacobian F.det (F.transpose * F) with hDd
  have e1 : ∀ i a, ∑ j, ((g.detJ * g.weight) • ((g.dN i ⬝ᵥ S.mulVec (g.dN j)) • u j +
      (strainMatrix F (g.dN i)).transpose.mulVec (D.mulVec ((strainMatrix F (g.dN j)).mulVec (u j))))) a =
      (g.detJ * g.weight) * ((deformationGradient g.dN u * S).mulVec (g.dN i) a +
        (strainMatrix F (g.dN i)).transpose.mulVec (D.mulVec (∑ j, (strainMatrix F (g.dN j)).mulVec (u j))) a) := by
    intro i a
    rw [force_gauss_a _ S g.dN u rfl hSs i a, Matrix.mulVec_sum, Matrix.mulVec_sum, Finset.sum_apply, ← Finset.sum_add_distrib, Finset.mul_sum]
    exact Finset.sum_congr rfl fun j _ => by simp only [Pi.smul_apply, Pi.add_apply, smul_eq_mul]
  simp only [e1]
  set E := D.mulVec (∑ j, (strainMatrix F (g.dN j)).mulVec (u j)) with hE
  have e2 := power_core (g.detJ * g.weight) (deformationGradient g.dN u * S) g.dN v
  rw [mul_add, e2]
  have e3 : (∑ i, (strainMatrix F (g.dN i)).mulVec (v i)) ⬝ᵥ E = ∑ i, ∑ a, v i a * (strainMatrix F (g.dN i)).transpose.mulVec E a := by
    rw [sum_dotProduct]
    refine Finset.sum_congr rfl fun i _ => ?_
    rw [Matrix.mulVec_transpose]
    rw [dotProduct_comm, Matrix.dotProduct_mulVec, dotProduct_comm]
    rfl
  rw [e3, Finset.mul_sum, ← Finset.sum_add_distrib]
  refine Finset.sum_congr rfl fun i _ => ?_
  rw [Finset.mul_sum, ← Finset.sum_add_distrib]
  refine Finset.sum_congr rfl fun a _ => ?_
  rw [Matrix.smul_mulVec, Pi.smul_apply, smul_eq_mul]
  ring

theorem meshOf_injective {N M : ℕ} {T : ElementType} {idx : Fin M → Fin T.numNodes → Fin N} {X : Fin N → Fin T.dim → ℝ} {Ω : Set (Fin T.dim → ℝ)} {h : ℝ}
    (m : MeshOf T idx X Ω h) (e : Fin M) : Function.Injective (idx e) := by
  intro i j hij
  have h1 : T.elem.worldCoordinates (fun i => X (idx e i)) (T.elem.node i) = T.elem.worldCoordinates (fun i => X (idx e i)) (T.elem.node j) := by
    rw [C02_world_coordinates_at_node, C02_world_coordinates_at_node, hij]
  have h2 := (m.unfolded e).1 (node_mem_canonical T i) (node_mem_canonical T j) h1
  by_contra hne
  have h3 := (C02_nodal (K := ℝ) T j).2 i hne
  rw [← h2, (C02_nodal (K := ℝ) T i).1] at h3
  exact one_ne_zero h3

theorem solidMesh_injective {T : SolidType} {N M : ℕ} {idx : Fin M → Fin T.numNodes → Fin N} {X : Fin N → Fin 3 → ℝ} {Ω : Set (Fin 3 → ℝ)} {h : ℝ}
    (m : SolidMeshOf T idx X Ω h) (e : Fin M) : Function.Injective (idx e) := by
  cases T
  · exact meshOf_injective (T := .tetra1) m e
  · exact meshOf_injective (T := .tetra2) m e
  · exact meshOf_injective (T := .hexa1) m e
  · exact meshOf_injective (T := .hexa2) m e

/-- The work of what `addDForce` adds, as a sum over the integration points. -/
theorem addDForce_work (T : SolidType) {N M : ℕ} (idx : Fin M → Fin T.numNodes → Fin N) (hinj : ∀ e, Function.Injective (idx e)) (X x u v : Fin N → Fin 3 → ℝ)
    (mat : Material) (hS : SymmetricStress mat) (hD : ∀ J C, (mat.jacobian J C).transpose = mat.jacobian J C) (k : ℝ) :
    ∑ p, ∑ a, applyStored k ((HyperMesh.initialize T.elem T.gauss idx X).storedK mat x) (fun d => u d.1 d.2) 0 (p, a) * v p a =
      -(k * ∑ e, (T.gauss.map fun g => g.weight * |(T.elem.jacobian (fun i => X (idx e i)) g.position : Mat3).det| *
        secondVariation mat (deformationGradient (gaussNodeOf T.elem (fun i => X (idx e i)) g).dN fun i => x (idx e i))
          (deformationGradient (gaussNodeOf T.elem (fun i => X (idx e i)) g).dN fun i => u (idx e i))
          (deformationGradient (gaussNodeOf T.elem (fun i => X (idx e i)) g).dN fun i => v (idx e i))).sum) := by
  obtain ⟨m, hm⟩ : ∃ m, m = HyperMesh.initialize T.elem T.gauss idx X := ⟨_, rfl⟩
  rw [← hm]
  have hidx : m.idx = idx := by rw [hm]; rfl
  have hqn : ∀ e, m.qnodes e = T.gauss.map (gaussNodeOf T.elem fun i => X (idx e i)) := by intro e; rw [hm]; rfl
  have hgx : ∀ e, m.gather x e = fun i => x (idx e i) := by
    intro e
    funext i
    rw [HyperMesh.gather, hidx]
  have hK : ∀ p a, ∑ d', tangentK m mat x (p, a) d' * u d'.1 d'.2 =
      ∑ e, ∑ i, if idx e i = p then ∑ j, ∑ b, blockSum mat (m.qnodes e) (m.gather x e) i j a b * u (idx e j) b else 0 := by
    intro p a
    simp only [tangentK, Finset.sum_mul, hidx]
    rw [Finset.sum_comm]
    refine Finset.sum_congr rfl fun e _ => ?_
    rw [Finset.sum_comm]
    refine Finset.sum_congr rfl fun i _ => ?_
    rw [Finset.sum_comm]
    by_cases h : idx e i = p
    · simp only [h, if_true, true_and]
      refine Finset.sum_congr rfl fun j _ => ?_
      rw [Fintype.sum_prod_type]
      rw [Finset.sum_eq_single (idx e j)]
      · simp
      · intro c _ hc
        simp [Ne.symm hc]
      · simp
    · simp [h]
  have hall : ∑ p, ∑ a, (∑ e, ∑ i, if idx e i = p then ∑ j, ∑ b, blockSum mat (m.qnodes e) (m.gather x e) i j a b * u (idx e j) b else 0) * v p a =
      ∑ e, ∑ i, ∑ a, (∑ j, ∑ b, blockSum mat (m.qnodes e) (m.gather x e) i j a b * u (idx e j) b) * v (idx e i) a := by
    simp only [Finset.sum_mul]
    rw [Finset.sum_congr rfl fun p _ => Finset.sum_comm, Finset.sum_comm]
    refine Finset.sum_congr rfl fun e _ => ?_
    rw [Finset.sum_congr rfl fun p _ => Finset.sum_comm, Finset.sum_comm]
    refine Finset.sum_congr rfl fun i _ => ?_
    rw [Finset.sum_comm]
    refine Finset.sum_congr rfl fun a _ => ?_
    simp [Finset.sum_mul]
  simp only [applyStored_eq, fullK_storedK m mat x (by rw [hidx]; exact hinj) hS hD, hK, Pi.zero_apply, zero_sub, neg_mul, Finset.sum_neg_distrib, mul_assoc]
  rw [neg_inj]
  simp only [← Finset.mul_sum]
  rw [hall]
  congr 1
  refine Finset.sum_congr rfl fun e _ => ?_
  have hb : ∀ i a, ∑ j, ∑ b, blockSum mat (m.qnodes e) (m.gather x e) i j a b * u (idx e j) b =
      ((m.qnodes e).map fun g => ∑ j, (gaussBlock mat g (m.gather x e) i j).mulVec (u (idx e j)) a).sum := by
    intro i a
    simp only [blockSum, list_sum_mul_right, list_sum_finset]
    rfl
  simp only [hb, list_sum_mul_right, list_sum_finset]
  rw [hqn, List.map_map]
  refine list_sum_congr _ _ _ fun g _ => ?_
  simp only [Function.comp_apply]
  have h := gaussBlock_form mat hS (gaussNodeOf T.elem (fun i => X (idx e i)) g) (fun i => x (idx e i)) (fun i => u (idx e i)) (fun i => v (idx e i))
  rw [hgx]
  refine Eq.trans ?_ (h.trans ?_)
  · exact Finset.sum_congr rfl fun i _ => Finset.sum_congr rfl fun a _ => mul_comm _ _
  · rw [mul_comm (gaussNodeOf T.elem (fun i => X (idx e i)) g).detJ, mul_assoc]
    rfl

theorem secondVariation_continuousAt {mat : Material} {F D H : Mat3} (hS : ContinuousAt (fun G : Mat3 => mat.stress G.det (G.transpose * G)) F)
    (hJ : ContinuousAt (fun G : Mat3 => mat.jacobian G.det (G.transpose * G)) F) :
    ContinuousAt (fun z : Mat3 × Mat3 × Mat3 => secondVariation mat z.1 z.2.1 z.2.2) (F, D, H) := by
  have hS' : ContinuousAt (fun z : Mat3 × Mat3 × Mat3 => mat.stress z.1.det (z.1.transpose * z.1)) (F, D, H) :=
    ContinuousAt.comp (x := (F, D, H)) (f := fun z : Mat3 × Mat3 × Mat3 => z.1) (g := fun G : Mat3 => mat.stress G.det (G.transpose * G)) hS continuousAt_fst
  have hJ' : ContinuousAt (fun z : Mat3 × Mat3 × Mat3 => mat.jacobian z.1.det (z.1.transpose * z.1)) (F, D, H) :=
    ContinuousAt.comp (x := (F, D, H)) (f := fun z : Mat3 × Mat3 × Mat3 => z.1) (g := fun G : Mat3 => mat.jacobian G.det (G.transpose * G)) hJ continuousAt_fst
  have hSe : ∀ i j, ContinuousAt (fun z : Mat3 × Mat3 × Mat3 => mat.stress z.1.det (z.1.transpose * z.1) i j) (F, D, H) := fun i j =>
    (Continuous.matrix_elem continuous_id i j).continuousAt.comp hS'
  have hJe : ∀ i j, ContinuousAt (fun z : Mat3 × Mat3 × Mat3 => mat.jacobian z.1.det (z.1.transpose * z.1) i j) (F, D, H) := fun i j =>
    (Continuous.matrix_elem continuous_id i j).continuousAt.comp hJ'
  have h1 : ∀ i j, Continuous fun z : Mat3 × Mat3 × Mat3 => z.1 i j := fun i j => Continuous.matrix_elem continuous_fst i j
  have h2 : ∀ i j, Continuous fun z : Mat3 × Mat3 × Mat3 => z.2.1 i j := fun i j => Continuous.matrix_elem (continuous_fst.comp continuous_snd) i j
  have h3 : ∀ i j, Continuous fun z : Mat3 × Mat3 × Mat3 => z.2.2 i j := fun i j => Continuous.matrix_elem (continuous_snd.comp continuous_snd) i j
  have hE1 : ∀ I, Continuous fun z : Mat3 × Mat3 × Mat3 => voigtStrain ((1 / 2 : ℝ) • (z.2.1.transpose * z.1 + z.1.transpose * z.2.1)) I := by
    intro I
    fin_cases I <;> simp only [voigtStrain, voigtPair, Matrix.transpose_apply, sum_fin3, Matrix.mul_apply, Matrix.cons_val, Fin.isValue, Fin.reduceFinMk, Fin.zero_eta,
      Fin.mk_one, Matrix.smul_apply, Matrix.add_apply, smul_eq_mul, if_true, if_false, Fin.reduceEq] <;> fun_prop
  have hE2 : ∀ I, Continuous fun z : Mat3 × Mat3 × Mat3 => voigtStrain ((1 / 2 : ℝ) • (z.2.2.transpose * z.1 + z.1.transpose * z.2.2)) I := by
    intro I
    fin_cases I <;> simp only [voigtStrain, voigtPair, Matrix.transpose_apply, sum_fin3, Matrix.mul_apply, Matrix.cons_val, Fin.isValue, Fin.reduceFinMk, Fin.zero_eta,
      Fin.mk_one, Matrix.smul_apply, Matrix.add_apply, smul_eq_mul, if_true, if_false, Fin.reduceEq] <;> fun_prop
  simp only [secondVariation, ddot, dotProduct, Matrix.mulVec]
  refine ContinuousAt.add ?_ ?_
  · refine tendsto_finset_sum _ fun i _ => tendsto_finset_sum _ fun j _ => ContinuousAt.mul ?_ (h3 i j).continuousAt
    simp only [Matrix.mul_apply]
    exact tendsto_finset_sum _ fun k _ => ContinuousAt.mul (h2 i k).continuousAt (hSe k j)
  · refine tendsto_finset_sum _ fun I _ => ContinuousAt.mul (hE2 I).continuousAt ?_
    exact tendsto_finset_sum _ fun K _ => ContinuousAt.mul (hJe I K) (hE1 K).continuousAt

/-- **C123 (stiffness).** The work of what `addDForce` adds for the nodal values of a smooth field on those of another one tends to minus the factor times the
integral of the second variation of the energy density at the motion. -/
theorem C123_stiffness (T : SolidType) (mat : Material) (hmat : ContinuousMaterial mat) (hSym : SymmetricStress mat)
    (hDsym : ∀ J C, (mat.jacobian J C).transpose = mat.jacobian J C) (Ω S : Set (Fin 3 → ℝ)) (hΩ : IsCompact Ω) (hS : Ω ⊆ S)
    (φ u v : (Fin 3 → ℝ) → Fin 3 → ℝ) (φ' u' v' : (Fin 3 → ℝ) → (Fin 3 → ℝ) →L[ℝ] (Fin 3 → ℝ)) (B : ℝ) (hB : 0 ≤ B) (hφ : SmoothOn S φ φ' B)
    (hu : SmoothOn S u u' B) (hv : SmoothOn S v v' B) (hdet : ∀ x ∈ Ω, 0 < (gradientMatrix (φ' x)).det) (k σ ε : ℝ) (hε : 0 < ε) :
    ∃ h₀ > 0, ∀ h, 0 ≤ h → h ≤ h₀ → ∀ {N M : ℕ} (idx : Fin M → Fin T.numNodes → Fin N) (X : Fin N → Fin 3 → ℝ), SolidMeshOf T idx X Ω h →
      ShapeRegular T idx X σ h →
      |∑ p, ∑ a, applyStored k ((HyperMesh.initialize T.elem T.gauss idx X).storedK mat fun p => φ (X p)) (fun d => u (X d.1) d.2) 0 (p, a) * v (X p) a +
        k * ∫ x in Ω, secondVariation mat (gradientMatrix (φ' x)) (gradientMatrix (u' x)) (gradientMatrix (v' x))| ≤ ε := by
  obtain ⟨h₀, hpos, hh⟩ := quadrature_consistent T Ω hΩ (E := (Fin 3 → Fin 3 → ℝ) × (Fin 3 → Fin 3 → ℝ) × (Fin 3 → Fin 3 → ℝ))
    (fun x => (gradientMatrix (φ' x), gradientMatrix (u' x), gradientMatrix (v' x)))
    ((gradientMatrix_continuous hS hB hφ).prodMk ((gradientMatrix_continuous hS hB hu).prodMk (gradientMatrix_continuous hS hB hv)))
    (fun z => secondVariation mat z.1 z.2.1 z.2.2) (fun x hx => secondVariation_continuousAt (F := gradientMatrix (φ' x)) (D := gradientMatrix (u' x))
      (H := gradientMatrix (v' x)) (hmat (gradientMatrix (φ' x)) (hdet x hx)).2.1 (hmat (gradientMatrix (φ' x)) (hdet x hx)).2.2)
    (3 * derivBound T * |σ| * (B / 2)) (ε / (|k| + 1)) (by positivity)
  refine ⟨h₀, hpos, fun h h0 hle N M idx X m r => ?_⟩
  have hD := derivBound_nonneg T
  have hb : 3 * derivBound T * σ * (B / 2) * h ≤ 3 * derivBound T * |σ| * (B / 2) * h := by
    have : 3 * derivBound T * σ ≤ 3 * derivBound T * |σ| := mul_le_mul_of_nonneg_left (le_abs_self σ) (by positivity)
    exact mul_le_mul_of_nonneg_right (mul_le_mul_of_nonneg_right this (show 0 ≤ B / 2 by positivity)) h0
  have hq := hh h h0 hle idx X m (fun e g => (deformationGradient (gaussNodeOf T.elem (fun i => X (idx e i)) g).dN (fun i => φ (X (idx e i))),
      deformationGradient (gaussNodeOf T.elem (fun i => X (idx e i)) g).dN (fun i => u (X (idx e i))),
      deformationGradient (gaussNodeOf T.elem (fun i => X (idx e i)) g).dN (fun i => v (X (idx e i))))) fun e g hg => by
    refine norm_prod_le_iff.mpr ⟨mat_norm_le (by positivity) fun a b => ?_, norm_prod_le_iff.mpr
      ⟨mat_norm_le (by positivity) fun a b => ?_, mat_norm_le (by positivity) fun a b => ?_⟩⟩
    · exact (gradient_close h0 m r S hS φ φ' B hB hφ e g hg a b).trans hb
    · exact (gradient_close h0 m r S hS u u' B hB hu e g hg a b).trans hb
    · exact (gradient_close h0 m r S hS v v' B hB hv e g hg a b).trans hb
  rw [addDForce_work T idx (solidMesh_injective m) X (fun p => φ (X p)) (fun p => u (X p)) (fun p => v (X p)) mat hSym hDsym k, neg_add_eq_sub, abs_sub_comm,
    ← mul_sub, abs_mul]
  refine (mul_le_mul_of_nonneg_left hq (abs_nonneg k)).trans ?_
  rw [mul_div_assoc', div_le_iff₀ (by positivity)]
  nlinarith [abs_nonneg k]

/-! ### Equilibrium -/

theorem solidMesh_loads (T : SolidType) (Ω : Set (Fin 3 → ℝ)) (hΩ : IsCompact Ω) (f v : (Fin 3 → ℝ) → Fin 3 → ℝ) (hf : ContinuousOn f Ω)
    (hv : ContinuousOn v Ω) (ε : ℝ) (hε : 0 < ε) :
    ∃ h > 0, ∀ {N M : ℕ} (idx : Fin M → Fin T.numNodes → Fin N) (X : Fin N → Fin 3 → ℝ), SolidMeshOf T idx X Ω h →
      |∑ p, ∑ a, assembleLoads T.elem T.gauss idx X (fun _ x => f x) p a * v (X p) a - ∫ x in Ω, ∑ a, f x a * v x a| ≤ ε := by
  cases T
  · exact C122_loads .tetra1 Ω hΩ f v hf hv ε hε
  · exact C122_loads .tetra2 Ω hΩ f v hf hv ε hε
  · exact C122_loads .hexa1 Ω hΩ f v hf hv ε hε
  · exact C122_loads .hexa2 Ω hΩ f v hf hv ε hε

theorem meshOf_mono {N M : ℕ} {T : ElementType} {idx : Fin M → Fin T.numNodes → Fin N} {X : Fin N → Fin T.dim → ℝ} {Ω : Set (Fin T.dim → ℝ)} {h h' : ℝ}
    (m : MeshOf T idx X Ω h) (hh : h ≤ h') : MeshOf T idx X Ω h' :=
  ⟨m.unfolded, m.measured, m.fills, m.apart, fun e x hx y hy => (m.size e x hx y hy).trans hh⟩

theorem solidMesh_mono {T : SolidType} {N M : ℕ} {idx : Fin M → Fin T.numNodes → Fin N} {X : Fin N → Fin 3 → ℝ} {Ω : Set (Fin 3 → ℝ)} {h h' : ℝ}
    (m : SolidMeshOf T idx X Ω h) (hh : h ≤ h') : SolidMeshOf T idx X Ω h' := by
  cases T <;> exact meshOf_mono m hh

/-- **C123 (equilibrium).** When a motion is in equilibrium with a body force, the work of the residual forces of the mesh on the nodal values of a smooth field
tends to zero. -/
theorem C123_equilibrium (T : SolidType) (mat : Material) (hmat : ContinuousMaterial mat) (Ω S : Set (Fin 3 → ℝ)) (hΩ : IsCompact Ω) (hS : Ω ⊆ S)
    (φ v f : (Fin 3 → ℝ) → Fin 3 → ℝ) (φ' v' : (Fin 3 → ℝ) → (Fin 3 → ℝ) →L[ℝ] (Fin 3 → ℝ)) (B : ℝ) (hB : 0 ≤ B) (hφ : SmoothOn S φ φ' B) (hv : SmoothOn S v v' B)
    (hf : ContinuousOn f Ω) (hdet : ∀ x ∈ Ω, 0 < (gradientMatrix (φ' x)).det)
    (heq : ∫ x in Ω, ddot (gradientMatrix (φ' x) * mat.stress (gradientMatrix (φ' x)).det ((gradientMatrix (φ' x)).transpose * gradientMatrix (φ' x)))
      (gradientMatrix (v' x)) = ∫ x in Ω, ∑ a, f x a * v x a) (σ ε : ℝ) (hε : 0 < ε) :
    ∃ h₀ > 0, ∀ h, 0 ≤ h → h ≤ h₀ → ∀ {N M : ℕ} (idx : Fin M → Fin T.numNodes → Fin N) (X : Fin N → Fin 3 → ℝ), SolidMeshOf T idx X Ω h →
      ShapeRegular T idx X σ h →
      |∑ p, ∑ a, (HyperMesh.initialize T.elem T.gauss idx X).addForce mat (fun p => φ (X p)) (assembleLoads T.elem T.gauss idx X fun _ x => f x) p a * v (X p) a| ≤
        ε := by
  obtain ⟨h₁, p₁, hh₁⟩ := C123_forces T mat hmat Ω S hΩ hS φ v φ' v' B hB hφ hv hdet σ (ε / 2) (half_pos hε)
  obtain ⟨h₂, p₂, hh₂⟩ := solidMesh_loads T Ω hΩ f v hf (fun x hx => (hv.deriv x (hS hx)).continuousAt.continuousWithinAt) (ε / 2) (half_pos hε)
  refine ⟨min h₁ h₂, lt_min p₁ p₂, fun h h0 hle N M idx X m r => ?_⟩
  have e1 := hh₁ h h0 (hle.trans (min_le_left _ _)) idx X m r
  have e2 := hh₂ idx X (solidMesh_mono m (hle.trans (min_le_right _ _)))
  have e : ∑ p, ∑ a, (HyperMesh.initialize T.elem T.gauss idx X).addForce mat (fun p => φ (X p)) (assembleLoads T.elem T.gauss idx X fun _ x => f x) p a * v (X p) a =
      (∑ p, ∑ a, (HyperMesh.initialize T.elem T.gauss idx X).addForce mat (fun p => φ (X p)) 0 p a * v (X p) a + ∫ x in Ω, ddot (gradientMatrix (φ' x) *
        mat.stress (gradientMatrix (φ' x)).det ((gradientMatrix (φ' x)).transpose * gradientMatrix (φ' x))) (gradientMatrix (v' x))) +
      (∑ p, ∑ a, assembleLoads T.elem T.gauss idx X (fun _ x => f x) p a * v (X p) a - ∫ x in Ω, ∑ a, f x a * v x a) := by
    rw [heq, add_add_sub_cancel, ← Finset.sum_add_distrib]
    refine Finset.sum_congr rfl fun p _ => ?_
    rw [← Finset.sum_add_distrib]
    refine Finset.sum_congr rfl fun a _ => ?_
    simp only [HyperMesh.addForce, Pi.sub_apply, Pi.zero_apply]
    ring
  rw [e]
  refine (abs_add_le _ _).trans ?_
  linarith

/-! ### Grids -/

/-- **C123 (grids).** The cells of a grid, taken as hexahedra, are a mesh of its box, and are not flattened when the ratio of their sides is bounded. -/
theorem C123_grid (g : Grid 3 ℝ) (hf : Fits g.n) (hn : ∀ a, 0 < g.n a) (hs : ∀ a, 0 < g.size a) (h κ : ℝ) (h0 : 0 ≤ h) (hh : ∀ a, g.H a ≤ h)
    (hκ : ∀ a, h ≤ κ * g.H a) :
    SolidMeshOf .hexa1 (g.cellNodes hf) (fun p => g.node p) (Set.Icc g.anchor fun a => g.anchor a + g.size a) h ∧
      ShapeRegular .hexa1 (g.cellNodes hf) (fun p => g.node p) (2 * κ) h := by
  obtain ⟨hc, hi, hsur⟩ := cells_enumerated (Or.inr (Or.inr rfl)) g hf
  have hH : ∀ a, 0 < g.H a := fun a => div_pos (hs a) (by exact_mod_cast hn a)
  have e : (fun a => g.anchor a + g.size a) = fun a => g.anchor a + g.n a * g.H a := by
    funext a
    have : (g.n a : ℝ) ≠ 0 := by exact_mod_cast (hn a).ne'
    rw [Grid.H, mul_div_cancel₀ _ this]
  have hX : ∀ (e : Fin g.numberOfCells.toNat) (i : Fin 8) (a : Fin 3), g.node (g.cellNodes hf e i) a =
      gridPoint g.anchor g.H (fun a => (g.cellCoordinatesAt e a : ℝ) + (1 + hexa1.node i a) / 2) a := by
    intro e i a
    obtain ⟨h1, _, _, h4⟩ := C25_3d g hf e (by omega) (by omega)
    exact Eq.trans (congrArg (fun z => g.node z a) (Int.toNat_of_nonneg (h1 i).1)) (h4 i a)
  refine ⟨cells_mesh .hexa1 rfl g.anchor g.H hH g.n hn (g.cellNodes hf) (fun p => g.node p) _ hc hi hsur hX h h0 hh _ e, fun e q _ => ?_⟩
  have haff : ∀ i : Fin 8, g.node (g.cellNodes hf e i) = (fun a => g.anchor a + (g.cellCoordinatesAt e a + 1 / 2) * g.H a) +
      (Matrix.diagonal fun a => g.H a / 2).mulVec (hexa1.node i) := by
    intro i
    funext a
    rw [hX, Pi.add_apply, Matrix.mulVec_diagonal]
    simp only [gridPoint]
    ring
  have hj : (SolidType.hexa1.elem.jacobian (fun i => g.node (g.cellNodes hf e i)) q.position : Mat3) = Matrix.diagonal fun a => g.H a / 2 :=
    affImage_jacobian .hexa1 _ _ _ haff q.position
  rw [hj]
  have hdet : (Matrix.diagonal fun a => g.H a / 2 : Mat3).det ≠ 0 := by
    rw [Matrix.det_diagonal]
    exact Finset.prod_ne_zero_iff.mpr fun a _ => (half_pos (hH a)).ne'
  refine ⟨hdet, fun a b => ?_⟩
  have hinv : (Matrix.diagonal fun a => g.H a / 2 : Mat3)⁻¹ = Matrix.diagonal fun a => 2 / g.H a := by
    refine Matrix.inv_eq_right_inv ?_
    rw [Matrix.diagonal_mul_diagonal, ← Matrix.diagonal_one]
    congr 1
    funext a
    have := (hH a).ne'
    field_simp
  rw [hinv, Matrix.diagonal_apply]
  by_cases hab : a = b
  · rw [if_pos hab, abs_of_pos (div_pos two_pos (hH a)), div_mul_eq_mul_div, div_le_iff₀ (hH a)]
    have := hκ a
    linarith
  · rw [if_neg hab, abs_zero, zero_mul]
    have h1 := hκ a
    have h2 := hH a
    by_contra hneg
    push_neg at hneg
    nlinarith

/-- The motion `y ↦ (y₀², y₁², y₂²)` of the cube `[1, 2]³` of a neo-Hookean material, on grids of cubes. -/
example (ε : ℝ) (hε : 0 < ε) : ∃ h₀ > 0, ∀ (n : ℕ) (hfit : Fits fun _ : Fin 3 => n), 0 < n → (1 : ℝ) / n ≤ h₀ →
    |(HyperMesh.initialize SolidType.hexa1.elem SolidType.hexa1.gauss ((Grid.mk (fun _ => 1) (fun _ => n) fun _ => 1).cellNodes hfit)
        fun p => (Grid.mk (fun _ => 1) (fun _ => n) fun _ => 1).node p).potentialEnergy (neoHookean 1 1)
        (fun p => (Grid.mk (fun _ => 1) (fun _ => n) fun _ => 1).node p) (fun p a => (Grid.mk (fun _ => 1) (fun _ => n) fun _ => (1 : ℝ)).node p a ^ 2) -
      ∫ x in Set.Icc (fun _ : Fin 3 => (1 : ℝ)) (fun _ => 1 + 1), (neoHookean 1 1).energy (gradientMatrix (squaresDeriv x)).det
        ((gradientMatrix (squaresDeriv x)).transpose * gradientMatrix (squaresDeriv x))| ≤ ε := by
  have hg : ∀ x : Fin 3 → ℝ, gradientMatrix (squaresDeriv x) = Matrix.diagonal fun a => 2 * x a := by
    intro x
    ext a b
    rw [gradientMatrix, squaresDeriv_apply, Matrix.diagonal_apply]
    by_cases h : a = b
    · subst h; simp
    · simp [h]
  obtain ⟨h₀, hpos, hh⟩ := C123_energy .hexa1 (neoHookean 1 1) (C123_materials 1 1).2 (Set.Icc (fun _ => 1) (fun _ => 1 + 1)) Set.univ isCompact_Icc (Set.subset_univ _)
    (fun y a => y a ^ 2) (fun x => squaresDeriv x) 2 (by norm_num) squares_smooth (fun x hx => by
      rw [hg, Matrix.det_diagonal]
      exact Finset.prod_pos fun a _ => mul_pos two_pos (lt_of_lt_of_le one_pos (hx.1 a))) (2 * 1) ε hε
  refine ⟨h₀, hpos, fun n hfit hn hle => ?_⟩
  obtain ⟨m, r⟩ := C123_grid ⟨fun _ => 1, fun _ => n, fun _ => 1⟩ hfit (fun _ => hn) (fun _ => one_pos) (1 / n) 1 (by positivity) (fun _ => le_rfl) (fun _ => by simp [Grid.H])
  exact hh (1 / n) (by positivity) hle _ _ m r

end Caribou

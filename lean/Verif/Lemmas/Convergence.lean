import Verif.Spec.Convergence
import Verif.Lemmas.Accuracy
import Mathlib.MeasureTheory.Integral.Bochner.Set

/-!
# Quadrature errors on one element and on meshes
-/

set_option autoImplicit false
set_option linter.all false

namespace Caribou

open Spec MeasureTheory

theorem list_abs_sum_le {α : Type*} (l : List α) (a b : α → ℝ) (h : ∀ g ∈ l, |a g| ≤ b g) : |(l.map a).sum| ≤ (l.map b).sum := by
  induction l with
  | nil => simp
  | cons x l ih =>
    simp only [List.map_cons, List.sum_cons]
    exact (abs_add_le _ _).trans (add_le_add (h x (List.mem_cons_self)) (ih fun g hg => h g (List.mem_cons_of_mem _ hg)))

theorem measured_volume (T : ElementType) (X : Fin T.numNodes → Fin T.dim → ℝ) (hm : WellMeasured T X) (hu : Unfolded T X) :
    volume (elementRegion T X) = ENNReal.ofReal (quadratureVolume T X) := by
  rcases hm with ⟨h1, h2, h3⟩ | ⟨c, A, hX⟩
  · exact C83_partial.1 T h1 h2 h3 X hu
  · exact C83_partial.2.1 T c A X hX hu

theorem region_compact (T : ElementType) (X : Fin T.numNodes → Fin T.dim → ℝ) : IsCompact (elementRegion T X) :=
  (canonicalSet_isCompact T.shape T.dim).image (continuous_iff_continuousAt.mpr fun ξ => (world_hasFDerivAt T X ξ).continuousAt)

theorem quadratureVolume_nonneg (T : ElementType) (X : Fin T.numNodes → Fin T.dim → ℝ) : 0 ≤ quadratureVolume T X := by
  refine List.sum_nonneg fun x hx => ?_
  obtain ⟨g, hg, rfl⟩ := List.mem_map.1 hx
  exact mul_nonneg (C12_inside_positive T g hg).2.le (abs_nonneg _)

/-- The quadrature of a function over an element. -/
noncomputable def quadratureOf (T : ElementType) (X : Fin T.numNodes → Fin T.dim → ℝ) (f : (Fin T.dim → ℝ) → ℝ) : ℝ :=
  (T.gauss.map fun g => g.weight * |(T.elem.jacobian X g.position).det| * f (T.elem.worldCoordinates X g.position)).sum

theorem gauss_mem_region (T : ElementType) (X : Fin T.numNodes → Fin T.dim → ℝ) {g : GaussNode T.dim} (hg : g ∈ T.gauss) :
    T.elem.worldCoordinates X g.position ∈ elementRegion T X :=
  ⟨g.position, (C12_inside_positive T g hg).1, rfl⟩

/-- The quadrature differs from the integral by at most the oscillation of the function times the volume. -/
theorem quadrature_first (T : ElementType) (X : Fin T.numNodes → Fin T.dim → ℝ) (hm : WellMeasured T X) (hu : Unfolded T X) (f : (Fin T.dim → ℝ) → ℝ)
    (hf : ContinuousOn f (elementRegion T X)) (δ : ℝ) (hδ : ∀ x ∈ elementRegion T X, ∀ y ∈ elementRegion T X, |f x - f y| ≤ δ) :
    |quadratureOf T X f - ∫ x in elementRegion T X, f x| ≤ δ * (volume (elementRegion T X)).toReal := by
  have hV := measured_volume T X hm hu
  set R := elementRegion T X with hR
  set V := quadratureVolume T X with hVdef
  have hV0 : 0 ≤ V := quadratureVolume_nonneg T X
  have hVr : (volume R).toReal = V := by rw [hV, ENNReal.toReal_ofReal hV0]
  have hfin : volume R < ⊤ := by rw [hV]; exact ENNReal.ofReal_lt_top
  have hint : IntegrableOn f R := hf.integrableOn_compact (region_compact T X)
  have hone : ∀ g ∈ T.gauss, |V * f (T.elem.worldCoordinates X g.position) - ∫ x in R, f x| ≤ δ * V := by
    intro g hg
    have e : V * f (T.elem.worldCoordinates X g.position) - ∫ x in R, f x = ∫ x in R, (f (T.elem.worldCoordinates X g.position) - f x) := by
      rw [integral_sub (integrable_const_iff.mpr (.inr ⟨by simpa using hfin⟩)) hint, setIntegral_const, smul_eq_mul, Measure.real, hVr]
    rw [e, ← Real.norm_eq_abs, ← hVr]
    exact norm_setIntegral_le_of_norm_le_const hfin fun x hx => hδ _ (gauss_mem_region T X hg) _ hx
  have hw : ∀ g ∈ T.gauss, 0 ≤ g.weight * |(T.elem.jacobian X g.position).det| := fun g hg =>
    mul_nonneg (C12_inside_positive T g hg).2.le (abs_nonneg _)
  have hsum : V = (T.gauss.map fun g => g.weight * |(T.elem.jacobian X g.position).det|).sum := rfl
  rw [hVr]
  rcases hV0.eq_or_lt with h0 | h0
  · have hz : volume R = 0 := by rw [hV, ← h0, ENNReal.ofReal_zero]
    have hq : quadratureOf T X f = 0 := by
      have hall : ∀ g ∈ T.gauss, g.weight * |(T.elem.jacobian X g.position).det| = 0 := by
        intro g hg
        refine le_antisymm ?_ (hw g hg)
        have hs := List.single_le_sum (l := T.gauss.map fun g => g.weight * |(T.elem.jacobian X g.position).det|) (fun x hx => by
          obtain ⟨g, hg, rfl⟩ := List.mem_map.1 hx
          exact hw g hg) _ (List.mem_map.2 ⟨g, hg, rfl⟩)
        rw [← hsum, ← h0] at hs
        exact hs
      refine List.sum_eq_zero fun x hx => ?_
      obtain ⟨g, hg, rfl⟩ := List.mem_map.1 hx
      rw [hall g hg, zero_mul]
    rw [hq, setIntegral_measure_zero _ hz, ← h0]
    simp
  · have key : |V * (quadratureOf T X f - ∫ x in R, f x)| ≤ V * (δ * V) := by
      have e : V * (quadratureOf T X f - ∫ x in R, f x) =
          (T.gauss.map fun g => g.weight * |(T.elem.jacobian X g.position).det| * (V * f (T.elem.worldCoordinates X g.position) - ∫ x in R, f x)).sum := by
        have e1 : (T.gauss.map fun g => g.weight * |(T.elem.jacobian X g.position).det| * (V * f (T.elem.worldCoordinates X g.position) - ∫ x in R, f x)).sum =
            (T.gauss.map fun g => V * (g.weight * |(T.elem.jacobian X g.position).det| * f (T.elem.worldCoordinates X g.position)) +
              (g.weight * |(T.elem.jacobian X g.position).det|) * (-∫ x in R, f x)).sum :=
          congrArg List.sum (List.map_congr_left fun g _ => by ring)
        rw [e1, List.sum_map_add, List.sum_map_mul_left, List.sum_map_mul_right, ← hsum, quadratureOf]
        ring
      rw [e]
      refine (list_abs_sum_le _ _ (fun g => g.weight * |(T.elem.jacobian X g.position).det| * (δ * V)) fun g hg => ?_).trans (le_of_eq ?_)
      · rw [abs_mul, abs_of_nonneg (hw g hg)]
        exact mul_le_mul_of_nonneg_left (hone g hg) (hw g hg)
      · rw [List.sum_map_mul_right, ← hsum]
    rw [abs_mul, abs_of_pos h0] at key
    exact le_of_mul_le_mul_left key h0

end Caribou

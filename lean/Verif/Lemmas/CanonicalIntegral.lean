import Verif.Spec.Canonical
import Mathlib.MeasureTheory.Integral.Prod
import Mathlib.MeasureTheory.Constructions.Pi
import Mathlib.MeasureTheory.Integral.IntervalIntegral.Basic
import Mathlib.MeasureTheory.Function.LocallyIntegrable
import Mathlib.MeasureTheory.Measure.Lebesgue.Basic
import Mathlib.Topology.Homeomorph.Lemmas

/-! The iterated integrals of the canonical elements are integrals over sets. -/

set_option autoImplicit false
set_option linter.all false

namespace Caribou

open Spec MeasureTheory

theorem integral_succ {n : ℕ} (F : (Fin (n + 1) → ℝ) → ℝ) (hF : Integrable F) :
    ∫ x, F x = ∫ u : ℝ, ∫ y : Fin n → ℝ, F (Fin.cons u y) := by
  set e : ℝ × (Fin n → ℝ) ≃ᵐ (Fin (n + 1) → ℝ) := (MeasurableEquiv.piFinSuccAbove (fun _ => ℝ) 0).symm with he
  have hem : MeasurePreserving e :=
    (volume_preserving_piFinSuccAbove (fun _ : Fin (n + 1) => ℝ) 0).symm _
  have hc : ∀ p : ℝ × (Fin n → ℝ), e p = Fin.cons p.1 p.2 := fun p => by
    funext i
    refine Fin.cases ?_ (fun j => ?_) i
    · rfl
    · rfl
  rw [← hem.integral_comp e.measurableEmbedding, Measure.volume_eq_prod, integral_prod]
  · simp only [hc]
  · have h := (hem.integrable_comp_emb e.measurableEmbedding (g := F)).2 hF
    exact h

theorem integral_one (F : (Fin 1 → ℝ) → ℝ) : ∫ x, F x = ∫ u : ℝ, F ![u] := by
  have hem := (volume_preserving_funUnique (Fin 1) ℝ).symm (MeasurableEquiv.funUnique (Fin 1) ℝ)
  refine (hem.integral_comp (MeasurableEquiv.measurableEmbedding _) F).symm.trans ?_
  refine integral_congr_ae (Filter.Eventually.of_forall fun u => ?_)
  simp only
  congr 1
  funext i
  fin_cases i
  rfl

theorem cons_isClosedEmbedding {n : ℕ} (u : ℝ) :
    Topology.IsClosedEmbedding (fun y : Fin n → ℝ => (Fin.cons u y : Fin (n + 1) → ℝ)) :=
  Function.LeftInverse.isClosedEmbedding (f := fun x : Fin (n + 1) → ℝ => Fin.tail x)
    (fun y => Fin.tail_cons _ _)
    (continuous_pi fun i => continuous_apply _)
    (continuous_pi fun i => by
      refine Fin.cases ?_ (fun j => ?_) i
      · exact continuous_const
      · exact continuous_apply j)

theorem integrable_indicator_compact {n : ℕ} {S : Set (Fin n → ℝ)} {f : (Fin n → ℝ) → ℝ} (hS : IsCompact S)
    (hf : Continuous f) : Integrable (S.indicator f) :=
  (integrable_indicator_iff hS.measurableSet).2 (hf.continuousOn.integrableOn_compact hS)

theorem integral_two {S : Set (Fin 2 → ℝ)} {f : (Fin 2 → ℝ) → ℝ} (hS : IsCompact S) (hf : Continuous f) :
    ∫ x in S, f x = ∫ u : ℝ, ∫ v : ℝ, S.indicator f ![u, v] := by
  rw [← integral_indicator hS.measurableSet, integral_succ _ (integrable_indicator_compact hS hf)]
  simp only [integral_one]
  rfl

theorem integral_three {S : Set (Fin 3 → ℝ)} {f : (Fin 3 → ℝ) → ℝ} (hS : IsCompact S) (hf : Continuous f) :
    ∫ x in S, f x = ∫ u : ℝ, ∫ v : ℝ, ∫ w : ℝ, S.indicator f ![u, v, w] := by
  rw [← integral_indicator hS.measurableSet, integral_succ _ (integrable_indicator_compact hS hf)]
  refine integral_congr_ae (Filter.Eventually.of_forall fun u => ?_)
  have hc := cons_isClosedEmbedding (n := 2) u
  have h := integral_two (hc.isCompact_preimage hS) (hf.comp hc.continuous)
  rw [← integral_indicator (hc.isCompact_preimage hS).measurableSet] at h
  exact h

theorem integral_ite_Icc (a b : ℝ) (h : a ≤ b) (g : ℝ → ℝ) :
    ∫ v : ℝ, (if a ≤ v ∧ v ≤ b then g v else 0) = ∫ v in a..b, g v := by
  rw [intervalIntegral.integral_of_le h, ← integral_Icc_eq_integral_Ioc, ← integral_indicator measurableSet_Icc]
  refine integral_congr_ae (Filter.Eventually.of_forall fun v => ?_)
  simp [Set.indicator, Set.mem_Icc]

theorem integral_ite_const (c : Prop) [Decidable c] (g : ℝ → ℝ) :
    ∫ v : ℝ, (if c then g v else 0) = if c then ∫ v : ℝ, g v else 0 := by
  split_ifs <;> simp

/-- The canonical element as a set. -/
def canonicalSet (s : Shape) (d : ℕ) : Set (Fin d → ℝ) := {ξ | s.Mem ξ}

theorem canonicalSet_cube (d : ℕ) : canonicalSet .cube d = Set.Icc (fun _ => -1) (fun _ => 1) := by
  ext ξ
  simp only [canonicalSet, Shape.Mem, Set.mem_setOf_eq, Set.mem_Icc, Pi.le_def, forall_and]

theorem canonicalSet_isCompact (s : Shape) (d : ℕ) : IsCompact (canonicalSet s d) := by
  cases s with
  | cube => rw [canonicalSet_cube]; exact isCompact_Icc
  | simplex =>
    refine IsCompact.of_isClosed_subset (isCompact_Icc (a := fun _ : Fin d => (0 : ℝ)) (b := fun _ => 1)) ?_ ?_
    · have e : canonicalSet .simplex d = (⋂ j : Fin d, {ξ | 0 ≤ ξ j}) ∩ {ξ | ∑ j, ξ j ≤ 1} := by
        ext ξ; simp [canonicalSet, Shape.Mem]
      rw [e]
      refine (isClosed_iInter fun j => isClosed_le continuous_const (continuous_apply j)).inter ?_
      exact isClosed_le (continuous_finset_sum _ fun j _ => continuous_apply j) continuous_const
    · intro ξ hξ
      refine ⟨fun j => hξ.1 j, fun j => ?_⟩
      exact (Finset.single_le_sum (f := ξ) (fun i _ => hξ.1 i) (Finset.mem_univ j)).trans hξ.2

theorem setIntegral_cube1 {f : (Fin 1 → ℝ) → ℝ} : ∫ x in canonicalSet .cube 1, f x = intCube1 f := by
  rw [← integral_indicator (canonicalSet_isCompact _ _).measurableSet, integral_one, intCube1,
    ← integral_ite_Icc _ _ (by norm_num)]
  refine integral_congr_ae (Filter.Eventually.of_forall fun u => ?_)
  simp [Set.indicator, canonicalSet, Shape.Mem]

theorem setIntegral_cube2 {f : (Fin 2 → ℝ) → ℝ} (hf : Continuous f) :
    ∫ x in canonicalSet .cube 2, f x = intCube2 f := by
  rw [integral_two (canonicalSet_isCompact _ _) hf, intCube2, ← integral_ite_Icc _ _ (by norm_num)]
  refine integral_congr_ae (Filter.Eventually.of_forall fun u => ?_)
  simp only
  rw [← integral_ite_Icc _ _ (by norm_num), ← integral_ite_const]
  refine integral_congr_ae (Filter.Eventually.of_forall fun v => ?_)
  simp only [Set.indicator, canonicalSet, Shape.Mem, Set.mem_setOf_eq, ← ite_and, Fin.forall_fin_two, Matrix.cons_val]

theorem setIntegral_cube3 {f : (Fin 3 → ℝ) → ℝ} (hf : Continuous f) :
    ∫ x in canonicalSet .cube 3, f x = intCube3 f := by
  rw [integral_three (canonicalSet_isCompact _ _) hf, intCube3, ← integral_ite_Icc _ _ (by norm_num)]
  refine integral_congr_ae (Filter.Eventually.of_forall fun u => ?_)
  simp only
  rw [← integral_ite_Icc _ _ (by norm_num), ← integral_ite_const]
  refine integral_congr_ae (Filter.Eventually.of_forall fun v => ?_)
  simp only
  rw [← integral_ite_Icc _ _ (by norm_num), ← integral_ite_const, ← integral_ite_const]
  refine integral_congr_ae (Filter.Eventually.of_forall fun w => ?_)
  simp only [Set.indicator, canonicalSet, Shape.Mem, Set.mem_setOf_eq, ← ite_and, Fin.forall_fin_succ,
    Matrix.cons_val, IsEmpty.forall_iff, and_true, Fin.succ_zero_eq_one, Fin.succ_one_eq_two, Fin.isValue]

theorem setIntegral_simplex2 {f : (Fin 2 → ℝ) → ℝ} (hf : Continuous f) :
    ∫ x in canonicalSet .simplex 2, f x = intSimplex2 f := by
  rw [integral_two (canonicalSet_isCompact _ _) hf, intSimplex2, ← integral_ite_Icc _ _ (by norm_num)]
  refine integral_congr_ae (Filter.Eventually.of_forall fun u => ?_)
  simp only
  by_cases hu : 0 ≤ u ∧ u ≤ 1
  · rw [if_pos hu, ← integral_ite_Icc _ _ (by linarith [hu.2])]
    refine integral_congr_ae (Filter.Eventually.of_forall fun v => ?_)
    simp only [Set.indicator, canonicalSet, Shape.Mem, Set.mem_setOf_eq, Fin.forall_fin_two, Fin.sum_univ_two,
      Matrix.cons_val]
    refine if_congr ⟨fun h => ⟨h.1.2, by linarith [h.2]⟩, fun h => ⟨⟨hu.1, h.1⟩, by linarith [h.2]⟩⟩ rfl rfl
  · rw [if_neg hu]
    refine (integral_congr_ae (Filter.Eventually.of_forall fun v => ?_)).trans (integral_zero ℝ ℝ)
    refine Set.indicator_of_notMem (fun h => hu ?_) _
    simp only [canonicalSet, Shape.Mem, Set.mem_setOf_eq, Fin.forall_fin_two, Fin.sum_univ_two, Matrix.cons_val] at h
    exact ⟨h.1.1, by linarith [h.1.2, h.2]⟩

theorem setIntegral_simplex3 {f : (Fin 3 → ℝ) → ℝ} (hf : Continuous f) :
    ∫ x in canonicalSet .simplex 3, f x = intSimplex3 f := by
  have hmem : ∀ u v w : ℝ, ![u, v, w] ∈ canonicalSet .simplex 3 ↔ (0 ≤ u ∧ 0 ≤ v ∧ 0 ≤ w) ∧ u + v + w ≤ 1 := by
    intro u v w
    simp only [canonicalSet, Shape.Mem, Set.mem_setOf_eq, Fin.sum_univ_three, Matrix.cons_val, Fin.forall_fin_succ,
      IsEmpty.forall_iff, and_true, Fin.succ_zero_eq_one, Fin.succ_one_eq_two, Fin.isValue]
  rw [integral_three (canonicalSet_isCompact _ _) hf, intSimplex3, ← integral_ite_Icc _ _ (by norm_num)]
  refine integral_congr_ae (Filter.Eventually.of_forall fun u => ?_)
  simp only
  by_cases hu : 0 ≤ u ∧ u ≤ 1
  · rw [if_pos hu, ← integral_ite_Icc _ _ (by linarith [hu.2])]
    refine integral_congr_ae (Filter.Eventually.of_forall fun v => ?_)
    simp only
    by_cases hv : 0 ≤ v ∧ v ≤ 1 - u
    · rw [if_pos hv, ← integral_ite_Icc _ _ (by linarith [hv.2])]
      refine integral_congr_ae (Filter.Eventually.of_forall fun w => ?_)
      simp only [Set.indicator, hmem]
      exact if_congr ⟨fun h => ⟨h.1.2.2, by linarith [h.2]⟩, fun h => ⟨⟨hu.1, hv.1, h.1⟩, by linarith [h.2]⟩⟩ rfl rfl
    · rw [if_neg hv]
      refine (integral_congr_ae (Filter.Eventually.of_forall fun w => ?_)).trans (integral_zero ℝ ℝ)
      refine Set.indicator_of_notMem (fun h => hv ?_) _
      rw [hmem] at h
      exact ⟨h.1.2.1, by linarith [h.1.2.2, h.2]⟩
  · rw [if_neg hu]
    refine (integral_congr_ae (Filter.Eventually.of_forall fun v => ?_)).trans (integral_zero ℝ ℝ)
    refine (integral_congr_ae (Filter.Eventually.of_forall fun w => ?_)).trans (integral_zero ℝ ℝ)
    refine Set.indicator_of_notMem (fun h => hu ?_) _
    rw [hmem] at h
    exact ⟨h.1.1, by linarith [h.1.2.1, h.1.2.2, h.2]⟩

end Caribou

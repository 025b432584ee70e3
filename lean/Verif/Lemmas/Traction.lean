import Verif.Model.Traction
import Verif.Spec.Traction
import Verif.Lemmas.Elements
import Verif.Lemmas.Frame
import Mathlib.Tactic.LinearCombination
import Mathlib.Tactic.Module
import Mathlib.Tactic.FieldSimp

/-! Helper lemmas for `Props/Traction.lean`. -/

set_option autoImplicit false
set_option linter.all false

namespace Caribou

namespace TractionState

variable {D N n M : ℕ}

/-- Nodal share of a traction `t`. -/
noncomputable def share (s : TractionState D N n M) (p : Fin N) : ℝ :=
  ∑ e, ((s.qnodes e).map fun g => ∑ i, if s.idx e i = p then g.N i * (g.weight * g.detJ) else 0).sum

noncomputable def area (s : TractionState D N n M) : ℝ :=
  ∑ e, ((s.qnodes e).map fun g => g.weight * g.detJ).sum

theorem list_sum_smul {ι : Type*} (l : List ι) (f : ι → ℝ) (t : Fin D → ℝ) :
    (l.map fun g => f g • t).sum = (l.map f).sum • t := by
  induction l with
  | nil => simp
  | cons a l ih => simp only [List.map_cons, List.sum_cons, ih, add_smul]

theorem node_sum (s : TractionState D N n M) (t : Fin D → ℝ) (p : Fin N) :
    (∑ e, ((s.qnodes e).map fun g => ∑ i, if s.idx e i = p then g.N i • ((g.weight * g.detJ) • t) else 0).sum) =
      s.share p • t := by
  rw [share, Finset.sum_smul]
  refine Finset.sum_congr rfl fun e _ => ?_
  rw [← list_sum_smul]
  refine congrArg List.sum (List.map_congr_left fun g _ => ?_)
  rw [Finset.sum_smul]
  refine Finset.sum_congr rfl fun i _ => ?_
  split <;> simp [smul_smul]

theorem load_sum (s : TractionState D N n M) (hN : ∀ e, ∀ g ∈ s.qnodes e, ∑ i, g.N i = 1) (t : Fin D → ℝ) :
    (∑ e, ((s.qnodes e).map fun g => ∑ i, g.N i • ((g.weight * g.detJ) • t)).sum) = s.area • t := by
  rw [area, Finset.sum_smul]
  refine Finset.sum_congr rfl fun e _ => ?_
  rw [← list_sum_smul]
  refine congrArg List.sum (List.map_congr_left fun g hg => ?_)
  rw [← Finset.sum_smul, hN e g hg, one_smul]

theorem sum_list_comm {ι : Type*} (l : List ι) (f : ι → Fin N → ℝ) :
    ∑ p, (l.map fun g => f g p).sum = (l.map fun g => ∑ p, f g p).sum := by
  induction l with
  | nil => simp
  | cons a l ih => simp only [List.map_cons, List.sum_cons, Finset.sum_add_distrib, ih]

theorem sum_share (s : TractionState D N n M) (hN : ∀ e, ∀ g ∈ s.qnodes e, ∑ i, g.N i = 1) :
    ∑ p, s.share p = s.area := by
  simp only [share, area]
  rw [Finset.sum_comm]
  refine Finset.sum_congr rfl fun e _ => ?_
  rw [sum_list_comm]
  refine congrArg List.sum (List.map_congr_left fun g hg => ?_)
  rw [Finset.sum_comm]
  simp only [Finset.sum_ite_eq, Finset.mem_univ, if_true]
  rw [← Finset.sum_mul, hN e g hg, one_mul]

theorem area_nonneg (s : TractionState D N n M) (h : ∀ e, ∀ g ∈ s.qnodes e, 0 ≤ g.weight * g.detJ) : 0 ≤ s.area := by
  refine Finset.sum_nonneg fun e _ => List.sum_nonneg fun x hx => ?_
  obtain ⟨g, hg, rfl⟩ := List.mem_map.mp hx
  exact h e g hg

theorem incrementLoad_some (s : TractionState D N n M) (hN : ∀ e, ∀ g ∈ s.qnodes e, ∑ i, g.N i = 1)
    (f : Fin N → Fin D → ℝ) (hf : s.nodal = some f) (t : Fin D → ℝ) :
    s.incrementLoad t = .ok { s with nodal := some fun p => f p + s.share p • t
                                     totalLoad := s.totalLoad + norm2 (s.area • t) } := by
  simp only [incrementLoad, hf, node_sum, load_sum s hN]

/-- The field carries the traction `c • T`. -/
structure Carries (s : TractionState D N n M) (c : ℝ) (T : Fin D → ℝ) : Prop where
  nodal : s.nodal = some fun p => s.share p • (c • T)
  load : s.totalLoad = norm2 (s.area • (c • T))

end TractionState

theorem norm2_nonneg {m : ℕ} (v : Fin m → ℝ) : 0 ≤ norm2 v := Real.sqrt_nonneg _

theorem norm2_zero {m : ℕ} : norm2 (0 : Fin m → ℝ) = 0 := by simp [norm2]

theorem norm2_eq_zero {m : ℕ} {v : Fin m → ℝ} (h : norm2 v = 0) : v = 0 := by
  by_contra hv
  exact (norm2_pos (sq_pos_of_ne hv)).ne' h

theorem bbox_max {K : Type*} [LinearOrder K] (l : List K) (s : K × K) :
    (l.foldl bboxStep s).2 ∈ s.2 :: l ∧ ∀ x ∈ s.2 :: l, x ≤ (l.foldl bboxStep s).2 := by
  induction l generalizing s with
  | nil => simp
  | cons a l ih =>
    obtain ⟨h1, h2⟩ := ih (bboxStep s a)
    rw [List.foldl_cons]
    by_cases h : a > s.2
    · have hb : bboxStep s a = (s.1, a) := by simp [bboxStep, h]
      rw [hb] at h1 h2 ⊢
      refine ⟨?_, ?_⟩
      · simp only [List.mem_cons] at h1 ⊢; exact Or.inr h1
      · intro x hx
        simp only [List.mem_cons] at hx
        rcases hx with rfl | rfl | hx
        · exact le_trans h.le (h2 a (by simp))
        · exact h2 _ (by simp)
        · exact h2 x (by simp [hx])
    · have hb : (bboxStep s a).2 = s.2 := by simp only [bboxStep, h, if_false]; split <;> rfl
      rw [hb] at h1 h2
      refine ⟨?_, ?_⟩
      · simp only [List.mem_cons] at h1 ⊢; tauto
      · intro x hx
        simp only [List.mem_cons] at hx
        rcases hx with rfl | rfl | hx
        · exact h2 _ (by simp)
        · exact le_trans (not_lt.mp h) (h2 _ (by simp))
        · exact h2 x (by simp [hx])

/-- The minimum found is either the initial one or an element, and not above any element not above the initial maximum. -/
theorem bbox_min {K : Type*} [LinearOrder K] (l : List K) (s : K × K) :
    (l.foldl bboxStep s).1 ≤ s.1 ∧ ((l.foldl bboxStep s).1 = s.1 ∨ ((l.foldl bboxStep s).1 ∈ l ∧ (l.foldl bboxStep s).1 < s.1)) ∧
      ∀ x ∈ l, x ≤ s.2 → (l.foldl bboxStep s).1 ≤ x := by
  induction l generalizing s with
  | nil => simp
  | cons a l ih =>
    obtain ⟨h1, h2, h3⟩ := ih (bboxStep s a)
    rw [List.foldl_cons]
    by_cases h : a > s.2
    · have hb : bboxStep s a = (s.1, a) := by simp [bboxStep, h]
      rw [hb] at h1 h2 h3 ⊢
      refine ⟨h1, h2.imp_right fun h => ⟨by simp [h.1], h.2⟩, fun x hx hxs => ?_⟩
      rcases List.mem_cons.mp hx with rfl | hx
      · exact absurd h (not_lt.mpr hxs)
      · exact h3 x hx (le_trans hxs h.le)
    · by_cases h' : a < s.1
      · have hb : bboxStep s a = (a, s.2) := by simp [bboxStep, h, h']
        rw [hb] at h1 h2 h3 ⊢
        refine ⟨le_trans h1 h'.le, Or.inr ?_, fun x hx hxs => ?_⟩
        · rcases h2 with h2 | h2
          · exact ⟨by rw [h2]; simp, by rw [h2]; exact h'⟩
          · exact ⟨by simp [h2.1], lt_trans h2.2 h'⟩
        · rcases List.mem_cons.mp hx with rfl | hx
          · exact h1
          · exact h3 x hx hxs
      · have hb : bboxStep s a = s := by simp [bboxStep, h, h']
        rw [hb] at h1 h2 h3 ⊢
        refine ⟨h1, h2.imp_right fun h => ⟨by simp [h.1], h.2⟩, fun x hx hxs => ?_⟩
        rcases List.mem_cons.mp hx with rfl | hx
        · exact le_trans h1 (not_lt.mp h')
        · exact h3 x hx hxs

end Caribou

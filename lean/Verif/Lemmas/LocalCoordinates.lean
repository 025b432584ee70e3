import Verif.Model.LocalCoordinates
import Verif.Lemmas.ElementsD
import Verif.Spec.Boundary

/-! Facts about the Newton loop. -/

set_option autoImplicit false

namespace Caribou

open Spec

section Affine

variable {K : Type*} [Field K] [CharZero K]

theorem affine_world (T : ElementType) {m : ℕ} (c : Fin m → K) (A : Matrix (Fin m) (Fin T.dim) K)
    (hsum : ∀ ξ, ∑ i, (T.elem (K := K)).L ξ i = 1)
    (hcoord : ∀ ξ j, ∑ i, (T.elem (K := K)).node i j * (T.elem (K := K)).L ξ i = ξ j) (ξ : Fin T.dim → K) :
    T.elem.worldCoordinates (fun i => affineMap c A (T.elem.node i)) ξ = affineMap c A ξ := by
  funext a
  simp only [Elem.worldCoordinates, Elem.interpolate, affineMap, add_mul, Finset.sum_add_distrib, ← Finset.mul_sum]
  rw [hsum, mul_one]
  congr 1
  simp only [Finset.sum_mul]
  rw [Finset.sum_comm]
  refine Finset.sum_congr rfl fun j _ => ?_
  simp only [mul_assoc, ← Finset.mul_sum]
  rw [hcoord]

theorem affine_jacobian (T : ElementType) {m : ℕ} (c : Fin m → K) (A : Matrix (Fin m) (Fin T.dim) K)
    (hdsum : ∀ ξ j, ∑ i, (T.elem (K := K)).dL ξ i j = 0) (ξ : Fin T.dim → K) :
    T.elem.jacobian (fun i => affineMap c A (T.elem.node i)) ξ = A := by
  funext a j
  simp only [Elem.jacobian, affineMap, add_mul, Finset.sum_add_distrib, ← Finset.mul_sum]
  rw [hdsum, mul_zero, zero_add]
  simp only [Finset.sum_mul]
  rw [Finset.sum_comm]
  simp only [mul_assoc, ← Finset.mul_sum, elem_dcoord]
  simp

end Affine

variable {K : Type*} [Field K] [LinearOrder K]

theorem doWhile_spec {X : Type*} (step : X → X) (res : X → K) (bound : K) (maxIt it : ℕ) (x : X) :
    ∃ k, 1 ≤ k ∧ (doWhile step res bound maxIt it x) = (step^[k] x, it + k) ∧
      (it + k ≤ maxIt ∨ k = 1) ∧
      (it + k < maxIt → res (step^[k] x) < bound) ∧
      (∀ j, 1 ≤ j → j < k → bound ≤ res (step^[j] x)) := by
  induction it, x using doWhile.induct step res bound maxIt with
  | case1 it x h ih =>
    rw [doWhile, if_pos h]
    obtain ⟨k, h1, h2, h3, h4, h5⟩ := ih
    refine ⟨k + 1, by omega, ?_, ?_, ?_, ?_⟩
    · rw [h2, Function.iterate_succ_apply]; congr 1; omega
    · rcases h3 with h3 | h3 <;> omega
    · intro hk; rw [Function.iterate_succ_apply]; exact h4 (by omega)
    · intro j hj hjk
      rcases Nat.exists_eq_add_of_le' hj with ⟨j', rfl⟩
      rw [Function.iterate_succ_apply]
      rcases Nat.eq_zero_or_pos j' with rfl | hp
      · simpa using h.2
      · exact h5 j' hp (by omega)
  | case2 it x h =>
    rw [doWhile, if_neg h]
    refine ⟨1, le_refl _, rfl, .inr rfl, ?_, ?_⟩
    · intro hk; rw [not_and, not_le] at h; exact h hk
    · intro j hj hjk; omega


omit [LinearOrder K] in
theorem affineMap_eq {d m : ℕ} (c : Fin m → K) (A : Matrix (Fin m) (Fin d) K) (ξ : Fin d → K) :
    affineMap c A ξ = c + A.mulVec ξ := by
  funext a; simp [affineMap, Matrix.mulVec, dotProduct]

omit [LinearOrder K] in
theorem newtonIncrement_square {d : ℕ} (J : Matrix (Fin d) (Fin d) K) (r : Fin d → K) :
    newtonIncrement J r = J⁻¹.mulVec r := by
  simp [newtonIncrement]

omit [LinearOrder K] in
theorem newtonIncrement_rect {m d : ℕ} (h : m ≠ d) (J : Matrix (Fin m) (Fin d) K) (r : Fin m → K) :
    newtonIncrement J r = (J.transpose * J)⁻¹.mulVec (J.transpose.mulVec r) := by
  simp [newtonIncrement, h]

end Caribou

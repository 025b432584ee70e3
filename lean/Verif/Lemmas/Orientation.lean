import Verif.Lemmas.Boundary
import Mathlib.Tactic.Positivity.Core
import Mathlib.Tactic.LinearCombination

/-! Orientation of the side tables. -/

set_option linter.all false
set_option autoImplicit false

namespace Caribou

open Spec

variable {K : Type*} [Field K] [LinearOrder K] [IsStrictOrderedRing K]

theorem volume6_affine (c : Fin 3 → K) (A : Matrix (Fin 3) (Fin 3) K) (p q r s : Fin 3 → K) :
    volume6 (affineMap c A p) (affineMap c A q) (affineMap c A r) (affineMap c A s) = A.det * volume6 p q r s := by
  simp only [volume6, affineMap, sum_fin3, Matrix.det_fin_three]
  ring

theorem area2_affine (c : Fin 2 → K) (A : Matrix (Fin 2) (Fin 2) K) (p q r : Fin 2 → K) :
    area2 (affineMap c A p) (affineMap c A q) (affineMap c A r) = A.det * area2 p q r := by
  simp only [area2, affineMap, sum_fin2, Matrix.det_fin_two]
  ring

theorem triangle1_ccw : CounterClockwise (k := 0) (triangle1 (K := K)).node triangle1Sides := by
  intro c A hA i l hl
  rw [area2_affine]
  refine mul_pos hA ?_
  clear hA A c
  fin_cases i <;> fin_cases l <;> first
    | exact absurd rfl (hl 0)
    | exact absurd rfl (hl 1)
    | (simp only [area2, triangle1, triangle1Sides, Matrix.cons_val, Fin.isValue, Fin.reduceFinMk, Fin.zero_eta, Fin.mk_one]; norm_num)

theorem triangle2_ccw : CounterClockwise (k := 1) (triangle2 (K := K)).node triangle2Sides := by
  intro c A hA i l hl
  rw [area2_affine]
  refine mul_pos hA ?_
  clear hA A c
  fin_cases i <;> fin_cases l <;> first
    | exact absurd rfl (hl 0)
    | exact absurd rfl (hl 1)
    | exact absurd rfl (hl 2)
    | (simp only [area2, triangle2, triangle2Sides, Matrix.cons_val, Fin.isValue, Fin.reduceFinMk, Fin.zero_eta, Fin.mk_one]; norm_num)

theorem quad1_ccw : CounterClockwise (k := 0) (quad1 (K := K)).node quad1Sides := by
  intro c A hA i l hl
  rw [area2_affine]
  refine mul_pos hA ?_
  clear hA A c
  fin_cases i <;> fin_cases l <;> first
    | exact absurd rfl (hl 0)
    | exact absurd rfl (hl 1)
    | (simp only [area2, quad1, quad1Sides, Matrix.cons_val, Fin.isValue, Fin.reduceFinMk, Fin.zero_eta, Fin.mk_one]; norm_num)

theorem quad2_ccw : CounterClockwise (k := 1) (quad2 (K := K)).node quad2Sides := by
  intro c A hA i l hl
  rw [area2_affine]
  refine mul_pos hA ?_
  clear hA A c
  fin_cases i <;> fin_cases l <;> first
    | exact absurd rfl (hl 0)
    | exact absurd rfl (hl 1)
    | exact absurd rfl (hl 2)
    | (simp only [area2, quad2, quad2Sides, Matrix.cons_val, Fin.isValue, Fin.reduceFinMk, Fin.zero_eta, Fin.mk_one]; norm_num)

theorem tetra1_outward : OutwardNormals (k := 0) (tetra1 (K := K)).node tetra1Sides := by
  intro c A hA i l hl
  rw [volume6_affine]
  refine mul_neg_of_pos_of_neg hA ?_
  clear hA A c
  fin_cases i <;> fin_cases l <;> first
    | exact absurd rfl (hl 0)
    | exact absurd rfl (hl 1)
    | exact absurd rfl (hl 2)
    | (simp only [volume6, tetra1, tetra1Sides, Matrix.cons_val, Fin.isValue, Fin.reduceFinMk, Fin.zero_eta, Fin.mk_one]; norm_num)

theorem tetra2_outward : OutwardNormals (k := 3) (tetra2 (K := K)).node tetra2Sides := by
  intro c A hA i l hl
  rw [volume6_affine]
  refine mul_neg_of_pos_of_neg hA ?_
  clear hA A c
  fin_cases i <;> fin_cases l <;> first
    | exact absurd rfl (hl 0)
    | exact absurd rfl (hl 1)
    | exact absurd rfl (hl 2)
    | exact absurd rfl (hl 3)
    | exact absurd rfl (hl 4)
    | exact absurd rfl (hl 5)
    | (simp only [volume6, tetra2, tetra2Sides, Matrix.cons_val, Fin.isValue, Fin.reduceFinMk, Fin.zero_eta, Fin.mk_one]; norm_num)

theorem hexa1_outward : OutwardNormals (k := 1) (hexa1 (K := K)).node hexa1Sides := by
  intro c A hA i l hl
  rw [volume6_affine]
  refine mul_neg_of_pos_of_neg hA ?_
  clear hA A c
  fin_cases i <;> fin_cases l <;> first
    | exact absurd rfl (hl 0)
    | exact absurd rfl (hl 1)
    | exact absurd rfl (hl 2)
    | exact absurd rfl (hl 3)
    | (simp only [volume6, hexa1, hexa1Sides, Matrix.cons_val, Fin.isValue, Fin.reduceFinMk, Fin.zero_eta, Fin.mk_one]; norm_num)

theorem hexa2_outward : OutwardNormals (k := 5) (hexa2 (K := K)).node hexa2Sides := by
  intro c A hA i l hl
  rw [volume6_affine]
  refine mul_neg_of_pos_of_neg hA ?_
  clear hA A c
  fin_cases i <;> fin_cases l <;> first
    | exact absurd rfl (hl 0)
    | exact absurd rfl (hl 1)
    | exact absurd rfl (hl 2)
    | exact absurd rfl (hl 3)
    | exact absurd rfl (hl 4)
    | exact absurd rfl (hl 5)
    | exact absurd rfl (hl 6)
    | exact absurd rfl (hl 7)
    | (simp only [volume6, hexa2, hexa2Sides, Matrix.cons_val, Fin.isValue, Fin.reduceFinMk, Fin.zero_eta, Fin.mk_one]; norm_num)

end Caribou

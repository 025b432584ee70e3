import Verif.Lemmas.Elements

/-! First moments of the shape function derivatives. -/

set_option linter.all false
set_option autoImplicit false

namespace Caribou

variable {K : Type*} [Field K] [CharZero K]

theorem segment1_dcoord (ξ : Fin 1 → K) (a j : Fin 1) :
    ∑ i, (segment1 (K := K)).node i a * (segment1 (K := K)).dL ξ i j = if a = j then 1 else 0 := by
  fin_cases a <;> fin_cases j <;>
    first
      | (refine Eq.trans ?_ (if_pos rfl).symm; rw [sum_fin2]; simp only [segment1, Matrix.cons_val, Fin.isValue, Fin.reduceFinMk, Fin.zero_eta, Fin.mk_one]; ring)
      | (refine Eq.trans ?_ (if_neg (by decide)).symm; rw [sum_fin2]; simp only [segment1, Matrix.cons_val, Fin.isValue, Fin.reduceFinMk, Fin.zero_eta, Fin.mk_one]; ring)

theorem segment2_dcoord (ξ : Fin 1 → K) (a j : Fin 1) :
    ∑ i, (segment2 (K := K)).node i a * (segment2 (K := K)).dL ξ i j = if a = j then 1 else 0 := by
  fin_cases a <;> fin_cases j <;>
    first
      | (refine Eq.trans ?_ (if_pos rfl).symm; rw [sum_fin3]; simp only [segment2, Matrix.cons_val, Fin.isValue, Fin.reduceFinMk, Fin.zero_eta, Fin.mk_one]; ring)
      | (refine Eq.trans ?_ (if_neg (by decide)).symm; rw [sum_fin3]; simp only [segment2, Matrix.cons_val, Fin.isValue, Fin.reduceFinMk, Fin.zero_eta, Fin.mk_one]; ring)

theorem triangle1_dcoord (ξ : Fin 2 → K) (a j : Fin 2) :
    ∑ i, (triangle1 (K := K)).node i a * (triangle1 (K := K)).dL ξ i j = if a = j then 1 else 0 := by
  fin_cases a <;> fin_cases j <;>
    first
      | (refine Eq.trans ?_ (if_pos rfl).symm; rw [sum_fin3]; simp only [triangle1, Matrix.cons_val, Fin.isValue, Fin.reduceFinMk, Fin.zero_eta, Fin.mk_one]; ring)
      | (refine Eq.trans ?_ (if_neg (by decide)).symm; rw [sum_fin3]; simp only [triangle1, Matrix.cons_val, Fin.isValue, Fin.reduceFinMk, Fin.zero_eta, Fin.mk_one]; ring)

theorem triangle2_dcoord (ξ : Fin 2 → K) (a j : Fin 2) :
    ∑ i, (triangle2 (K := K)).node i a * (triangle2 (K := K)).dL ξ i j = if a = j then 1 else 0 := by
  fin_cases a <;> fin_cases j <;>
    first
      | (refine Eq.trans ?_ (if_pos rfl).symm; rw [sum_fin6]; simp only [triangle2, Matrix.cons_val, Fin.isValue, Fin.reduceFinMk, Fin.zero_eta, Fin.mk_one]; ring)
      | (refine Eq.trans ?_ (if_neg (by decide)).symm; rw [sum_fin6]; simp only [triangle2, Matrix.cons_val, Fin.isValue, Fin.reduceFinMk, Fin.zero_eta, Fin.mk_one]; ring)

theorem quad1_dcoord (ξ : Fin 2 → K) (a j : Fin 2) :
    ∑ i, (quad1 (K := K)).node i a * (quad1 (K := K)).dL ξ i j = if a = j then 1 else 0 := by
  fin_cases a <;> fin_cases j <;>
    first
      | (refine Eq.trans ?_ (if_pos rfl).symm; rw [sum_fin4]; simp only [quad1, Matrix.cons_val, Fin.isValue, Fin.reduceFinMk, Fin.zero_eta, Fin.mk_one]; ring)
      | (refine Eq.trans ?_ (if_neg (by decide)).symm; rw [sum_fin4]; simp only [quad1, Matrix.cons_val, Fin.isValue, Fin.reduceFinMk, Fin.zero_eta, Fin.mk_one]; ring)

theorem quad2_dcoord (ξ : Fin 2 → K) (a j : Fin 2) :
    ∑ i, (quad2 (K := K)).node i a * (quad2 (K := K)).dL ξ i j = if a = j then 1 else 0 := by
  fin_cases a <;> fin_cases j <;>
    first
      | (refine Eq.trans ?_ (if_pos rfl).symm; rw [sum_fin8]; simp only [quad2, Matrix.cons_val, Fin.isValue, Fin.reduceFinMk, Fin.zero_eta, Fin.mk_one]; ring)
      | (refine Eq.trans ?_ (if_neg (by decide)).symm; rw [sum_fin8]; simp only [quad2, Matrix.cons_val, Fin.isValue, Fin.reduceFinMk, Fin.zero_eta, Fin.mk_one]; ring)

theorem tetra1_dcoord (ξ : Fin 3 → K) (a j : Fin 3) :
    ∑ i, (tetra1 (K := K)).node i a * (tetra1 (K := K)).dL ξ i j = if a = j then 1 else 0 := by
  fin_cases a <;> fin_cases j <;>
    first
      | (refine Eq.trans ?_ (if_pos rfl).symm; rw [sum_fin4]; simp only [tetra1, Matrix.cons_val, Fin.isValue, Fin.reduceFinMk, Fin.zero_eta, Fin.mk_one]; ring)
      | (refine Eq.trans ?_ (if_neg (by decide)).symm; rw [sum_fin4]; simp only [tetra1, Matrix.cons_val, Fin.isValue, Fin.reduceFinMk, Fin.zero_eta, Fin.mk_one]; ring)

theorem tetra2_dcoord (ξ : Fin 3 → K) (a j : Fin 3) :
    ∑ i, (tetra2 (K := K)).node i a * (tetra2 (K := K)).dL ξ i j = if a = j then 1 else 0 := by
  fin_cases a <;> fin_cases j <;>
    first
      | (refine Eq.trans ?_ (if_pos rfl).symm; rw [sum_fin10]; simp only [tetra2, Matrix.cons_val, Fin.isValue, Fin.reduceFinMk, Fin.zero_eta, Fin.mk_one]; ring)
      | (refine Eq.trans ?_ (if_neg (by decide)).symm; rw [sum_fin10]; simp only [tetra2, Matrix.cons_val, Fin.isValue, Fin.reduceFinMk, Fin.zero_eta, Fin.mk_one]; ring)

theorem hexa1_dcoord (ξ : Fin 3 → K) (a j : Fin 3) :
    ∑ i, (hexa1 (K := K)).node i a * (hexa1 (K := K)).dL ξ i j = if a = j then 1 else 0 := by
  fin_cases a <;> fin_cases j <;>
    first
      | (refine Eq.trans ?_ (if_pos rfl).symm; rw [sum_fin8]; simp only [hexa1, Matrix.cons_val, Fin.isValue, Fin.reduceFinMk, Fin.zero_eta, Fin.mk_one]; ring)
      | (refine Eq.trans ?_ (if_neg (by decide)).symm; rw [sum_fin8]; simp only [hexa1, Matrix.cons_val, Fin.isValue, Fin.reduceFinMk, Fin.zero_eta, Fin.mk_one]; ring)

theorem hexa2_dcoord (ξ : Fin 3 → K) (a j : Fin 3) :
    ∑ i, (hexa2 (K := K)).node i a * (hexa2 (K := K)).dL ξ i j = if a = j then 1 else 0 := by
  fin_cases a <;> fin_cases j <;>
    first
      | (refine Eq.trans ?_ (if_pos rfl).symm; rw [sum_fin20]; simp only [hexa2, hexa2Mid, hexa2dMid, Matrix.cons_val, Fin.isValue, Fin.reduceFinMk, Fin.zero_eta, Fin.mk_one]; ring)
      | (refine Eq.trans ?_ (if_neg (by decide)).symm; rw [sum_fin20]; simp only [hexa2, hexa2Mid, hexa2dMid, Matrix.cons_val, Fin.isValue, Fin.reduceFinMk, Fin.zero_eta, Fin.mk_one]; ring)

theorem elem_dcoord (T : ElementType) (ξ : Fin T.dim → K) (a j : Fin T.dim) :
    ∑ i, (T.elem (K := K)).node i a * (T.elem (K := K)).dL ξ i j = if a = j then 1 else 0 := by
  cases T
  · exact segment1_dcoord ξ a j
  · exact segment2_dcoord ξ a j
  · exact triangle1_dcoord ξ a j
  · exact triangle2_dcoord ξ a j
  · exact quad1_dcoord ξ a j
  · exact quad2_dcoord ξ a j
  · exact tetra1_dcoord ξ a j
  · exact tetra2_dcoord ξ a j
  · exact hexa1_dcoord ξ a j
  · exact hexa2_dcoord ξ a j
  · exact quad1_dcoord ξ a j
  · exact quad2_dcoord ξ a j
  · exact hexa1_dcoord ξ a j
  · exact hexa2_dcoord ξ a j

end Caribou

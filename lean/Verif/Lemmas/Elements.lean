import Verif.Model.Elements
import Verif.Spec.Interpolation
import Mathlib.Tactic.Ring
import Mathlib.Tactic.FinCases
import Mathlib.Tactic.NormNum
import Mathlib.Analysis.Calculus.Deriv.Mul
import Mathlib.Analysis.Calculus.Deriv.Pow
import Mathlib.Analysis.Calculus.Deriv.Add

/-!
Per-element identities behind the shape function properties.
-/

set_option linter.all false
set_option autoImplicit false

namespace Caribou

section Algebra

variable {K : Type*} [Field K] [CharZero K]

omit [CharZero K] in
theorem sum_fin2 (f : Fin 2 → K) : ∑ i, f i = f 0 + f 1 := by
  simp only [Fin.sum_univ_castSucc, Fin.sum_univ_zero, zero_add]
  rfl

omit [CharZero K] in
theorem sum_fin3 (f : Fin 3 → K) : ∑ i, f i = f 0 + f 1 + f 2 := by
  simp only [Fin.sum_univ_castSucc, Fin.sum_univ_zero, zero_add]
  rfl

omit [CharZero K] in
theorem sum_fin4 (f : Fin 4 → K) : ∑ i, f i = f 0 + f 1 + f 2 + f 3 := by
  simp only [Fin.sum_univ_castSucc, Fin.sum_univ_zero, zero_add]
  rfl

omit [CharZero K] in
theorem sum_fin6 (f : Fin 6 → K) : ∑ i, f i = f 0 + f 1 + f 2 + f 3 + f 4 + f 5 := by
  simp only [Fin.sum_univ_castSucc, Fin.sum_univ_zero, zero_add]
  rfl

omit [CharZero K] in
theorem sum_fin8 (f : Fin 8 → K) : ∑ i, f i = f 0 + f 1 + f 2 + f 3 + f 4 + f 5 + f 6 + f 7 := by
  simp only [Fin.sum_univ_castSucc, Fin.sum_univ_zero, zero_add]
  rfl

omit [CharZero K] in
theorem sum_fin10 (f : Fin 10 → K) : ∑ i, f i = f 0 + f 1 + f 2 + f 3 + f 4 + f 5 + f 6 + f 7 + f 8 + f 9 := by
  simp only [Fin.sum_univ_castSucc, Fin.sum_univ_zero, zero_add]
  rfl

omit [CharZero K] in
theorem sum_fin12 (f : Fin 12 → K) : ∑ i, f i = f 0 + f 1 + f 2 + f 3 + f 4 + f 5 + f 6 + f 7 + f 8 + f 9 + f 10 + f 11 := by
  simp only [Fin.sum_univ_castSucc, Fin.sum_univ_zero, zero_add]
  rfl

omit [CharZero K] in
theorem sum_fin20 (f : Fin 20 → K) : ∑ i, f i = f 0 + f 1 + f 2 + f 3 + f 4 + f 5 + f 6 + f 7 + f 8 + f 9 + f 10 + f 11 + f 12 + f 13 + f 14 + f 15 + f 16 + f 17 + f 18 + f 19 := by
  simp only [Fin.sum_univ_castSucc, Fin.sum_univ_zero, zero_add]
  rfl

theorem segment1_sum (ξ : Fin 1 → K) : ∑ i, (segment1 (K := K)).L ξ i = 1 := by
  (rw [sum_fin2]; simp only [segment1, Matrix.cons_val, Fin.isValue, Fin.reduceFinMk, Fin.zero_eta, Fin.mk_one]; ring)

theorem segment2_sum (ξ : Fin 1 → K) : ∑ i, (segment2 (K := K)).L ξ i = 1 := by
  (rw [sum_fin3]; simp only [segment2, Matrix.cons_val, Fin.isValue, Fin.reduceFinMk, Fin.zero_eta, Fin.mk_one]; ring)

theorem triangle1_sum (ξ : Fin 2 → K) : ∑ i, (triangle1 (K := K)).L ξ i = 1 := by
  (rw [sum_fin3]; simp only [triangle1, Matrix.cons_val, Fin.isValue, Fin.reduceFinMk, Fin.zero_eta, Fin.mk_one]; ring)

theorem triangle2_sum (ξ : Fin 2 → K) : ∑ i, (triangle2 (K := K)).L ξ i = 1 := by
  (rw [sum_fin6]; simp only [triangle2, Matrix.cons_val, Fin.isValue, Fin.reduceFinMk, Fin.zero_eta, Fin.mk_one]; ring)

theorem quad1_sum (ξ : Fin 2 → K) : ∑ i, (quad1 (K := K)).L ξ i = 1 := by
  (rw [sum_fin4]; simp only [quad1, Matrix.cons_val, Fin.isValue, Fin.reduceFinMk, Fin.zero_eta, Fin.mk_one]; ring)

theorem quad2_sum (ξ : Fin 2 → K) : ∑ i, (quad2 (K := K)).L ξ i = 1 := by
  (rw [sum_fin8]; simp only [quad2, Matrix.cons_val, Fin.isValue, Fin.reduceFinMk, Fin.zero_eta, Fin.mk_one]; ring)

theorem tetra1_sum (ξ : Fin 3 → K) : ∑ i, (tetra1 (K := K)).L ξ i = 1 := by
  (rw [sum_fin4]; simp only [tetra1, Matrix.cons_val, Fin.isValue, Fin.reduceFinMk, Fin.zero_eta, Fin.mk_one]; ring)

theorem tetra2_sum (ξ : Fin 3 → K) : ∑ i, (tetra2 (K := K)).L ξ i = 1 := by
  (rw [sum_fin10]; simp only [tetra2, Matrix.cons_val, Fin.isValue, Fin.reduceFinMk, Fin.zero_eta, Fin.mk_one]; ring)

theorem hexa1_sum (ξ : Fin 3 → K) : ∑ i, (hexa1 (K := K)).L ξ i = 1 := by
  (rw [sum_fin8]; simp only [hexa1, Matrix.cons_val, Fin.isValue, Fin.reduceFinMk, Fin.zero_eta, Fin.mk_one]; ring)

theorem hexa2_sum (ξ : Fin 3 → K) : ∑ i, (hexa2 (K := K)).L ξ i = 1 := by
  (rw [sum_fin20]; simp only [hexa2, hexa2Mid, hexa2dMid, Matrix.cons_val, Fin.isValue, Fin.reduceFinMk, Fin.zero_eta, Fin.mk_one]; ring)

theorem segment1_nodal (j : Fin 2) :
    (segment1 (K := K)).L (segment1.node j) = fun i => if i = j then 1 else 0 := by
  fin_cases j <;>
  · simp only [segment1]
    norm_num
    funext i
    fin_cases i <;> simp <;> norm_num

theorem segment2_nodal (j : Fin 3) :
    (segment2 (K := K)).L (segment2.node j) = fun i => if i = j then 1 else 0 := by
  fin_cases j <;>
  · simp only [segment2]
    norm_num
    funext i
    fin_cases i <;> simp <;> norm_num

theorem triangle1_nodal (j : Fin 3) :
    (triangle1 (K := K)).L (triangle1.node j) = fun i => if i = j then 1 else 0 := by
  fin_cases j <;>
  · simp only [triangle1]
    norm_num
    funext i
    fin_cases i <;> simp <;> norm_num

theorem triangle2_nodal (j : Fin 6) :
    (triangle2 (K := K)).L (triangle2.node j) = fun i => if i = j then 1 else 0 := by
  fin_cases j <;>
  · simp only [triangle2]
    norm_num
    funext i
    fin_cases i <;> simp <;> norm_num

theorem quad1_nodal (j : Fin 4) :
    (quad1 (K := K)).L (quad1.node j) = fun i => if i = j then 1 else 0 := by
  fin_cases j <;>
  · simp only [quad1]
    norm_num
    funext i
    fin_cases i <;> simp <;> norm_num

set_option maxHeartbeats 2000000 in
theorem quad2_nodal (j : Fin 8) :
    (quad2 (K := K)).L (quad2.node j) = fun i => if i = j then 1 else 0 := by
  fin_cases j <;>
  · simp only [quad2]
    norm_num
    funext i
    fin_cases i <;> simp <;> norm_num

theorem tetra1_nodal (j : Fin 4) :
    (tetra1 (K := K)).L (tetra1.node j) = fun i => if i = j then 1 else 0 := by
  fin_cases j <;>
  · simp only [tetra1]
    norm_num
    funext i
    fin_cases i <;> simp <;> norm_num

set_option maxHeartbeats 2000000 in
theorem tetra2_nodal (j : Fin 10) :
    (tetra2 (K := K)).L (tetra2.node j) = fun i => if i = j then 1 else 0 := by
  fin_cases j <;>
  · simp only [tetra2]
    norm_num
    funext i
    fin_cases i <;> simp <;> norm_num

set_option maxHeartbeats 2000000 in
theorem hexa1_nodal (j : Fin 8) :
    (hexa1 (K := K)).L (hexa1.node j) = fun i => if i = j then 1 else 0 := by
  fin_cases j <;>
  · simp only [hexa1]
    norm_num
    funext i
    fin_cases i <;> simp <;> norm_num

set_option maxHeartbeats 2000000 in
theorem hexa2_nodal (j : Fin 20) :
    (hexa2 (K := K)).L (hexa2.node j) = fun i => if i = j then 1 else 0 := by
  fin_cases j <;>
  · simp only [hexa2, hexa2Mid, hexa2dMid]
    norm_num
    funext i
    fin_cases i <;> simp <;> norm_num

theorem segment1_dsum (ξ : Fin 1 → K) (j : Fin 1) : ∑ i, (segment1 (K := K)).dL ξ i j = 0 := by
  fin_cases j <;> (rw [sum_fin2]; simp only [segment1, Matrix.cons_val, Fin.isValue, Fin.reduceFinMk, Fin.zero_eta, Fin.mk_one]; ring)

theorem segment2_dsum (ξ : Fin 1 → K) (j : Fin 1) : ∑ i, (segment2 (K := K)).dL ξ i j = 0 := by
  fin_cases j <;> (rw [sum_fin3]; simp only [segment2, Matrix.cons_val, Fin.isValue, Fin.reduceFinMk, Fin.zero_eta, Fin.mk_one]; ring)

theorem triangle1_dsum (ξ : Fin 2 → K) (j : Fin 2) : ∑ i, (triangle1 (K := K)).dL ξ i j = 0 := by
  fin_cases j <;> (rw [sum_fin3]; simp only [triangle1, Matrix.cons_val, Fin.isValue, Fin.reduceFinMk, Fin.zero_eta, Fin.mk_one]; ring)

theorem triangle2_dsum (ξ : Fin 2 → K) (j : Fin 2) : ∑ i, (triangle2 (K := K)).dL ξ i j = 0 := by
  fin_cases j <;> (rw [sum_fin6]; simp only [triangle2, Matrix.cons_val, Fin.isValue, Fin.reduceFinMk, Fin.zero_eta, Fin.mk_one]; ring)

theorem quad1_dsum (ξ : Fin 2 → K) (j : Fin 2) : ∑ i, (quad1 (K := K)).dL ξ i j = 0 := by
  fin_cases j <;> (rw [sum_fin4]; simp only [quad1, Matrix.cons_val, Fin.isValue, Fin.reduceFinMk, Fin.zero_eta, Fin.mk_one]; ring)

theorem quad2_dsum (ξ : Fin 2 → K) (j : Fin 2) : ∑ i, (quad2 (K := K)).dL ξ i j = 0 := by
  fin_cases j <;> (rw [sum_fin8]; simp only [quad2, Matrix.cons_val, Fin.isValue, Fin.reduceFinMk, Fin.zero_eta, Fin.mk_one]; ring)

theorem tetra1_dsum (ξ : Fin 3 → K) (j : Fin 3) : ∑ i, (tetra1 (K := K)).dL ξ i j = 0 := by
  fin_cases j <;> (rw [sum_fin4]; simp only [tetra1, Matrix.cons_val, Fin.isValue, Fin.reduceFinMk, Fin.zero_eta, Fin.mk_one]; ring)

theorem tetra2_dsum (ξ : Fin 3 → K) (j : Fin 3) : ∑ i, (tetra2 (K := K)).dL ξ i j = 0 := by
  fin_cases j <;> (rw [sum_fin10]; simp only [tetra2, Matrix.cons_val, Fin.isValue, Fin.reduceFinMk, Fin.zero_eta, Fin.mk_one]; ring)

theorem hexa1_dsum (ξ : Fin 3 → K) (j : Fin 3) : ∑ i, (hexa1 (K := K)).dL ξ i j = 0 := by
  fin_cases j <;> (rw [sum_fin8]; simp only [hexa1, Matrix.cons_val, Fin.isValue, Fin.reduceFinMk, Fin.zero_eta, Fin.mk_one]; ring)

theorem hexa2_dsum (ξ : Fin 3 → K) (j : Fin 3) : ∑ i, (hexa2 (K := K)).dL ξ i j = 0 := by
  fin_cases j <;> (rw [sum_fin20]; simp only [hexa2, hexa2Mid, hexa2dMid, Matrix.cons_val, Fin.isValue, Fin.reduceFinMk, Fin.zero_eta, Fin.mk_one]; ring)

theorem segment1_coord (ξ : Fin 1 → K) (j : Fin 1) :
    ∑ i, (segment1 (K := K)).node i j * (segment1 (K := K)).L ξ i = ξ j := by
  fin_cases j <;> (rw [sum_fin2]; simp only [segment1, Matrix.cons_val, Fin.isValue, Fin.reduceFinMk, Fin.zero_eta, Fin.mk_one]; ring)

theorem segment2_coord (ξ : Fin 1 → K) (j : Fin 1) :
    ∑ i, (segment2 (K := K)).node i j * (segment2 (K := K)).L ξ i = ξ j := by
  fin_cases j <;> (rw [sum_fin3]; simp only [segment2, Matrix.cons_val, Fin.isValue, Fin.reduceFinMk, Fin.zero_eta, Fin.mk_one]; ring)

theorem triangle1_coord (ξ : Fin 2 → K) (j : Fin 2) :
    ∑ i, (triangle1 (K := K)).node i j * (triangle1 (K := K)).L ξ i = ξ j := by
  fin_cases j <;> (rw [sum_fin3]; simp only [triangle1, Matrix.cons_val, Fin.isValue, Fin.reduceFinMk, Fin.zero_eta, Fin.mk_one]; ring)

theorem triangle2_coord (ξ : Fin 2 → K) (j : Fin 2) :
    ∑ i, (triangle2 (K := K)).node i j * (triangle2 (K := K)).L ξ i = ξ j := by
  fin_cases j <;> (rw [sum_fin6]; simp only [triangle2, Matrix.cons_val, Fin.isValue, Fin.reduceFinMk, Fin.zero_eta, Fin.mk_one]; ring)

theorem quad1_coord (ξ : Fin 2 → K) (j : Fin 2) :
    ∑ i, (quad1 (K := K)).node i j * (quad1 (K := K)).L ξ i = ξ j := by
  fin_cases j <;> (rw [sum_fin4]; simp only [quad1, Matrix.cons_val, Fin.isValue, Fin.reduceFinMk, Fin.zero_eta, Fin.mk_one]; ring)

theorem quad2_coord (ξ : Fin 2 → K) (j : Fin 2) :
    ∑ i, (quad2 (K := K)).node i j * (quad2 (K := K)).L ξ i = ξ j := by
  fin_cases j <;> (rw [sum_fin8]; simp only [quad2, Matrix.cons_val, Fin.isValue, Fin.reduceFinMk, Fin.zero_eta, Fin.mk_one]; ring)

theorem tetra1_coord (ξ : Fin 3 → K) (j : Fin 3) :
    ∑ i, (tetra1 (K := K)).node i j * (tetra1 (K := K)).L ξ i = ξ j := by
  fin_cases j <;> (rw [sum_fin4]; simp only [tetra1, Matrix.cons_val, Fin.isValue, Fin.reduceFinMk, Fin.zero_eta, Fin.mk_one]; ring)

theorem tetra2_coord (ξ : Fin 3 → K) (j : Fin 3) :
    ∑ i, (tetra2 (K := K)).node i j * (tetra2 (K := K)).L ξ i = ξ j := by
  fin_cases j <;> (rw [sum_fin10]; simp only [tetra2, Matrix.cons_val, Fin.isValue, Fin.reduceFinMk, Fin.zero_eta, Fin.mk_one]; ring)

theorem hexa1_coord (ξ : Fin 3 → K) (j : Fin 3) :
    ∑ i, (hexa1 (K := K)).node i j * (hexa1 (K := K)).L ξ i = ξ j := by
  fin_cases j <;> (rw [sum_fin8]; simp only [hexa1, Matrix.cons_val, Fin.isValue, Fin.reduceFinMk, Fin.zero_eta, Fin.mk_one]; ring)

theorem hexa2_coord (ξ : Fin 3 → K) (j : Fin 3) :
    ∑ i, (hexa2 (K := K)).node i j * (hexa2 (K := K)).L ξ i = ξ j := by
  fin_cases j <;> (rw [sum_fin20]; simp only [hexa2, hexa2Mid, hexa2dMid, Matrix.cons_val, Fin.isValue, Fin.reduceFinMk, Fin.zero_eta, Fin.mk_one]; ring)

theorem segment2_coord2 (ξ : Fin 1 → K) (j l : Fin 1) :
    ∑ i, ((segment2 (K := K)).node i j * (segment2 (K := K)).node i l) * (segment2 (K := K)).L ξ i = ξ j * ξ l := by
  fin_cases j <;> fin_cases l <;> (rw [sum_fin3]; simp only [segment2, Matrix.cons_val, Fin.isValue, Fin.reduceFinMk, Fin.zero_eta, Fin.mk_one]; ring)

theorem triangle2_coord2 (ξ : Fin 2 → K) (j l : Fin 2) :
    ∑ i, ((triangle2 (K := K)).node i j * (triangle2 (K := K)).node i l) * (triangle2 (K := K)).L ξ i = ξ j * ξ l := by
  fin_cases j <;> fin_cases l <;> (rw [sum_fin6]; simp only [triangle2, Matrix.cons_val, Fin.isValue, Fin.reduceFinMk, Fin.zero_eta, Fin.mk_one]; ring)

theorem quad2_coord2 (ξ : Fin 2 → K) (j l : Fin 2) :
    ∑ i, ((quad2 (K := K)).node i j * (quad2 (K := K)).node i l) * (quad2 (K := K)).L ξ i = ξ j * ξ l := by
  fin_cases j <;> fin_cases l <;> (rw [sum_fin8]; simp only [quad2, Matrix.cons_val, Fin.isValue, Fin.reduceFinMk, Fin.zero_eta, Fin.mk_one]; ring)

theorem tetra2_coord2 (ξ : Fin 3 → K) (j l : Fin 3) :
    ∑ i, ((tetra2 (K := K)).node i j * (tetra2 (K := K)).node i l) * (tetra2 (K := K)).L ξ i = ξ j * ξ l := by
  fin_cases j <;> fin_cases l <;> (rw [sum_fin10]; simp only [tetra2, Matrix.cons_val, Fin.isValue, Fin.reduceFinMk, Fin.zero_eta, Fin.mk_one]; ring)

theorem hexa2_coord2 (ξ : Fin 3 → K) (j l : Fin 3) :
    ∑ i, ((hexa2 (K := K)).node i j * (hexa2 (K := K)).node i l) * (hexa2 (K := K)).L ξ i = ξ j * ξ l := by
  fin_cases j <;> fin_cases l <;> (rw [sum_fin20]; simp only [hexa2, hexa2Mid, hexa2dMid, Matrix.cons_val, Fin.isValue, Fin.reduceFinMk, Fin.zero_eta, Fin.mk_one]; ring)

end Algebra

section Deriv

/-- A function with an exact second-order expansion has the first-order coefficient as derivative. -/
theorem hasDerivAt_of_quadratic {f : ℝ → ℝ} {a d c : ℝ}
    (h : ∀ t, f t = f a + (t - a) * d + (t - a) ^ 2 * c) : HasDerivAt f d a := by
  have h1 : HasDerivAt (fun t : ℝ => f a + (t - a) * d + (t - a) ^ 2 * c) d a := by
    have hx : HasDerivAt (fun t : ℝ => t - a) 1 a := (hasDerivAt_id a).sub_const a
    have h2 := ((hx.mul_const d).const_add (f a)).add ((hx.pow 2).mul_const c)
    simp at h2
    exact h2
  have : f = fun t : ℝ => f a + (t - a) * d + (t - a) ^ 2 * c := funext h
  rw [this]
  exact h1

theorem update1_0 (ξ : Fin 1 → ℝ) (t : ℝ) : Function.update ξ 0 t = ![t] := by
  funext i; fin_cases i <;> rfl

theorem update2_0 (ξ : Fin 2 → ℝ) (t : ℝ) : Function.update ξ 0 t = ![t, ξ 1] := by
  funext i; fin_cases i <;> rfl

theorem update2_1 (ξ : Fin 2 → ℝ) (t : ℝ) : Function.update ξ 1 t = ![ξ 0, t] := by
  funext i; fin_cases i <;> rfl

theorem update3_0 (ξ : Fin 3 → ℝ) (t : ℝ) : Function.update ξ 0 t = ![t, ξ 1, ξ 2] := by
  funext i; fin_cases i <;> rfl

theorem update3_1 (ξ : Fin 3 → ℝ) (t : ℝ) : Function.update ξ 1 t = ![ξ 0, t, ξ 2] := by
  funext i; fin_cases i <;> rfl

theorem update3_2 (ξ : Fin 3 → ℝ) (t : ℝ) : Function.update ξ 2 t = ![ξ 0, ξ 1, t] := by
  funext i; fin_cases i <;> rfl

theorem segment1_deriv0 (ξ : Fin 1 → ℝ) (i : Fin 2) :
    HasDerivAt (fun t => (segment1 (K := ℝ)).L (Function.update ξ 0 t) i) ((segment1 (K := ℝ)).dL ξ i 0) (ξ 0) := by
  apply hasDerivAt_of_quadratic (c := ((segment1 (K := ℝ)).L ![ξ 0 + 1] i
    + (segment1 (K := ℝ)).L ![ξ 0 - 1] i) / 2 - (segment1 (K := ℝ)).L ![ξ 0] i)
  intro t
  rw [update1_0, update1_0]
  simp only [segment1, Matrix.cons_val]
  fin_cases i <;> simp only [Matrix.cons_val, Fin.isValue, Fin.reduceFinMk, Fin.zero_eta, Fin.mk_one] <;> ring

theorem segment2_deriv0 (ξ : Fin 1 → ℝ) (i : Fin 3) :
    HasDerivAt (fun t => (segment2 (K := ℝ)).L (Function.update ξ 0 t) i) ((segment2 (K := ℝ)).dL ξ i 0) (ξ 0) := by
  apply hasDerivAt_of_quadratic (c := ((segment2 (K := ℝ)).L ![ξ 0 + 1] i
    + (segment2 (K := ℝ)).L ![ξ 0 - 1] i) / 2 - (segment2 (K := ℝ)).L ![ξ 0] i)
  intro t
  rw [update1_0, update1_0]
  simp only [segment2, Matrix.cons_val]
  fin_cases i <;> simp only [Matrix.cons_val, Fin.isValue, Fin.reduceFinMk, Fin.zero_eta, Fin.mk_one] <;> ring

theorem triangle1_deriv0 (ξ : Fin 2 → ℝ) (i : Fin 3) :
    HasDerivAt (fun t => (triangle1 (K := ℝ)).L (Function.update ξ 0 t) i) ((triangle1 (K := ℝ)).dL ξ i 0) (ξ 0) := by
  apply hasDerivAt_of_quadratic (c := ((triangle1 (K := ℝ)).L ![ξ 0 + 1, ξ 1] i
    + (triangle1 (K := ℝ)).L ![ξ 0 - 1, ξ 1] i) / 2 - (triangle1 (K := ℝ)).L ![ξ 0, ξ 1] i)
  intro t
  rw [update2_0, update2_0]
  simp only [triangle1, Matrix.cons_val]
  fin_cases i <;> simp only [Matrix.cons_val, Fin.isValue, Fin.reduceFinMk, Fin.zero_eta, Fin.mk_one] <;> ring

theorem triangle1_deriv1 (ξ : Fin 2 → ℝ) (i : Fin 3) :
    HasDerivAt (fun t => (triangle1 (K := ℝ)).L (Function.update ξ 1 t) i) ((triangle1 (K := ℝ)).dL ξ i 1) (ξ 1) := by
  apply hasDerivAt_of_quadratic (c := ((triangle1 (K := ℝ)).L ![ξ 0, ξ 1 + 1] i
    + (triangle1 (K := ℝ)).L ![ξ 0, ξ 1 - 1] i) / 2 - (triangle1 (K := ℝ)).L ![ξ 0, ξ 1] i)
  intro t
  rw [update2_1, update2_1]
  simp only [triangle1, Matrix.cons_val]
  fin_cases i <;> simp only [Matrix.cons_val, Fin.isValue, Fin.reduceFinMk, Fin.zero_eta, Fin.mk_one] <;> ring

theorem triangle2_deriv0 (ξ : Fin 2 → ℝ) (i : Fin 6) :
    HasDerivAt (fun t => (triangle2 (K := ℝ)).L (Function.update ξ 0 t) i) ((triangle2 (K := ℝ)).dL ξ i 0) (ξ 0) := by
  apply hasDerivAt_of_quadratic (c := ((triangle2 (K := ℝ)).L ![ξ 0 + 1, ξ 1] i
    + (triangle2 (K := ℝ)).L ![ξ 0 - 1, ξ 1] i) / 2 - (triangle2 (K := ℝ)).L ![ξ 0, ξ 1] i)
  intro t
  rw [update2_0, update2_0]
  simp only [triangle2, Matrix.cons_val]
  fin_cases i <;> simp only [Matrix.cons_val, Fin.isValue, Fin.reduceFinMk, Fin.zero_eta, Fin.mk_one] <;> ring

theorem triangle2_deriv1 (ξ : Fin 2 → ℝ) (i : Fin 6) :
    HasDerivAt (fun t => (triangle2 (K := ℝ)).L (Function.update ξ 1 t) i) ((triangle2 (K := ℝ)).dL ξ i 1) (ξ 1) := by
  apply hasDerivAt_of_quadratic (c := ((triangle2 (K := ℝ)).L ![ξ 0, ξ 1 + 1] i
    + (triangle2 (K := ℝ)).L ![ξ 0, ξ 1 - 1] i) / 2 - (triangle2 (K := ℝ)).L ![ξ 0, ξ 1] i)
  intro t
  rw [update2_1, update2_1]
  simp only [triangle2, Matrix.cons_val]
  fin_cases i <;> simp only [Matrix.cons_val, Fin.isValue, Fin.reduceFinMk, Fin.zero_eta, Fin.mk_one] <;> ring

theorem quad1_deriv0 (ξ : Fin 2 → ℝ) (i : Fin 4) :
    HasDerivAt (fun t => (quad1 (K := ℝ)).L (Function.update ξ 0 t) i) ((quad1 (K := ℝ)).dL ξ i 0) (ξ 0) := by
  apply hasDerivAt_of_quadratic (c := ((quad1 (K := ℝ)).L ![ξ 0 + 1, ξ 1] i
    + (quad1 (K := ℝ)).L ![ξ 0 - 1, ξ 1] i) / 2 - (quad1 (K := ℝ)).L ![ξ 0, ξ 1] i)
  intro t
  rw [update2_0, update2_0]
  simp only [quad1, Matrix.cons_val]
  fin_cases i <;> simp only [Matrix.cons_val, Fin.isValue, Fin.reduceFinMk, Fin.zero_eta, Fin.mk_one] <;> ring

theorem quad1_deriv1 (ξ : Fin 2 → ℝ) (i : Fin 4) :
    HasDerivAt (fun t => (quad1 (K := ℝ)).L (Function.update ξ 1 t) i) ((quad1 (K := ℝ)).dL ξ i 1) (ξ 1) := by
  apply hasDerivAt_of_quadratic (c := ((quad1 (K := ℝ)).L ![ξ 0, ξ 1 + 1] i
    + (quad1 (K := ℝ)).L ![ξ 0, ξ 1 - 1] i) / 2 - (quad1 (K := ℝ)).L ![ξ 0, ξ 1] i)
  intro t
  rw [update2_1, update2_1]
  simp only [quad1, Matrix.cons_val]
  fin_cases i <;> simp only [Matrix.cons_val, Fin.isValue, Fin.reduceFinMk, Fin.zero_eta, Fin.mk_one] <;> ring

theorem quad2_deriv0 (ξ : Fin 2 → ℝ) (i : Fin 8) :
    HasDerivAt (fun t => (quad2 (K := ℝ)).L (Function.update ξ 0 t) i) ((quad2 (K := ℝ)).dL ξ i 0) (ξ 0) := by
  apply hasDerivAt_of_quadratic (c := ((quad2 (K := ℝ)).L ![ξ 0 + 1, ξ 1] i
    + (quad2 (K := ℝ)).L ![ξ 0 - 1, ξ 1] i) / 2 - (quad2 (K := ℝ)).L ![ξ 0, ξ 1] i)
  intro t
  rw [update2_0, update2_0]
  simp only [quad2, Matrix.cons_val]
  fin_cases i <;> simp only [Matrix.cons_val, Fin.isValue, Fin.reduceFinMk, Fin.zero_eta, Fin.mk_one] <;> ring

theorem quad2_deriv1 (ξ : Fin 2 → ℝ) (i : Fin 8) :
    HasDerivAt (fun t => (quad2 (K := ℝ)).L (Function.update ξ 1 t) i) ((quad2 (K := ℝ)).dL ξ i 1) (ξ 1) := by
  apply hasDerivAt_of_quadratic (c := ((quad2 (K := ℝ)).L ![ξ 0, ξ 1 + 1] i
    + (quad2 (K := ℝ)).L ![ξ 0, ξ 1 - 1] i) / 2 - (quad2 (K := ℝ)).L ![ξ 0, ξ 1] i)
  intro t
  rw [update2_1, update2_1]
  simp only [quad2, Matrix.cons_val]
  fin_cases i <;> simp only [Matrix.cons_val, Fin.isValue, Fin.reduceFinMk, Fin.zero_eta, Fin.mk_one] <;> ring

theorem tetra1_deriv0 (ξ : Fin 3 → ℝ) (i : Fin 4) :
    HasDerivAt (fun t => (tetra1 (K := ℝ)).L (Function.update ξ 0 t) i) ((tetra1 (K := ℝ)).dL ξ i 0) (ξ 0) := by
  apply hasDerivAt_of_quadratic (c := ((tetra1 (K := ℝ)).L ![ξ 0 + 1, ξ 1, ξ 2] i
    + (tetra1 (K := ℝ)).L ![ξ 0 - 1, ξ 1, ξ 2] i) / 2 - (tetra1 (K := ℝ)).L ![ξ 0, ξ 1, ξ 2] i)
  intro t
  rw [update3_0, update3_0]
  simp only [tetra1, Matrix.cons_val]
  fin_cases i <;> simp only [Matrix.cons_val, Fin.isValue, Fin.reduceFinMk, Fin.zero_eta, Fin.mk_one] <;> ring

theorem tetra1_deriv1 (ξ : Fin 3 → ℝ) (i : Fin 4) :
    HasDerivAt (fun t => (tetra1 (K := ℝ)).L (Function.update ξ 1 t) i) ((tetra1 (K := ℝ)).dL ξ i 1) (ξ 1) := by
  apply hasDerivAt_of_quadratic (c := ((tetra1 (K := ℝ)).L ![ξ 0, ξ 1 + 1, ξ 2] i
    + (tetra1 (K := ℝ)).L ![ξ 0, ξ 1 - 1, ξ 2] i) / 2 - (tetra1 (K := ℝ)).L ![ξ 0, ξ 1, ξ 2] i)
  intro t
  rw [update3_1, update3_1]
  simp only [tetra1, Matrix.cons_val]
  fin_cases i <;> simp only [Matrix.cons_val, Fin.isValue, Fin.reduceFinMk, Fin.zero_eta, Fin.mk_one] <;> ring

theorem tetra1_deriv2 (ξ : Fin 3 → ℝ) (i : Fin 4) :
    HasDerivAt (fun t => (tetra1 (K := ℝ)).L (Function.update ξ 2 t) i) ((tetra1 (K := ℝ)).dL ξ i 2) (ξ 2) := by
  apply hasDerivAt_of_quadratic (c := ((tetra1 (K := ℝ)).L ![ξ 0, ξ 1, ξ 2 + 1] i
    + (tetra1 (K := ℝ)).L ![ξ 0, ξ 1, ξ 2 - 1] i) / 2 - (tetra1 (K := ℝ)).L ![ξ 0, ξ 1, ξ 2] i)
  intro t
  rw [update3_2, update3_2]
  simp only [tetra1, Matrix.cons_val]
  fin_cases i <;> simp only [Matrix.cons_val, Fin.isValue, Fin.reduceFinMk, Fin.zero_eta, Fin.mk_one] <;> ring

theorem tetra2_deriv0 (ξ : Fin 3 → ℝ) (i : Fin 10) :
    HasDerivAt (fun t => (tetra2 (K := ℝ)).L (Function.update ξ 0 t) i) ((tetra2 (K := ℝ)).dL ξ i 0) (ξ 0) := by
  apply hasDerivAt_of_quadratic (c := ((tetra2 (K := ℝ)).L ![ξ 0 + 1, ξ 1, ξ 2] i
    + (tetra2 (K := ℝ)).L ![ξ 0 - 1, ξ 1, ξ 2] i) / 2 - (tetra2 (K := ℝ)).L ![ξ 0, ξ 1, ξ 2] i)
  intro t
  rw [update3_0, update3_0]
  simp only [tetra2, Matrix.cons_val]
  fin_cases i <;> simp only [Matrix.cons_val, Fin.isValue, Fin.reduceFinMk, Fin.zero_eta, Fin.mk_one] <;> ring

theorem tetra2_deriv1 (ξ : Fin 3 → ℝ) (i : Fin 10) :
    HasDerivAt (fun t => (tetra2 (K := ℝ)).L (Function.update ξ 1 t) i) ((tetra2 (K := ℝ)).dL ξ i 1) (ξ 1) := by
  apply hasDerivAt_of_quadratic (c := ((tetra2 (K := ℝ)).L ![ξ 0, ξ 1 + 1, ξ 2] i
    + (tetra2 (K := ℝ)).L ![ξ 0, ξ 1 - 1, ξ 2] i) / 2 - (tetra2 (K := ℝ)).L ![ξ 0, ξ 1, ξ 2] i)
  intro t
  rw [update3_1, update3_1]
  simp only [tetra2, Matrix.cons_val]
  fin_cases i <;> simp only [Matrix.cons_val, Fin.isValue, Fin.reduceFinMk, Fin.zero_eta, Fin.mk_one] <;> ring

theorem tetra2_deriv2 (ξ : Fin 3 → ℝ) (i : Fin 10) :
    HasDerivAt (fun t => (tetra2 (K := ℝ)).L (Function.update ξ 2 t) i) ((tetra2 (K := ℝ)).dL ξ i 2) (ξ 2) := by
  apply hasDerivAt_of_quadratic (c := ((tetra2 (K := ℝ)).L ![ξ 0, ξ 1, ξ 2 + 1] i
    + (tetra2 (K := ℝ)).L ![ξ 0, ξ 1, ξ 2 - 1] i) / 2 - (tetra2 (K := ℝ)).L ![ξ 0, ξ 1, ξ 2] i)
  intro t
  rw [update3_2, update3_2]
  simp only [tetra2, Matrix.cons_val]
  fin_cases i <;> simp only [Matrix.cons_val, Fin.isValue, Fin.reduceFinMk, Fin.zero_eta, Fin.mk_one] <;> ring

theorem hexa1_deriv0 (ξ : Fin 3 → ℝ) (i : Fin 8) :
    HasDerivAt (fun t => (hexa1 (K := ℝ)).L (Function.update ξ 0 t) i) ((hexa1 (K := ℝ)).dL ξ i 0) (ξ 0) := by
  apply hasDerivAt_of_quadratic (c := ((hexa1 (K := ℝ)).L ![ξ 0 + 1, ξ 1, ξ 2] i
    + (hexa1 (K := ℝ)).L ![ξ 0 - 1, ξ 1, ξ 2] i) / 2 - (hexa1 (K := ℝ)).L ![ξ 0, ξ 1, ξ 2] i)
  intro t
  rw [update3_0, update3_0]
  simp only [hexa1, Matrix.cons_val]
  fin_cases i <;> simp only [Matrix.cons_val, Fin.isValue, Fin.reduceFinMk, Fin.zero_eta, Fin.mk_one] <;> ring

theorem hexa1_deriv1 (ξ : Fin 3 → ℝ) (i : Fin 8) :
    HasDerivAt (fun t => (hexa1 (K := ℝ)).L (Function.update ξ 1 t) i) ((hexa1 (K := ℝ)).dL ξ i 1) (ξ 1) := by
  apply hasDerivAt_of_quadratic (c := ((hexa1 (K := ℝ)).L ![ξ 0, ξ 1 + 1, ξ 2] i
    + (hexa1 (K := ℝ)).L ![ξ 0, ξ 1 - 1, ξ 2] i) / 2 - (hexa1 (K := ℝ)).L ![ξ 0, ξ 1, ξ 2] i)
  intro t
  rw [update3_1, update3_1]
  simp only [hexa1, Matrix.cons_val]
  fin_cases i <;> simp only [Matrix.cons_val, Fin.isValue, Fin.reduceFinMk, Fin.zero_eta, Fin.mk_one] <;> ring

theorem hexa1_deriv2 (ξ : Fin 3 → ℝ) (i : Fin 8) :
    HasDerivAt (fun t => (hexa1 (K := ℝ)).L (Function.update ξ 2 t) i) ((hexa1 (K := ℝ)).dL ξ i 2) (ξ 2) := by
  apply hasDerivAt_of_quadratic (c := ((hexa1 (K := ℝ)).L ![ξ 0, ξ 1, ξ 2 + 1] i
    + (hexa1 (K := ℝ)).L ![ξ 0, ξ 1, ξ 2 - 1] i) / 2 - (hexa1 (K := ℝ)).L ![ξ 0, ξ 1, ξ 2] i)
  intro t
  rw [update3_2, update3_2]
  simp only [hexa1, Matrix.cons_val]
  fin_cases i <;> simp only [Matrix.cons_val, Fin.isValue, Fin.reduceFinMk, Fin.zero_eta, Fin.mk_one] <;> ring

theorem hexa2_deriv0 (ξ : Fin 3 → ℝ) (i : Fin 20) :
    HasDerivAt (fun t => (hexa2 (K := ℝ)).L (Function.update ξ 0 t) i) ((hexa2 (K := ℝ)).dL ξ i 0) (ξ 0) := by
  apply hasDerivAt_of_quadratic (c := ((hexa2 (K := ℝ)).L ![ξ 0 + 1, ξ 1, ξ 2] i
    + (hexa2 (K := ℝ)).L ![ξ 0 - 1, ξ 1, ξ 2] i) / 2 - (hexa2 (K := ℝ)).L ![ξ 0, ξ 1, ξ 2] i)
  intro t
  rw [update3_0, update3_0]
  simp only [hexa2, hexa2Mid, hexa2dMid, Matrix.cons_val]
  fin_cases i <;> simp only [Matrix.cons_val, Fin.isValue, Fin.reduceFinMk, Fin.zero_eta, Fin.mk_one] <;> ring

theorem hexa2_deriv1 (ξ : Fin 3 → ℝ) (i : Fin 20) :
    HasDerivAt (fun t => (hexa2 (K := ℝ)).L (Function.update ξ 1 t) i) ((hexa2 (K := ℝ)).dL ξ i 1) (ξ 1) := by
  apply hasDerivAt_of_quadratic (c := ((hexa2 (K := ℝ)).L ![ξ 0, ξ 1 + 1, ξ 2] i
    + (hexa2 (K := ℝ)).L ![ξ 0, ξ 1 - 1, ξ 2] i) / 2 - (hexa2 (K := ℝ)).L ![ξ 0, ξ 1, ξ 2] i)
  intro t
  rw [update3_1, update3_1]
  simp only [hexa2, hexa2Mid, hexa2dMid, Matrix.cons_val]
  fin_cases i <;> simp only [Matrix.cons_val, Fin.isValue, Fin.reduceFinMk, Fin.zero_eta, Fin.mk_one] <;> ring

theorem hexa2_deriv2 (ξ : Fin 3 → ℝ) (i : Fin 20) :
    HasDerivAt (fun t => (hexa2 (K := ℝ)).L (Function.update ξ 2 t) i) ((hexa2 (K := ℝ)).dL ξ i 2) (ξ 2) := by
  apply hasDerivAt_of_quadratic (c := ((hexa2 (K := ℝ)).L ![ξ 0, ξ 1, ξ 2 + 1] i
    + (hexa2 (K := ℝ)).L ![ξ 0, ξ 1, ξ 2 - 1] i) / 2 - (hexa2 (K := ℝ)).L ![ξ 0, ξ 1, ξ 2] i)
  intro t
  rw [update3_2, update3_2]
  simp only [hexa2, hexa2Mid, hexa2dMid, Matrix.cons_val]
  fin_cases i <;> simp only [Matrix.cons_val, Fin.isValue, Fin.reduceFinMk, Fin.zero_eta, Fin.mk_one] <;> ring

theorem segment1_deriv : Spec.IsPartialDeriv (segment1 (K := ℝ)).L (segment1 (K := ℝ)).dL := by
  intro ξ i j
  fin_cases j
  · exact segment1_deriv0 ξ i

theorem segment2_deriv : Spec.IsPartialDeriv (segment2 (K := ℝ)).L (segment2 (K := ℝ)).dL := by
  intro ξ i j
  fin_cases j
  · exact segment2_deriv0 ξ i

theorem triangle1_deriv : Spec.IsPartialDeriv (triangle1 (K := ℝ)).L (triangle1 (K := ℝ)).dL := by
  intro ξ i j
  fin_cases j
  · exact triangle1_deriv0 ξ i
  · exact triangle1_deriv1 ξ i

theorem triangle2_deriv : Spec.IsPartialDeriv (triangle2 (K := ℝ)).L (triangle2 (K := ℝ)).dL := by
  intro ξ i j
  fin_cases j
  · exact triangle2_deriv0 ξ i
  · exact triangle2_deriv1 ξ i

theorem quad1_deriv : Spec.IsPartialDeriv (quad1 (K := ℝ)).L (quad1 (K := ℝ)).dL := by
  intro ξ i j
  fin_cases j
  · exact quad1_deriv0 ξ i
  · exact quad1_deriv1 ξ i

theorem quad2_deriv : Spec.IsPartialDeriv (quad2 (K := ℝ)).L (quad2 (K := ℝ)).dL := by
  intro ξ i j
  fin_cases j
  · exact quad2_deriv0 ξ i
  · exact quad2_deriv1 ξ i

theorem tetra1_deriv : Spec.IsPartialDeriv (tetra1 (K := ℝ)).L (tetra1 (K := ℝ)).dL := by
  intro ξ i j
  fin_cases j
  · exact tetra1_deriv0 ξ i
  · exact tetra1_deriv1 ξ i
  · exact tetra1_deriv2 ξ i

theorem tetra2_deriv : Spec.IsPartialDeriv (tetra2 (K := ℝ)).L (tetra2 (K := ℝ)).dL := by
  intro ξ i j
  fin_cases j
  · exact tetra2_deriv0 ξ i
  · exact tetra2_deriv1 ξ i
  · exact tetra2_deriv2 ξ i

theorem hexa1_deriv : Spec.IsPartialDeriv (hexa1 (K := ℝ)).L (hexa1 (K := ℝ)).dL := by
  intro ξ i j
  fin_cases j
  · exact hexa1_deriv0 ξ i
  · exact hexa1_deriv1 ξ i
  · exact hexa1_deriv2 ξ i

theorem hexa2_deriv : Spec.IsPartialDeriv (hexa2 (K := ℝ)).L (hexa2 (K := ℝ)).dL := by
  intro ξ i j
  fin_cases j
  · exact hexa2_deriv0 ξ i
  · exact hexa2_deriv1 ξ i
  · exact hexa2_deriv2 ξ i

end Deriv

end Caribou

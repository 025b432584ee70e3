import Verif.Lemmas.LocalCoordinates
import Verif.Spec.LocalCoordinates
import Verif.Props.Shape
import Mathlib.LinearAlgebra.CrossProduct

/-!
# Properties C15 – C17: inverting the geometric map
-/

set_option autoImplicit false

namespace Caribou

open Spec

section Affine

variable {K : Type*} [Field K] [CharZero K]

theorem affine_world' (T : ElementType) {m : ℕ} (c : Fin m → K) (A : Matrix (Fin m) (Fin T.dim) K) (ξ : Fin T.dim → K) :
    T.elem.worldCoordinates (fun i => affineMap c A (T.elem.node i)) ξ = affineMap c A ξ :=
  affine_world T c A (C01_partition_of_unity T) (elem_coord T) ξ

theorem affine_jacobian' (T : ElementType) {m : ℕ} (c : Fin m → K) (A : Matrix (Fin m) (Fin T.dim) K)
    (ξ : Fin T.dim → K) :
    T.elem.jacobian (fun i => affineMap c A (T.elem.node i)) ξ = A :=
  affine_jacobian T c A (C04_derivatives_sum_to_zero T) ξ

end Affine

variable {K : Type*} [Field K] [LinearOrder K]

omit [LinearOrder K] in
theorem residual2_eq_dist2 {d n m : ℕ} (E : Elem K d n) (nodes : Fin n → Fin m → K) (p : Fin m → K) (ξ : Fin d → K) :
    residual2 E nodes p ξ = dist2 p (E.worldCoordinates nodes ξ) := by
  simp [residual2, sqNorm, dist2, pow_two]

/-- **C16.** For every element, world point, starting point, tolerance and iteration limit, the search stops.  If the
starting point is closer than the tolerance it is returned untouched.  Otherwise the result is the `k`-th Newton
iterate with `1 ≤ k ≤ max 1 maxIt`; when `k` is below the limit the last residual is below the relative tolerance, and
no earlier update met it. -/
theorem C16_exit {d n m : ℕ} (E : Elem K d n) (nodes : Fin n → Fin m → K) (p : Fin m → K)
    (start : Fin d → K) (tol : K) (maxIt : ℕ) :
    (dist2 p (E.worldCoordinates nodes start) < tol ^ 2 ∧
      localCoordinatesTrace E nodes p start tol maxIt = (start, 0)) ∨
    (tol ^ 2 ≤ dist2 p (E.worldCoordinates nodes start) ∧
      ∃ k, 1 ≤ k ∧ k ≤ max 1 maxIt ∧
        localCoordinatesTrace E nodes p start tol maxIt = ((newtonStep E nodes p)^[k] start, k) ∧
        (k < maxIt → dist2 p (E.worldCoordinates nodes ((newtonStep E nodes p)^[k] start))
            < dist2 p (E.worldCoordinates nodes start) * tol ^ 2) ∧
        ∀ j, 1 ≤ j → j < k → dist2 p (E.worldCoordinates nodes start) * tol ^ 2
            ≤ dist2 p (E.worldCoordinates nodes ((newtonStep E nodes p)^[j] start))) := by
  simp only [← residual2_eq_dist2, localCoordinatesTrace, ← pow_two]
  by_cases h : residual2 E nodes p start < tol ^ 2
  · exact .inl ⟨h, by rw [if_pos h]⟩
  · refine .inr ⟨not_lt.mp h, ?_⟩
    rw [if_neg h]
    obtain ⟨k, h1, h2, h3, h4, h5⟩ := doWhile_spec (newtonStep E nodes p) (residual2 E nodes p)
      (residual2 E nodes p start * tol ^ 2) maxIt 0 start
    rw [Nat.zero_add] at h2 h3 h4
    refine ⟨k, h1, ?_, h2, h4, h5⟩
    rcases h3 with h3 | h3
    · exact le_max_of_le_right h3
    · exact le_max_of_le_left h3.le

omit [LinearOrder K] in
/-- **C16 (Newton step).** For a square Jacobian the update solves the linearised equation: the first-order prediction
`T(ξ) + J(ξ)(ξ' - ξ)` of the new position is the requested point, whenever the Jacobian is invertible. -/
theorem C16_step_is_newton {d n : ℕ} (E : Elem K d n) (nodes : Fin n → Fin d → K) (p : Fin d → K) (ξ : Fin d → K)
    (hJ : (E.jacobian nodes ξ).det ≠ 0) :
    E.worldCoordinates nodes ξ + (E.jacobian nodes ξ).mulVec (newtonStep E nodes p ξ - ξ) = p := by
  rw [newtonStep, add_sub_cancel_left, newtonIncrement_square, Matrix.mulVec_mulVec,
    Matrix.mul_nonsing_inv _ (isUnit_iff_ne_zero.mpr hJ), Matrix.one_mulVec, add_sub_cancel]

section Affine

variable [CharZero K]

/-- The result of `local_coordinates` satisfies whatever every Newton update satisfies, unless the starting point is
accepted. -/
theorem localCoordinates_of_step {d n m : ℕ} (E : Elem K d n) (nodes : Fin n → Fin m → K) (p : Fin m → K)
    (start : Fin d → K) (tol : K) (maxIt : ℕ) (P : (Fin d → K) → Prop) (h : ∀ ξ, P (newtonStep E nodes p ξ)) :
    (localCoordinates E nodes p start tol maxIt = start ∧ dist2 p (E.worldCoordinates nodes start) < tol ^ 2) ∨
    P (localCoordinates E nodes p start tol maxIt) := by
  rcases C16_exit E nodes p start tol maxIt with ⟨h1, h2⟩ | ⟨-, k, hk, -, h2, -⟩
  · exact .inl ⟨by rw [localCoordinates, h2], h1⟩
  · right
    rw [localCoordinates, h2]
    obtain ⟨k', rfl⟩ := Nat.exists_eq_add_of_le' hk
    simpa only [Function.iterate_succ_apply'] using h _

/-- Core of C15: an element whose map is `ξ ↦ c + A ξ`. -/
theorem affine_inverse_core {d n : ℕ} (E : Elem K d n) (nodes : Fin n → Fin d → K) (c : Fin d → K)
    (A : Matrix (Fin d) (Fin d) K) (hw : ∀ ξ, E.worldCoordinates nodes ξ = c + A.mulVec ξ)
    (hJ : ∀ ξ, E.jacobian nodes ξ = A) (hA : A.det ≠ 0) (p start : Fin d → K) (tol : K) (maxIt : ℕ) :
    (localCoordinates E nodes p start tol maxIt = start ∧ dist2 p (E.worldCoordinates nodes start) < tol ^ 2) ∨
      E.worldCoordinates nodes (localCoordinates E nodes p start tol maxIt) = p := by
  refine localCoordinates_of_step _ _ p start tol maxIt (fun ξ => E.worldCoordinates nodes ξ = p) fun ξ => ?_
  have h := C16_step_is_newton E nodes p ξ (by rwa [hJ])
  rw [hJ, hw, Matrix.mulVec_sub] at h
  rw [hw]
  refine Eq.trans ?_ h
  abel

/-- **C15.** On every element whose nodes are placed by an invertible affine map, whatever the starting point,
tolerance and iteration limit, `local_coordinates(p)` returns either the starting point, then within the tolerance of
`p`, or a point that the element maps exactly to `p`. -/
theorem C15_affine_inverse (T : ElementType) (c : Fin T.dim → K) (A : Matrix (Fin T.dim) (Fin T.dim) K)
    (hA : A.det ≠ 0) (p : Fin T.dim → K) (start : Fin T.dim → K) (tol : K) (maxIt : ℕ) :
    let nodes := fun i => affineMap c A (T.elem.node i)
    let ξ := localCoordinates T.elem nodes p start tol maxIt
    (ξ = start ∧ dist2 p (T.elem.worldCoordinates nodes start) < tol ^ 2) ∨ T.elem.worldCoordinates nodes ξ = p := by
  intro nodes ξ
  exact affine_inverse_core T.elem nodes c A (fun ξ => (affine_world' T c A ξ).trans (affineMap_eq c A ξ))
    (affine_jacobian' T c A) hA p start tol maxIt

/-- Two local coordinates with the same image are equal: the point found in C15 is *the* local coordinate of `p`. -/
theorem C15_unique (T : ElementType) (c : Fin T.dim → K) (A : Matrix (Fin T.dim) (Fin T.dim) K)
    (hA : A.det ≠ 0) (ξ η : Fin T.dim → K) :
    let nodes := fun i => affineMap c A (T.elem.node i)
    T.elem.worldCoordinates nodes ξ = T.elem.worldCoordinates nodes η → ξ = η := by
  intro nodes h
  rw [affine_world', affine_world', affineMap_eq, affineMap_eq] at h
  have h := congrArg (fun x => A⁻¹.mulVec x) (add_left_cancel h)
  simpa [Matrix.mulVec_mulVec, Matrix.nonsing_inv_mul _ (isUnit_iff_ne_zero.mpr hA)] using h

/-- **C15 (linear segment).** Every segment of the line with two different end points. -/
theorem C15_segment (nodes : Fin 2 → Fin 1 → K) (h : nodes 0 0 ≠ nodes 1 0) (p start : Fin 1 → K) (tol : K)
    (maxIt : ℕ) :
    let ξ := localCoordinates segment1 nodes p start tol maxIt
    (ξ = start ∧ dist2 p (segment1.worldCoordinates nodes start) < tol ^ 2) ∨
      segment1.worldCoordinates nodes ξ = p := by
  intro ξ
  refine affine_inverse_core segment1 nodes (fun a => (nodes 0 a + nodes 1 a) / 2)
    (Matrix.of fun a _ => (nodes 1 a - nodes 0 a) / 2) ?_ ?_ ?_ p start tol maxIt
  · intro ξ; funext a
    simp [Elem.worldCoordinates, Elem.interpolate, segment1, Matrix.mulVec, dotProduct]
    ring
  · intro ξ; funext a j
    fin_cases j
    simp [Elem.jacobian, segment1]
    ring
  · rw [Matrix.det_fin_one]
    exact div_ne_zero (sub_ne_zero.mpr h.symm) two_ne_zero

/-- **C15 (linear triangle).** Every linear triangle of the plane with non-zero area. -/
theorem C15_triangle (nodes : Fin 3 → Fin 2 → K) (h : area2 (nodes 0) (nodes 1) (nodes 2) ≠ 0) (p start : Fin 2 → K)
    (tol : K) (maxIt : ℕ) :
    let ξ := localCoordinates triangle1 nodes p start tol maxIt
    (ξ = start ∧ dist2 p (triangle1.worldCoordinates nodes start) < tol ^ 2) ∨
      triangle1.worldCoordinates nodes ξ = p := by
  intro ξ
  refine affine_inverse_core triangle1 nodes (nodes 0) (Matrix.of fun a j => nodes j.succ a - nodes 0 a) ?_ ?_ ?_ p start tol maxIt
  · intro ξ; funext a
    simp [Elem.worldCoordinates, Elem.interpolate, triangle1, Matrix.mulVec, dotProduct, Fin.sum_univ_three]
    ring
  · intro ξ; funext a j
    fin_cases j <;> simp [Elem.jacobian, triangle1, Fin.sum_univ_three] <;> ring
  · refine ne_of_eq_of_ne ?_ h
    rw [Matrix.det_fin_two]
    simp only [area2, Matrix.of_apply, Fin.succ_zero_eq_one, Fin.succ_one_eq_two]
    ring

/-- **C15 (linear tetrahedron).** Every linear tetrahedron with non-zero volume. -/
theorem C15_tetra (nodes : Fin 4 → Fin 3 → K) (h : volume6 (nodes 0) (nodes 1) (nodes 2) (nodes 3) ≠ 0)
    (p start : Fin 3 → K) (tol : K) (maxIt : ℕ) :
    let ξ := localCoordinates tetra1 nodes p start tol maxIt
    (ξ = start ∧ dist2 p (tetra1.worldCoordinates nodes start) < tol ^ 2) ∨
      tetra1.worldCoordinates nodes ξ = p := by
  intro ξ
  have h3 : (Fin.succ 2 : Fin 4) = 3 := rfl
  refine affine_inverse_core tetra1 nodes (nodes 0) (Matrix.of fun a j => nodes j.succ a - nodes 0 a) ?_ ?_ ?_ p start tol maxIt
  · intro ξ; funext a
    simp only [Elem.worldCoordinates, Elem.interpolate, sum_fin4, tetra1, Matrix.mulVec, dotProduct, Pi.add_apply, Matrix.of_apply,
      sum_fin3, Matrix.cons_val, Fin.succ_zero_eq_one, Fin.succ_one_eq_two, h3]
    ring
  · intro ξ; funext a j
    fin_cases j <;> simp only [Elem.jacobian, Matrix.of_apply, tetra1, sum_fin4, Matrix.cons_val, Fin.isValue, Fin.reduceFinMk,
      Fin.zero_eta, Fin.mk_one, Fin.succ_zero_eq_one, Fin.succ_one_eq_two, h3] <;> ring
  · refine ne_of_eq_of_ne ?_ h
    rw [Matrix.det_fin_three]
    simp only [volume6, Matrix.of_apply, Fin.succ_zero_eq_one, Fin.succ_one_eq_two, h3]
    ring

end Affine

section Projection

variable [IsStrictOrderedRing K]

private theorem sum_mul_mulVec {m d : ℕ} (A : Matrix (Fin m) (Fin d) K) (r : Fin m → K) (x : Fin d → K) :
    ∑ a, r a * A.mulVec x a = ∑ j, A.transpose.mulVec r j * x j := by
  have := Matrix.dotProduct_mulVec r A x
  simpa [dotProduct, Matrix.mulVec_transpose] using this

/-- Core of C17: an element whose map is `ξ ↦ c + A ξ` with independent columns. -/
theorem projection_core {d n m : ℕ} (hm : m ≠ d) (E : Elem K d n) (nodes : Fin n → Fin m → K) (c : Fin m → K)
    (A : Matrix (Fin m) (Fin d) K) (hw : ∀ ξ, E.worldCoordinates nodes ξ = c + A.mulVec ξ)
    (hJ : ∀ ξ, E.jacobian nodes ξ = A) (hA : (A.transpose * A).det ≠ 0) (p : Fin m → K) (start : Fin d → K) (tol : K)
    (maxIt : ℕ) :
    (localCoordinates E nodes p start tol maxIt = start ∧ dist2 p (E.worldCoordinates nodes start) < tol ^ 2) ∨
      (OrthogonalTo (p - E.worldCoordinates nodes (localCoordinates E nodes p start tol maxIt))
          (E.worldCoordinates nodes) ∧
        Closest (E.worldCoordinates nodes) p (localCoordinates E nodes p start tol maxIt)) := by
  refine localCoordinates_of_step _ _ p start tol maxIt
    (fun ξ => OrthogonalTo (p - E.worldCoordinates nodes ξ) _ ∧ Closest _ p ξ) fun ξ => ?_
  set ξ' := newtonStep E nodes p ξ with hξ'
  have hA' := Matrix.mul_nonsing_inv _ (isUnit_iff_ne_zero.mpr hA)
  have key : A.transpose.mulVec (p - E.worldCoordinates nodes ξ') = 0 := by
    rw [hw, hξ', newtonStep, newtonIncrement_rect hm, hJ, hw]
    have h2 : A.transpose.mulVec (A.mulVec ((A.transpose * A)⁻¹.mulVec (A.transpose.mulVec (p - (c + A.mulVec ξ)))))
        = A.transpose.mulVec (p - (c + A.mulVec ξ)) := by
      rw [Matrix.mulVec_mulVec, Matrix.mulVec_mulVec, hA', Matrix.one_mulVec]
    rw [Matrix.mulVec_add A, ← add_assoc, ← sub_sub, Matrix.mulVec_sub, h2, sub_self]
  have orth : OrthogonalTo (p - E.worldCoordinates nodes ξ') (E.worldCoordinates nodes) := by
    intro η η'
    have : ∀ a, E.worldCoordinates nodes η a - E.worldCoordinates nodes η' a = A.mulVec (η - η') a := by
      intro a
      rw [hw, hw, Matrix.mulVec_sub]; simp
    simp only [this]
    rw [sum_mul_mulVec, key]
    simp
  refine ⟨orth, fun η => ?_⟩
  have h0 := orth ξ' η
  have : dist2 p (E.worldCoordinates nodes η) = dist2 p (E.worldCoordinates nodes ξ')
      + ∑ a, (E.worldCoordinates nodes ξ' a - E.worldCoordinates nodes η a) ^ 2
      + 2 * ∑ a, (p - E.worldCoordinates nodes ξ') a
          * (E.worldCoordinates nodes ξ' a - E.worldCoordinates nodes η a) := by
    simp only [dist2, Finset.mul_sum, ← Finset.sum_add_distrib]
    refine Finset.sum_congr rfl fun a _ => ?_
    simp only [Pi.sub_apply]
    ring
  rw [this, h0, mul_zero, add_zero]
  exact le_add_of_nonneg_right (Finset.sum_nonneg fun a _ => sq_nonneg _)

/-- **C17.** For an affine element of lower dimension than the space it lives in (linearly independent axes), whatever
the starting point, tolerance and iteration limit, `local_coordinates(p)` returns either the starting point, then
within the tolerance of `p`, or the orthogonal projection of `p`: the residual is orthogonal to the element and no other
local point is closer to `p`. -/
theorem C17_projection (T : ElementType) {m : ℕ} (hm : m ≠ T.dim) (c : Fin m → K) (A : Matrix (Fin m) (Fin T.dim) K)
    (hA : (A.transpose * A).det ≠ 0) (p : Fin m → K) (start : Fin T.dim → K) (tol : K) (maxIt : ℕ) :
    let nodes := fun i => affineMap c A (T.elem.node i)
    let ξ := localCoordinates T.elem nodes p start tol maxIt
    (ξ = start ∧ dist2 p (T.elem.worldCoordinates nodes start) < tol ^ 2) ∨
      (OrthogonalTo (p - T.elem.worldCoordinates nodes ξ) (T.elem.worldCoordinates nodes) ∧
        Closest (T.elem.worldCoordinates nodes) p ξ) := by
  intro nodes ξ
  exact projection_core hm T.elem nodes c A (fun ξ => (affine_world' T c A ξ).trans (affineMap_eq c A ξ))
    (affine_jacobian' T c A) hA p start tol maxIt

/-- **C17 (segments).** Every linear segment with two different end points, in dimension two or more. -/
theorem C17_segment {m : ℕ} (hm : 2 ≤ m) (nodes : Fin 2 → Fin m → K) (h : nodes 0 ≠ nodes 1) (p : Fin m → K)
    (start : Fin 1 → K) (tol : K) (maxIt : ℕ) :
    let ξ := localCoordinates segment1 nodes p start tol maxIt
    (ξ = start ∧ dist2 p (segment1.worldCoordinates nodes start) < tol ^ 2) ∨
      (OrthogonalTo (p - segment1.worldCoordinates nodes ξ) (segment1.worldCoordinates nodes) ∧
        Closest (segment1.worldCoordinates nodes) p ξ) := by
  intro ξ
  refine projection_core (by omega) segment1 nodes (fun a => (nodes 0 a + nodes 1 a) / 2)
    (Matrix.of fun a _ => (nodes 1 a - nodes 0 a) / 2) ?_ ?_ ?_ p start tol maxIt
  · intro ξ; funext a
    simp [Elem.worldCoordinates, Elem.interpolate, segment1, Matrix.mulVec, dotProduct]
    ring
  · intro ξ; funext a j
    fin_cases j
    simp [Elem.jacobian, segment1]
    ring
  · rw [Matrix.det_fin_one, Matrix.mul_apply]
    simp only [Matrix.transpose_apply, Matrix.of_apply, ← pow_two]
    intro h0
    rw [Finset.sum_eq_zero_iff_of_nonneg (fun _ _ => sq_nonneg _)] at h0
    refine h (funext fun a => ?_)
    have := pow_eq_zero_iff (two_ne_zero) |>.mp (h0 a (Finset.mem_univ a))
    rw [div_eq_zero_iff, or_iff_left two_ne_zero] at this
    exact (sub_eq_zero.mp this).symm

/-- **C17 (triangles).** Every linear triangle of the 3D space whose corners are not on one line. -/
theorem C17_triangle (nodes : Fin 3 → Fin 3 → K) (h : crossProduct (nodes 1 - nodes 0) (nodes 2 - nodes 0) ≠ 0)
    (p : Fin 3 → K) (start : Fin 2 → K) (tol : K) (maxIt : ℕ) :
    let ξ := localCoordinates triangle1 nodes p start tol maxIt
    (ξ = start ∧ dist2 p (triangle1.worldCoordinates nodes start) < tol ^ 2) ∨
      (OrthogonalTo (p - triangle1.worldCoordinates nodes ξ) (triangle1.worldCoordinates nodes) ∧
        Closest (triangle1.worldCoordinates nodes) p ξ) := by
  intro ξ
  refine projection_core (by omega) triangle1 nodes (nodes 0) (Matrix.of fun a j => nodes j.succ a - nodes 0 a)
    ?_ ?_ ?_ p start tol maxIt
  · intro ξ; funext a
    simp [Elem.worldCoordinates, Elem.interpolate, triangle1, Matrix.mulVec, dotProduct, Fin.sum_univ_three]
    ring
  · intro ξ; funext a j
    fin_cases j <;> simp [Elem.jacobian, triangle1, Fin.sum_univ_three] <;> ring
  · intro h0
    refine h ?_
    have h1 : ∑ a, (crossProduct (nodes 1 - nodes 0) (nodes 2 - nodes 0) a) ^ 2 = 0 := by
      rw [← h0, Matrix.det_fin_two]
      simp only [Matrix.mul_apply, sum_fin3, Matrix.transpose_apply, Matrix.of_apply, cross_apply, Pi.sub_apply,
        Matrix.cons_val, Fin.succ_zero_eq_one, Fin.succ_one_eq_two]
      ring
    rw [Finset.sum_eq_zero_iff_of_nonneg (fun _ _ => sq_nonneg _)] at h1
    funext a
    exact pow_eq_zero_iff (two_ne_zero) |>.mp (h1 a (Finset.mem_univ a))

end Projection

/-! Concrete instances. -/

/-- C15: a sheared quadratic hexahedron. -/
example (p start : Fin 3 → ℚ) (n : ℕ) :
    let nodes := fun i => affineMap ![1, 2, 3] !![2, 1, 0; 0, 3, 1; 0, 0, 1/2] ((hexa2 (K := ℚ)).node i)
    let ξ := localCoordinates hexa2 nodes p start (1/100) n
    (ξ = start ∧ dist2 p (hexa2.worldCoordinates nodes start) < (1/100) ^ 2) ∨ hexa2.worldCoordinates nodes ξ = p :=
  C15_affine_inverse .hexa2 ![1, 2, 3] !![2, 1, 0; 0, 3, 1; 0, 0, 1/2]
    (by change Matrix.det (n := Fin 3) !![2, 1, 0; 0, 3, 1; 0, 0, 1/2] ≠ (0 : ℚ); simp [Matrix.det_fin_three])
    p start (1/100) n

/-- C15: a triangle whose area is not zero. -/
example : area2 (K := ℚ) ![1, 1] ![3, 2] ![0, 5] ≠ 0 := by simp [area2]; norm_num

/-- C15: a tetrahedron whose volume is not zero. -/
example : volume6 (K := ℚ) ![1, 1, 0] ![3, 2, 0] ![0, 5, 1] ![0, 0, 7] ≠ 0 := by simp [volume6]; norm_num

/-- C17: a triangle of the 3D space with independent axes. -/
example : ((!![1, 0; 1, 2; 0, 1] : Matrix (Fin 3) (Fin 2) ℚ).transpose *
    (!![1, 0; 1, 2; 0, 1] : Matrix (Fin 3) (Fin 2) ℚ)).det ≠ 0 := by
  simp [Matrix.det_fin_two, Matrix.mul_apply, Fin.sum_univ_succ]; norm_num

/-- C17: a triangle of the 3D space that is not flat. -/
example : crossProduct (![2, 2, 0] - ![1, 1, 0] : Fin 3 → ℚ) (![0, 0, 5] - ![1, 1, 0]) ≠ 0 := by
  intro h
  have := congrFun h 0
  simp [cross_apply] at this
  norm_num at this

end Caribou

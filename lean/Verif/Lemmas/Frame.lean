import Verif.Model.Frame
import Verif.Spec.Frame
import Verif.Lemmas.Elements
import Mathlib.LinearAlgebra.Matrix.NonsingularInverse
import Mathlib.LinearAlgebra.Matrix.Adjugate
import Mathlib.Algebra.BigOperators.Field

/-! Facts about `normalized` and `frameOfAxes`. -/

set_option autoImplicit false

namespace Caribou

open Spec Matrix

theorem norm2_pos {m : ℕ} {v : Fin m → ℝ} (h : 0 < ∑ a, v a * v a) : 0 < norm2 v := Real.sqrt_pos.mpr h

theorem sq_pos_of_ne {m : ℕ} {v : Fin m → ℝ} (h : v ≠ 0) : 0 < ∑ a, v a * v a := by
  rcases lt_or_eq_of_le (Finset.sum_nonneg (s := Finset.univ) (fun a _ => mul_self_nonneg (v a))) with h' | h'
  · exact h'
  · exfalso
    apply h
    funext a
    have := (Finset.sum_eq_zero_iff_of_nonneg (fun a _ => mul_self_nonneg (v a))).mp h'.symm a (Finset.mem_univ a)
    exact mul_self_eq_zero.mp this

theorem norm2_sq {m : ℕ} (v : Fin m → ℝ) : norm2 v * norm2 v = ∑ a, v a * v a :=
  Real.mul_self_sqrt (Finset.sum_nonneg fun a _ => mul_self_nonneg (v a))

theorem normalized_of_ne {m : ℕ} {v : Fin m → ℝ} (h : v ≠ 0) : normalized v = (norm2 v)⁻¹ • v := by
  rw [normalized, if_pos (sq_pos_of_ne h)]
  funext a
  simp [div_eq_inv_mul]

theorem norm2_smul {m : ℕ} {s : ℝ} (hs : 0 ≤ s) (v : Fin m → ℝ) : norm2 (s • v) = s * norm2 v := by
  have : ∑ a, (s • v) a * (s • v) a = s ^ 2 * ∑ a, v a * v a := by
    rw [Finset.mul_sum]; refine Finset.sum_congr rfl fun a _ => ?_; simp; ring
  rw [norm2, this, Real.sqrt_mul (sq_nonneg s), Real.sqrt_sq hs, norm2]

theorem normalized_unit {m : ℕ} {v : Fin m → ℝ} (h : v ≠ 0) : normalized v ⬝ᵥ normalized v = 1 := by
  have hp := norm2_pos (sq_pos_of_ne h)
  rw [normalized_of_ne h, smul_dotProduct, dotProduct_smul]
  have : v ⬝ᵥ v = norm2 v * norm2 v := (norm2_sq v).symm
  rw [this]
  simp only [smul_eq_mul]
  field_simp

theorem normalized_of_unit {m : ℕ} {v : Fin m → ℝ} (h : v ⬝ᵥ v = 1) : normalized v = v := by
  have h' : ∑ a, v a * v a = 1 := h
  rw [normalized, if_pos (by rw [h']; norm_num), norm2, h', Real.sqrt_one]
  simp

theorem normalized_smul {m : ℕ} {s : ℝ} (hs : 0 < s) (v : Fin m → ℝ) (h : v ⬝ᵥ v = 1) : normalized (s • v) = v := by
  have hv : s • v ≠ 0 := by
    intro h0
    have : v = 0 := (smul_eq_zero.mp h0).resolve_left hs.ne'
    rw [this] at h; simp at h
  have h' : norm2 v = 1 := by rw [norm2]; change Real.sqrt (v ⬝ᵥ v) = 1; rw [h, Real.sqrt_one]
  rw [normalized_of_ne hv, norm2_smul hs.le, h', mul_one, smul_smul, inv_mul_cancel₀ hs.ne', one_smul]

theorem dot_fin3 (a b : Fin 3 → ℝ) : a ⬝ᵥ b = a 0 * b 0 + a 1 * b 1 + a 2 * b 2 := by
  simp [dotProduct, Fin.sum_univ_three]

theorem ne_zero_of_cross_left {a b : Fin 3 → ℝ} (h : crossProduct a b ≠ 0) : a ≠ 0 := by
  rintro rfl; simp at h

theorem ne_zero_of_cross_right {a b : Fin 3 → ℝ} (h : crossProduct a b ≠ 0) : b ≠ 0 := by
  rintro rfl; simp at h

/-- The three columns of the frame, and their mutual products. -/
theorem frameOfAxes_spec {a b : Fin 3 → ℝ} (h : crossProduct a b ≠ 0) :
    ∃ u v w : Fin 3 → ℝ, frameOfAxes a b = columns3 u v w ∧ u ⬝ᵥ u = 1 ∧ w ⬝ᵥ w = 1 ∧ u ⬝ᵥ w = 0 ∧
      v = crossProduct w u ∧ (∃ s : ℝ, s > 0 ∧ a = s • u) ∧ b ⬝ᵥ w = 0 ∧ ∃ t : ℝ, t > 0 ∧ crossProduct a b = t • w := by
  have ha := ne_zero_of_cross_left h
  have hb := ne_zero_of_cross_right h
  have hna := norm2_pos (sq_pos_of_ne ha)
  have hnb := norm2_pos (sq_pos_of_ne hb)
  have hc : crossProduct (normalized a) (normalized b) = ((norm2 a)⁻¹ * (norm2 b)⁻¹) • crossProduct a b := by
    rw [normalized_of_ne ha, normalized_of_ne hb, map_smul, map_smul, LinearMap.smul_apply, smul_smul, mul_comm]
  have hpos : 0 < (norm2 a)⁻¹ * (norm2 b)⁻¹ := by positivity
  have hne : crossProduct (normalized a) (normalized b) ≠ 0 := by
    rw [hc]; exact smul_ne_zero hpos.ne' h
  have hw := normalized_unit hne
  set u := normalized a with hu
  set w := normalized (crossProduct u (normalized b)) with hwd
  have huu : u ⬝ᵥ u = 1 := normalized_unit ha
  have hnc := norm2_pos (sq_pos_of_ne hne)
  have hww : w = ((norm2 (crossProduct u (normalized b)))⁻¹ * ((norm2 a)⁻¹ * (norm2 b)⁻¹)) • crossProduct a b := by
    rw [hwd, normalized_of_ne hne, hc, smul_smul]
  have hk : 0 < (norm2 (crossProduct u (normalized b)))⁻¹ * ((norm2 a)⁻¹ * (norm2 b)⁻¹) := by positivity
  have hua : u = (norm2 a)⁻¹ • a := normalized_of_ne ha
  have huw : u ⬝ᵥ w = 0 := by
    rw [hww, hua, smul_dotProduct, dotProduct_smul, dot_self_cross]; simp
  have hvv : crossProduct w u ⬝ᵥ crossProduct w u = 1 := by
    rw [cross_dot_cross, hw, huu, dotProduct_comm w u, huw]; norm_num
  refine ⟨u, crossProduct w u, w, ?_, huu, hw, huw, rfl, ⟨norm2 a, hna, ?_⟩, ?_, ⟨_, inv_pos.mpr hk, ?_⟩⟩
  · simp only [frameOfAxes, ← hu, ← hwd]
    rw [normalized_of_unit hvv]
  · rw [hua, smul_smul, mul_inv_cancel₀ hna.ne', one_smul]
  · rw [hww, dotProduct_smul, dot_cross_self]; simp
  · rw [hww, smul_smul, inv_mul_cancel₀ hk.ne', one_smul]

theorem columns3_rotation {u w : Fin 3 → ℝ} (huu : u ⬝ᵥ u = 1) (hww : w ⬝ᵥ w = 1) (huw : u ⬝ᵥ w = 0) :
    IsRotation (columns3 u (crossProduct w u) w) := by
  rw [dot_fin3] at huu hww huw
  constructor
  · rw [OrthonormalCols]
    ext i j
    fin_cases i <;> fin_cases j <;>
      simp only [Matrix.mul_apply, Matrix.transpose_apply, columns3, Matrix.of_apply, sum_fin3, Matrix.cons_val,
        cross_apply, Fin.isValue, Fin.reduceFinMk, Fin.zero_eta, Fin.mk_one, Matrix.one_apply_eq] <;>
      (try rw [Matrix.one_apply_ne (by decide)])
    · exact huu
    · ring
    · exact huw
    · ring
    · linear_combination (w 0 ^ 2 + w 1 ^ 2 + w 2 ^ 2) * huu + hww - (u 0 * w 0 + u 1 * w 1 + u 2 * w 2) * huw
    · ring
    · linear_combination huw
    · ring
    · exact hww
  · rw [Matrix.det_fin_three]
    simp only [columns3, Matrix.of_apply, Matrix.cons_val, cross_apply]
    linear_combination (w 0 ^ 2 + w 1 ^ 2 + w 2 ^ 2) * huu + hww - (u 0 * w 0 + u 1 * w 1 + u 2 * w 2) * huw

theorem frameOfAxes_rotation {a b : Fin 3 → ℝ} (h : crossProduct a b ≠ 0) : IsRotation (frameOfAxes a b) := by
  obtain ⟨u, v, w, hF, huu, hww, huw, rfl, -⟩ := frameOfAxes_spec h
  rw [hF]
  exact columns3_rotation huu hww huw

theorem frameOfAxes_aligned {a b : Fin 3 → ℝ} (h : crossProduct a b ≠ 0) : AlignedWith (frameOfAxes a b) a b := by
  obtain ⟨u, v, w, hF, huu, hww, huw, rfl, ⟨s, hs, hau⟩, hbw, t, ht, hct⟩ := frameOfAxes_spec h
  rw [hF]
  refine ⟨⟨s, hs, fun i => ?_⟩, b ⬝ᵥ u, b ⬝ᵥ crossProduct w u, ?_, fun i => ?_⟩
  · rw [hau]; simp [columns3]
  · -- b·(w×u) = w·(u×b) = (1/s) w·(a×b) = t/s
    have h1 : s * (b ⬝ᵥ crossProduct w u) = t := by
      have : t = t * (w ⬝ᵥ w) := by rw [hww, mul_one]
      rw [this, ← smul_eq_mul t, ← smul_dotProduct, ← hct, hau]
      simp only [dot_fin3, cross_apply, Matrix.cons_val, Pi.smul_apply, smul_eq_mul]
      ring
    have : b ⬝ᵥ crossProduct w u = t / s := by rw [← h1]; field_simp
    rw [this]; positivity
  · -- expansion in the orthonormal basis
    have hrot := (columns3_rotation huu hww huw).1
    have hrot' := mul_eq_one_comm.mp hrot
    have hb : b i = ∑ j, (∑ k, columns3 u (crossProduct w u) w i k * columns3 u (crossProduct w u) w j k) * b j := by
      have : ∀ j, ∑ k, columns3 u (crossProduct w u) w i k * columns3 u (crossProduct w u) w j k
          = (1 : Matrix (Fin 3) (Fin 3) ℝ) i j := fun j => by rw [← hrot', Matrix.mul_apply]; rfl
      simp only [this, Matrix.one_apply]
      simp
    rw [hb]
    rw [dot_fin3] at hbw
    simp only [sum_fin3, columns3, Matrix.of_apply, Matrix.cons_val, dot_fin3]
    linear_combination (w i) * hbw

/-- The cross product commutes with rotations. -/
theorem cross_rotation {Q : Matrix (Fin 3) (Fin 3) ℝ} (hQ : IsRotation Q) (a b : Fin 3 → ℝ) :
    crossProduct (Q.mulVec a) (Q.mulVec b) = Q.mulVec (crossProduct a b) := by
  have h1 : Q.adjugate = Q.transpose := by
    have := Matrix.mul_adjugate Q
    rw [hQ.2, one_smul] at this
    calc Q.adjugate = (Q.transpose * Q) * Q.adjugate := by rw [hQ.1, one_mul]
      _ = Q.transpose := by rw [mul_assoc, this, mul_one]
  rw [Matrix.adjugate_fin_three] at h1
  have e := fun i j => congrFun (congrFun h1 i) j
  have e00 := e 0 0; have e01 := e 0 1; have e02 := e 0 2
  have e10 := e 1 0; have e11 := e 1 1; have e12 := e 1 2
  have e20 := e 2 0; have e21 := e 2 1; have e22 := e 2 2
  simp only [Matrix.of_apply, Matrix.cons_val, Matrix.transpose_apply] at e00 e01 e02 e10 e11 e12 e20 e21 e22
  have key : ∀ i, crossProduct (Q.mulVec a) (Q.mulVec b) i = Q.mulVec (crossProduct a b) i := by
    intro i
    fin_cases i <;>
      simp only [cross_apply, Matrix.mulVec, dotProduct, sum_fin3, Matrix.cons_val, Fin.isValue, Fin.reduceFinMk,
        Fin.zero_eta, Fin.mk_one]
    · linear_combination (a 1 * b 2 - a 2 * b 1) * e00 + (a 2 * b 0 - a 0 * b 2) * e10 + (a 0 * b 1 - a 1 * b 0) * e20
    · linear_combination (a 1 * b 2 - a 2 * b 1) * e01 + (a 2 * b 0 - a 0 * b 2) * e11 + (a 0 * b 1 - a 1 * b 0) * e21
    · linear_combination (a 1 * b 2 - a 2 * b 1) * e02 + (a 2 * b 0 - a 0 * b 2) * e12 + (a 0 * b 1 - a 1 * b 0) * e22
  exact funext key

theorem dot_orthonormal {m : ℕ} {Q : Matrix (Fin m) (Fin m) ℝ} (hQ : OrthonormalCols Q) (a : Fin m → ℝ) :
    Q.mulVec a ⬝ᵥ Q.mulVec a = a ⬝ᵥ a := by
  rw [Matrix.dotProduct_mulVec, Matrix.vecMul_mulVec, hQ, Matrix.vecMul_one]

theorem norm2_orthonormal {m : ℕ} {Q : Matrix (Fin m) (Fin m) ℝ} (hQ : OrthonormalCols Q) (a : Fin m → ℝ) :
    norm2 (Q.mulVec a) = norm2 a := by
  have := dot_orthonormal hQ a
  simp only [dotProduct] at this
  rw [norm2, this, norm2]

theorem normalized_orthonormal {m : ℕ} {Q : Matrix (Fin m) (Fin m) ℝ} (hQ : OrthonormalCols Q) (a : Fin m → ℝ) :
    normalized (Q.mulVec a) = Q.mulVec (normalized a) := by
  have := dot_orthonormal hQ a
  simp only [dotProduct] at this
  rw [normalized, normalized, this, norm2_orthonormal hQ]
  split_ifs
  · funext i
    simp only [Matrix.mulVec, dotProduct, Finset.sum_div]
    exact Finset.sum_congr rfl fun j _ => by ring
  · rfl

theorem columns3_mul (Q : Matrix (Fin 3) (Fin 3) ℝ) (u v w : Fin 3 → ℝ) :
    columns3 (Q.mulVec u) (Q.mulVec v) (Q.mulVec w) = Q * columns3 u v w := by
  ext i j
  fin_cases j <;> simp [columns3, Matrix.mul_apply, Matrix.mulVec, dotProduct]

theorem frameOfAxes_rotate {Q : Matrix (Fin 3) (Fin 3) ℝ} (hQ : IsRotation Q) (a b : Fin 3 → ℝ) :
    frameOfAxes (Q.mulVec a) (Q.mulVec b) = Q * frameOfAxes a b := by
  simp only [frameOfAxes, normalized_orthonormal hQ.1, cross_rotation hQ, columns3_mul]

end Caribou

namespace Caribou

open Spec Matrix

theorem frameOfAxes_orthogonal {u v : Fin 3 → ℝ} (huu : u ⬝ᵥ u = 1) (hvv : v ⬝ᵥ v = 1) (huv : u ⬝ᵥ v = 0) {s t : ℝ}
    (hs : 0 < s) (ht : 0 < t) : frameOfAxes (s • u) (t • v) = columns3 u v (crossProduct u v) := by
  have hw : crossProduct u v ⬝ᵥ crossProduct u v = 1 := by
    rw [cross_dot_cross, huu, hvv, huv]; norm_num
  have hv' : crossProduct (crossProduct u v) u = v := by
    rw [dot_fin3] at huu huv
    have : ∀ i, crossProduct (crossProduct u v) u i = v i := by
      intro i
      fin_cases i <;> simp only [cross_apply, Matrix.cons_val, Fin.isValue, Fin.reduceFinMk, Fin.zero_eta, Fin.mk_one]
      · linear_combination v 0 * huu - u 0 * huv
      · linear_combination v 1 * huu - u 1 * huv
      · linear_combination v 2 * huu - u 2 * huv
    exact funext this
  simp only [frameOfAxes]
  rw [normalized_smul hs u huu, normalized_smul ht v hvv, normalized_of_unit hw, hv', normalized_of_unit hvv]

/-- Column `j` of a matrix. -/
theorem col_dot {m : ℕ} {R : Matrix (Fin m) (Fin m) ℝ} (hR : OrthonormalCols R) (i j : Fin m) :
    (fun a => R a i) ⬝ᵥ (fun a => R a j) = if i = j then 1 else 0 := by
  have : (R.transpose * R) i j = (1 : Matrix (Fin m) (Fin m) ℝ) i j := by rw [hR]
  rw [Matrix.mul_apply, Matrix.one_apply] at this
  exact this

theorem rotation_third {R : Matrix (Fin 3) (Fin 3) ℝ} (hR : IsRotation R) :
    crossProduct (fun a => R a 0) (fun a => R a 1) = fun a => R a 2 := by
  have h := cross_rotation hR (Pi.single 0 1) (Pi.single 1 1)
  rw [Matrix.mulVec_single_one, Matrix.mulVec_single_one] at h
  have h2 : crossProduct (Pi.single 0 1 : Fin 3 → ℝ) (Pi.single 1 1) = Pi.single 2 1 := by
    rw [cross_apply]
    funext i
    fin_cases i <;> simp
  rw [h2, Matrix.mulVec_single_one] at h
  exact h

theorem columns3_self (R : Matrix (Fin 3) (Fin 3) ℝ) :
    columns3 (fun a => R a 0) (fun a => R a 1) (fun a => R a 2) = R := by
  ext i j
  fin_cases j <;> rfl

theorem frameOfAxes_of_rotation {R : Matrix (Fin 3) (Fin 3) ℝ} (hR : IsRotation R) {s t : ℝ} (hs : 0 < s) (ht : 0 < t) :
    frameOfAxes (s • fun a => R a 0) (t • fun a => R a 1) = R := by
  rw [frameOfAxes_orthogonal (by simpa using col_dot hR.1 0 0) (by simpa using col_dot hR.1 1 1)
    (by simpa using col_dot hR.1 0 1) hs ht, rotation_third hR, columns3_self]

theorem norm2_col {m : ℕ} {R : Matrix (Fin m) (Fin m) ℝ} (hR : OrthonormalCols R) {s : ℝ} (hs : 0 < s) (j : Fin m) :
    norm2 (s • fun a => R a j) = s := by
  have : ∑ a, R a j * R a j = 1 := by simpa [dotProduct] using col_dot hR j j
  rw [norm2_smul hs.le, norm2, this, Real.sqrt_one, mul_one]

theorem cross_ne_zero_of_not_parallel {a b : Fin 3 → ℝ} (h : ¬ Parallel a b) : crossProduct a b ≠ 0 := by
  intro h0
  apply h
  rw [cross_apply] at h0
  have e0 : a 1 * b 2 - a 2 * b 1 = 0 := congrFun h0 0
  have e1 : a 2 * b 0 - a 0 * b 2 = 0 := congrFun h0 1
  have e2 : a 0 * b 1 - a 1 * b 0 = 0 := congrFun h0 2
  intro i j
  fin_cases i <;> fin_cases j <;> simp only [Fin.isValue, Fin.reduceFinMk, Fin.zero_eta, Fin.mk_one] <;> linarith

theorem normalized_of_zero {m : ℕ} {v : Fin m → ℝ} (h : v = 0) : normalized v = 0 := by
  subst h; simp [normalized]

theorem normalized_pos_multiple {m : ℕ} {v : Fin m → ℝ} (h : v ≠ 0) :
    ∃ k : ℝ, 0 < k ∧ normalized v = fun j => k * v j :=
  ⟨(norm2 v)⁻¹, inv_pos.mpr (norm2_pos (sq_pos_of_ne h)), by rw [normalized_of_ne h]; rfl⟩

end Caribou

import Verif.Model.Report
import Verif.Spec.Report
import Mathlib.Tactic.Linarith
import Mathlib.Tactic.FinCases
import Mathlib.Tactic.NormNum

/-!
# Property C90: condition number of the force fields
-/

set_option autoImplicit false

namespace Caribou

open Spec

/-! ### Condition number -/

theorem foldr_min_spec (l : List ℝ) (a : ℝ) (ha : a ∈ l) : l.foldr min a ∈ l ∧ ∀ v ∈ l, l.foldr min a ≤ v := by
  have h : ∀ l : List ℝ, (l.foldr min a = a ∨ l.foldr min a ∈ l) ∧ ∀ v ∈ l, l.foldr min a ≤ v := by
    intro l
    induction l with
    | nil => simp
    | cons w l ih =>
      simp only [List.foldr_cons]
      refine ⟨?_, ?_⟩
      · rcases min_choice w (l.foldr min a) with h | h
        · exact Or.inr (by rw [h]; simp)
        · rw [h]
          rcases ih.1 with h' | h'
          · exact Or.inl h'
          · exact Or.inr (by simp [h'])
      · intro v hv
        rcases List.mem_cons.mp hv with rfl | hv
        · exact min_le_left _ _
        · exact (min_le_right _ _).trans (ih.2 v hv)
  refine ⟨?_, (h l).2⟩
  rcases (h l).1 with h' | h'
  · rw [h']; exact ha
  · exact h'

theorem foldr_max_spec (l : List ℝ) (a : ℝ) (ha : a ∈ l) : l.foldr max a ∈ l ∧ ∀ v ∈ l, v ≤ l.foldr max a := by
  have h : ∀ l : List ℝ, (l.foldr max a = a ∨ l.foldr max a ∈ l) ∧ ∀ v ∈ l, v ≤ l.foldr max a := by
    intro l
    induction l with
    | nil => simp
    | cons w l ih =>
      simp only [List.foldr_cons]
      refine ⟨?_, ?_⟩
      · rcases max_choice w (l.foldr max a) with h | h
        · exact Or.inr (by rw [h]; simp)
        · rw [h]
          rcases ih.1 with h' | h'
          · exact Or.inl h'
          · exact Or.inr (by simp [h'])
      · intro v hv
        rcases List.mem_cons.mp hv with rfl | hv
        · exact le_max_left _ _
        · exact (ih.2 v hv).trans (le_max_right _ _)
  refine ⟨?_, (h l).2⟩
  rcases (h l).1 with h' | h'
  · rw [h']; exact ha
  · exact h'

theorem rayleigh {n : ℕ} {A U : Matrix (Fin n) (Fin n) ℝ} {values : Fin n → ℝ}
    (hA : A = U * Matrix.diagonal values * U.transpose) (x : Fin n → ℝ) :
    x ⬝ᵥ A.mulVec x = ∑ i, values i * (U.transpose.mulVec x i) ^ 2 := by
  rw [hA, ← Matrix.mulVec_mulVec, ← Matrix.mulVec_mulVec, Matrix.dotProduct_mulVec, ← Matrix.mulVec_transpose]
  simp only [dotProduct, Matrix.mulVec_diagonal]
  refine Finset.sum_congr rfl fun i _ => ?_
  ring

theorem unit_turn {n : ℕ} {U : Matrix (Fin n) (Fin n) ℝ} (hU : U * U.transpose = 1) (x : Fin n → ℝ) :
    ∑ i, (U.transpose.mulVec x i) ^ 2 = x ⬝ᵥ x := by
  have h : U.transpose.mulVec x ⬝ᵥ U.transpose.mulVec x = x ⬝ᵥ x := by
    rw [Matrix.dotProduct_mulVec, ← Matrix.mulVec_transpose, Matrix.transpose_transpose, Matrix.mulVec_mulVec, hU, Matrix.one_mulVec]
  rw [← h]
  simp only [dotProduct, sq]

/-- **C90 (partial).** For a positive definite stiffness the number reported is the inverse of the condition number.  Missing: it
should be the condition number, see `C90_violated`. -/
theorem C90_partial {n : ℕ} (A : Matrix (Fin n) (Fin n) ℝ) (values : Fin n → ℝ) (hn : 0 < n) (hv : AreEigenvalues A values)
    (hpos : ∀ i, 0 < values i) : IsConditionNumber A (condReported values)⁻¹ := by
  obtain ⟨U, hU1, hU2, hA⟩ := hv
  have hhead : (List.ofFn values).headD 0 ∈ List.ofFn values := by
    obtain ⟨m, rfl⟩ : ∃ m, n = m + 1 := ⟨n - 1, by omega⟩
    rw [List.ofFn_succ]
    simp
  obtain ⟨hlo, hlo'⟩ := foldr_min_spec (List.ofFn values) _ hhead
  obtain ⟨hhi, hhi'⟩ := foldr_max_spec (List.ofFn values) _ hhead
  obtain ⟨i, hi⟩ := (List.mem_ofFn' values _).mp hlo
  obtain ⟨j, hj⟩ := (List.mem_ofFn' values _).mp hhi
  have hle : ∀ k, values i ≤ values k := fun k => by rw [hi]; exact hlo' _ ((List.mem_ofFn' values _).mpr ⟨k, rfl⟩)
  have hge : ∀ k, values k ≤ values j := fun k => by rw [hj]; exact hhi' _ ((List.mem_ofFn' values _).mpr ⟨k, rfl⟩)
  have hcond : (condReported values)⁻¹ = values j / values i := by
    simp only [condReported]
    rw [← hi, ← hj, inv_div]
  rw [hcond]
  have hq : ∀ x : Fin n → ℝ, x ⬝ᵥ x = 1 → values i ≤ x ⬝ᵥ A.mulVec x ∧ x ⬝ᵥ A.mulVec x ≤ values j := by
    intro x hx
    rw [rayleigh hA]
    have h1 := unit_turn hU2 x
    rw [hx] at h1
    constructor
    · calc values i = ∑ k, values i * (U.transpose.mulVec x k) ^ 2 := by rw [← Finset.mul_sum, h1, mul_one]
        _ ≤ _ := Finset.sum_le_sum fun k _ => mul_le_mul_of_nonneg_right (hle k) (sq_nonneg _)
    · calc _ ≤ ∑ k, values j * (U.transpose.mulVec x k) ^ 2 :=
          Finset.sum_le_sum fun k _ => mul_le_mul_of_nonneg_right (hge k) (sq_nonneg _)
        _ = values j := by rw [← Finset.mul_sum, h1, mul_one]
  have hunit : ∀ k, ∃ x : Fin n → ℝ, x ⬝ᵥ x = 1 ∧ x ⬝ᵥ A.mulVec x = values k := by
    intro k
    refine ⟨U.mulVec (Pi.single k 1), ?_, ?_⟩
    · rw [← unit_turn hU2, Matrix.mulVec_mulVec, hU1, Matrix.one_mulVec, Finset.sum_eq_single k]
      · simp
      · intro b _ hb; simp [hb]
      · simp
    · rw [rayleigh hA, Matrix.mulVec_mulVec, hU1, Matrix.one_mulVec, Finset.sum_eq_single k]
      · simp
      · intro b _ hb; simp [hb]
      · simp
  constructor
  · obtain ⟨x, hx, hx'⟩ := hunit j
    obtain ⟨y, hy, hy'⟩ := hunit i
    exact ⟨x, y, hx, hy, by rw [hx', hy']⟩
  · rintro r ⟨x, y, hx, hy, rfl⟩
    obtain ⟨_, h2⟩ := hq x hx
    obtain ⟨h3, _⟩ := hq y hy
    exact div_le_div₀ (hpos j).le h2 (hpos i) h3

/-- **C90 violated.** The number reported for a positive definite stiffness is never larger than one, and it is the condition
number only when all the eigenvalues are equal; a condition number is at least one. -/
theorem C90_violated {n : ℕ} (A : Matrix (Fin n) (Fin n) ℝ) (values : Fin n → ℝ) (hn : 0 < n) (hv : AreEigenvalues A values)
    (hpos : ∀ i, 0 < values i) (i j : Fin n) (hij : values i < values j) :
    condReported values < 1 ∧ ¬ IsConditionNumber A (condReported values) := by
  have hκ := C90_partial A values hn hv hpos
  have h1 : (condReported values)⁻¹ > 1 := by
    have hhead : (List.ofFn values).headD 0 ∈ List.ofFn values := by
      obtain ⟨m, rfl⟩ : ∃ m, n = m + 1 := ⟨n - 1, by omega⟩
      rw [List.ofFn_succ]
      simp
    obtain ⟨hlo, hlo'⟩ := foldr_min_spec (List.ofFn values) _ hhead
    obtain ⟨hhi, hhi'⟩ := foldr_max_spec (List.ofFn values) _ hhead
    obtain ⟨k, hk⟩ := (List.mem_ofFn' values _).mp hlo
    have ha := hlo' (values i) ((List.mem_ofFn' values _).mpr ⟨i, rfl⟩)
    have hb := hhi' (values j) ((List.mem_ofFn' values _).mpr ⟨j, rfl⟩)
    have hp : 0 < (List.ofFn values).foldr min ((List.ofFn values).headD 0) := by rw [← hk]; exact hpos k
    simp only [condReported, inv_div, gt_iff_lt]
    rw [one_lt_div hp]
    linarith
  have h2 : condReported values < 1 := by
    have h0 : 0 < condReported values := inv_pos.mp (one_pos.trans h1)
    exact (one_lt_inv₀ h0).mp h1
  refine ⟨h2, fun h => ?_⟩
  have := h.unique hκ
  linarith

/-- The diagonal matrix with coefficients 1 and 2: condition number 2, the value reported is 1/2. -/
example : condReported ![1, 2] < 1 ∧ ¬ IsConditionNumber (Matrix.diagonal ![(1 : ℝ), 2]) (condReported ![1, 2]) :=
  C90_violated _ _ two_pos ⟨1, by simp, by simp, by simp⟩ (by intro i; fin_cases i <;> simp) 0 1 (by simp)

end Caribou

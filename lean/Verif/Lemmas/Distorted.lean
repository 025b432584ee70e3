import Verif.Props.Barycentric
import Verif.Spec.Distorted
import Mathlib.Analysis.Normed.Group.Constructions
import Mathlib.Analysis.Normed.Ring.Lemmas

set_option autoImplicit false
set_option linter.all false

namespace Caribou

open Spec Matrix

/-- What makes the Newton search of local coordinates converge: the Jacobian and the second order terms, measured with the mean edges. -/
structure NewtonReady {d n : ℕ} (E : Elem ℝ d n) (X : Fin n → Fin d → ℝ) (A : Matrix (Fin d) (Fin d) ℝ) (ξs : Fin d → ℝ) : Prop where
  inj : ∀ v, A *ᵥ v = 0 → v = 0
  jac : ∀ ξ, ‖ξ - ξs‖ ≤ 1 → ∃ P : (Fin d → ℝ) → (Fin d → ℝ), (∀ v, E.jacobian X ξ *ᵥ v = A *ᵥ (v + P v)) ∧ ∀ v, ‖P v‖ ≤ 1 / 2 * ‖v‖
  rem : ∀ ξ, ‖ξ - ξs‖ ≤ 1 → ∃ ρ, E.worldCoordinates X ξs = E.worldCoordinates X ξ + E.jacobian X ξ *ᵥ (ξs - ξ) + A *ᵥ ρ ∧ ‖ρ‖ ≤ 1 / 4 * ‖ξ - ξs‖ ^ 2

variable {d n : ℕ} {E : Elem ℝ d n} {X : Fin n → Fin d → ℝ} {A : Matrix (Fin d) (Fin d) ℝ} {ξs : Fin d → ℝ}

theorem NewtonReady.cancel (h : NewtonReady E X A ξs) {v w : Fin d → ℝ} (e : A *ᵥ v = A *ᵥ w) : v = w := by
  have := h.inj (v - w) (by rw [mulVec_sub, e, sub_self])
  exact sub_eq_zero.1 this

theorem NewtonReady.det_ne (h : NewtonReady E X A ξs) {ξ : Fin d → ℝ} (hξ : ‖ξ - ξs‖ ≤ 1) : (E.jacobian X ξ).det ≠ 0 := by
  intro h0
  obtain ⟨v, hv, hv0⟩ := exists_mulVec_eq_zero_iff.2 h0
  obtain ⟨P, h1, h2⟩ := h.jac ξ hξ
  rw [h1] at hv0
  have e := h.inj _ hv0
  have h3 : v = -P v := eq_neg_of_add_eq_zero_left e
  have h4 := h2 v
  have h5 : ‖v‖ = ‖P v‖ := by rw [h3, norm_neg, ← h3]
  have h6 : 0 < ‖v‖ := norm_pos_iff.2 hv
  rw [← h5] at h4
  linarith

theorem NewtonReady.step (h : NewtonReady E X A ξs) {ξ : Fin d → ℝ} (hξ : ‖ξ - ξs‖ ≤ 1) :
    ‖newtonStep E X (E.worldCoordinates X ξs) ξ - ξs‖ ≤ 1 / 2 * ‖ξ - ξs‖ ^ 2 := by
  have h0 := C16_step_is_newton E X (E.worldCoordinates X ξs) ξ (h.det_ne hξ)
  obtain ⟨P, h1, h2⟩ := h.jac ξ hξ
  obtain ⟨ρ, r1, r2⟩ := h.rem ξ hξ
  obtain ⟨η, hη⟩ : ∃ η, η = newtonStep E X (E.worldCoordinates X ξs) ξ := ⟨_, rfl⟩
  rw [← hη] at h0 ⊢
  have e : E.jacobian X ξ *ᵥ (η - ξs) = A *ᵥ ρ := by
    have e1 : η - ξs = (η - ξ) - (ξs - ξ) := by abel
    rw [e1, mulVec_sub]
    have e2 := h0.trans r1
    rw [add_assoc] at e2
    have e3 := add_left_cancel e2
    rw [e3, add_sub_cancel_left]
  rw [h1] at e
  have e' := h.cancel e
  have e2 : η - ξs = ρ - P (η - ξs) := eq_sub_of_add_eq e'
  have h3 := h2 (η - ξs)
  have h4 : ‖η - ξs‖ ≤ ‖ρ‖ + ‖P (η - ξs)‖ := by
    calc ‖η - ξs‖ = ‖ρ - P (η - ξs)‖ := by rw [← e2]
      _ ≤ _ := norm_sub_le _ _
  linarith

theorem NewtonReady.residual (h : NewtonReady E X A ξs) {ξ : Fin d → ℝ} (hξ : ‖ξ - ξs‖ ≤ 1) :
    ∃ ρ, E.worldCoordinates X ξs - E.worldCoordinates X ξ = A *ᵥ ρ ∧ ‖ξ - ξs‖ ≤ 4 * ‖ρ‖ := by
  obtain ⟨P, h1, h2⟩ := h.jac ξ hξ
  obtain ⟨ρ, r1, r2⟩ := h.rem ξ hξ
  refine ⟨(ξs - ξ + P (ξs - ξ)) + ρ, ?_, ?_⟩
  · rw [r1, h1, mulVec_add A _ ρ]
    abel
  · have h3 := h2 (ξs - ξ)
    have h5 : ‖ξs - ξ‖ = ‖ξ - ξs‖ := norm_sub_rev _ _
    have h6 : ‖ξs - ξ‖ ≤ ‖(ξs - ξ + P (ξs - ξ)) + ρ‖ + ‖P (ξs - ξ)‖ + ‖ρ‖ := by
      have e : ξs - ξ = ((ξs - ξ + P (ξs - ξ)) + ρ) - P (ξs - ξ) - ρ := by abel
      calc ‖ξs - ξ‖ = ‖((ξs - ξ + P (ξs - ξ)) + ρ) - P (ξs - ξ) - ρ‖ := by rw [← e]
        _ ≤ ‖((ξs - ξ + P (ξs - ξ)) + ρ) - P (ξs - ξ)‖ + ‖ρ‖ := norm_sub_le _ _
        _ ≤ _ := by have := norm_sub_le ((ξs - ξ + P (ξs - ξ)) + ρ) (P (ξs - ξ)); linarith
    have h7 : ‖ξ - ξs‖ ^ 2 ≤ ‖ξ - ξs‖ := by nlinarith [norm_nonneg (ξ - ξs)]
    rw [h5] at h6 h3
    linarith

theorem NewtonReady.iterate (h : NewtonReady E X A ξs) (h0 : ‖ξs‖ ≤ 1) (k : ℕ) :
    ‖(newtonStep E X (E.worldCoordinates X ξs))^[k] 0 - ξs‖ ≤ (1 / 2) ^ (2 ^ k - 1) := by
  induction k with
  | zero => simpa using h0
  | succ k ih =>
    rw [Function.iterate_succ_apply']
    have hle : (1 / 2 : ℝ) ^ (2 ^ k - 1) ≤ 1 := pow_le_one₀ (by norm_num) (by norm_num)
    refine (h.step (ih.trans hle)).trans ?_
    have h2 : ‖(newtonStep E X (E.worldCoordinates X ξs))^[k] 0 - ξs‖ ^ 2 ≤ ((1 / 2 : ℝ) ^ (2 ^ k - 1)) ^ 2 := pow_le_pow_left₀ (norm_nonneg _) ih 2
    have hk : 1 ≤ 2 ^ k := Nat.one_le_two_pow
    have e : 2 ^ (k + 1) - 1 = (2 ^ k - 1) * 2 + 1 := by rw [pow_succ]; omega
    rw [e, pow_succ (1 / 2 : ℝ), pow_mul]
    linarith

/-- The result of the search with the default tolerance and number of iterations. -/
theorem NewtonReady.result (h : NewtonReady E X A ξs) (h0 : ‖ξs‖ ≤ 1) {α R : ℝ} (hα : 0 ≤ α) (hR : 1 ≤ R) (hsize : ∀ (v : Fin d → ℝ) j, v j ^ 2 ≤ α ^ 2 * ∑ a, (A *ᵥ v) a ^ 2)
    (hfar : dist2 (E.worldCoordinates X ξs) (E.worldCoordinates X 0) ≤ R ^ 2) :
    ‖localCoordinatesDefault E X (E.worldCoordinates X ξs) - ξs‖ ≤ max (1 / 2 ^ 31) (4 * α * R / 10 ^ 5) := by
  have key : ∀ ξ, ‖ξ - ξs‖ ≤ 1 → dist2 (E.worldCoordinates X ξs) (E.worldCoordinates X ξ) ≤ (R / 10 ^ 5) ^ 2 → ‖ξ - ξs‖ ≤ 4 * α * R / 10 ^ 5 := by
    intro ξ hξ hd
    obtain ⟨ρ, e1, e2⟩ := h.residual hξ
    have hρ : ‖ρ‖ ≤ α * (R / 10 ^ 5) := by
      rw [pi_norm_le_iff_of_nonneg (by positivity)]
      intro j
      rw [Real.norm_eq_abs]
      refine abs_le_of_sq_le_sq ?_ (by positivity)
      refine (hsize ρ j).trans ?_
      rw [← e1, mul_pow]
      exact mul_le_mul_of_nonneg_left hd (sq_nonneg _)
    calc ‖ξ - ξs‖ ≤ 4 * ‖ρ‖ := e2
      _ ≤ 4 * (α * (R / 10 ^ 5)) := by linarith
      _ = _ := by ring
  rcases C16_exit E X (E.worldCoordinates X ξs) 0 (1 / 100000) 5 with ⟨c1, c2⟩ | ⟨c1, k, k1, k2, k3, k4, k5⟩
  · rw [localCoordinatesDefault, localCoordinates, c2]
    refine le_max_of_le_right (key 0 (by rwa [zero_sub, norm_neg]) (c1.le.trans ?_))
    rw [div_pow, div_pow]
    have : (1 : ℝ) ^ 2 ≤ R ^ 2 := pow_le_pow_left₀ zero_le_one hR 2
    norm_num
    linarith
  · rw [localCoordinatesDefault, localCoordinates, k3]
    have hk := h.iterate h0 k
    have h1 : (1 / 2 : ℝ) ^ (2 ^ k - 1) ≤ 1 := pow_le_one₀ (by norm_num) (by norm_num)
    rcases Nat.lt_or_ge k 5 with hk5 | hk5
    · refine le_max_of_le_right (key _ (hk.trans h1) ((k4 hk5).le.trans ?_))
      rw [div_pow, div_pow]
      norm_num
      linarith
    · have : k = 5 := le_antisymm (k2.trans (by norm_num)) hk5
      subst this
      refine le_max_of_le_left (hk.trans ?_)
      norm_num

/-! ### Quads -/

theorem quad_moment0 (X : Fin 4 → Fin 2 → ℝ) (a : Fin 2) : cornerMoment quadSign X {0} a = (-X 0 a + X 1 a + X 2 a - X 3 a) / 4 := by
  simp [cornerMoment, Fin.sum_univ_four, quadSign]; ring

theorem quad_moment1 (X : Fin 4 → Fin 2 → ℝ) (a : Fin 2) : cornerMoment quadSign X {1} a = (-X 0 a - X 1 a + X 2 a + X 3 a) / 4 := by
  simp [cornerMoment, Fin.sum_univ_four, quadSign]; ring

theorem quad_moment01 (X : Fin 4 → Fin 2 → ℝ) (a : Fin 2) : cornerMoment quadSign X {0, 1} a = (X 0 a - X 1 a + X 2 a - X 3 a) / 4 := by
  simp [cornerMoment, Fin.sum_univ_four, quadSign]; ring

/-- The matrix of the mean edges. -/
noncomputable def meanEdges {d n : ℕ} (σ : Fin n → Fin d → ℝ) (X : Fin n → Fin d → ℝ) : Matrix (Fin d) (Fin d) ℝ := Matrix.of fun a j => cornerMoment σ X {j} a

theorem meanEdges_mulVec {d n : ℕ} (σ : Fin n → Fin d → ℝ) (X : Fin n → Fin d → ℝ) (v : Fin d → ℝ) (a : Fin d) :
    (meanEdges σ X *ᵥ v) a = ∑ j, v j * cornerMoment σ X {j} a := by
  simp only [mulVec, dotProduct, meanEdges, Matrix.of_apply]
  exact Finset.sum_congr rfl fun j _ => mul_comm _ _

theorem NearBox.inj {d n : ℕ} {σ : Fin n → Fin d → ℝ} {X : Fin n → Fin d → ℝ} {θ α : ℝ} (h : NearBox σ X θ α) (v : Fin d → ℝ) (hv : meanEdges σ X *ᵥ v = 0) : v = 0 := by
  funext j
  have := h.size v j
  simp only [← meanEdges_mulVec, hv, Pi.zero_apply] at this
  simp at this
  exact this

theorem abs_le_norm {d : ℕ} (v : Fin d → ℝ) (i : Fin d) : |v i| ≤ ‖v‖ := by
  rw [← Real.norm_eq_abs]; exact norm_le_pi_norm v i

theorem near_abs {d : ℕ} {ξ ξs : Fin d → ℝ} (h0 : ‖ξs‖ ≤ 1) (h : ‖ξ - ξs‖ ≤ 1) (i : Fin d) : |ξ i| ≤ 2 := by
  have h1 := (abs_le_norm ξs i).trans h0
  have h2 := (abs_le_norm (ξ - ξs) i).trans h
  rw [Pi.sub_apply] at h2
  rw [abs_le] at h1 h2 ⊢
  constructor <;> linarith [h1.1, h1.2, h2.1, h2.2]

theorem quad_ready {X : Fin 4 → Fin 2 → ℝ} {θ α : ℝ} (h : NearBox quadSign X θ α) (hθ : θ ≤ 1 / 8) {ξs : Fin 2 → ℝ} (h0 : ‖ξs‖ ≤ 1) :
    NewtonReady (quad1 : Elem ℝ 2 4) X (meanEdges quadSign X) ξs := by
  obtain ⟨c, c1, c2⟩ := h.skew {0, 1} (by decide)
  have hc : ∀ j, |c j| ≤ 1 / 8 := fun j => (c1 j).trans hθ
  simp only [Fin.sum_univ_two, quad_moment01, quad_moment0, quad_moment1] at c2
  refine ⟨fun v hv => NearBox.inj h v hv, fun ξ hξ => ⟨fun v i => c i * (ξ 1 * v 0 + ξ 0 * v 1), fun v => ?_, fun v => ?_⟩, fun ξ hξ => ⟨fun i => c i * ((ξs 0 - ξ 0) * (ξs 1 - ξ 1)), ?_, ?_⟩⟩
  · funext a
    rw [meanEdges_mulVec]
    simp only [mulVec, dotProduct, Fin.sum_univ_two, Fin.sum_univ_four, Elem.jacobian, quad1, Pi.add_apply, quad_moment0, quad_moment1, Matrix.cons_val]
    linear_combination (ξ 1 * v 0 + ξ 0 * v 1) * c2 a
  · rw [pi_norm_le_iff_of_nonneg (by positivity)]
    intro i
    rw [Real.norm_eq_abs, abs_mul]
    have a1 : |ξ 1 * v 0 + ξ 0 * v 1| ≤ 4 * ‖v‖ := by
      refine (abs_add_le _ _).trans ?_
      rw [abs_mul, abs_mul]
      have b1 := mul_le_mul (near_abs h0 hξ 1) (abs_le_norm v 0) (abs_nonneg _) (by norm_num)
      have b2 := mul_le_mul (near_abs h0 hξ 0) (abs_le_norm v 1) (abs_nonneg _) (by norm_num)
      linarith
    have := mul_le_mul (hc i) a1 (abs_nonneg _) (by norm_num)
    linarith
  · funext a
    rw [Pi.add_apply, Pi.add_apply, meanEdges_mulVec]
    simp only [mulVec, dotProduct, Fin.sum_univ_two, Fin.sum_univ_four, Elem.jacobian, Elem.worldCoordinates, Elem.interpolate, quad1, Pi.sub_apply, quad_moment0, quad_moment1, Matrix.cons_val]
    linear_combination ((ξs 0 - ξ 0) * (ξs 1 - ξ 1)) * c2 a
  · rw [pi_norm_le_iff_of_nonneg (by positivity)]
    intro i
    rw [Real.norm_eq_abs, abs_mul, abs_mul]
    have e : ∀ j, |ξs j - ξ j| ≤ ‖ξ - ξs‖ := fun j => by rw [abs_sub_comm]; exact abs_le_norm (ξ - ξs) j
    have b1 := mul_le_mul (e 0) (e 1) (abs_nonneg _) (norm_nonneg _)
    have := mul_le_mul (hc i) b1 (by positivity) (by norm_num)
    nlinarith [norm_nonneg (ξ - ξs)]

/-! ### Hexahedra -/

theorem hexa_moment0 (X : Fin 8 → Fin 3 → ℝ) (a : Fin 3) :
    cornerMoment hexaSign X {0} a = (-X 0 a + X 1 a + X 2 a - X 3 a - X 4 a + X 5 a + X 6 a - X 7 a) / 8 := by
  simp [cornerMoment, Fin.sum_univ_eight, hexaSign]; ring

theorem hexa_moment1 (X : Fin 8 → Fin 3 → ℝ) (a : Fin 3) :
    cornerMoment hexaSign X {1} a = (-X 0 a - X 1 a + X 2 a + X 3 a - X 4 a - X 5 a + X 6 a + X 7 a) / 8 := by
  simp [cornerMoment, Fin.sum_univ_eight, hexaSign]; ring

theorem hexa_moment2 (X : Fin 8 → Fin 3 → ℝ) (a : Fin 3) :
    cornerMoment hexaSign X {2} a = (-X 0 a - X 1 a - X 2 a - X 3 a + X 4 a + X 5 a + X 6 a + X 7 a) / 8 := by
  simp [cornerMoment, Fin.sum_univ_eight, hexaSign]; ring

theorem hexa_moment01 (X : Fin 8 → Fin 3 → ℝ) (a : Fin 3) :
    cornerMoment hexaSign X {0, 1} a = (X 0 a - X 1 a + X 2 a - X 3 a + X 4 a - X 5 a + X 6 a - X 7 a) / 8 := by
  simp [cornerMoment, Fin.sum_univ_eight, hexaSign]; ring

theorem hexa_moment12 (X : Fin 8 → Fin 3 → ℝ) (a : Fin 3) :
    cornerMoment hexaSign X {1, 2} a = (X 0 a + X 1 a - X 2 a - X 3 a - X 4 a - X 5 a + X 6 a + X 7 a) / 8 := by
  simp [cornerMoment, Fin.sum_univ_eight, hexaSign]; ring

theorem hexa_moment02 (X : Fin 8 → Fin 3 → ℝ) (a : Fin 3) :
    cornerMoment hexaSign X {0, 2} a = (X 0 a - X 1 a - X 2 a + X 3 a - X 4 a + X 5 a + X 6 a - X 7 a) / 8 := by
  simp [cornerMoment, Fin.sum_univ_eight, hexaSign]; ring

theorem hexa_moment012 (X : Fin 8 → Fin 3 → ℝ) (a : Fin 3) :
    cornerMoment hexaSign X {0, 1, 2} a = (-X 0 a + X 1 a - X 2 a + X 3 a + X 4 a - X 5 a + X 6 a - X 7 a) / 8 := by
  simp [cornerMoment, Fin.sum_univ_eight, hexaSign]; ring

theorem abs_mul_le {x y p q : ℝ} (hx : |x| ≤ p) (hy : |y| ≤ q) : |x * y| ≤ p * q := by
  rw [abs_mul]
  exact mul_le_mul hx hy (abs_nonneg _) ((abs_nonneg _).trans hx)

theorem abs_add_le_of {x y p q : ℝ} (hx : |x| ≤ p) (hy : |y| ≤ q) : |x + y| ≤ p + q := (abs_add_le _ _).trans (add_le_add hx hy)

theorem hexa_ready {X : Fin 8 → Fin 3 → ℝ} {θ α : ℝ} (h : NearBox hexaSign X θ α) (hθ : θ ≤ 1 / 48) {ξs : Fin 3 → ℝ} (h0 : ‖ξs‖ ≤ 1) :
    NewtonReady (hexa1 : Elem ℝ 3 8) X (meanEdges hexaSign X) ξs := by
  obtain ⟨c, c1, c2⟩ := h.skew {0, 1} (by decide)
  obtain ⟨p, p1, p2⟩ := h.skew {1, 2} (by decide)
  obtain ⟨q, q1, q2⟩ := h.skew {0, 2} (by decide)
  obtain ⟨t, t1, t2⟩ := h.skew {0, 1, 2} (by decide)
  have hc : ∀ j, |c j| ≤ 1 / 48 := fun j => (c1 j).trans hθ
  have hp : ∀ j, |p j| ≤ 1 / 48 := fun j => (p1 j).trans hθ
  have hq : ∀ j, |q j| ≤ 1 / 48 := fun j => (q1 j).trans hθ
  have ht : ∀ j, |t j| ≤ 1 / 48 := fun j => (t1 j).trans hθ
  simp only [Fin.sum_univ_three, hexa_moment01, hexa_moment12, hexa_moment02, hexa_moment012, hexa_moment0, hexa_moment1, hexa_moment2] at c2 p2 q2 t2
  refine ⟨fun v hv => NearBox.inj h v hv, fun ξ hξ => ⟨fun v i => c i * (ξ 1 * v 0 + ξ 0 * v 1) + p i * (ξ 2 * v 1 + ξ 1 * v 2) + q i * (ξ 2 * v 0 + ξ 0 * v 2) +
      t i * (ξ 1 * ξ 2 * v 0 + ξ 0 * ξ 2 * v 1 + ξ 0 * ξ 1 * v 2), fun v => ?_, fun v => ?_⟩,
    fun ξ hξ => ⟨fun i => c i * ((ξs 0 - ξ 0) * (ξs 1 - ξ 1)) + p i * ((ξs 1 - ξ 1) * (ξs 2 - ξ 2)) + q i * ((ξs 0 - ξ 0) * (ξs 2 - ξ 2)) +
      t i * (ξ 0 * ((ξs 1 - ξ 1) * (ξs 2 - ξ 2)) + ξ 1 * ((ξs 0 - ξ 0) * (ξs 2 - ξ 2)) + ξ 2 * ((ξs 0 - ξ 0) * (ξs 1 - ξ 1)) +
        (ξs 0 - ξ 0) * ((ξs 1 - ξ 1) * (ξs 2 - ξ 2))), ?_, ?_⟩⟩
  · funext a
    rw [meanEdges_mulVec]
    simp only [mulVec, dotProduct, Fin.sum_univ_three, Fin.sum_univ_eight, Elem.jacobian, hexa1, Pi.add_apply, hexa_moment0, hexa_moment1, hexa_moment2, Matrix.cons_val]
    linear_combination (ξ 1 * v 0 + ξ 0 * v 1) * c2 a + (ξ 2 * v 1 + ξ 1 * v 2) * p2 a + (ξ 2 * v 0 + ξ 0 * v 2) * q2 a + (ξ 1 * ξ 2 * v 0 + ξ 0 * ξ 2 * v 1 + ξ 0 * ξ 1 * v 2) * t2 a
  · rw [pi_norm_le_iff_of_nonneg (by positivity)]
    intro i
    rw [Real.norm_eq_abs]
    have b := near_abs h0 hξ
    have w := abs_le_norm v
    have z1 := abs_mul_le (hc i) (abs_add_le_of (abs_mul_le (b 1) (w 0)) (abs_mul_le (b 0) (w 1)))
    have z2 := abs_mul_le (hp i) (abs_add_le_of (abs_mul_le (b 2) (w 1)) (abs_mul_le (b 1) (w 2)))
    have z3 := abs_mul_le (hq i) (abs_add_le_of (abs_mul_le (b 2) (w 0)) (abs_mul_le (b 0) (w 2)))
    have z4 := abs_mul_le (ht i) (abs_add_le_of (abs_add_le_of (abs_mul_le (abs_mul_le (b 1) (b 2)) (w 0)) (abs_mul_le (abs_mul_le (b 0) (b 2)) (w 1))) (abs_mul_le (abs_mul_le (b 0) (b 1)) (w 2)))
    have := abs_add_le_of (abs_add_le_of (abs_add_le_of z1 z2) z3) z4
    refine this.trans (le_of_eq ?_)
    ring
  · funext a
    rw [Pi.add_apply, Pi.add_apply, meanEdges_mulVec]
    simp only [mulVec, dotProduct, Fin.sum_univ_three, Fin.sum_univ_eight, Elem.jacobian, Elem.worldCoordinates, Elem.interpolate, hexa1, Pi.sub_apply, hexa_moment0, hexa_moment1, hexa_moment2,
      Matrix.cons_val]
    linear_combination ((ξs 0 - ξ 0) * (ξs 1 - ξ 1)) * c2 a + ((ξs 1 - ξ 1) * (ξs 2 - ξ 2)) * p2 a + ((ξs 0 - ξ 0) * (ξs 2 - ξ 2)) * q2 a +
      (ξ 0 * ((ξs 1 - ξ 1) * (ξs 2 - ξ 2)) + ξ 1 * ((ξs 0 - ξ 0) * (ξs 2 - ξ 2)) + ξ 2 * ((ξs 0 - ξ 0) * (ξs 1 - ξ 1)) + (ξs 0 - ξ 0) * ((ξs 1 - ξ 1) * (ξs 2 - ξ 2))) * t2 a
  · rw [pi_norm_le_iff_of_nonneg (by positivity)]
    intro i
    rw [Real.norm_eq_abs]
    have b := near_abs h0 hξ
    obtain ⟨N, hN⟩ : ∃ N, N = ‖ξ - ξs‖ := ⟨_, rfl⟩
    rw [← hN] at hξ ⊢
    have hN0 : 0 ≤ N := by rw [hN]; exact norm_nonneg _
    have e : ∀ j, |ξs j - ξ j| ≤ N := fun j => by rw [abs_sub_comm, hN]; exact abs_le_norm (ξ - ξs) j
    have e1 : ∀ j, |ξs j - ξ j| ≤ 1 := fun j => (e j).trans hξ
    have z1 := abs_mul_le (hc i) (abs_mul_le (e 0) (e 1))
    have z2 := abs_mul_le (hp i) (abs_mul_le (e 1) (e 2))
    have z3 := abs_mul_le (hq i) (abs_mul_le (e 0) (e 2))
    have z4 := abs_mul_le (ht i) (abs_add_le_of (abs_add_le_of (abs_add_le_of (abs_mul_le (b 0) (abs_mul_le (e 1) (e 2))) (abs_mul_le (b 1) (abs_mul_le (e 0) (e 2))))
      (abs_mul_le (b 2) (abs_mul_le (e 0) (e 1)))) (abs_mul_le (e1 0) (abs_mul_le (e 1) (e 2))))
    have := abs_add_le_of (abs_add_le_of (abs_add_le_of z1 z2) z3) z4
    refine this.trans ?_
    nlinarith

end Caribou

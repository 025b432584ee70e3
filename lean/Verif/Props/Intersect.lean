import Verif.Lemmas.Intersect
import Verif.Lemmas.Frame
import Verif.Props.Rectangular

/-!
# Properties C21, C22: exactness of the cube intersection tests (zero tolerance)
-/

set_option autoImplicit false

namespace Caribou

open Spec

section Local

variable {K : Type*} [Field K] [LinearOrder K] [IsStrictOrderedRing K]

/-- **C21.** The segment test on local coordinates answers true exactly when the closed segment meets the closed cube. -/
theorem C21_segment (v0 v1 : Fin 3 → K) :
    intersectsLocalSegment v0 v1 0 = true ↔ ∃ x, OnSegment v0 v1 x ∧ InCube x := segment_iff v0 v1

example : intersectsLocalSegment (K := ℚ) ![-2, 0, 0] ![0, 2, 0] 0 = true ∧
    intersectsLocalSegment (K := ℚ) ![-3, 0, 0] ![0, 3, 0] 0 = false := by decide +kernel

/-- **C22.** The triangle test on local coordinates, with any positive multiple of the cross product as normal. -/
theorem C22_triangle (P : Fin 3 → Fin 3 → K) (k : K) (hk : 0 < k) (hn : triangleNormal P ≠ 0) :
    intersectsLocalPolygon P (fun j => k * triangleNormal P j) 0 = true ↔
      ∃ x, InTriangle (P 0) (P 1) (P 2) x ∧ InCube x := triangle_iff P k hk hn

/-- **C22 (degenerate).** Three aligned points: the test is still exact. -/
theorem C22_degenerate (P : Fin 3 → Fin 3 → K) (hn : triangleNormal P = 0) :
    intersectsLocalPolygon P 0 0 = true ↔ ∃ x, InTriangle (P 0) (P 1) (P 2) x ∧ InCube x := triangle_degenerate P hn

example : (intersectsLocalPolygon (K := ℚ) ![![-5, -5, 0], ![5, -5, 0], ![0, 5, 0]] ![0, 0, 1] 0 = true) ∧
    (intersectsLocalPolygon (K := ℚ) ![![-5, -5, 2], ![5, -5, 2], ![0, 5, 2]] ![0, 0, 1] 0 = false) := by
  decide +kernel

end Local

section World

variable {K : Type*} [Field K] [LinearOrder K] [IsStrictOrderedRing K]

theorem inCube_local_iff (h : RectHexa K) (hR : OrthonormalCols h.R) (hH : ∀ j, h.H j ≠ 0) (p : Fin 3 → K) :
    InCube (h.localCoordinates p) ↔ InBox h.center h.H h.R 0 p := by
  constructor
  · intro hc
    refine ⟨fun j => h.localCoordinates p j * (h.H j / 2), fun a => ?_, fun j => ?_⟩
    · conv_lhs => rw [← C18_world_of_local h hR hH p]
      rfl
    · rw [abs_mul, abs_div, abs_two, add_zero]
      exact mul_le_mul_of_nonneg_right (abs_le.mpr (hc j)) (by positivity)
  · rintro ⟨s, hs, hb⟩ j
    have h2 : 0 < |h.H j| / 2 := half_pos (abs_pos.mpr (hH j))
    have hp : p = h.center + h.R.mulVec s := funext fun a => hs a
    have : h.localCoordinates p j = s j / (h.H j / 2) := by
      rw [RectHexa.localCoordinates, hp, add_sub_cancel_left, Matrix.mulVec_mulVec, hR, Matrix.one_mulVec]
    rw [this, ← abs_le, abs_div, abs_div, abs_two, div_le_iff₀ h2]
    simpa using hb j

theorem local_combination (h : RectHexa K) {n : ℕ} (P : Fin n → Fin 3 → K) (w : Fin n → K) (hw : ∑ i, w i = 1)
    (x : Fin 3 → K) (hx : ∀ j, x j = ∑ i, w i * P i j) (j : Fin 3) :
    h.localCoordinates x j = ∑ i, w i * h.localCoordinates (P i) j := by
  have e : h.R.transpose.mulVec (x - h.center) j = ∑ i, w i * h.R.transpose.mulVec (P i - h.center) j := by
    simp only [Matrix.mulVec, dotProduct, Pi.sub_apply, Matrix.transpose_apply, Finset.mul_sum]
    rw [Finset.sum_comm]
    refine Finset.sum_congr rfl fun a _ => ?_
    have : ∑ i, w i * (h.R a j * (P i a - h.center a)) = h.R a j * (∑ i, w i * P i a - (∑ i, w i) * h.center a) := by
      rw [Finset.sum_mul, ← Finset.sum_sub_distrib, Finset.mul_sum]
      exact Finset.sum_congr rfl fun i _ => by ring
    rw [this, hw, hx a, one_mul]
  simp only [RectHexa.localCoordinates] at *
  rw [e, Finset.sum_div]
  exact Finset.sum_congr rfl fun i _ => by rw [mul_div_assoc]

theorem world_combination (h : RectHexa K) {n : ℕ} (P : Fin n → Fin 3 → K) (w : Fin n → K) (hw : ∑ i, w i = 1)
    (hR : OrthonormalCols h.R) (hH : ∀ j, h.H j ≠ 0)
    (x : Fin 3 → K) (hx : ∀ j, h.localCoordinates x j = ∑ i, w i * h.localCoordinates (P i) j) (j : Fin 3) :
    x j = ∑ i, w i * P i j := by
  set y : Fin 3 → K := fun j => ∑ i, w i * P i j with hy
  have e : h.localCoordinates x = h.localCoordinates y := funext fun j => by
    rw [hx j, local_combination h P w hw y (fun j => rfl) j]
  have : x = y := by rw [← C18_world_of_local h hR hH x, e, C18_world_of_local h hR hH y]
  rw [this]

/-- **C21 (world).** `RectangularHexahedron::intersects(Segment)` answers true exactly when the segment meets the rotated
box. -/
theorem C21_world (h : RectHexa K) (hR : OrthonormalCols h.R) (hH : ∀ j, h.H j ≠ 0) (a b : Fin 3 → K) :
    h.intersectsSegment a b 0 = true ↔ ∃ x, OnSegment a b x ∧ InBox h.center h.H h.R 0 x := by
  rw [RectHexa.intersectsSegment, C21_segment]
  constructor
  · rintro ⟨y, ⟨t, t0, t1, hy⟩, hc⟩
    have hl := C18_local_of_world h hR hH y
    refine ⟨h.worldCoordinates y, ⟨t, t0, t1, fun j => ?_⟩, (inCube_local_iff h hR hH _).mp (by rw [hl]; exact hc)⟩
    have := world_combination h ![a, b] ![1 - t, t] (by rw [sum_fin2]; simp) hR hH (h.worldCoordinates y)
      (fun j => by rw [hl, sum_fin2]; exact hy j) j
    rw [sum_fin2] at this
    exact this
  · rintro ⟨x, ⟨t, t0, t1, hx⟩, hc⟩
    refine ⟨h.localCoordinates x, ⟨t, t0, t1, fun j => ?_⟩, (inCube_local_iff h hR hH _).mpr hc⟩
    have := local_combination h ![a, b] ![1 - t, t] (by rw [sum_fin2]; simp) x
      (fun j => by rw [sum_fin2]; exact hx j) j
    rw [sum_fin2] at this
    exact this

theorem inTriangle_local_iff (h : RectHexa K) (hR : OrthonormalCols h.R) (hH : ∀ j, h.H j ≠ 0) (t : Fin 3 → Fin 3 → K) :
    (∃ y, InTriangle (h.localCoordinates (t 0)) (h.localCoordinates (t 1)) (h.localCoordinates (t 2)) y ∧ InCube y) ↔
      ∃ x, InTriangle (t 0) (t 1) (t 2) x ∧ InBox h.center h.H h.R 0 x := by
  constructor
  · rintro ⟨y, ⟨α, β, γ, h0, h1, h2, hs, hy⟩, hc⟩
    have hl := C18_local_of_world h hR hH y
    refine ⟨h.worldCoordinates y, ⟨α, β, γ, h0, h1, h2, hs, fun j => ?_⟩,
      (inCube_local_iff h hR hH _).mp (by rw [hl]; exact hc)⟩
    have := world_combination h t ![α, β, γ] (by rw [sum_fin3]; exact hs) hR hH (h.worldCoordinates y)
      (fun j => by rw [hl, sum_fin3]; exact hy j) j
    rw [sum_fin3] at this
    exact this
  · rintro ⟨x, ⟨α, β, γ, h0, h1, h2, hs, hx⟩, hc⟩
    refine ⟨h.localCoordinates x, ⟨α, β, γ, h0, h1, h2, hs, fun j => ?_⟩, (inCube_local_iff h hR hH _).mpr hc⟩
    have := local_combination h t ![α, β, γ] (by rw [sum_fin3]; exact hs) x
      (fun j => by rw [sum_fin3]; exact hx j) j
    rw [sum_fin3] at this
    exact this

end World

/-- **C22 (as called).** `intersects(Triangle)` with the normalised normal, on local coordinates. -/
theorem C22_local (P : Fin 3 → Fin 3 → ℝ) :
    intersectsLocalTriangle P 0 = true ↔ ∃ x, InTriangle (P 0) (P 1) (P 2) x ∧ InCube x := by
  rw [intersectsLocalTriangle]
  by_cases hn : triangleNormal P = 0
  · rw [normalized_of_zero hn]
    exact C22_degenerate P hn
  · obtain ⟨k, hk, he⟩ := normalized_pos_multiple hn
    rw [he]
    exact C22_triangle P k hk hn

/-- **C22 (world).** `RectangularHexahedron::intersects(Triangle)` answers true exactly when the triangle meets the
rotated box. -/
theorem C22_world (h : RectHexa ℝ) (hR : OrthonormalCols h.R) (hH : ∀ j, h.H j ≠ 0) (t : Fin 3 → Fin 3 → ℝ) :
    h.intersectsTriangle t 0 = true ↔ ∃ x, InTriangle (t 0) (t 1) (t 2) x ∧ InBox h.center h.H h.R 0 x := by
  rw [RectHexa.intersectsTriangle, C22_local]
  exact inTriangle_local_iff h hR hH t

example : ∃ h : RectHexa ℝ, OrthonormalCols h.R ∧ (∀ j, h.H j ≠ 0) ∧ h.center ≠ 0 :=
  ⟨⟨![1, 2, 3], ![1, 2, 3], 1⟩, by simp [OrthonormalCols], by intro j; fin_cases j <;> simp, by
    intro h; have := congrFun h 0; simp at this⟩

end Caribou

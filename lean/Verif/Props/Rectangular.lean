import Verif.Model.Rectangular
import Verif.Lemmas.Frame
import Verif.Props.LocalCoordinates
import Verif.Props.Canonical

/-!
# Properties C18 – C20: rectangular elements and frames
-/

set_option autoImplicit false

namespace Caribou

open Spec

section Hexa

variable {K : Type*} [Field K]

/-- **C18 (local ∘ world).** A rectangular hexahedron with a rotation (or reflection) and no zero side recovers the
local coordinates it was given. -/
theorem C18_local_of_world [CharZero K] (h : RectHexa K) (hR : OrthonormalCols h.R) (hH : ∀ j, h.H j ≠ 0) (ξ : Fin 3 → K) :
    h.localCoordinates (h.worldCoordinates ξ) = ξ := by
  funext j
  have h2 : h.H j / 2 ≠ 0 := div_ne_zero (hH j) two_ne_zero
  rw [RectHexa.localCoordinates, RectHexa.worldCoordinates, add_sub_cancel_left, Matrix.mulVec_mulVec, hR,
    Matrix.one_mulVec, mul_div_assoc, div_self h2, mul_one]

/-- **C18 (world ∘ local).** Conversely every point of the space is recovered from its local coordinates. -/
theorem C18_world_of_local [CharZero K] (h : RectHexa K) (hR : OrthonormalCols h.R) (hH : ∀ j, h.H j ≠ 0) (p : Fin 3 → K) :
    h.worldCoordinates (h.localCoordinates p) = p := by
  have : (fun j => h.localCoordinates p j * (h.H j / 2)) = h.R.transpose.mulVec (p - h.center) := by
    funext j
    exact div_mul_cancel₀ _ (div_ne_zero (hH j) two_ne_zero)
  rw [RectHexa.worldCoordinates, this, Matrix.mulVec_mulVec, mul_eq_one_comm.mp hR, Matrix.one_mulVec, add_sub_cancel]

/-- **C18 (contains).** `contains(p)` holds exactly for the points of the rotated box, enlarged by the default relative
tolerance `1e-10`. -/
theorem C18_contains [LinearOrder K] [IsStrictOrderedRing K] (h : RectHexa K) (hR : OrthonormalCols h.R)
    (hH : ∀ j, h.H j ≠ 0) (p : Fin 3 → K) :
    h.contains p = true ↔ InBox h.center h.H h.R (1 / 10000000000) p := by
  have key : h.contains p = true ↔ ∀ j, |h.localCoordinates p j| ≤ 1 + 1 / 10000000000 := by
    have h14 := C14_contains_iff (K := K) .rectHexa1 ⟨by decide, by decide⟩ (h.localCoordinates p) (1 / 10000000000)
      (by rw [neg_le_iff_add_nonneg]; positivity)
    have h1 : h.contains p = true ↔ some (h.contains p) = some true := by simp
    rw [h1]
    refine h14.trans (forall_congr' fun j => ?_)
    rw [abs_le, neg_add, sub_eq_add_neg]
  rw [key]
  constructor
  · intro hc
    refine ⟨fun j => h.localCoordinates p j * (h.H j / 2), fun a => ?_, fun j => ?_⟩
    · conv_lhs => rw [← C18_world_of_local h hR hH p]
      rfl
    · rw [abs_mul, abs_div, abs_two]
      exact mul_le_mul_of_nonneg_right (hc j) (by positivity)
  · rintro ⟨s, hs, hb⟩ j
    have h2 : 0 < |h.H j| / 2 := half_pos (abs_pos.mpr (hH j))
    have hp : p = h.center + h.R.mulVec s := funext fun a => hs a
    have : h.localCoordinates p j = s j / (h.H j / 2) := by
      rw [RectHexa.localCoordinates, hp, add_sub_cancel_left, Matrix.mulVec_mulVec, hR, Matrix.one_mulVec]
    rw [this, abs_div, abs_div, abs_two, div_le_iff₀ h2]
    exact hb j

/-- A box of sides 2, 4, 1/2, turned a quarter turn, meets the hypotheses of C18; the point (2, 0, 0) is inside. -/
example : let h : RectHexa ℚ := ⟨![1, 0, 0], ![2, 4, 1/2], !![0, -1, 0; 1, 0, 0; 0, 0, 1]⟩
    OrthonormalCols h.R ∧ (∀ j, h.H j ≠ 0) ∧ h.contains ![2, 0, 0] = true ∧ h.contains ![2, 3/2, 0] = false := by
  decide +kernel

end Hexa

section Interpolation

variable {K : Type*} [Field K] [CharZero K]

/-- The linear part of the map of a rectangular element: the columns of `R` scaled by half the sides. -/
theorem rectHexa_world_affine (h : RectHexa K) (ξ : Fin 3 → K) :
    h.worldCoordinates ξ = affineMap h.center (Matrix.of fun a j => h.R a j * (h.H j / 2)) ξ := by
  funext a
  simp only [RectHexa.worldCoordinates, affineMap, Pi.add_apply, Matrix.mulVec, dotProduct, Matrix.of_apply]
  congr 1
  exact Finset.sum_congr rfl fun j _ => by ring

theorem rectQuad_T2_affine (q : RectQuad K 2) (ξ : Fin 2 → K) :
    q.T2 ξ = affineMap q.center (Matrix.of fun a j => q.R a j * (q.H j / 2)) ξ := by
  funext a
  simp only [RectQuad.T2, affineMap, Pi.add_apply, Matrix.mulVec, dotProduct, Matrix.of_apply]
  congr 1
  exact Finset.sum_congr rfl fun j _ => by ring

theorem rectQuad_T3_affine (q : RectQuad K 3) (ξ : Fin 2 → K) :
    q.T3 ξ = affineMap q.center (Matrix.of fun a j => q.R a j.castSucc * (q.H j / 2)) ξ := by
  funext a
  simp only [RectQuad.T3, affineMap, Pi.add_apply, Matrix.mulVec, dotProduct, Matrix.of_apply, sum_fin3, Fin.sum_univ_two,
    Matrix.cons_val, Fin.castSucc_zero, Fin.castSucc_one]
  ring

theorem Order.hexa_affine_world (o : Order) {m : ℕ} (c : Fin m → K) (A : Matrix (Fin m) (Fin 3) K) (ξ : Fin 3 → K) :
    (o.hexa (K := K)).worldCoordinates (fun i => affineMap c A (o.hexa.node i)) ξ = affineMap c A ξ := by
  cases o
  · exact affine_world' .hexa1 c A ξ
  · exact affine_world' .hexa2 c A ξ

theorem Order.quad_affine_world (o : Order) {m : ℕ} (c : Fin m → K) (A : Matrix (Fin m) (Fin 2) K) (ξ : Fin 2 → K) :
    (o.quad (K := K)).worldCoordinates (fun i => affineMap c A (o.quad.node i)) ξ = affineMap c A ξ := by
  cases o
  · exact affine_world' .quad1 c A ξ
  · exact affine_world' .quad2 c A ξ

theorem Order.quad_affine_jacobian (o : Order) {m : ℕ} (c : Fin m → K) (A : Matrix (Fin m) (Fin 2) K)
    (ξ : Fin 2 → K) :
    (o.quad (K := K)).jacobian (fun i => affineMap c A (o.quad.node i)) ξ = A := by
  cases o
  · exact affine_jacobian' .quad1 c A ξ
  · exact affine_jacobian' .quad2 c A ξ

/-- **C19 (hexahedra).** The closed form of `world_coordinates` is the interpolation of the element's own nodes, for
both orders, any size and any matrix `R`. -/
theorem C19_hexa_world (o : Order) (h : RectHexa K) (ξ : Fin 3 → K) :
    h.worldCoordinates ξ = o.hexa.worldCoordinates (h.nodes o.hexa) ξ := by
  have : h.nodes (o.hexa (K := K)) = fun i => affineMap h.center (Matrix.of fun a j => h.R a j * (h.H j / 2)) (o.hexa.node i) :=
    funext fun i => rectHexa_world_affine h _
  rw [this, o.hexa_affine_world, rectHexa_world_affine]

/-- **C19 (quads, 2D).** `T` is the interpolation of the quad's own nodes. -/
theorem C19_quad_world2 (o : Order) (q : RectQuad K 2) (ξ : Fin 2 → K) :
    q.T2 ξ = o.quad.worldCoordinates (q.nodes2 o.quad) ξ := by
  have : q.nodes2 (o.quad (K := K)) = fun i => affineMap q.center (Matrix.of fun a j => q.R a j * (q.H j / 2)) (o.quad.node i) :=
    funext fun i => rectQuad_T2_affine q _
  rw [this, o.quad_affine_world, rectQuad_T2_affine]

/-- **C19 (quads, 3D).** `T` is the interpolation of the quad's own nodes. -/
theorem C19_quad_world3 (o : Order) (q : RectQuad K 3) (ξ : Fin 2 → K) :
    q.T3 ξ = o.quad.worldCoordinates (q.nodes3 o.quad) ξ := by
  have : q.nodes3 (o.quad (K := K)) =
      fun i => affineMap q.center (Matrix.of fun a j => q.R a j.castSucc * (q.H j / 2)) (o.quad.node i) :=
    funext fun i => rectQuad_T3_affine q _
  rw [this, o.quad_affine_world, rectQuad_T3_affine]

example : (RectHexa.nodes (K := ℚ) ⟨![1, 0, 0], ![2, 4, 1/2], !![0, -1, 0; 1, 0, 0; 0, 0, 1]⟩ hexa1) 2 = ![-1, 1, -1/4] := by
  decide +kernel

end Interpolation

section QuadInverse

variable {K : Type*} [Field K] [LinearOrder K] [IsStrictOrderedRing K]

/-- **C18 fails for quads.** `RectangularQuad` inherits the iterative `local_coordinates`, which accepts its starting
point when it is closer than `1e-5`: on the default quad the local coordinates of the image of `(1e-6, 0)` are `(0, 0)`. -/
theorem C18_quad_violated : ∃ (q : RectQuad ℚ 2) (ξ : Fin 2 → ℚ), OrthonormalCols q.R ∧ (∀ j, q.H j ≠ 0) ∧
    ∀ o : Order, localCoordinatesDefault o.quad (q.nodes2 o.quad) (o.quad.worldCoordinates (q.nodes2 o.quad) ξ) ≠ ξ := by
  refine ⟨⟨![0, 0], ![2, 2], 1⟩, ![1/1000000, 0], by simp [OrthonormalCols], by decide, fun o => ?_⟩
  set q : RectQuad ℚ 2 := ⟨![0, 0], ![2, 2], 1⟩ with hq
  have h0 : ¬ (0 : ℚ) = 1/1000000 := by norm_num
  rcases C16_exit o.quad (q.nodes2 o.quad) (o.quad.worldCoordinates (q.nodes2 o.quad) ![1/1000000, 0]) 0 (1/100000) 5
    with ⟨-, h⟩ | ⟨h, -⟩
  · rw [localCoordinatesDefault, localCoordinates, h]
    intro h; exact h0 (congrFun h 0)
  · exfalso
    rw [← C19_quad_world2, ← C19_quad_world2] at h
    revert h
    decide +kernel

theorem rectQuad_inverse_core (o : Order) (q : RectQuad K 2) (hR : OrthonormalCols q.R) (hH : ∀ j, q.H j ≠ 0)
    (p : Fin 2 → K) :
    (localCoordinatesDefault o.quad (q.nodes2 o.quad) p = 0 ∧ dist2 p q.center < (1 / 100000) ^ 2) ∨
      o.quad.worldCoordinates (q.nodes2 o.quad) (localCoordinatesDefault o.quad (q.nodes2 o.quad) p) = p := by
  have hn : q.nodes2 (o.quad (K := K)) = fun i => affineMap q.center (Matrix.of fun a j => q.R a j * (q.H j / 2)) (o.quad.node i) :=
    funext fun i => rectQuad_T2_affine q _
  have hdet : (Matrix.of fun a j => q.R a j * (q.H j / 2)).det ≠ 0 := by
    have h1 : (q.R.transpose * q.R).det = 1 := by rw [hR, Matrix.det_one]
    rw [Matrix.det_mul, Matrix.det_transpose, Matrix.det_fin_two] at h1
    rw [Matrix.det_fin_two]
    simp only [Matrix.of_apply]
    intro h0
    have h2 : q.H 0 / 2 * (q.H 1 / 2) * (q.R 0 0 * q.R 1 1 - q.R 0 1 * q.R 1 0) = 0 := by linear_combination h0
    rcases mul_eq_zero.mp h2 with h3 | h3
    · rcases mul_eq_zero.mp h3 with h4 | h4
      · exact hH 0 ((div_eq_zero_iff.mp h4).resolve_right two_ne_zero)
      · exact hH 1 ((div_eq_zero_iff.mp h4).resolve_right two_ne_zero)
    · rw [h3] at h1; simp at h1
  have := affine_inverse_core (o.quad (K := K)) (q.nodes2 o.quad) q.center _
    (fun ξ => by rw [hn, o.quad_affine_world, affineMap_eq]) (fun ξ => by rw [hn, o.quad_affine_jacobian]) hdet p 0
    (1 / 100000) 5
  rcases this with ⟨h1, h2⟩ | h
  · refine .inl ⟨h1, ?_⟩
    rw [hn, o.quad_affine_world, affineMap_eq, Matrix.mulVec_zero, add_zero] at h2
    exact h2
  · exact .inr h

/-- **C18 (quads, partial).** In the plane, with an orthonormal frame and no zero side, the local coordinates found for
a point map exactly back to it, except within `1e-5` of the centre where `(0, 0)` may be returned.  Missing: the exact
answer near the centre (false, see `C18_quad_violated`), and `contains`, which does not exist for quads. -/
theorem C18_quad_partial (o : Order) (q : RectQuad K 2) (hR : OrthonormalCols q.R) (hH : ∀ j, q.H j ≠ 0)
    (p : Fin 2 → K) (hp : (1 / 100000) ^ 2 ≤ dist2 p q.center) :
    o.quad.worldCoordinates (q.nodes2 o.quad) (localCoordinatesDefault o.quad (q.nodes2 o.quad) p) = p :=
  (rectQuad_inverse_core o q hR hH p).resolve_left fun h => absurd h.2 (not_lt.mpr hp)

/-- In 3D: away from the centre, local coordinates of the image of a local point give this local point. -/
theorem C18_quad3_partial (o : Order) (q : RectQuad K 3) (hR : OrthonormalCols q.R) (hH : ∀ j, q.H j ≠ 0) (ξ : Fin 2 → K)
    (hp : (1 / 100000) ^ 2 ≤ dist2 (o.quad.worldCoordinates (q.nodes3 o.quad) ξ) q.center) :
    localCoordinatesDefault o.quad (q.nodes3 o.quad) (o.quad.worldCoordinates (q.nodes3 o.quad) ξ) = ξ := by
  set A : Matrix (Fin 3) (Fin 2) K := Matrix.of fun a j => q.R a j.castSucc * (q.H j / 2) with hA
  have hn : q.nodes3 (o.quad (K := K)) = fun i => affineMap q.center A (o.quad.node i) :=
    funext fun i => rectQuad_T3_affine q _
  have hw : ∀ ξ, o.quad.worldCoordinates (q.nodes3 o.quad) ξ = q.center + A.mulVec ξ := fun ξ => by
    rw [hn, o.quad_affine_world, affineMap_eq]
  have hRR : ∀ i j, ∑ a, q.R a i * q.R a j = (1 : Matrix (Fin 3) (Fin 3) K) i j := fun i j => by
    rw [← hR, Matrix.mul_apply]; rfl
  have hAA : A.transpose * A = Matrix.diagonal fun j => (q.H j / 2) ^ 2 := by
    ext i j
    rw [Matrix.mul_apply]
    have : ∑ a, A.transpose i a * A a j = (∑ a, q.R a i.castSucc * q.R a j.castSucc) * (q.H i / 2 * (q.H j / 2)) := by
      rw [Finset.sum_mul]
      refine Finset.sum_congr rfl fun a _ => ?_
      simp only [hA, Matrix.transpose_apply, Matrix.of_apply]; ring
    rw [this, hRR, Matrix.one_apply, Matrix.diagonal_apply]
    by_cases hij : i = j
    · subst hij; simp [pow_two]
    · rw [if_neg hij, if_neg (fun h => hij (Fin.castSucc_injective _ h)), zero_mul]
  have hdet : (A.transpose * A).det ≠ 0 := by
    rw [hAA, Matrix.det_diagonal, Finset.prod_ne_zero_iff]
    exact fun j _ => pow_ne_zero _ (div_ne_zero (hH j) two_ne_zero)
  have := projection_core (by decide) (o.quad (K := K)) (q.nodes3 o.quad) q.center A hw
    (fun ξ => by rw [hn, o.quad_affine_jacobian]) hdet (o.quad.worldCoordinates (q.nodes3 o.quad) ξ) 0 (1 / 100000) 5
  rcases this with ⟨-, h2⟩ | ⟨-, h2⟩
  · rw [hw 0, Matrix.mulVec_zero, add_zero] at h2
    exact absurd h2 (not_lt.mpr hp)
  · have h3 := h2 ξ
    change dist2 _ (o.quad.worldCoordinates (q.nodes3 o.quad) (localCoordinatesDefault _ _ _)) ≤ _ at h3
    set η := localCoordinatesDefault o.quad (q.nodes3 o.quad) (o.quad.worldCoordinates (q.nodes3 o.quad) ξ)
    have h4 : dist2 (o.quad.worldCoordinates (q.nodes3 o.quad) ξ) (o.quad.worldCoordinates (q.nodes3 o.quad) ξ) = 0 := by
      simp [dist2]
    rw [h4] at h3
    have h5 : A.mulVec ξ = A.mulVec η := by
      funext a
      have := (Finset.sum_eq_zero_iff_of_nonneg (fun a _ => sq_nonneg _)).mp
        (le_antisymm h3 (Finset.sum_nonneg fun a _ => sq_nonneg _)) a (Finset.mem_univ a)
      rw [hw, hw] at this
      have := pow_eq_zero_iff (two_ne_zero) |>.mp this
      simp only [Pi.add_apply] at this
      linear_combination this
    have h6 : (A.transpose * A)⁻¹.mulVec (A.transpose.mulVec (A.mulVec ξ)) = (A.transpose * A)⁻¹.mulVec (A.transpose.mulVec (A.mulVec η)) := by
      rw [h5]
    simpa [Matrix.mulVec_mulVec, Matrix.nonsing_inv_mul _ (isUnit_iff_ne_zero.mpr hdet)] using h6.symm

/-- A tilted quad and a point away from its centre meet the hypotheses of the partial theorems. -/
example : let q : RectQuad ℚ 2 := ⟨![1, 1], ![2, 3], !![3/5, -4/5; 4/5, 3/5]⟩
    OrthonormalCols q.R ∧ (∀ j, q.H j ≠ 0) ∧ (1 / 100000) ^ 2 ≤ dist2 ![2, 5] q.center := by decide +kernel

end QuadInverse

section Conversion

/-- Box corner formula: the point of local coordinates `ξ` in the box of centre `c`, sides `H` and axes the columns of
`R`. -/
noncomputable def boxPoint {m : ℕ} (c : Fin m → ℝ) (H : Fin m → ℝ) (R : Matrix (Fin m) (Fin m) ℝ) (ξ : Fin m → ℝ) : Fin m → ℝ :=
  fun a => c a + ∑ j, R a j * (H j / 2 * ξ j)

private theorem hexa_diff (c H : Fin 3 → ℝ) (R : Matrix (Fin 3) (Fin 3) ℝ) (ξ η : Fin 3 → ℝ) (j : Fin 3) (s : ℝ)
    (h : ξ - η = Pi.single j s) :
    affineMap c (Matrix.of fun a j => R a j * (H j / 2)) ξ - affineMap c (Matrix.of fun a j => R a j * (H j / 2)) η
      = (H j / 2 * s) • fun a => R a j := by
  funext a
  have hk : ∀ k, ξ k - η k = if k = j then s else 0 := fun k => by
    have := congrFun h k
    simpa [Pi.single_apply] using this
  simp only [Pi.sub_apply, affineMap, Matrix.of_apply, Pi.smul_apply, smul_eq_mul, add_sub_add_left_eq_sub,
    ← Finset.sum_sub_distrib, ← mul_sub, hk]
  simp
  ring

/-- **C19 (conversion).** Take the nodes of a box of positive sides with a rotated frame, as a linear or quadratic
hexahedron.  Converting it to a rectangular hexahedron recovers centre, sides and frame. -/
theorem C19_from_hexa (o : Order) (h : RectHexa ℝ) (hR : IsRotation h.R) (hH : ∀ j, 0 < h.H j) :
    RectHexa.ofHexa o.hexa (h.nodes o.hexa) = h := by
  have hn : ∀ i, h.nodes o.hexa i = affineMap h.center (Matrix.of fun a j => h.R a j * (h.H j / 2)) (o.hexa.node i) :=
    fun i => rectHexa_world_affine h _
  have hw : ∀ ξ, o.hexa.worldCoordinates (h.nodes o.hexa) ξ
      = affineMap h.center (Matrix.of fun a j => h.R a j * (h.H j / 2)) ξ := fun ξ => by
    rw [← C19_hexa_world, rectHexa_world_affine]
  have d1 : (o.hexa (K := ℝ)).node 1 - o.hexa.node 0 = Pi.single 0 2 := by
    cases o
    · change (hexa1 (K := ℝ)).node 1 - hexa1.node 0 = _
      funext i; fin_cases i <;> simp [hexa1]; norm_num
    · change (hexa2 (K := ℝ)).node 1 - hexa2.node 0 = _
      funext i; fin_cases i <;> simp [hexa2]; norm_num
  have d3 : (o.hexa (K := ℝ)).node 3 - o.hexa.node 0 = Pi.single 1 2 := by
    cases o
    · change (hexa1 (K := ℝ)).node 3 - hexa1.node 0 = _
      funext i; fin_cases i <;> simp [hexa1]; norm_num
    · change (hexa2 (K := ℝ)).node 3 - hexa2.node 0 = _
      funext i; fin_cases i <;> simp [hexa2]; norm_num
  have d4 : (o.hexa (K := ℝ)).node 4 - o.hexa.node 0 = Pi.single 2 2 := by
    cases o
    · change (hexa1 (K := ℝ)).node 4 - hexa1.node 0 = _
      funext i; fin_cases i <;> simp [hexa1]; norm_num
    · change (hexa2 (K := ℝ)).node 4 - hexa2.node 0 = _
      funext i; fin_cases i <;> simp [hexa2]; norm_num
  have hj : ∀ j, h.H j / 2 * 2 = h.H j := fun j => by ring
  have hcenter : affineMap h.center (Matrix.of fun a j => h.R a j * (h.H j / 2)) ![0, 0, 0] = h.center := by
    funext a; simp [affineMap, Fin.sum_univ_three]
  have e1 : ((![1, 0, 0] : Fin 3 → ℝ) - ![0, 0, 0]) = Pi.single 0 1 := by funext i; fin_cases i <;> simp
  have e2 : ((![0, 1, 0] : Fin 3 → ℝ) - ![0, 0, 0]) = Pi.single 1 1 := by funext i; fin_cases i <;> simp
  obtain ⟨c, H, R⟩ := h
  simp only [RectHexa.ofHexa]
  congr 1
  · rw [hw]; exact hcenter
  · simp only [hn]
    rw [hexa_diff _ _ _ _ _ 0 2 d1, hexa_diff _ _ _ _ _ 1 2 d3, hexa_diff _ _ _ _ _ 2 2 d4, hj, hj, hj,
      norm2_col hR.1 (hH 0), norm2_col hR.1 (hH 1), norm2_col hR.1 (hH 2)]
    funext i; fin_cases i <;> rfl
  · simp only [hexaFrame, hw, Matrix.cons_val]
    rw [hexa_diff _ _ _ _ _ 0 1 e1, hexa_diff _ _ _ _ _ 1 1 e2]
    exact frameOfAxes_of_rotation hR (by have := hH 0; simp only at this ⊢; positivity)
      (by have := hH 1; simp only at this ⊢; positivity)

/-- **C19 (conversion, same map).** Hence the rectangular hexahedron made from the nodes of a box maps every local point
where the original hexahedron maps it. -/
theorem C19_from_hexa_same_map (o : Order) (c H : Fin 3 → ℝ) (R : Matrix (Fin 3) (Fin 3) ℝ) (hR : IsRotation R)
    (hH : ∀ j, 0 < H j) (nodes : Fin o.hexaNodes → Fin 3 → ℝ) (hn : ∀ i, nodes i = boxPoint c H R (o.hexa.node i))
    (ξ : Fin 3 → ℝ) :
    (RectHexa.ofHexa o.hexa nodes).worldCoordinates ξ = o.hexa.worldCoordinates nodes ξ := by
  have : nodes = RectHexa.nodes ⟨c, H, R⟩ o.hexa := by
    funext i a
    rw [hn, boxPoint]
    simp only [RectHexa.nodes, RectHexa.worldCoordinates, Pi.add_apply, Matrix.mulVec, dotProduct]
    congr 1
    exact Finset.sum_congr rfl fun j _ => by ring
  rw [this, C19_from_hexa o ⟨c, H, R⟩ hR hH, C19_hexa_world o]

private theorem quad_d1 (o : Order) : (o.quad (K := ℝ)).node 1 - o.quad.node 0 = Pi.single 0 2 := by
  cases o
  · change (quad1 (K := ℝ)).node 1 - quad1.node 0 = _
    funext i; fin_cases i <;> simp [quad1]; norm_num
  · change (quad2 (K := ℝ)).node 1 - quad2.node 0 = _
    funext i; fin_cases i <;> simp [quad2]; norm_num

private theorem quad_d3 (o : Order) : (o.quad (K := ℝ)).node 3 - o.quad.node 0 = Pi.single 1 2 := by
  cases o
  · change (quad1 (K := ℝ)).node 3 - quad1.node 0 = _
    funext i; fin_cases i <;> simp [quad1]; norm_num
  · change (quad2 (K := ℝ)).node 3 - quad2.node 0 = _
    funext i; fin_cases i <;> simp [quad2]; norm_num

private theorem quad_diff {m : ℕ} (c : Fin m → ℝ) (H : Fin 2 → ℝ) (R : Fin m → Fin 2 → ℝ) (ξ η : Fin 2 → ℝ) (j : Fin 2)
    (s : ℝ) (h : ξ - η = Pi.single j s) :
    affineMap c (Matrix.of fun a j => R a j * (H j / 2)) ξ - affineMap c (Matrix.of fun a j => R a j * (H j / 2)) η
      = (H j / 2 * s) • fun a => R a j := by
  funext a
  have hk : ∀ k, ξ k - η k = if k = j then s else 0 := fun k => by
    have := congrFun h k
    simpa [Pi.single_apply] using this
  simp only [Pi.sub_apply, affineMap, Matrix.of_apply, Pi.smul_apply, smul_eq_mul, add_sub_add_left_eq_sub,
    ← Finset.sum_sub_distrib, ← mul_sub, hk]
  simp
  ring

/-- **C19 (conversion of quads, 2D).** The same for a rectangle of the plane (the frame may even be a reflection). -/
theorem C19_from_quad2 (o : Order) (q : RectQuad ℝ 2) (hR : OrthonormalCols q.R) (hH : ∀ j, 0 < q.H j) :
    RectQuad.ofQuad2 o.quad (q.nodes2 o.quad) = q := by
  have hn : ∀ i, q.nodes2 o.quad i = affineMap q.center (Matrix.of fun a j => q.R a j * (q.H j / 2)) (o.quad.node i) :=
    fun i => rectQuad_T2_affine q _
  have hw : ∀ ξ, o.quad.worldCoordinates (q.nodes2 o.quad) ξ
      = affineMap q.center (Matrix.of fun a j => q.R a j * (q.H j / 2)) ξ := fun ξ => by
    rw [← C19_quad_world2, rectQuad_T2_affine]
  have hj : ∀ j, q.H j / 2 * 2 = q.H j := fun j => by ring
  have hcenter : affineMap q.center (Matrix.of fun a j => q.R a j * (q.H j / 2)) ![0, 0] = q.center := by
    funext a; simp [affineMap, Fin.sum_univ_two]
  have e1 : ((![1, 0] : Fin 2 → ℝ) - ![0, 0]) = Pi.single 0 1 := by funext i; fin_cases i <;> simp
  have e2 : ((![0, 1] : Fin 2 → ℝ) - ![0, 0]) = Pi.single 1 1 := by funext i; fin_cases i <;> simp
  obtain ⟨c, H, R⟩ := q
  simp only [RectQuad.ofQuad2]
  have diff : ∀ ξ η j s, ξ - η = Pi.single j s → _ := fun ξ η j s => quad_diff c H (fun a j => R a j) ξ η j s
  congr 1
  · rw [hw]; exact hcenter
  · simp only [hn]
    rw [diff _ _ 0 2 (quad_d1 o), diff _ _ 1 2 (quad_d3 o), hj, hj,
      norm2_col hR (hH 0), norm2_col hR (hH 1)]
    funext i; fin_cases i <;> rfl
  · simp only [quadFrame2, hw, Matrix.cons_val]
    rw [diff _ _ 0 1 e1, diff _ _ 1 1 e2,
      normalized_smul (by have := hH 0; simp only at this ⊢; positivity) _ (by simpa using col_dot hR 0 0),
      normalized_smul (by have := hH 1; simp only at this ⊢; positivity) _ (by simpa using col_dot hR 1 1)]
    ext i j
    fin_cases j <;> rfl

/-- **C19 (conversion of quads, 3D).** The same for a rectangle of the space with a rotated frame. -/
theorem C19_from_quad3 (o : Order) (q : RectQuad ℝ 3) (hR : IsRotation q.R) (hH : ∀ j, 0 < q.H j) :
    RectQuad.ofQuad3 o.quad (q.nodes3 o.quad) = q := by
  have hn : ∀ i, q.nodes3 o.quad i
      = affineMap q.center (Matrix.of fun a j => q.R a j.castSucc * (q.H j / 2)) (o.quad.node i) :=
    fun i => rectQuad_T3_affine q _
  have hw : ∀ ξ, o.quad.worldCoordinates (q.nodes3 o.quad) ξ
      = affineMap q.center (Matrix.of fun a j => q.R a j.castSucc * (q.H j / 2)) ξ := fun ξ => by
    rw [← C19_quad_world3, rectQuad_T3_affine]
  have hj : ∀ j, q.H j / 2 * 2 = q.H j := fun j => by ring
  have hcenter : affineMap q.center (Matrix.of fun a j => q.R a j.castSucc * (q.H j / 2)) ![0, 0] = q.center := by
    funext a; simp [affineMap, Fin.sum_univ_two]
  have e1 : ((![1, 0] : Fin 2 → ℝ) - ![0, 0]) = Pi.single 0 1 := by funext i; fin_cases i <;> simp
  have e2 : ((![0, 1] : Fin 2 → ℝ) - ![0, 0]) = Pi.single 1 1 := by funext i; fin_cases i <;> simp
  obtain ⟨c, H, R⟩ := q
  simp only [RectQuad.ofQuad3]
  have diff := fun ξ η j s => quad_diff c H (fun a j => R a j.castSucc) ξ η j s
  congr 1
  · rw [hw]; exact hcenter
  · simp only [hn]
    rw [diff _ _ 0 2 (quad_d1 o), diff _ _ 1 2 (quad_d3 o), hj, hj,
      norm2_col hR.1 (hH 0), norm2_col hR.1 (hH 1)]
    funext i; fin_cases i <;> rfl
  · simp only [quadFrame3, hw, Matrix.cons_val]
    have n0 : (fun a => R a (Fin.castSucc 0)) ⬝ᵥ (fun a => R a (Fin.castSucc 0)) = 1 := by simpa using col_dot hR.1 0 0
    have n1 : (fun a => R a (Fin.castSucc 1)) ⬝ᵥ (fun a => R a (Fin.castSucc 1)) = 1 := by simpa using col_dot hR.1 1 1
    rw [diff _ _ 0 1 e1, diff _ _ 1 1 e2,
      normalized_smul (by have := hH 0; simp only at this ⊢; positivity) _ n0,
      normalized_smul (by have := hH 1; simp only at this ⊢; positivity) _ n1]
    have n2 := rotation_third hR
    change columns3 (fun a => R a 0) (fun a => R a 1) (normalized (crossProduct (fun a => R a 0) (fun a => R a 1))) = R
    rw [n2, normalized_of_unit (by simpa using col_dot hR.1 2 2), columns3_self]

private theorem along_single {m : ℕ} (ξ : Fin m → ℝ) (j : Fin m) : Function.update ξ j 1 - ξ = Pi.single j (1 - ξ j) := by
  funext i
  rw [Pi.sub_apply, Function.update_apply, Pi.single_apply]
  split_ifs with h
  · rw [h]
  · exact sub_self _

/-- **C19 (frames).** The frame at any local point inside a linear or quadratic hexahedron, or quad of the plane or of space, whose nodes are those of a box or of a rectangle is the frame of the box. -/
theorem C19_frame (o : Order) :
    (∀ h : RectHexa ℝ, IsRotation h.R → (∀ j, 0 < h.H j) → ∀ ξ : Fin 3 → ℝ, (∀ j, ξ j < 1) → hexaFrame o.hexa (h.nodes o.hexa) ξ = h.R) ∧
    (∀ q : RectQuad ℝ 2, OrthonormalCols q.R → (∀ j, 0 < q.H j) → ∀ ξ : Fin 2 → ℝ, (∀ j, ξ j < 1) → quadFrame2 o.quad (q.nodes2 o.quad) ξ = q.R) ∧
    ∀ q : RectQuad ℝ 3, IsRotation q.R → (∀ j, 0 < q.H j) → ∀ ξ : Fin 2 → ℝ, (∀ j, ξ j < 1) → quadFrame3 o.quad (q.nodes3 o.quad) ξ = q.R := by
  refine ⟨fun h hR hH ξ hξ => ?_, fun q hR hH ξ hξ => ?_, fun q hR hH ξ hξ => ?_⟩
  · have hw : ∀ ξ, o.hexa.worldCoordinates (h.nodes o.hexa) ξ = affineMap h.center (Matrix.of fun a j => h.R a j * (h.H j / 2)) ξ := fun ξ => by
      rw [← C19_hexa_world, rectHexa_world_affine]
    have u1 : (![1, ξ 1, ξ 2] : Fin 3 → ℝ) = Function.update ξ 0 1 := by funext i; fin_cases i <;> simp
    have u2 : (![ξ 0, 1, ξ 2] : Fin 3 → ℝ) = Function.update ξ 1 1 := by funext i; fin_cases i <;> simp
    simp only [hexaFrame, hw, u1, u2]
    rw [hexa_diff _ _ _ _ _ 0 _ (along_single ξ 0), hexa_diff _ _ _ _ _ 1 _ (along_single ξ 1)]
    exact frameOfAxes_of_rotation hR (mul_pos (half_pos (hH 0)) (sub_pos.2 (hξ 0))) (mul_pos (half_pos (hH 1)) (sub_pos.2 (hξ 1)))
  · have hw : ∀ ξ, o.quad.worldCoordinates (q.nodes2 o.quad) ξ = affineMap q.center (Matrix.of fun a j => q.R a j * (q.H j / 2)) ξ := fun ξ => by
      rw [← C19_quad_world2, rectQuad_T2_affine]
    have u1 : (![1, ξ 1] : Fin 2 → ℝ) = Function.update ξ 0 1 := by funext i; fin_cases i <;> simp
    have u2 : (![ξ 0, 1] : Fin 2 → ℝ) = Function.update ξ 1 1 := by funext i; fin_cases i <;> simp
    have diff : ∀ ξ η j s, ξ - η = Pi.single j s → _ := fun ξ η j s => quad_diff q.center q.H (fun a j => q.R a j) ξ η j s
    simp only [quadFrame2, hw, u1, u2]
    rw [diff _ _ 0 _ (along_single ξ 0), diff _ _ 1 _ (along_single ξ 1),
      normalized_smul (mul_pos (half_pos (hH 0)) (sub_pos.2 (hξ 0))) _ (by simpa using col_dot hR 0 0),
      normalized_smul (mul_pos (half_pos (hH 1)) (sub_pos.2 (hξ 1))) _ (by simpa using col_dot hR 1 1)]
    ext i j
    fin_cases j <;> rfl
  · have hw : ∀ ξ, o.quad.worldCoordinates (q.nodes3 o.quad) ξ = affineMap q.center (Matrix.of fun a j => q.R a j.castSucc * (q.H j / 2)) ξ := fun ξ => by
      rw [← C19_quad_world3, rectQuad_T3_affine]
    have u1 : (![1, ξ 1] : Fin 2 → ℝ) = Function.update ξ 0 1 := by funext i; fin_cases i <;> simp
    have u2 : (![ξ 0, 1] : Fin 2 → ℝ) = Function.update ξ 1 1 := by funext i; fin_cases i <;> simp
    have diff := fun ξ η j s => quad_diff q.center q.H (fun a j => q.R a j.castSucc) ξ η j s
    have n0 : (fun a => q.R a (Fin.castSucc 0)) ⬝ᵥ (fun a => q.R a (Fin.castSucc 0)) = 1 := by simpa using col_dot hR.1 0 0
    have n1 : (fun a => q.R a (Fin.castSucc 1)) ⬝ᵥ (fun a => q.R a (Fin.castSucc 1)) = 1 := by simpa using col_dot hR.1 1 1
    simp only [quadFrame3, hw, u1, u2]
    rw [diff _ _ 0 _ (along_single ξ 0), diff _ _ 1 _ (along_single ξ 1),
      normalized_smul (mul_pos (half_pos (hH 0)) (sub_pos.2 (hξ 0))) _ n0,
      normalized_smul (mul_pos (half_pos (hH 1)) (sub_pos.2 (hξ 1))) _ n1]
    have n2 := rotation_third hR
    change columns3 (fun a => q.R a 0) (fun a => q.R a 1) (normalized (crossProduct (fun a => q.R a 0) (fun a => q.R a 1))) = q.R
    rw [n2, normalized_of_unit (by simpa using col_dot hR.1 2 2), columns3_self]

/-- The quarter turn about `z` is a rotation, and the sides are positive. -/
example : IsRotation (!![0, -1, 0; 1, 0, 0; 0, 0, 1] : Matrix (Fin 3) (Fin 3) ℝ) ∧ ∀ j, (0 : ℝ) < ![2, 4, 1/2] j := by
  refine ⟨⟨?_, by simp [Matrix.det_fin_three]⟩, fun j => by fin_cases j <;> norm_num⟩
  rw [OrthonormalCols]
  ext i j
  fin_cases i <;> fin_cases j <;> simp [Matrix.mul_apply, Fin.sum_univ_three]

end Conversion

section Frames

/-- **C20 (tetrahedra).** If the first two edges at node 0 are not parallel, the frame is a direct orthonormal basis,
its first axis along the first edge and the second edge in the half plane of its first two axes. -/
theorem C20_tetra {n : ℕ} [NeZero n] (nodes : Fin n → Fin 3 → ℝ)
    (h : ¬ Parallel (nodes 1 - nodes 0) (nodes 2 - nodes 0)) :
    IsRotation (tetraFrame nodes) ∧ AlignedWith (tetraFrame nodes) (nodes 1 - nodes 0) (nodes 2 - nodes 0) :=
  ⟨frameOfAxes_rotation (cross_ne_zero_of_not_parallel h), frameOfAxes_aligned (cross_ne_zero_of_not_parallel h)⟩

/-- **C20 (hexahedra).** The same at every local point of a hexahedron, for the two vectors that join the point to its
projections on the faces `u = 1` and `v = 1`. -/
theorem C20_hexa (o : Order) (nodes : Fin o.hexaNodes → Fin 3 → ℝ) (ξ : Fin 3 → ℝ) :
    let x := o.hexa.worldCoordinates nodes
    ¬ Parallel (x ![1, ξ 1, ξ 2] - x ξ) (x ![ξ 0, 1, ξ 2] - x ξ) →
    IsRotation (hexaFrame o.hexa nodes ξ) ∧
      AlignedWith (hexaFrame o.hexa nodes ξ) (x ![1, ξ 1, ξ 2] - x ξ) (x ![ξ 0, 1, ξ 2] - x ξ) := by
  intro x h
  exact ⟨frameOfAxes_rotation (cross_ne_zero_of_not_parallel h), frameOfAxes_aligned (cross_ne_zero_of_not_parallel h)⟩

private theorem rigid_eq {m : ℕ} (Q : Matrix (Fin m) (Fin m) ℝ) (t x : Fin m → ℝ) : rigid Q t x = Q.mulVec x + t := by
  funext a; simp [rigid, Matrix.mulVec, dotProduct]

/-- **C20 (rigid motions, tetrahedra).** Moving the element rigidly rotates its frame. -/
theorem C20_tetra_rigid {n : ℕ} [NeZero n] (nodes : Fin n → Fin 3 → ℝ) (Q : Matrix (Fin 3) (Fin 3) ℝ)
    (hQ : IsRotation Q) (t : Fin 3 → ℝ) : tetraFrame (fun i => rigid Q t (nodes i)) = Q * tetraFrame nodes := by
  simp only [tetraFrame, rigid_eq, add_sub_add_right_eq_sub, ← Matrix.mulVec_sub]
  exact frameOfAxes_rotate hQ _ _

/-- **C20 (rigid motions, hexahedra).** -/
theorem C20_hexa_rigid (o : Order) (nodes : Fin o.hexaNodes → Fin 3 → ℝ) (ξ : Fin 3 → ℝ)
    (Q : Matrix (Fin 3) (Fin 3) ℝ) (hQ : IsRotation Q) (t : Fin 3 → ℝ) :
    hexaFrame o.hexa (fun i => rigid Q t (nodes i)) ξ = Q * hexaFrame o.hexa nodes ξ := by
  have hsum : ∀ ξ, ∑ i, (o.hexa (K := ℝ)).L ξ i = 1 := by
    cases o
    · exact C01_partition_of_unity .hexa1
    · exact C01_partition_of_unity .hexa2
  have hx : ∀ ξ, o.hexa.worldCoordinates (fun i => rigid Q t (nodes i)) ξ
      = Q.mulVec (o.hexa.worldCoordinates nodes ξ) + t := by
    intro ξ
    funext a
    simp only [Elem.worldCoordinates, Elem.interpolate, rigid, add_mul, Finset.sum_add_distrib, ← Finset.mul_sum, hsum,
      mul_one, Pi.add_apply, Matrix.mulVec, dotProduct]
    congr 1
    simp only [Finset.sum_mul, Finset.mul_sum]
    rw [Finset.sum_comm]
    exact Finset.sum_congr rfl fun j _ => Finset.sum_congr rfl fun i _ => by ring
  simp only [hexaFrame, hx, add_sub_add_right_eq_sub, ← Matrix.mulVec_sub]
  exact frameOfAxes_rotate hQ _ _

private theorem one_rotation : IsRotation (1 : Matrix (Fin 3) (Fin 3) ℝ) := ⟨by simp [OrthonormalCols], Matrix.det_one⟩

/-- **C20 (identity, tetrahedra).** If the first edge is along `x` and the second along `y`, the frame is the identity. -/
theorem C20_tetra_identity {n : ℕ} [NeZero n] (nodes : Fin n → Fin 3 → ℝ) (s t : ℝ) (hs : 0 < s) (ht : 0 < t)
    (h1 : nodes 1 - nodes 0 = ![s, 0, 0]) (h2 : nodes 2 - nodes 0 = ![0, t, 0]) : tetraFrame nodes = 1 := by
  rw [tetraFrame, h1, h2, ← frameOfAxes_of_rotation one_rotation hs ht]
  congr 1 <;> funext i <;> fin_cases i <;> simp

/-- **C20 (identity, hexahedra).** The frame of an axis-aligned box is the identity at every local point off the two
projection faces. -/
theorem C20_hexa_identity (o : Order) (c H : Fin 3 → ℝ) (hH : ∀ j, 0 < H j) (nodes : Fin o.hexaNodes → Fin 3 → ℝ)
    (hn : ∀ i a, nodes i a = c a + H a / 2 * o.hexa.node i a) (ξ : Fin 3 → ℝ) (h0 : ξ 0 < 1) (h1 : ξ 1 < 1) :
    hexaFrame o.hexa nodes ξ = 1 := by
  have hn' : nodes = fun i => affineMap c (Matrix.of fun a j => (1 : Matrix (Fin 3) (Fin 3) ℝ) a j * (H j / 2)) (o.hexa.node i) := by
    funext i a
    simp [hn, affineMap, Matrix.one_apply]
  have d0 : ((![1, ξ 1, ξ 2] : Fin 3 → ℝ) - ξ) = Pi.single 0 (1 - ξ 0) := by funext i; fin_cases i <;> simp
  have d1 : ((![ξ 0, 1, ξ 2] : Fin 3 → ℝ) - ξ) = Pi.single 1 (1 - ξ 1) := by funext i; fin_cases i <;> simp
  simp only [hexaFrame, hn', o.hexa_affine_world]
  rw [hexa_diff _ _ _ _ _ 0 _ d0, hexa_diff _ _ _ _ _ 1 _ d1]
  exact frameOfAxes_of_rotation one_rotation (mul_pos (half_pos (hH 0)) (sub_pos.mpr h0))
    (mul_pos (half_pos (hH 1)) (sub_pos.mpr h1))

/-- A tetrahedron whose first two edges are not parallel. -/
example : ¬ Parallel (![3, 1, 0] - ![1, 0, 0] : Fin 3 → ℝ) (![1, 1, 5] - ![1, 0, 0]) := by
  intro h
  have := h 0 1
  simp at this
  norm_num at this

end Frames

end Caribou

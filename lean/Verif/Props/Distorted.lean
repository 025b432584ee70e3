import Verif.Lemmas.Distorted

/-!
# Property C129: points in distorted quads and hexahedra are found, away from their sides
-/

set_option autoImplicit false

namespace Caribou

open Spec Matrix

/-- **C129, quads.** In a quad which is not far from a parallelogram, the local coordinates found for the image of `ξ` are `ξ` up to an explicit error: the one left after five iterations, or the one
allowed by the tolerance `1e-5`, which is relative to the distance `R` to the centre when this is more than one. -/
theorem C129_quad {X : Fin 4 → Fin 2 → ℝ} {θ α R : ℝ} (h : NearBox quadSign X θ α) (hθ : θ ≤ 1 / 8) (hα : 0 ≤ α) (hR : 1 ≤ R) (ξ : Fin 2 → ℝ) (hξ : Shape.cube.Mem ξ)
    (hfar : dist2 ((quad1 : Elem ℝ 2 4).worldCoordinates X ξ) ((quad1 : Elem ℝ 2 4).worldCoordinates X 0) ≤ R ^ 2) (j : Fin 2) :
    |localCoordinatesDefault quad1 X ((quad1 : Elem ℝ 2 4).worldCoordinates X ξ) j - ξ j| ≤ max (1 / 2 ^ 31) (4 * α * R / 10 ^ 5) := by
  have h0 : ‖ξ‖ ≤ 1 := (pi_norm_le_iff_of_nonneg zero_le_one).2 fun j => by rw [Real.norm_eq_abs, abs_le]; exact hξ j
  have := (quad_ready h hθ h0).result h0 hα hR (fun v j => by simpa only [meanEdges_mulVec] using h.size v j) hfar
  exact (abs_le_norm _ j).trans this

/-- **C129, hexahedra.** The same in a hexahedron which is not far from a parallelepiped. -/
theorem C129_hexahedron {X : Fin 8 → Fin 3 → ℝ} {θ α R : ℝ} (h : NearBox hexaSign X θ α) (hθ : θ ≤ 1 / 48) (hα : 0 ≤ α) (hR : 1 ≤ R) (ξ : Fin 3 → ℝ) (hξ : Shape.cube.Mem ξ)
    (hfar : dist2 ((hexa1 : Elem ℝ 3 8).worldCoordinates X ξ) ((hexa1 : Elem ℝ 3 8).worldCoordinates X 0) ≤ R ^ 2) (j : Fin 3) :
    |localCoordinatesDefault hexa1 X ((hexa1 : Elem ℝ 3 8).worldCoordinates X ξ) j - ξ j| ≤ max (1 / 2 ^ 31) (4 * α * R / 10 ^ 5) := by
  have h0 : ‖ξ‖ ≤ 1 := (pi_norm_le_iff_of_nonneg zero_le_one).2 fun j => by rw [Real.norm_eq_abs, abs_le]; exact hξ j
  have := (hexa_ready h hθ h0).result h0 hα hR (fun v j => by simpa only [meanEdges_mulVec] using h.size v j) hfar
  exact (abs_le_norm _ j).trans this

/-- A point in the box of an element which accepts it is found. -/
theorem found_of_accepted {m d n : ℕ} (hm : IsDim m) (hn : 0 < n) (ops : ElementOps ℝ m d n) (D : MeshDomain ℝ m n) (e : Fin D.numElements) (p : Fin m → ℝ) (hs : 0 < D.cellSize)
    (hbox : InBoxOf (D.element e) p) (hacc : ops.containsLocal (D.element e) (ops.localCoordinates (D.element e) p) = true) :
    ∃ e', (D.barycentricPoint ops p).elementIndex = some e' ∧ e' ≤ e := by
  cases hres : (D.barycentricPoint ops p).elementIndex with
  | none =>
    have := (C33_not_found hm hn ops D p hres).2.2 hs e hbox
    rw [hacc] at this
    exact absurd this (by simp)
  | some e' =>
    refine ⟨e', rfl, ?_⟩
    by_contra hlt
    have hcand : (e : ℕ) ∈ D.hashGrid.get p := by
      rw [hashGrid_eq]
      exact C31_complete hm hn _ hs _ _ _ ((mem_history D _ _).mpr ⟨e, rfl, rfl⟩) p hbox
    have := (C33_found ops D p e' hres).2.2.2 e hcand (not_le.mp hlt)
    rw [hacc] at this
    exact absurd this (by simp)

/-- A mean of the nodes is in their box. -/
theorem box_of_weights {m n : ℕ} (X : Fin n → Fin m → ℝ) (w : Fin n → ℝ) (h0 : ∀ i, 0 ≤ w i) (h1 : ∑ i, w i = 1) : InBoxOf X fun a => ∑ i, X i a * w i := by
  intro a
  constructor
  · by_contra hcon
    push Not at hcon
    have h2 : ∑ i, (∑ i, X i a * w i) * w i ≤ ∑ i, X i a * w i := Finset.sum_le_sum fun i _ => mul_le_mul_of_nonneg_right (hcon i).le (h0 i)
    obtain ⟨i, hi, hpos⟩ : ∃ i ∈ Finset.univ, 0 < w i := by
      by_contra hn
      push Not at hn
      have := Finset.sum_nonpos hn
      linarith
    have h3 : ∑ i, (∑ i, X i a * w i) * w i < ∑ i, X i a * w i :=
      Finset.sum_lt_sum (fun i _ => mul_le_mul_of_nonneg_right (hcon i).le (h0 i)) ⟨i, hi, mul_lt_mul_of_pos_right (hcon i) hpos⟩
    rw [← Finset.mul_sum, h1, mul_one] at h3
    exact lt_irrefl _ h3
  · by_contra hcon
    push Not at hcon
    obtain ⟨i, hi, hpos⟩ : ∃ i ∈ Finset.univ, 0 < w i := by
      by_contra hn
      push Not at hn
      have := Finset.sum_nonpos hn
      linarith
    have h3 : ∑ i, X i a * w i < ∑ i, (∑ i, X i a * w i) * w i :=
      Finset.sum_lt_sum (fun i _ => mul_le_mul_of_nonneg_right (hcon i).le (h0 i)) ⟨i, hi, mul_lt_mul_of_pos_right (hcon i) hpos⟩
    rw [← Finset.mul_sum, h1, mul_one] at h3
    exact lt_irrefl _ h3

/-- The nodes of an element near a box are not all on one plane orthogonal to an axis. -/
theorem NearBox.extent {d n : ℕ} {σ : Fin n → Fin d → ℝ} {X : Fin n → Fin d → ℝ} {θ α : ℝ} (h : NearBox σ X θ α) (hσ : ∀ j, ∑ i, σ i j = 0) (a : Fin d) : ∃ i j, X i a ≠ X j a := by
  by_contra hcon
  push Not at hcon
  have hm : ∀ j, cornerMoment σ X {j} a = 0 := by
    intro j
    unfold cornerMoment
    rcases Nat.eq_zero_or_pos n with hn | hn
    · subst hn; simp
    · have : ∀ i, X i a = X ⟨0, hn⟩ a := fun i => hcon i _
      simp only [Finset.prod_singleton, this, ← Finset.sum_mul, hσ, zero_mul, zero_div]
  have hdet : (meanEdges σ X).transpose.det = 0 := by
    refine exists_mulVec_eq_zero_iff.1 ⟨Pi.single a 1, by simp, ?_⟩
    funext j
    simp [mulVec, dotProduct, meanEdges, Pi.single_apply, hm]
  rw [det_transpose] at hdet
  obtain ⟨v, hv, hv0⟩ := exists_mulVec_eq_zero_iff.2 hdet
  exact hv (NearBox.inj h v hv0)

/-- **C129, quads are found (partial).** In a plane mesh of quads, every point of a quad which is not far from a parallelogram is found, in this quad or in one with a smaller index, when its local
coordinates are inside of the canonical square by the error of `C129_quad`, whatever the other quads are.  Missing: the points closer to the sides, which may be missed (`C129_violated`). -/
theorem C129_quad_found_partial (D : MeshDomain ℝ 2 4) (e : Fin D.numElements) {θ α R : ℝ} (h : NearBox quadSign (D.element e) θ α) (hθ : θ ≤ 1 / 8) (hα : 0 ≤ α) (hR : 1 ≤ R) (ξ : Fin 2 → ℝ)
    (hfar : dist2 ((quad1 : Elem ℝ 2 4).worldCoordinates (D.element e) ξ) ((quad1 : Elem ℝ 2 4).worldCoordinates (D.element e) 0) ≤ R ^ 2)
    (hξ : ∀ j, |ξ j| + max (1 / 2 ^ 31) (4 * α * R / 10 ^ 5) ≤ 1) :
    ∃ e', (D.barycentricPoint (ElementType.quad1.ops 2) ((quad1 : Elem ℝ 2 4).worldCoordinates (D.element e) ξ)).elementIndex = some e' ∧ e' ≤ e := by
  have hpos : (0 : ℝ) ≤ max (1 / 2 ^ 31) (4 * α * R / 10 ^ 5) := le_max_of_le_left (by norm_num)
  have hmem : Shape.cube.Mem ξ := fun j => abs_le.1 ((le_add_of_nonneg_right hpos).trans (hξ j))
  have hacc : Shape.cube.Mem (localCoordinatesDefault quad1 (D.element e) ((quad1 : Elem ℝ 2 4).worldCoordinates (D.element e) ξ)) := by
    intro j
    have h1 := C129_quad h hθ hα hR ξ hmem hfar j
    have h2 := hξ j
    rw [← abs_le]
    have h3 := abs_sub_abs_le_abs_sub (localCoordinatesDefault quad1 (D.element e) ((quad1 : Elem ℝ 2 4).worldCoordinates (D.element e) ξ) j) (ξ j)
    linarith
  obtain ⟨i, j, hij⟩ := NearBox.extent h (by intro j; fin_cases j <;> simp [Fin.sum_univ_four, quadSign]) 0
  refine found_of_accepted (by simp [IsDim]) (by norm_num) _ D e _ (cellSize_pos (by norm_num) D e 0 i j hij) ?_ ?_
  · refine box_of_weights (D.element e) ((quad1 : Elem ℝ 2 4).L ξ) (fun i => ?_) ?_
    · obtain ⟨a1, a2⟩ := hmem 0
      obtain ⟨b1, b2⟩ := hmem 1
      fin_cases i <;> simp only [quad1, Matrix.cons_val, Fin.isValue, Fin.reduceFinMk, Fin.zero_eta, Fin.mk_one] <;>
        refine mul_nonneg (mul_nonneg (by norm_num) (by linarith)) (by linarith)
    · simp only [Fin.sum_univ_four, quad1, Matrix.cons_val]; ring
  · have := C14_accepts ElementType.quad1 ⟨by decide, by decide⟩ _ (1 / 10 ^ 10) (.inl (by positivity)) hacc
    change (ElementType.quad1.containsLocal _ (1 / 10 ^ 10)).getD false = true
    exact (congrArg (·.getD false) this).trans rfl

/-- **C129, hexahedra are found (partial).** The same in a mesh of hexahedra. -/
theorem C129_hexahedron_found_partial (D : MeshDomain ℝ 3 8) (e : Fin D.numElements) {θ α R : ℝ} (h : NearBox hexaSign (D.element e) θ α) (hθ : θ ≤ 1 / 48) (hα : 0 ≤ α) (hR : 1 ≤ R)
    (ξ : Fin 3 → ℝ) (hfar : dist2 ((hexa1 : Elem ℝ 3 8).worldCoordinates (D.element e) ξ) ((hexa1 : Elem ℝ 3 8).worldCoordinates (D.element e) 0) ≤ R ^ 2)
    (hξ : ∀ j, |ξ j| + max (1 / 2 ^ 31) (4 * α * R / 10 ^ 5) ≤ 1) :
    ∃ e', (D.barycentricPoint (ElementType.hexa1.ops 3) ((hexa1 : Elem ℝ 3 8).worldCoordinates (D.element e) ξ)).elementIndex = some e' ∧ e' ≤ e := by
  have hpos : (0 : ℝ) ≤ max (1 / 2 ^ 31) (4 * α * R / 10 ^ 5) := le_max_of_le_left (by norm_num)
  have hmem : Shape.cube.Mem ξ := fun j => abs_le.1 ((le_add_of_nonneg_right hpos).trans (hξ j))
  have hacc : Shape.cube.Mem (localCoordinatesDefault hexa1 (D.element e) ((hexa1 : Elem ℝ 3 8).worldCoordinates (D.element e) ξ)) := by
    intro j
    have h1 := C129_hexahedron h hθ hα hR ξ hmem hfar j
    have h2 := hξ j
    rw [← abs_le]
    have h3 := abs_sub_abs_le_abs_sub (localCoordinatesDefault hexa1 (D.element e) ((hexa1 : Elem ℝ 3 8).worldCoordinates (D.element e) ξ) j) (ξ j)
    linarith
  obtain ⟨i, j, hij⟩ := NearBox.extent h (by intro j; fin_cases j <;> simp [Fin.sum_univ_eight, hexaSign]) 0
  refine found_of_accepted (by simp [IsDim]) (by norm_num) _ D e _ (cellSize_pos (by norm_num) D e 0 i j hij) ?_ ?_
  · refine box_of_weights (D.element e) ((hexa1 : Elem ℝ 3 8).L ξ) (fun i => ?_) ?_
    · obtain ⟨a1, a2⟩ := hmem 0
      obtain ⟨b1, b2⟩ := hmem 1
      obtain ⟨c1, c2⟩ := hmem 2
      fin_cases i <;> simp only [hexa1, Matrix.cons_val, Fin.isValue, Fin.reduceFinMk, Fin.zero_eta, Fin.mk_one] <;>
        refine mul_nonneg (mul_nonneg (mul_nonneg (by norm_num) (by linarith)) (by linarith)) (by linarith)
    · simp only [Fin.sum_univ_eight, hexa1, Matrix.cons_val]; ring
  · have := C14_accepts ElementType.hexa1 ⟨by decide, by decide⟩ _ (1 / 10 ^ 10) (.inl (by positivity)) hacc
    change (ElementType.hexa1.containsLocal _ (1 / 10 ^ 10)).getD false = true
    exact (congrArg (·.getD false) this).trans rfl

/-! ### Negation -/

/-- Two quads side by side in a strip which becomes wider: the abscissas `-1`, `1` and `3` are multiplied by `1 + δ y`. -/
noncomputable def taperedStrip (δ : ℝ) : MeshDomain ℝ 2 4 where
  numNodes := 6
  position := ![![-(1 - δ), -1], ![1 - δ, -1], ![3 * (1 - δ), -1], ![-(1 + δ), 1], ![1 + δ, 1], ![3 * (1 + δ), 1]]
  numElements := 2
  indices := ![![0, 1, 4, 3], ![1, 2, 5, 4]]

/-- Both quads of the strip in one formula. -/
theorem tapered_world (δ : ℝ) (e : Fin 2) (ξ : Fin 2 → ℝ) :
    (quad1 : Elem ℝ 2 4).worldCoordinates ((taperedStrip δ).element e) ξ = ![(2 * (e : ℝ) + ξ 0) * (1 + δ * ξ 1), ξ 1] := by
  funext a
  fin_cases e <;> fin_cases a <;>
    simp [Elem.worldCoordinates, Elem.interpolate, quad1, Fin.sum_univ_four, MeshDomain.element, taperedStrip] <;> ring

theorem tapered_jacobian (δ : ℝ) (e : Fin 2) : (quad1 : Elem ℝ 2 4).jacobian ((taperedStrip δ).element e) 0 = !![1, 2 * (e : ℝ) * δ; 0, 1] := by
  funext a j
  fin_cases e <;> fin_cases a <;> fin_cases j <;>
    simp [Elem.jacobian, quad1, Fin.sum_univ_four, MeshDomain.element, taperedStrip] <;> ring

/-- **C129, negation.** In a strip of two quads which are almost rectangles, the point at `(1, 1/2)` of the first one, which is also at `(-1, 1/2)` of the second one and inside of the strip, is not
found: the search stops before its coordinates are accurate enough for the tolerance `1e-10` of `contains_local`. -/
theorem C129_violated (δ : ℝ) (h1 : 1 / 10 ^ 9 ≤ δ) (h2 : δ ≤ 1 / 10 ^ 5) :
    let p := (quad1 : Elem ℝ 2 4).worldCoordinates ((taperedStrip δ).element (0 : Fin 2)) ![1, 1 / 2]
    (quad1 : Elem ℝ 2 4).worldCoordinates ((taperedStrip δ).element (1 : Fin 2)) ![-1, 1 / 2] = p ∧
      ((taperedStrip δ).barycentricPoint (ElementType.quad1.ops 2) p).elementIndex = none := by
  intro p
  have hp : p = ![1 + δ / 2, 1 / 2] := by
    show (quad1 : Elem ℝ 2 4).worldCoordinates ((taperedStrip δ).element (0 : Fin 2)) ![1, 1 / 2] = _
    rw [tapered_world]
    funext a
    fin_cases a <;> simp; ring
  refine ⟨?_, ?_⟩
  · rw [hp, tapered_world]
    funext a
    fin_cases a <;> simp; ring
  -- the coordinates found
  have hloc : ∀ e : Fin 2, localCoordinatesDefault quad1 ((taperedStrip δ).element e) p = ![1 + δ / 2 - 2 * (e : ℝ) - (e : ℝ) * δ, 1 / 2] := by
    intro e
    have hstep : newtonStep quad1 ((taperedStrip δ).element e) p 0 = ![1 + δ / 2 - 2 * (e : ℝ) - (e : ℝ) * δ, 1 / 2] := by
      have h := C16_step_is_newton quad1 ((taperedStrip δ).element e) p 0 (by rw [tapered_jacobian]; simp [det_fin_two])
      rw [tapered_jacobian, tapered_world, sub_zero] at h
      have h0 := congrFun h 0
      have h1 := congrFun h 1
      have e0 := congrFun hp 0
      have e1 := congrFun hp 1
      simp [mulVec, dotProduct, Fin.sum_univ_two] at h0 h1 e0 e1
      rw [e0] at h0
      rw [e1] at h1
      rw [h1] at h0
      funext a
      fin_cases a
      · simp; linarith
      · simpa using h1
    have he : (e : ℝ) = 0 ∨ (e : ℝ) = 1 := by fin_cases e <;> simp
    have hd0 : dist2 p ((quad1 : Elem ℝ 2 4).worldCoordinates ((taperedStrip δ).element e) 0) = (1 + δ / 2 - 2 * (e : ℝ)) ^ 2 + (1 / 2) ^ 2 := by
      rw [tapered_world, hp]
      simp [dist2, Fin.sum_univ_two]
    have hd1 : dist2 p ((quad1 : Elem ℝ 2 4).worldCoordinates ((taperedStrip δ).element e) (newtonStep quad1 ((taperedStrip δ).element e) p 0)) =
        (1 + δ / 2 - (1 + δ / 2 - (e : ℝ) * δ) * (1 + δ / 2)) ^ 2 := by
      rw [hstep, tapered_world, hp]
      simp [dist2, Fin.sum_univ_two]
      ring
    have hsmall : dist2 p ((quad1 : Elem ℝ 2 4).worldCoordinates ((taperedStrip δ).element e) (newtonStep quad1 ((taperedStrip δ).element e) p 0)) <
        dist2 p ((quad1 : Elem ℝ 2 4).worldCoordinates ((taperedStrip δ).element e) 0) * (1 / 100000) ^ 2 := by
      rw [hd0, hd1]
      norm_num at h1 h2
      have hl : (1 + δ / 2 - (1 + δ / 2 - (e : ℝ) * δ) * (1 + δ / 2)) ^ 2 ≤ (1 / 100000) ^ 2 * (9 / 10) := by
        have : |1 + δ / 2 - (1 + δ / 2 - (e : ℝ) * δ) * (1 + δ / 2)| ≤ 9 / 10 * (1 / 100000) := by
          rw [abs_le]
          rcases he with he | he <;> rw [he] <;> constructor <;> nlinarith
        have := pow_le_pow_left₀ (abs_nonneg _) this 2
        rw [sq_abs] at this
        norm_num at this ⊢
        linarith
      have hr : (1 : ℝ) ≤ (1 + δ / 2 - 2 * (e : ℝ)) ^ 2 + (1 / 2) ^ 2 := by
        rcases he with he | he <;> rw [he] <;> nlinarith
      nlinarith
    rcases C16_exit quad1 ((taperedStrip δ).element e) p 0 (1 / 100000) 5 with ⟨c1, c2⟩ | ⟨c1, k, k1, k2, k3, k4, k5⟩
    · exfalso
      rw [hd0] at c1
      nlinarith [sq_nonneg (1 + δ / 2 - 2 * (e : ℝ))]
    · have hk : k = 1 := by
        by_contra hne
        have := k5 1 le_rfl (by omega)
        rw [Function.iterate_one] at this
        exact absurd hsmall (not_lt.2 this)
      subst hk
      rw [localCoordinatesDefault, localCoordinates, k3, Function.iterate_one]
      exact hstep
  cases hres : ((taperedStrip δ).barycentricPoint (ElementType.quad1.ops 2) p).elementIndex with
  | none => rfl
  | some e =>
    exfalso
    obtain ⟨a1, a2, -, -⟩ := C33_found (ElementType.quad1.ops 2) (taperedStrip δ) p e hres
    rw [a1] at a2
    change (ElementType.quad1.containsLocal (localCoordinatesDefault quad1 ((taperedStrip δ).element e) p) (1 / 10 ^ 10)).getD false = true at a2
    have hmem : ElementType.quad1.containsLocal (localCoordinatesDefault quad1 ((taperedStrip δ).element e) p) ((1 : ℝ) / 10 ^ 10) = some true := by
      cases hc : ElementType.quad1.containsLocal (localCoordinatesDefault quad1 ((taperedStrip δ).element e) p) ((1 : ℝ) / 10 ^ 10) with
      | none => rw [hc] at a2; exact absurd a2 (by simp)
      | some b => rw [hc] at a2; simp only [Option.getD_some] at a2; rw [a2]
    rw [C14_contains_iff ElementType.quad1 ⟨by decide, by decide⟩ _ _ (by norm_num)] at hmem
    have hm : Shape.cube.MemEps (localCoordinatesDefault quad1 ((taperedStrip δ).element e) p) ((1 : ℝ) / 10 ^ 10) := hmem
    have := hm 0
    rw [hloc e] at this
    change Fin 2 at e
    have he : (e : ℝ) = 0 ∨ (e : ℝ) = 1 := by fin_cases e <;> simp
    simp only [Matrix.cons_val_zero] at this
    norm_num at h1
    rcases he with he | he
    · rw [he] at this; norm_num at this; linarith [this.2]
    · rw [he] at this; norm_num at this; linarith [this.1]

/-! ### Examples -/

/-- The first quad of the strip meets the hypotheses, with `θ = δ` and `α = 1`. -/
theorem tapered_near (δ : ℝ) (h0 : 0 ≤ δ) : NearBox quadSign ((taperedStrip δ).element (0 : Fin 2)) δ 1 := by
  have m0 : ∀ a, cornerMoment quadSign ((taperedStrip δ).element (0 : Fin 2)) {0} a = ![1, 0] a := by
    intro a; rw [quad_moment0]; fin_cases a <;> simp [MeshDomain.element, taperedStrip] <;> ring
  have m1 : ∀ a, cornerMoment quadSign ((taperedStrip δ).element (0 : Fin 2)) {1} a = ![0, 1] a := by
    intro a; rw [quad_moment1]; fin_cases a <;> simp [MeshDomain.element, taperedStrip] <;> ring
  have m01 : ∀ a, cornerMoment quadSign ((taperedStrip δ).element (0 : Fin 2)) {0, 1} a = ![δ, 0] a := by
    intro a; rw [quad_moment01]; fin_cases a <;> simp [MeshDomain.element, taperedStrip] <;> ring
  refine ⟨fun S hS => ?_, fun v j => ?_⟩
  · have : S = {0, 1} := by revert S; decide
    subst this
    refine ⟨![δ, 0], fun j => by fin_cases j <;> simp [abs_of_nonneg h0, h0], fun a => ?_⟩
    rw [m01, Fin.sum_univ_two, m0, m1]
    fin_cases a <;> simp
  · simp only [Fin.sum_univ_two, m0, m1]
    fin_cases j <;> simp <;> nlinarith [sq_nonneg (v 0), sq_nonneg (v 1)]

/-- A visibly tapered quad: the point at `(9/10, 1/2)` is found although the one at `(1, 1/2)` may not be. -/
example : ∃ e', ((taperedStrip (1 / 10)).barycentricPoint (ElementType.quad1.ops 2)
    ((quad1 : Elem ℝ 2 4).worldCoordinates ((taperedStrip (1 / 10)).element (0 : Fin 2)) ![9 / 10, 1 / 2])).elementIndex = some e' ∧ e' ≤ (0 : Fin 2) := by
  refine C129_quad_found_partial (taperedStrip (1 / 10)) (0 : Fin 2) (tapered_near (1 / 10) (by norm_num)) (by norm_num) zero_le_one (R := 2) (by norm_num) _ ?_ ?_
  · rw [tapered_world, tapered_world]
    simp [dist2, Fin.sum_univ_two]
    norm_num
  · intro j
    rw [max_eq_right (by norm_num)]
    fin_cases j <;> simp [abs_of_pos] <;> norm_num [abs_of_pos]

/-- A hexahedron whose sides become wider upwards. -/
noncomputable def taperedHexa : Fin 8 → Fin 3 → ℝ := fun i => ![hexaSign i 0 * (1 + 1 / 50 * hexaSign i 2), hexaSign i 1, hexaSign i 2]

theorem taperedHexa_near : NearBox hexaSign taperedHexa (1 / 50) 1 := by
  have m0 : ∀ a, cornerMoment hexaSign taperedHexa {0} a = ![1, 0, 0] a := by
    intro a; rw [hexa_moment0]; fin_cases a <;> simp [taperedHexa, hexaSign] <;> norm_num
  have m1 : ∀ a, cornerMoment hexaSign taperedHexa {1} a = ![0, 1, 0] a := by
    intro a; rw [hexa_moment1]; fin_cases a <;> simp [taperedHexa, hexaSign] <;> norm_num
  have m2 : ∀ a, cornerMoment hexaSign taperedHexa {2} a = ![0, 0, 1] a := by
    intro a; rw [hexa_moment2]; fin_cases a <;> simp [taperedHexa, hexaSign] <;> norm_num
  refine ⟨fun S hS => ?_, fun v j => ?_⟩
  · have : S = {0, 1} ∨ S = {1, 2} ∨ S = {0, 2} ∨ S = {0, 1, 2} := by revert S; decide
    simp only [Fin.sum_univ_three, m0, m1, m2]
    rcases this with rfl | rfl | rfl | rfl
    · refine ⟨0, fun j => by simp, fun a => ?_⟩
      rw [hexa_moment01]; fin_cases a <;> simp [taperedHexa, hexaSign]
    · refine ⟨0, fun j => by simp, fun a => ?_⟩
      rw [hexa_moment12]; fin_cases a <;> simp [taperedHexa, hexaSign]
    · refine ⟨![1 / 50, 0, 0], fun j => by fin_cases j <;> simp [abs_of_pos], fun a => ?_⟩
      rw [hexa_moment02]; fin_cases a <;> simp [taperedHexa, hexaSign] <;> norm_num
    · refine ⟨0, fun j => by simp, fun a => ?_⟩
      rw [hexa_moment012]; fin_cases a <;> simp [taperedHexa, hexaSign]
  · simp only [Fin.sum_univ_three, m0, m1, m2]
    fin_cases j <;> simp <;> nlinarith [sq_nonneg (v 0), sq_nonneg (v 1), sq_nonneg (v 2)]

/-- The corners of the canonical cube included. -/
example : |localCoordinatesDefault hexa1 taperedHexa ((hexa1 : Elem ℝ 3 8).worldCoordinates taperedHexa ![1, -1, 1]) 0 - 1| ≤ 1 / 5000 := by
  have h := C129_hexahedron (R := 2) taperedHexa_near (by norm_num) zero_le_one (by norm_num) ![1, -1, 1] (by intro j; fin_cases j <;> simp) ?_ 0
  · rw [max_eq_right (by norm_num)] at h
    simp only [Matrix.cons_val_zero] at h
    refine h.trans (by norm_num)
  · simp [dist2, Fin.sum_univ_three, Fin.sum_univ_eight, Elem.worldCoordinates, Elem.interpolate, hexa1, taperedHexa, hexaSign]
    norm_num

end Caribou

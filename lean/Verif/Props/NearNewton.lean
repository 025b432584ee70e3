import Verif.Lemmas.NearNewton
import Verif.Props.Distorted
import Verif.Props.NearAffine

/-!
# Property C131: where points of curved elements are found
-/

set_option autoImplicit false

namespace Caribou

open Spec Matrix

/-- **C131.** There is for each type of element a distance to the affine images of the canonical element below which the local coordinates found for the image of `ξ` are `ξ`, up to the
same error as for quads and hexahedra. -/
theorem C131_coordinates (T : ElementType) : ∃ θ, 0 < θ ∧ ∀ (X : Fin T.numNodes → Fin T.dim → ℝ) (c : Fin T.dim → ℝ) (A : Matrix (Fin T.dim) (Fin T.dim) ℝ) (α R : ℝ), NearAffine T X c A θ → 0 ≤ α → 1 ≤ R →
    (∀ (v : Fin T.dim → ℝ) j, v j ^ 2 ≤ α ^ 2 * ∑ a, (A *ᵥ v) a ^ 2) → ∀ ξ, T.shape.Mem ξ → dist2 (T.elem.worldCoordinates X ξ) (T.elem.worldCoordinates X 0) ≤ R ^ 2 →
    ∀ j, |localCoordinatesDefault T.elem X (T.elem.worldCoordinates X ξ) j - ξ j| ≤ max (1 / 2 ^ 31) (4 * α * R / 10 ^ 5) := by
  obtain ⟨θ, h0, h⟩ := near_ready T
  refine ⟨θ, h0, fun X c A α R hX hα hR hsize ξ hξ hfar j => ?_⟩
  have hA : A.det ≠ 0 := by
    intro hA
    obtain ⟨v, hv, hv0⟩ := exists_mulVec_eq_zero_iff.2 hA
    refine hv (funext fun j => ?_)
    have := hsize v j
    rw [hv0] at this
    simp only [Pi.zero_apply, ne_eq, OfNat.ofNat_ne_zero, not_false_eq_true, zero_pow, Finset.sum_const_zero, mul_zero] at this
    exact pow_eq_zero_iff two_ne_zero |>.1 (le_antisymm this (sq_nonneg _))
  have hn : ‖ξ‖ ≤ 1 := by
    rw [pi_norm_le_iff_of_nonneg zero_le_one]
    intro j
    rw [Real.norm_eq_abs, abs_le]
    cases hs : T.shape with
    | cube => rw [hs] at hξ; exact hξ j
    | simplex =>
      rw [hs] at hξ
      refine ⟨by linarith [hξ.1 j], (Finset.single_le_sum (fun i _ => hξ.1 i) (Finset.mem_univ j)).trans hξ.2⟩
  exact (abs_le_norm _ j).trans ((h X c A hX hA ξ hn).result hn hα hR hsize hfar)

/-- **C131, points found (partial).** In a mesh of any type, a point of an element close enough to an affine image is found, in this element or in one with a smaller index, when it is in the
box of the nodes of the element and its local coordinates are inside of the canonical element by the error.  Missing: the points close to the sides (`C129_violated`) and those of the parts of a
curved element which are outside of the box of its nodes (`C131_violated`). -/
theorem C131_found_partial (T : ElementType) (hT : T.Isoparametric) : ∃ θ, 0 < θ ∧ ∀ (D : MeshDomain ℝ T.dim T.numNodes) (e : Fin D.numElements) (c : Fin T.dim → ℝ)
    (A : Matrix (Fin T.dim) (Fin T.dim) ℝ) (α R : ℝ), NearAffine T (D.element e) c A θ → 0 ≤ α → 1 ≤ R → (∀ (v : Fin T.dim → ℝ) j, v j ^ 2 ≤ α ^ 2 * ∑ a, (A *ᵥ v) a ^ 2) → 0 < D.cellSize →
    ∀ ξ, dist2 (T.elem.worldCoordinates (D.element e) ξ) (T.elem.worldCoordinates (D.element e) 0) ≤ R ^ 2 → InBoxOf (D.element e) (T.elem.worldCoordinates (D.element e) ξ) →
    (∀ η : Fin T.dim → ℝ, (∀ j, |η j - ξ j| ≤ max (1 / 2 ^ 31) (4 * α * R / 10 ^ 5)) → T.shape.Mem η) →
    ∃ e', (D.barycentricPoint (T.ops T.dim) (T.elem.worldCoordinates (D.element e) ξ)).elementIndex = some e' ∧ e' ≤ e := by
  obtain ⟨θ, h0, h⟩ := C131_coordinates T
  refine ⟨θ, h0, fun D e c A α R hX hα hR hsize hs ξ hfar hbox hin => ?_⟩
  have hξ : T.shape.Mem ξ := hin ξ fun j => by rw [sub_self, abs_zero]; exact le_max_of_le_left (by norm_num)
  have hacc := hin _ (h (D.element e) c A α R hX hα hR hsize ξ hξ hfar)
  refine found_of_accepted (by cases T <;> simp [IsDim, ElementType.dim]) (by cases T <;> decide) _ D e _ hs hbox ?_
  have := C14_accepts T ⟨hT.1, hT.2.1⟩ _ (1 / 10 ^ 10) (.inl (by positivity)) hacc
  change (T.containsLocal (localCoordinatesDefault T.elem (D.element e) (T.elem.worldCoordinates (D.element e) ξ)) (1 / 10 ^ 10)).getD false = true
  rw [this]; rfl

/-- The hypotheses of `C131_coordinates` are met at every distance by a curved element: a tetrahedron of ten nodes with one node in the middle of an edge moved. -/
example (θ : ℝ) (hθ : 0 < θ) : ∃ X : Fin 10 → Fin 3 → ℝ, NearAffine .tetra2 X 0 1 θ ∧ X 4 ≠ (fun a => (X 0 a + X 1 a) / 2) ∧
    (∀ (v : Fin 3 → ℝ) j, v j ^ 2 ≤ 1 ^ 2 * ∑ a, ((1 : Matrix (Fin 3) (Fin 3) ℝ) *ᵥ v) a ^ 2) ∧ ElementType.tetra2.shape.Mem (0 : Fin 3 → ℝ) := by
  refine ⟨fun i a => (tetra2 (K := ℝ)).node i a + (if i = 4 ∧ a = 0 then θ / 2 else 0), ⟨fun (i : Fin 10) (a : Fin 3) => if i = 4 ∧ a = 0 then θ / 2 else 0, fun i => ?_, fun i j => ?_⟩, ?_, ?_, ?_⟩
  · rw [one_mulVec, zero_add]; rfl
  · beta_reduce
    split_ifs
    · rw [abs_of_pos (by linarith)]; linarith
    · rw [abs_zero]; exact hθ.le
  · intro h
    have := congrFun h 0
    simp [tetra2] at this
    linarith
  · intro v j
    rw [one_mulVec, one_pow, one_mul]
    exact Finset.single_le_sum (fun i _ => sq_nonneg (v i)) (Finset.mem_univ j)
  · refine ⟨fun j => le_refl _, ?_⟩
    simp

/-- A quad of eight nodes with an upper side which is slightly curved. -/
def bulgeMesh : MeshDomain ℚ 2 8 where
  numNodes := 8
  position := ![![-1, 0], ![1, 0], ![1, 1999 / 1000], ![-1, 196 / 100], ![0, 0], ![1, 1], ![0, 1999 / 1000], ![-1, 98 / 100]]
  numElements := 1
  indices := ![![0, 1, 2, 3, 4, 5, 6, 7]]

/-- The same nodes with real coordinates. -/
noncomputable def bulgeNodes (i : Fin 8) (a : Fin 2) : ℝ := ((bulgeMesh.position i a : ℚ) : ℝ)

/-- **C131, negation.** The element is not folded, but a point strictly inside of it is higher than all its nodes: it is in a cell of the hash grid in which the element was not put, and
is not found. -/
theorem C131_violated :
    Unfolded .quad2 bulgeNodes ∧ (∀ j, |(![1 / 2, 999 / 1000] : Fin 2 → ℚ) j| < 1) ∧
    let p : Fin 2 → ℚ := (quad2 (K := ℚ)).worldCoordinates (bulgeMesh.element (0 : Fin 1)) ![1 / 2, 999 / 1000]
    (bulgeMesh.barycentricPoint (ElementType.quad2.ops 2) p).elementIndex = none := by
  refine ⟨?_, fun j => by fin_cases j <;> norm_num [abs_of_pos], ?_⟩
  · refine C130_unfolded .quad2 bulgeNodes ![0, 1] 1 (4 / 100) ⟨fun i a => bulgeNodes i a - (![0, 1] : Fin 2 → ℝ) a - (quad2 (K := ℝ)).node i a, fun i => ?_, fun i j => ?_⟩ (by simp) ?_
    · rw [one_mulVec]
      funext a
      simp only [Pi.add_apply]
      change _ = (![0, 1] : Fin 2 → ℝ) a + ((quad2 (K := ℝ)).node i a + (bulgeNodes i a - (![0, 1] : Fin 2 → ℝ) a - (quad2 (K := ℝ)).node i a))
      ring
    · change Fin 8 at i
      change Fin 2 at j
      fin_cases i <;> fin_cases j <;> simp [bulgeNodes, bulgeMesh, quad2] <;> norm_num [abs_of_pos, abs_of_neg]
    · norm_num [slopeBound, ElementType.dim]
  · intro p
    have hget : bulgeMesh.hashGrid.get p = [] := by decide +kernel
    have hb : bulgeMesh.barycentricPoint (ElementType.quad2.ops 2) p = MeshDomain.findElement (ElementType.quad2.ops 2) bulgeMesh p (bulgeMesh.hashGrid.get p) := rfl
    rw [hb, hget]
    rfl

end Caribou

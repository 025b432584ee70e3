import Verif.Spec.TractionWork
import Verif.Lemmas.Convergence2
import Verif.Lemmas.Gauss
import Verif.Props.Canonical
import Verif.Props.Traction

/-!
# Exact integration of the shape functions of surface elements
-/

set_option autoImplicit false
set_option linter.all false

namespace Caribou

open Spec Matrix

/-- Coefficients of the shape functions of the linear quad. -/
noncomputable def quad1Coef : Fin 4 → Fin 4 → Fin 4 → ℝ :=
  ![![![1/4, -1/4, 0, 0], ![-1/4, 1/4, 0, 0], ![0, 0, 0, 0], ![0, 0, 0, 0]],
    ![![1/4, -1/4, 0, 0], ![1/4, -1/4, 0, 0], ![0, 0, 0, 0], ![0, 0, 0, 0]],
    ![![1/4, 1/4, 0, 0], ![1/4, 1/4, 0, 0], ![0, 0, 0, 0], ![0, 0, 0, 0]],
    ![![1/4, 1/4, 0, 0], ![-1/4, -1/4, 0, 0], ![0, 0, 0, 0], ![0, 0, 0, 0]]]

/-- Coefficients of the shape functions of the quadratic quad. -/
noncomputable def quad2Coef : Fin 8 → Fin 4 → Fin 4 → ℝ :=
  ![![![-1/4, 0, 1/4, 0], ![0, 1/4, -1/4, 0], ![1/4, -1/4, 0, 0], ![0, 0, 0, 0]],
    ![![-1/4, 0, 1/4, 0], ![0, -1/4, 1/4, 0], ![1/4, -1/4, 0, 0], ![0, 0, 0, 0]],
    ![![-1/4, 0, 1/4, 0], ![0, 1/4, 1/4, 0], ![1/4, 1/4, 0, 0], ![0, 0, 0, 0]],
    ![![-1/4, 0, 1/4, 0], ![0, -1/4, -1/4, 0], ![1/4, 1/4, 0, 0], ![0, 0, 0, 0]],
    ![![1/2, -1/2, 0, 0], ![0, 0, 0, 0], ![-1/2, 1/2, 0, 0], ![0, 0, 0, 0]],
    ![![1/2, 0, -1/2, 0], ![1/2, 0, -1/2, 0], ![0, 0, 0, 0], ![0, 0, 0, 0]],
    ![![1/2, 1/2, 0, 0], ![0, 0, 0, 0], ![-1/2, -1/2, 0, 0], ![0, 0, 0, 0]],
    ![![1/2, 0, -1/2, 0], ![-1/2, 0, 1/2, 0], ![0, 0, 0, 0], ![0, 0, 0, 0]]]

theorem quad1_cubic (i : Fin 4) (ξ : Fin 2 → ℝ) : (quad1 (K := ℝ)).L ξ i = cubic2 (quad1Coef i) ξ := by
  fin_cases i <;> simp [quad1, cubic2, quad1Coef, Fin.sum_univ_four] <;> ring

theorem quad2_cubic (i : Fin 8) (ξ : Fin 2 → ℝ) : (quad2 (K := ℝ)).L ξ i = cubic2 (quad2Coef i) ξ := by
  fin_cases i <;> simp [quad2, cubic2, quad2Coef, Fin.sum_univ_four] <;> ring

theorem cubic2_sum {n : ℕ} (C : Fin n → Fin 4 → Fin 4 → ℝ) (w : Fin n → ℝ) (ξ : Fin 2 → ℝ) :
    ∑ i, cubic2 (C i) ξ * w i = cubic2 (fun a b => ∑ i, C i a b * w i) ξ := by
  simp only [cubic2, Finset.sum_mul]
  rw [Finset.sum_comm]
  refine Finset.sum_congr rfl fun a _ => ?_
  rw [Finset.sum_comm]
  refine Finset.sum_congr rfl fun b _ => Finset.sum_congr rfl fun i _ => ?_
  ring

/-- The shape of the canonical surface element. -/
def SurfaceType.shape : SurfaceType → Shape
  | .triangle1 | .triangle2 => .simplex
  | .quad1 | .quad2 => .cube

/-- Integral over the canonical surface element. -/
noncomputable def Spec.Shape.integral2 (s : Shape) (f : (Fin 2 → ℝ) → ℝ) : ℝ := match s with | .cube => intCube2 f | .simplex => intSimplex2 f

theorem surface_exact (T : SurfaceType) (w : Fin T.numNodes → ℝ) :
    gaussSum T.gauss (fun ξ => ∑ i, T.elem.L ξ i * w i) = T.shape.integral2 fun ξ => ∑ i, T.elem.L ξ i * w i := by
  cases T with
  | triangle1 =>
    change Fin 3 → ℝ at w
    have h : (fun ξ => ∑ i : Fin 3, (triangle1 (K := ℝ)).L ξ i * w i) = affineFn (w 0) ![w 1 - w 0, w 2 - w 0] := by
      funext ξ
      simp [triangle1, affineFn, Fin.sum_univ_three, Fin.sum_univ_two]; ring
    change gaussSum gaussTriangle1 (fun ξ => ∑ i : Fin 3, (triangle1 (K := ℝ)).L ξ i * w i) = intSimplex2 fun ξ => ∑ i : Fin 3, (triangle1 (K := ℝ)).L ξ i * w i
    rw [h]
    exact C12_triangle_exact.1 _ _
  | triangle2 =>
    change Fin 6 → ℝ at w
    have h : (fun ξ => ∑ i : Fin 6, (triangle2 (K := ℝ)).L ξ i * w i) =
        quadraticFn (w 0) ![-3 * w 0 - w 1 + 4 * w 3, -3 * w 0 - w 2 + 4 * w 5]
          ![![2 * w 0 + 2 * w 1 - 4 * w 3, 4 * w 0 - 4 * w 3 + 4 * w 4 - 4 * w 5], ![0, 2 * w 0 + 2 * w 2 - 4 * w 5]] := by
      funext ξ
      simp [triangle2, quadraticFn, Fin.sum_univ_six, Fin.sum_univ_two]; ring
    change gaussSum gaussTriangle2 (fun ξ => ∑ i : Fin 6, (triangle2 (K := ℝ)).L ξ i * w i) = intSimplex2 fun ξ => ∑ i : Fin 6, (triangle2 (K := ℝ)).L ξ i * w i
    rw [h]
    exact C12_triangle_exact.2 _ _ _
  | quad1 =>
    change Fin 4 → ℝ at w
    have h : (fun ξ => ∑ i : Fin 4, (quad1 (K := ℝ)).L ξ i * w i) = cubic2 (fun a b => ∑ i, quad1Coef i a b * w i) := by
      funext ξ
      simp only [quad1_cubic]
      exact cubic2_sum _ _ _
    change gaussSum gaussQuad (fun ξ => ∑ i : Fin 4, (quad1 (K := ℝ)).L ξ i * w i) = intCube2 fun ξ => ∑ i : Fin 4, (quad1 (K := ℝ)).L ξ i * w i
    rw [h]
    exact C12_tensor_exact.2.2.1 _
  | quad2 =>
    change Fin 8 → ℝ at w
    have h : (fun ξ => ∑ i : Fin 8, (quad2 (K := ℝ)).L ξ i * w i) = cubic2 (fun a b => ∑ i, quad2Coef i a b * w i) := by
      funext ξ
      simp only [quad2_cubic]
      exact cubic2_sum _ _ _
    change gaussSum gaussQuad (fun ξ => ∑ i : Fin 8, (quad2 (K := ℝ)).L ξ i * w i) = intCube2 fun ξ => ∑ i : Fin 8, (quad2 (K := ℝ)).L ξ i * w i
    rw [h]
    exact C12_tensor_exact.2.2.2.1 _

theorem surface_jacobian (T : SurfaceType) {m : ℕ} (c : Fin m → ℝ) (A : Matrix (Fin m) (Fin 2) ℝ) (X : Fin T.numNodes → Fin m → ℝ) (hX : ∀ i, X i = c + A *ᵥ T.elem.node i) (ξ : Fin 2 → ℝ) :
    T.elem.jacobian X ξ = A := by
  have aff : X = fun i => affineMap c A (T.elem.node i) := by
    funext i a
    rw [hX]
    simp [affineMap, Matrix.mulVec, dotProduct]
  rw [aff]
  cases T
  · exact affine_jacobian .triangle1 c A (fun ξ j => C04_derivatives_sum_to_zero .triangle1 ξ j) ξ
  · exact affine_jacobian .triangle2 c A (fun ξ j => C04_derivatives_sum_to_zero .triangle2 ξ j) ξ
  · exact affine_jacobian .quad1 c A (fun ξ j => C04_derivatives_sum_to_zero .quad1 ξ j) ξ
  · exact affine_jacobian .quad2 c A (fun ξ j => C04_derivatives_sum_to_zero .quad2 ξ j) ξ

/-- The work of the shares of a flat element. -/
theorem element_work (T : SurfaceType) (c : Fin 3 → ℝ) (A : Matrix (Fin 3) (Fin 2) ℝ) (X : Fin T.numNodes → Fin 3 → ℝ) (hX : ∀ i, X i = c + A *ᵥ T.elem.node i) (w : Fin T.numNodes → ℝ) :
    ((TractionState.nodes3 T X).map fun g => ∑ i, g.N i * (g.weight * g.detJ) * w i).sum = flatIntegral T.shape (fun a => A a 0) (fun a => A a 1) fun ξ => ∑ i, T.elem.L ξ i * w i := by
  have h : flatIntegral T.shape (fun a => A a 0) (fun a => A a 1) (fun ξ => ∑ i, T.elem.L ξ i * w i) =
      parallelogramArea (fun a => A a 0) (fun a => A a 1) * T.shape.integral2 fun ξ => ∑ i, T.elem.L ξ i * w i := by
    cases T <;> rfl
  rw [h, ← surface_exact, gaussSum]
  change ((T.gauss.map fun g => (⟨g.weight, areaFactor3 (T.elem.jacobian X g.position), T.elem.L g.position⟩ : TNode T.numNodes)).map fun g => ∑ i, g.N i * (g.weight * g.detJ) * w i).sum = _
  rw [List.map_map, ← List.sum_map_mul_left]
  congr 1
  refine List.map_congr_left fun g _ => ?_
  simp only [Function.comp_apply, surface_jacobian T c A X hX, areaFactor3_eq, Finset.mul_sum]
  refine Finset.sum_congr rfl fun i _ => ?_
  ring

theorem share_work {N n : ℕ} {ι : Type*} (l : List ι) (h : ι → Fin n → ℝ) (idx : Fin n → Fin N) (τ : Fin N → ℝ) :
    ∑ p, (l.map fun g => ∑ i, if idx i = p then h g i else 0).sum * τ p = (l.map fun g => ∑ i, h g i * τ (idx i)).sum := by
  induction l with
  | nil => simp
  | cons g l ih =>
    simp only [List.map_cons, List.sum_cons, add_mul, Finset.sum_add_distrib, ih, add_left_inj]
    simp only [Finset.sum_mul, ite_mul, zero_mul]
    rw [Finset.sum_comm]
    refine Finset.sum_congr rfl fun i _ => ?_
    simp

theorem canonical_mean (T : SurfaceType) (b : ℝ) (g : Fin 2 → ℝ) :
    T.shape.integral2 (affineFn b g) = match T.shape with | .cube => 4 * b | .simplex => 1 / 2 * (b + (g 0 + g 1) / 3) := by
  have h2 : intSimplex2 (affineFn b g) = 1 / 2 * (b + (g 0 + g 1) / 3) := by
    rw [← C12_triangle_exact.1 b g]
    change gaussSum gaussTriangle1 _ = _
    simp [gaussSum, gaussTriangle1, affineFn, Fin.sum_univ_two]
    ring
  have h4 : intCube2 (affineFn b g) = 4 * b := by
    have h : affineFn b g = cubic2 ![![b, g 1, 0, 0], ![g 0, 0, 0, 0], 0, 0] := by
      funext ξ; simp [affineFn, cubic2, Fin.sum_univ_four, Fin.sum_univ_two]; ring
    rw [h, int_cubic2]
    simp [Fin.sum_univ_four, mom]
    norm_num
    ring
  cases T
  · exact h2
  · exact h2
  · exact h4
  · exact h4

theorem surface_reproduction (T : SurfaceType) (b : ℝ) (g : Fin 2 → ℝ) (ξ : Fin 2 → ℝ) : ∑ i, T.elem.L ξ i * affineFn b g (T.elem.node i) = affineFn b g ξ := by
  have h : ∀ U : ElementType, ∀ (g : Fin U.dim → ℝ) ξ, ∑ i, U.elem.L ξ i * affineFn b g (U.elem.node i) = affineFn b g ξ := by
    intro U g ξ
    have := congrFun (C05_affine_reproduction U (m := 1) (fun _ => b) (fun _ => g) ξ) 0
    simpa only [Elem.interpolate, mul_comm] using this
  cases T
  · exact h .triangle1 g ξ
  · exact h .triangle2 g ξ
  · exact h .quad1 g ξ
  · exact h .quad2 g ξ

end Caribou

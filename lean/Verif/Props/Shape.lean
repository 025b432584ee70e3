import Verif.Lemmas.Elements

/-!
# Properties C01 – C08: shape functions, interpolation, Jacobian
-/

set_option autoImplicit false

namespace Caribou

open Spec

variable {K : Type*} [Field K] [CharZero K]

/-- **C01.** For every element type the shape functions add up to one at every local coordinate. -/
theorem C01_partition_of_unity (T : ElementType) : PartitionOfUnity (T.elem (K := K)).L := by
  intro ξ
  cases T
  · exact segment1_sum ξ
  · exact segment2_sum ξ
  · exact triangle1_sum ξ
  · exact triangle2_sum ξ
  · exact quad1_sum ξ
  · exact quad2_sum ξ
  · exact tetra1_sum ξ
  · exact tetra2_sum ξ
  · exact hexa1_sum ξ
  · exact hexa2_sum ξ
  · exact quad1_sum ξ
  · exact quad2_sum ξ
  · exact hexa1_sum ξ
  · exact hexa2_sum ξ

/-- Instance of C01 at a point outside the canonical element. -/
example : ∑ i, (hexa2 (K := ℚ)).L ![3, 1/2, -7] i = 1 :=
  C01_partition_of_unity .hexa2 ![3, 1/2, -7]

private theorem elem_nodal (T : ElementType) (j : Fin T.numNodes) :
    (T.elem (K := K)).L (T.elem.node j) = fun i => if i = j then 1 else 0 := by
  cases T
  · exact segment1_nodal j
  · exact segment2_nodal j
  · exact triangle1_nodal j
  · exact triangle2_nodal j
  · exact quad1_nodal j
  · exact quad2_nodal j
  · exact tetra1_nodal j
  · exact tetra2_nodal j
  · exact hexa1_nodal j
  · exact hexa2_nodal j
  · exact quad1_nodal j
  · exact quad2_nodal j
  · exact hexa1_nodal j
  · exact hexa2_nodal j

/-- **C02 (shape functions).** Shape function `i` is one at canonical node `i` and zero at the others. -/
theorem C02_nodal (T : ElementType) : Nodal (T.elem (K := K)).L T.elem.node := by
  intro j
  rw [elem_nodal]
  refine ⟨by simp, fun i hi => by simp [hi]⟩

/-- **C02 (interpolation).** Interpolating any nodal field at a canonical node returns the node's value. -/
theorem C02_interpolate_at_node (T : ElementType) {m : ℕ} (values : Fin T.numNodes → Fin m → K)
    (j : Fin T.numNodes) : T.elem.interpolate (T.elem.node j) values = values j := by
  funext a
  simp [Elem.interpolate, elem_nodal]

/-- **C02 (geometry).** Every node is the image of its canonical position, whatever the node positions. -/
theorem C02_world_coordinates_at_node (T : ElementType) {m : ℕ} (nodes : Fin T.numNodes → Fin m → K)
    (j : Fin T.numNodes) : T.elem.worldCoordinates nodes (T.elem.node j) = nodes j :=
  C02_interpolate_at_node T nodes j

example : (tetra2 (K := ℚ)).L (tetra2.node 5) 5 = 1 ∧ (tetra2 (K := ℚ)).L (tetra2.node 5) 4 = 0 :=
  ⟨((C02_nodal .tetra2) (5 : Fin 10)).1, ((C02_nodal .tetra2) (5 : Fin 10)).2 (4 : Fin 10) (by change (4 : Fin 10) ≠ 5; decide)⟩

/-- **C03.** Every entry of `dL` is the partial derivative of the corresponding shape function. -/
theorem C03_derivative (T : ElementType) : IsPartialDeriv (T.elem (K := ℝ)).L (T.elem (K := ℝ)).dL := by
  cases T
  · exact segment1_deriv
  · exact segment2_deriv
  · exact triangle1_deriv
  · exact triangle2_deriv
  · exact quad1_deriv
  · exact quad2_deriv
  · exact tetra1_deriv
  · exact tetra2_deriv
  · exact hexa1_deriv
  · exact hexa2_deriv
  · exact quad1_deriv
  · exact quad2_deriv
  · exact hexa1_deriv
  · exact hexa2_deriv

/-- Instance of C03: the `u`-derivative of the first mid-edge function of the quadratic quad, at a concrete point. -/
example : HasDerivAt (fun t => (quad2 (K := ℝ)).L (Function.update ![1/2, 1/4] 0 t) 4)
    ((quad2 (K := ℝ)).dL ![1/2, 1/4] 4 0) (1/2) :=
  C03_derivative .quad2 ![1/2, 1/4] (4 : Fin 8) (0 : Fin 2)

/-- **C04 (gradient).** The derivatives of the shape functions in any direction add up to zero. -/
theorem C04_derivatives_sum_to_zero (T : ElementType) (ξ : Fin T.dim → K) (j : Fin T.dim) :
    ∑ i, (T.elem (K := K)).dL ξ i j = 0 := by
  cases T
  · exact segment1_dsum ξ j
  · exact segment2_dsum ξ j
  · exact triangle1_dsum ξ j
  · exact triangle2_dsum ξ j
  · exact quad1_dsum ξ j
  · exact quad2_dsum ξ j
  · exact tetra1_dsum ξ j
  · exact tetra2_dsum ξ j
  · exact hexa1_dsum ξ j
  · exact hexa2_dsum ξ j
  · exact quad1_dsum ξ j
  · exact quad2_dsum ξ j
  · exact hexa1_dsum ξ j
  · exact hexa2_dsum ξ j

/-- **C04 (Jacobian).** Translating all nodes does not change the Jacobian. -/
theorem C04_jacobian_translation (T : ElementType) {m : ℕ} (nodes : Fin T.numNodes → Fin m → K) (t : Fin m → K)
    (ξ : Fin T.dim → K) :
    T.elem.jacobian (fun i => nodes i + t) ξ = T.elem.jacobian nodes ξ := by
  funext a j
  simp only [Elem.jacobian, Pi.add_apply, add_mul, Finset.sum_add_distrib, ← Finset.mul_sum,
    C04_derivatives_sum_to_zero, mul_zero, add_zero]

/-- Non-triviality for C04: the Jacobian that is preserved is not the zero matrix. -/
example : (quad1 (K := ℚ)).jacobian (m := 2) quad1.node ![0, 0] 0 0 = 1 := by
  simp only [Elem.jacobian, quad1, sum_fin4, Matrix.cons_val]; norm_num

theorem elem_coord (T : ElementType) (ξ : Fin T.dim → K) (j : Fin T.dim) :
    ∑ i, (T.elem (K := K)).node i j * (T.elem (K := K)).L ξ i = ξ j := by
  cases T
  · exact segment1_coord ξ j
  · exact segment2_coord ξ j
  · exact triangle1_coord ξ j
  · exact triangle2_coord ξ j
  · exact quad1_coord ξ j
  · exact quad2_coord ξ j
  · exact tetra1_coord ξ j
  · exact tetra2_coord ξ j
  · exact hexa1_coord ξ j
  · exact hexa2_coord ξ j
  · exact quad1_coord ξ j
  · exact quad2_coord ξ j
  · exact hexa1_coord ξ j
  · exact hexa2_coord ξ j

/-- **C05.** Nodal values sampled from an affine map (one affine function per component) are interpolated to exactly
that affine map, at every local coordinate. -/
theorem C05_affine_reproduction (T : ElementType) {m : ℕ} (c : Fin m → K) (g : Fin m → Fin T.dim → K)
    (ξ : Fin T.dim → K) :
    T.elem.interpolate ξ (fun i a => affineFn (c a) (g a) (T.elem.node i)) = fun a => affineFn (c a) (g a) ξ := by
  funext a
  simp only [Elem.interpolate, affineFn, add_mul, Finset.sum_add_distrib, ← Finset.mul_sum]
  rw [C01_partition_of_unity T ξ, mul_one]
  congr 1
  simp only [Finset.sum_mul]
  rw [Finset.sum_comm]
  refine Finset.sum_congr rfl fun j _ => ?_
  simp only [mul_assoc, ← Finset.mul_sum]
  rw [elem_coord]

/-- **C05 (geometry).** An element whose nodes are the affine image of the canonical nodes has exactly that affine
map as its geometry. -/
theorem C05_affine_geometry (T : ElementType) {m : ℕ} (c : Fin m → K) (g : Fin m → Fin T.dim → K)
    (ξ : Fin T.dim → K) :
    T.elem.worldCoordinates (fun i a => affineFn (c a) (g a) (T.elem.node i)) ξ = fun a => affineFn (c a) (g a) ξ :=
  C05_affine_reproduction T c g ξ

example : (hexa1 (K := ℚ)).worldCoordinates (fun i a => affineFn (![1, 2, 3] a)
      ((![![2, 0, 0], ![1, 1, 0], ![0, 0, 5]] : Fin 3 → Fin 3 → ℚ) a) (hexa1.node i)) ![1/2, 1/3, 1/4]
    = ![2, 17/6, 17/4] := by
  refine (C05_affine_geometry .hexa1 _ _ _).trans ?_
  funext a
  change ![1, 2, 3] a + ∑ j : Fin 3, _ = _
  fin_cases a <;> simp only [sum_fin3, Matrix.cons_val, Fin.isValue, Fin.reduceFinMk, Fin.zero_eta, Fin.mk_one] <;>
    norm_num

private theorem elem_coord2 (T : ElementType) (h : T.IsQuadratic) (ξ : Fin T.dim → K) (j l : Fin T.dim) :
    ∑ i, ((T.elem (K := K)).node i j * (T.elem (K := K)).node i l) * (T.elem (K := K)).L ξ i = ξ j * ξ l := by
  cases T
  · exact h.elim
  · exact segment2_coord2 ξ j l
  · exact h.elim
  · exact triangle2_coord2 ξ j l
  · exact h.elim
  · exact quad2_coord2 ξ j l
  · exact h.elim
  · exact tetra2_coord2 ξ j l
  · exact h.elim
  · exact hexa2_coord2 ξ j l
  · exact h.elim
  · exact quad2_coord2 ξ j l
  · exact h.elim
  · exact hexa2_coord2 ξ j l

/-- **C06.** On every quadratic element type, nodal values sampled from an arbitrary polynomial of total degree at most
two are interpolated exactly everywhere. -/
theorem C06_quadratic_reproduction (T : ElementType) (h : T.IsQuadratic) {m : ℕ} (c : Fin m → K)
    (g : Fin m → Fin T.dim → K) (H : Fin m → Fin T.dim → Fin T.dim → K) (ξ : Fin T.dim → K) :
    T.elem.interpolate ξ (fun i a => quadraticFn (c a) (g a) (H a) (T.elem.node i))
      = fun a => quadraticFn (c a) (g a) (H a) ξ := by
  funext a
  have h1 := congrFun (C05_affine_reproduction (K := K) T c g ξ) a
  simp only [Elem.interpolate, affineFn] at h1
  simp only [Elem.interpolate, quadraticFn]
  simp only [add_mul (_ + _) _ _, Finset.sum_add_distrib]
  rw [h1]
  congr 1
  simp only [Finset.sum_mul]
  rw [Finset.sum_comm]
  refine Finset.sum_congr rfl fun j _ => ?_
  rw [Finset.sum_comm]
  refine Finset.sum_congr rfl fun l _ => ?_
  simp only [mul_assoc (H a j l), ← Finset.mul_sum]
  rw [elem_coord2 T h]

/-- Non-triviality for C06: linear elements do not have this property, so the hypothesis matters. -/
example : (segment1 (K := ℚ)).interpolate (m := 1) ![0]
    (fun i _ => quadraticFn 0 0 (fun _ _ => 1) (segment1.node i)) ≠ fun _ => quadraticFn 0 0 (fun _ _ => 1) ![0] := by
  intro h
  have := congrFun h 0
  simp [Elem.interpolate, quadraticFn, segment1] at this

/-- **C07.** For arbitrary node positions, entry `(a, j)` of `jacobian` is the partial derivative of world coordinate
`a` with respect to local coordinate `j`. -/
theorem C07_jacobian_is_derivative (T : ElementType) {m : ℕ} (nodes : Fin T.numNodes → Fin m → ℝ)
    (ξ : Fin T.dim → ℝ) (a : Fin m) (j : Fin T.dim) :
    HasDerivAt (fun t => T.elem.worldCoordinates nodes (Function.update ξ j t) a) (T.elem.jacobian nodes ξ a j)
      (ξ j) := by
  simp only [Elem.worldCoordinates, Elem.interpolate, Elem.jacobian]
  exact HasDerivAt.fun_sum fun i _ => (C03_derivative T ξ i j).const_mul (nodes i a)

example : HasDerivAt (fun t => (triangle1 (K := ℝ)).worldCoordinates (m := 2) ![![0, 0], ![2, 1], ![1, 3]]
      (Function.update ![1/3, 1/3] 1 t) 1)
    ((triangle1 (K := ℝ)).jacobian (m := 2) ![![0, 0], ![2, 1], ![1, 3]] ![1/3, 1/3] 1 1) (1/3) :=
  C07_jacobian_is_derivative .triangle1 _ _ _ (1 : Fin 2)

/-- **C08 (triangle).** The quadratic triangle built from a linear one has the same geometry everywhere. -/
theorem C08_triangle_from_linear {m : ℕ} (nodes : Fin 3 → Fin m → K) (ξ : Fin 2 → K) :
    triangle2.worldCoordinates (triangle2OfLinear nodes) ξ = triangle1.worldCoordinates nodes ξ := by
  funext a
  simp only [Elem.worldCoordinates, Elem.interpolate, sum_fin6, sum_fin3, triangle2OfLinear, triangle1, triangle2,
    Matrix.cons_val]
  ring

/-- **C08 (quad).** -/
theorem C08_quad_from_linear {m : ℕ} (nodes : Fin 4 → Fin m → K) (ξ : Fin 2 → K) :
    quad2.worldCoordinates (quad2OfLinear nodes) ξ = quad1.worldCoordinates nodes ξ := by
  funext a
  simp only [Elem.worldCoordinates, Elem.interpolate, sum_fin8, sum_fin4, quad2OfLinear, quad1, quad2,
    Matrix.cons_val]
  ring

/-- **C08 (tetrahedron).** -/
theorem C08_tetra_from_linear {m : ℕ} (nodes : Fin 4 → Fin m → K) (ξ : Fin 3 → K) :
    tetra2.worldCoordinates (tetra2OfLinear nodes) ξ = tetra1.worldCoordinates nodes ξ := by
  funext a
  simp only [Elem.worldCoordinates, Elem.interpolate, sum_fin10, sum_fin4, tetra2OfLinear, tetra1, tetra2,
    Matrix.cons_val]
  ring

/-- **C08 (hexahedron).** -/
theorem C08_hexa_from_linear {m : ℕ} (nodes : Fin 8 → Fin m → K) (ξ : Fin 3 → K) :
    hexa2.worldCoordinates (hexa2OfLinear nodes) ξ = hexa1.worldCoordinates nodes ξ := by
  funext a
  simp only [Elem.worldCoordinates, Elem.interpolate, sum_fin20, sum_fin8, hexa2OfLinear, hexa1, hexa2, hexa2Mid,
    Matrix.cons_val]
  ring

/-- Instance of C08 on a genuinely distorted (non-affine) quad. -/
example : (quad2 (K := ℚ)).worldCoordinates (quad2OfLinear ![![0, 0], ![2, 0], ![3, 3], ![0, 1]]) ![1/2, 1/2]
    = (quad1 (K := ℚ)).worldCoordinates ![![0, 0], ![2, 0], ![3, 3], ![0, 1]] ![1/2, 1/2] :=
  C08_quad_from_linear _ _

end Caribou

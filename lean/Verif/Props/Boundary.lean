import Verif.Lemmas.Orientation

/-!
# Properties C09 – C11: boundary elements
-/

set_option autoImplicit false

namespace Caribou

open Spec

section Trace

variable {K : Type*} [Field K] [CharZero K]

/-- **C09.** For every element type with a boundary (the quadratic rectangular hexahedron is the subject of C11), every
side and all node positions: the boundary element maps its local coordinate `η` to the point the parent maps from the
corresponding point of its side, the latter being the boundary element of the canonical parent. -/
theorem C09_boundary_is_trace (B : BoundedType) (hB : B ≠ .rectHexa2) {m : ℕ} (nodes : Fin B.type.numNodes → Fin m → K)
    (i : Fin B.numSides) (η : Fin B.sideType.dim → K) :
    B.sideType.elem.worldCoordinates (B.boundaryNodes nodes i) η
      = B.type.elem.worldCoordinates nodes
          (B.sideType.elem.worldCoordinates (B.boundaryNodes B.type.elem.node i) η) := by
  cases B
  · exact triangle1_trace nodes η i
  · exact triangle2_trace nodes η i
  · exact quad1_trace nodes η i
  · exact quad2_trace nodes η i
  · exact tetra1_trace nodes η i
  · exact tetra2_trace nodes η i
  · exact hexa1_trace nodes η i
  · exact hexa2_trace nodes η i
  · exact quad1_trace nodes η i
  · exact quad2_trace nodes η i
  · exact hexa1_trace nodes η i
  · exact absurd rfl hB

/-- **C09 (conformity).** Two elements, possibly of different types, that share the nodes of a side agree on the whole
side, whatever their other nodes are. -/
theorem C09_neighbours_match (B B' : BoundedType) (hB : B ≠ .rectHexa2) (hB' : B' ≠ .rectHexa2) {m : ℕ}
    (nodes : Fin B.type.numNodes → Fin m → K) (nodes' : Fin B'.type.numNodes → Fin m → K)
    (i : Fin B.numSides) (i' : Fin B'.numSides) (hs : B'.sideType = B.sideType)
    (hshare : ∀ j, nodes (B.sides i j) = nodes' (B'.sides i' (Fin.cast (by rw [hs]) j)))
    (η : Fin B.sideType.dim → K) :
    B.type.elem.worldCoordinates nodes (B.sideType.elem.worldCoordinates (B.boundaryNodes B.type.elem.node i) η)
      = B'.type.elem.worldCoordinates nodes'
          (B'.sideType.elem.worldCoordinates (B'.boundaryNodes B'.type.elem.node i')
            (fun a => η (Fin.cast (by rw [hs]) a))) := by
  rw [← C09_boundary_is_trace B hB, ← C09_boundary_is_trace B' hB']
  have h1 : B.boundaryNodes nodes i = fun j => B'.boundaryNodes nodes' i' (Fin.cast (by rw [hs]) j) := by
    funext j; exact hshare j
  rw [h1]
  clear h1 hshare
  generalize B'.boundaryNodes nodes' i' = X
  generalize B'.sideType = T' at *
  subst hs
  rfl

/-- Instance of C09: on side 1 of a concrete (non-planar) hexahedron the trace identity gives a real point. -/
example : (quad1 (K := ℚ)).worldCoordinates
      (BoundedType.hexa1.boundaryNodes (m := 3) (K := ℚ)
        ![![0, 0, 0], ![1, 0, 0], ![1, 1, 0], ![0, 1, 1], ![0, 0, 2], ![1, 0, 1], ![2, 2, 2], ![0, 3, 1]] (1 : Fin 6))
      ![0, 0] = ![0, 1, 1] := by
  funext a
  fin_cases a <;>
  · simp only [Elem.worldCoordinates, Elem.interpolate, sum_fin4, BoundedType.boundaryNodes, BoundedType.sides,
      hexa1Sides, quad1, Matrix.cons_val, Fin.isValue, Fin.reduceFinMk, Fin.zero_eta, Fin.mk_one]
    norm_num

end Trace

variable {K : Type*} [Field K] [LinearOrder K] [IsStrictOrderedRing K]

/-- **C09 (which part of the element).** The side used in `C09_boundary_is_trace` is a face of the canonical element: it
lies in a supporting hyperplane, strictly off which are all the nodes that the side does not list. -/
theorem C09_side_is_facet (B : BoundedType) (hB : B ≠ .rectHexa2) (i : Fin B.numSides) :
    SupportedSide (B.type.elem (K := K)).node (B.sides i)
      (fun η => B.sideType.elem.worldCoordinates (B.boundaryNodes B.type.elem.node i) η) := by
  cases B
  · exact triangle1_facet i
  · exact triangle2_facet i
  · exact quad1_facet i
  · exact quad2_facet i
  · exact tetra1_facet i
  · exact tetra2_facet i
  · exact hexa1_facet i
  · exact hexa2_facet i
  · exact quad1_facet i
  · exact quad2_facet i
  · exact hexa1_facet i
  · exact absurd rfl hB

/-- **C10 (closed surface).** The faces of tetrahedra and hexahedra form a closed, consistently oriented surface over
the element's edges, and the mid-edge nodes of the quadratic faces are those of the edges. -/
theorem C10_closed :
    ClosedOriented (t := 0) tetra1Sides tetra1Edges ∧
    ClosedOriented (t := 1) (fun i (j : Fin 3) => tetra2Sides i (j.castLE (by decide))) tetra2Edges ∧
    MidNodesAgree (r := 3) (fun i j => tetra2Sides i (j.castLE (by decide))) (fun i j => tetra2Sides i (j.natAdd 3))
      tetra2Edges ∧
    ClosedOriented (t := 0) hexa1Sides hexa1Edges ∧
    ClosedOriented (t := 1) (fun i (j : Fin 4) => hexa2Sides i (j.castLE (by decide))) hexa2Edges ∧
    MidNodesAgree (r := 4) (fun i j => hexa2Sides i (j.castLE (by decide))) (fun i j => hexa2Sides i (j.natAdd 4))
      hexa2Edges := by
  unfold ClosedOriented MidNodesAgree
  refine ⟨by decide, by decide, by decide, by decide, by decide, by decide⟩

/-- **C10 (outward normals).** On every positively oriented affine tetrahedron or hexahedron the right-hand normal of
every side points away from every node that is not on that side. -/
theorem C10_outward :
    OutwardNormals (k := 0) (tetra1 (K := K)).node tetra1Sides ∧
    OutwardNormals (k := 3) (tetra2 (K := K)).node tetra2Sides ∧
    OutwardNormals (k := 1) (hexa1 (K := K)).node hexa1Sides ∧
    OutwardNormals (k := 5) (hexa2 (K := K)).node hexa2Sides :=
  ⟨tetra1_outward, tetra2_outward, hexa1_outward, hexa2_outward⟩

/-- **C10 (plane elements).** The sides of triangles and quads form a single closed cycle, and on every positively
oriented affine element that cycle is counter-clockwise. -/
theorem C10_plane :
    (OneCycle (k := 0) triangle1Sides ∧ OneCycle (k := 1) triangle2Sides ∧
      OneCycle (k := 0) quad1Sides ∧ OneCycle (k := 1) quad2Sides) ∧
    CounterClockwise (k := 0) (triangle1 (K := K)).node triangle1Sides ∧
    CounterClockwise (k := 1) (triangle2 (K := K)).node triangle2Sides ∧
    CounterClockwise (k := 0) (quad1 (K := K)).node quad1Sides ∧
    CounterClockwise (k := 1) (quad2 (K := K)).node quad2Sides := by
  refine ⟨?_, triangle1_ccw, triangle2_ccw, quad1_ccw, quad2_ccw⟩
  unfold OneCycle
  refine ⟨by decide, by decide, by decide, by decide⟩

/-- Non-triviality for C10: a concrete positively oriented affine map, and a node that is not on side 0. -/
example : (0 : ℚ) < (!![2, 1, 0; 0, 1, 0; 0, 0, 3] : Matrix (Fin 3) (Fin 3) ℚ).det ∧ ∀ j, tetra1Sides 0 j ≠ 3 := by
  refine ⟨?_, by decide⟩
  simp [Matrix.det_fin_three]

/-- The claim of C11 about one side: all listed nodes are in the plane of the side's first three corners. -/
def C11Claim (sides : Fin 6 → Fin 8 → Fin 20) (node : Fin 20 → Fin 3 → ℚ) : Prop :=
  ∀ i j, volume6 (node (sides i 0)) (node (sides i 1)) (node (sides i 2)) (node (sides i j)) = 0

/-- The general quadratic hexahedron satisfies the C11 claim: the claim itself is satisfiable. -/
example : C11Claim hexa2Sides (hexa2 (K := ℚ)).node := by
  intro i j
  fin_cases i <;> fin_cases j <;>
  · simp only [volume6, hexa2, hexa2Sides, Matrix.cons_val, Fin.isValue, Fin.reduceFinMk, Fin.zero_eta, Fin.mk_one]
    norm_num

/-- **C11 is violated by the code.** Every one of the six sides of the quadratic rectangular hexahedron lists a
mid-edge node that is not in the plane of that side. -/
theorem C11_violated :
    (∀ i : Fin 6, ∃ j, volume6 ((hexa2 (K := ℚ)).node (rectHexa2Sides i 0)) (hexa2.node (rectHexa2Sides i 1))
      (hexa2.node (rectHexa2Sides i 2)) (hexa2.node (rectHexa2Sides i j)) ≠ 0) ∧
    ¬ C11Claim rectHexa2Sides (hexa2 (K := ℚ)).node := by
  have h : ∀ i : Fin 6, ∃ j, volume6 ((hexa2 (K := ℚ)).node (rectHexa2Sides i 0)) (hexa2.node (rectHexa2Sides i 1))
      (hexa2.node (rectHexa2Sides i 2)) (hexa2.node (rectHexa2Sides i j)) ≠ 0 := by
    intro i
    fin_cases i <;> [use 5; use 4; use 4; use 7; use 4; use 4] <;>
    · simp only [volume6, hexa2, rectHexa2Sides, Matrix.cons_val, Fin.isValue, Fin.reduceFinMk, Fin.zero_eta,
        Fin.mk_one]
      norm_num
  refine ⟨h, fun hc => ?_⟩
  obtain ⟨j, hj⟩ := h 0
  exact hj (hc 0 j)

/-- **C11, effect.** On the default quadratic rectangular hexahedron `[-1,1]³`, the boundary element of side 0 puts its
centre at `(1/2, -1/2, 0)` instead of `(0, 0, -1)`. -/
theorem C11_wrong_centre :
    (quad2 (K := ℚ)).worldCoordinates (BoundedType.rectHexa2.boundaryNodes (hexa2 (K := ℚ)).node (0 : Fin 6)) ![0, 0]
      = ![1/2, -1/2, 0] ∧
    (quad2 (K := ℚ)).worldCoordinates (BoundedType.hexa2.boundaryNodes (hexa2 (K := ℚ)).node (0 : Fin 6)) ![0, 0]
      = ![0, 0, -1] := by
  constructor <;>
  · funext a
    fin_cases a <;>
    · simp only [Elem.worldCoordinates, Elem.interpolate, sum_fin8, BoundedType.boundaryNodes, BoundedType.sides,
        rectHexa2Sides, hexa2Sides, hexa2, quad2, Matrix.cons_val, Fin.isValue, Fin.reduceFinMk, Fin.zero_eta,
        Fin.mk_one]
      norm_num

/-- **C11 (partial).** What remains true: the four corners of every side are those of the general hexahedron, hence in
the supporting plane of the side.  Missing: the four mid-edge nodes. -/
theorem C11_corners_partial (i : Fin 6) (j : Fin 4) :
    rectHexa2Sides i (j.castLE (by decide)) = hexa2Sides i (j.castLE (by decide)) := by
  revert i j; decide

end Caribou

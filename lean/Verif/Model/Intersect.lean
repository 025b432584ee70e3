import Verif.Model.Rectangular

/-!
# Cube / segment and cube / polygon intersection tests

The text of `BaseHexahedron.h:226-333` is repeated in `BaseRectangularHexahedron.h:172-279`.
-/

set_option autoImplicit false

namespace Caribou

variable {K : Type*} [Field K] [LinearOrder K]

/-- `edge_signs`, `BaseHexahedron.h:231-234`. -/
def edgeSign (x : K) : K := if x < 0 then -1 else 1

/-- `intersects_local_segment`, `BaseHexahedron.h:226-262`.  The two loops over the axes are written as conjunctions of
the negated rejection tests. -/
def intersectsLocalSegment (v0 v1 : Fin 3 → K) (eps : K) : Bool :=
  let edge : Fin 3 → K := v1 - v0
  (List.finRange 3).all (fun i =>
    !decide (v0 i * edgeSign (edge i) > 1 + eps) && !decide (v1 i * edgeSign (edge i) < -1 - eps)) &&
  (List.finRange 3).all (fun i =>
    let rhombV0 := edge (i + 2) * v0 (i + 1) - edge (i + 1) * v0 (i + 2)
    let rhombCubedge := edge (i + 2) * edgeSign (edge (i + 1)) + edge (i + 1) * edgeSign (edge (i + 2))
    !decide (rhombV0 * rhombV0 - rhombCubedge * rhombCubedge > eps))

/-- The macro `seg_contains_point(a,b,x)`, `BaseHexahedron.h:264`: `(b > x) - (a > x)`. -/
def segContainsPoint (a b x : K) : ℤ := (if b > x then 1 else 0) - (if a > x then 1 else 0)

/-- `zaxis`, `BaseHexahedron.h:294-298`. -/
def projectionAxis (n : Fin 3 → K) : Fin 3 :=
  if |n 0| > |n 1| then (if |n 0| > |n 2| then 0 else 2) else (if |n 1| > |n 2| then 1 else 2)

/-- Contribution of one edge to `count`, `BaseHexahedron.h:311-328`. -/
def crossing (p1 p2 p : Fin 3 → K) (x y : Fin 3) (eps : K) : ℤ :=
  let xdirection := segContainsPoint (p1 x - eps) (p2 x + eps) (p x)
  if xdirection ≠ 0 then
    if segContainsPoint (p1 y - eps) (p2 y + eps) (p y) ≠ 0 then
      if (xdirection : K) * (p x - p1 x) * (p2 y - p1 y) ≤ (xdirection : K) * (p y - p1 y) * (p2 x - p1 x) then
        xdirection else 0
    else if p2 y ≤ p y then xdirection else 0
  else 0

/-- `intersects_local_polygon<n>`, `BaseHexahedron.h:266-331`.  With a zero normal the code divides zero by zero; the
NaN fails the closed interval test and the function returns false: this is the branch on `denominator = 0`. -/
def intersectsLocalPolygon {n : ℕ} [NeZero n] (nodes : Fin n → Fin 3 → K) (normal : Fin 3 → K) (eps : K) : Bool :=
  if (List.finRange n).any (fun i => intersectsLocalSegment (nodes i) (nodes (i + 1)) eps) then true
  else
    let diagonal : Fin 3 → K := fun j => if normal j < 0 then -1 else 1
    let denominator := ∑ j, normal j * diagonal j
    if denominator = 0 then false
    else
      let t := (∑ j, normal j * nodes 0 j) / denominator
      if !inClosedInterval (-1 - eps) t (1 + eps) then false
      else
        let p : Fin 3 → K := fun j => diagonal j * t
        let z := projectionAxis normal
        let x := if normal z < 0 then z + 2 else z + 1
        let y := if normal z < 0 then z + 1 else z + 2
        decide (((List.finRange n).map fun i => crossing (nodes i) (nodes (i + 1)) p x y eps).sum ≠ 0)

/-- The normal given by `intersects(Triangle)` before normalisation, `BaseHexahedron.h:164`. -/
def triangleNormal (nodes : Fin 3 → Fin 3 → K) : Fin 3 → K :=
  crossProduct (nodes 1 - nodes 2) (nodes 2 - nodes 0)

/-- `intersects(Triangle)` once the corners are in local coordinates, `BaseHexahedron.h:158-167`. -/
noncomputable def intersectsLocalTriangle (nodes : Fin 3 → Fin 3 → ℝ) (eps : ℝ) : Bool :=
  intersectsLocalPolygon nodes (normalized (triangleNormal nodes)) eps

/-- `BaseRectangularHexahedron::intersects(Segment)`, `BaseRectangularHexahedron.h:102-104`. -/
def RectHexa.intersectsSegment (h : RectHexa K) (a b : Fin 3 → K) (eps : K) : Bool :=
  intersectsLocalSegment (h.localCoordinates a) (h.localCoordinates b) eps

/-- `BaseRectangularHexahedron::intersects(Triangle)`, `BaseRectangularHexahedron.h:112-121`. -/
noncomputable def RectHexa.intersectsTriangle (h : RectHexa ℝ) (t : Fin 3 → Fin 3 → ℝ) (eps : ℝ) : Bool :=
  intersectsLocalTriangle (fun i => h.localCoordinates (t i)) eps

end Caribou

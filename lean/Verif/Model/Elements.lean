import Mathlib.Algebra.BigOperators.Fin
import Mathlib.Data.Fin.VecNotation
import Mathlib.Data.Matrix.Basic

/-!
# Model of the element types of `src/Caribou/Geometry`

Every interpolation element of Caribou is described by its shape functions `L`, their derivatives `dL` and the
canonical positions of its nodes.  Numbers are elements of an arbitrary field `K` (the code uses `double`; rounding
is not modelled).  Local coordinates are functions `Fin d → K`, one value (row) per node is a function on `Fin n`.
-/

set_option autoImplicit false

namespace Caribou

variable {K : Type*} [Field K]

/-- What a Caribou element class with `n` nodes and canonical dimension `d` provides:
`L` (`Element.h:139`), `dL` (`Element.h:151`) and the canonical positions of the nodes (`canonical_nodes` tables or the
default constructors of the classes). -/
structure Elem (K : Type*) (d n : ℕ) where
  /-- Shape functions, `get_L`. -/
  L : (Fin d → K) → Fin n → K
  /-- Shape function derivatives, `get_dL`; row = node, column = local direction. -/
  dL : (Fin d → K) → Fin n → Fin d → K
  /-- Canonical node positions. -/
  node : Fin n → Fin d → K

/-- `Element::interpolate`, `Element.h:284-297`: multiply each row of `values` by the node's shape value and sum over
the nodes. -/
def Elem.interpolate {d n m : ℕ} (E : Elem K d n) (ξ : Fin d → K) (values : Fin n → Fin m → K) : Fin m → K :=
  fun a => ∑ i, values i a * E.L ξ i

/-- `Element::world_coordinates`, `Element.h:157-159`: interpolation of the node positions. -/
def Elem.worldCoordinates {d n m : ℕ} (E : Elem K d n) (nodes : Fin n → Fin m → K) (ξ : Fin d → K) : Fin m → K :=
  E.interpolate ξ nodes

/-- `Element::jacobian`, `Element.h:377-381`: `nodes()ᵀ * dL(ξ)`. -/
def Elem.jacobian {d n m : ℕ} (E : Elem K d n) (nodes : Fin n → Fin m → K) (ξ : Fin d → K) :
    Matrix (Fin m) (Fin d) K :=
  fun a j => ∑ i, nodes i a * E.dL ξ i j

/-- `Segment<Dim, Linear>`, `Segment.h:70-83` (`get_L`, `get_dL`), canonical nodes from `Segment.h:52-63`. -/
def segment1 : Elem K 1 2 where
  L ξ := let u := ξ 0
    ![1/2 * (1 - u), 1/2 * (1 + u)]
  dL _ := ![![-1/2], ![1/2]]
  node := ![![-1], ![1]]

/-- `Segment<Dim, Quadratic>`, `Segment.h:154-170`, canonical nodes from `Segment.h:133-147`. -/
def segment2 : Elem K 1 3 where
  L ξ := let u := ξ 0
    ![1/2 * u * (u - 1), 1/2 * u * (u + 1), 1 - u * u]
  dL ξ := let u := ξ 0
    ![![u - 1/2], ![u + 1/2], ![-2 * u]]
  node := ![![-1], ![1], ![0]]

/-- `Triangle<Dim, Linear>`, `Triangle.h:83-100`, canonical nodes from `Triangle.h:66-76`. -/
def triangle1 : Elem K 2 3 where
  L ξ := let u := ξ 0; let v := ξ 1
    ![1 - u - v, u, v]
  dL _ := ![![-1, -1], ![1, 0], ![0, 1]]
  node := ![![0, 0], ![1, 0], ![0, 1]]

/-- `Triangle<Dim, Quadratic>`, `Triangle.h:213-243`, canonical nodes from `Triangle.h:173-189`. -/
def triangle2 : Elem K 2 6 where
  L ξ := let u := ξ 0; let v := ξ 1; let l := 1 - u - v
    ![l * (2 * l - 1), u * (2 * u - 1), v * (2 * v - 1), 4 * u * l, 4 * u * v, 4 * v * l]
  dL ξ := let u := ξ 0; let v := ξ 1; let l := 1 - u - v
    ![![1 - 4 * l, 1 - 4 * l],
      ![4 * u - 1, 0],
      ![0, 4 * v - 1],
      ![4 * (l - u), -4 * u],
      ![4 * v, 4 * u],
      ![-4 * v, 4 * (l - v)]]
  node := ![![0, 0], ![1, 0], ![0, 1], ![1/2, 0], ![1/2, 1/2], ![0, 1/2]]

/-- `Quad<Dim, Linear>`, `Quad.h:93-115`, canonical nodes from `Quad.h:64-70`. -/
def quad1 : Elem K 2 4 where
  L ξ := let u := ξ 0; let v := ξ 1
    ![1/4 * (1 - u) * (1 - v), 1/4 * (1 + u) * (1 - v), 1/4 * (1 + u) * (1 + v), 1/4 * (1 - u) * (1 + v)]
  dL ξ := let u := ξ 0; let v := ξ 1
    ![![-1/4 * (1 - v), -1/4 * (1 - u)],
      ![ 1/4 * (1 - v), -1/4 * (1 + u)],
      ![ 1/4 * (1 + v),  1/4 * (1 + u)],
      ![-1/4 * (1 + v),  1/4 * (1 - u)]]
  node := ![![-1, -1], ![1, -1], ![1, 1], ![-1, 1]]

/-- `Quad<Dim, Quadratic>`, `Quad.h:251-285`, canonical nodes from `Quad.h:190-200`. -/
def quad2 : Elem K 2 8 where
  L ξ := let u := ξ 0; let v := ξ 1
    let m4 := 1/2 * (1 - u * u) * (1 - v)
    let m5 := 1/2 * (1 - v * v) * (1 + u)
    let m6 := 1/2 * (1 - u * u) * (1 + v)
    let m7 := 1/2 * (1 - v * v) * (1 - u)
    ![1/4 * (1 - u) * (1 - v) - 1/2 * (m4 + m7),
      1/4 * (1 + u) * (1 - v) - 1/2 * (m4 + m5),
      1/4 * (1 + u) * (1 + v) - 1/2 * (m5 + m6),
      1/4 * (1 - u) * (1 + v) - 1/2 * (m6 + m7),
      m4, m5, m6, m7]
  dL ξ := let u := ξ 0; let v := ξ 1
    ![![-1/4 * (1 - v) - 1/2 * (-u * (1 - v) + -1/2 * (1 - v * v)),
        -1/4 * (1 - u) - 1/2 * (-1/2 * (1 - u * u) + -v * (1 - u))],
      ![ 1/4 * (1 - v) - 1/2 * (-u * (1 - v) +  1/2 * (1 - v * v)),
        -1/4 * (1 + u) - 1/2 * (-1/2 * (1 - u * u) + -v * (1 + u))],
      ![ 1/4 * (1 + v) - 1/2 * (-u * (1 + v) +  1/2 * (1 - v * v)),
         1/4 * (1 + u) - 1/2 * ( 1/2 * (1 - u * u) + -v * (1 + u))],
      ![-1/4 * (1 + v) - 1/2 * (-u * (1 + v) + -1/2 * (1 - v * v)),
         1/4 * (1 - u) - 1/2 * ( 1/2 * (1 - u * u) + -v * (1 - u))],
      ![-u * (1 - v), -1/2 * (1 - u * u)],
      ![1/2 * (1 - v * v), -v * (1 + u)],
      ![-u * (1 + v), 1/2 * (1 - u * u)],
      ![-1/2 * (1 - v * v), -v * (1 - u)]]
  node := ![![-1, -1], ![1, -1], ![1, 1], ![-1, 1], ![0, -1], ![1, 0], ![0, 1], ![-1, 0]]

/-- `Tetrahedron<Linear>`, `Tetrahedron.h:102-122`, canonical nodes from `Tetrahedron.h:73-78`. -/
def tetra1 : Elem K 3 4 where
  L ξ := let u := ξ 0; let v := ξ 1; let w := ξ 2
    ![1 - u - v - w, u, v, w]
  dL _ := ![![-1, -1, -1], ![1, 0, 0], ![0, 1, 0], ![0, 0, 1]]
  node := ![![0, 0, 0], ![1, 0, 0], ![0, 1, 0], ![0, 0, 1]]

/-- `Tetrahedron<Quadratic>`, `Tetrahedron.h:259-299`, canonical nodes from `Tetrahedron.h:203-214`. -/
def tetra2 : Elem K 3 10 where
  L ξ := let u := ξ 0; let v := ξ 1; let w := ξ 2; let l := 1 - u - v - w
    ![l * (2 * l - 1), u * (2 * u - 1), v * (2 * v - 1), w * (2 * w - 1),
      4 * l * u, 4 * u * v, 4 * v * l, 4 * l * w, 4 * u * w, 4 * v * w]
  dL ξ := let u := ξ 0; let v := ξ 1; let w := ξ 2; let l := 1 - u - v - w
    ![![1 - 4 * l, 1 - 4 * l, 1 - 4 * l],
      ![4 * u - 1, 0, 0],
      ![0, 4 * v - 1, 0],
      ![0, 0, 4 * w - 1],
      ![4 * (l - u), -4 * u, -4 * u],
      ![4 * v, 4 * u, 0],
      ![-4 * v, 4 * (l - v), -4 * v],
      ![-4 * w, -4 * w, 4 * (l - w)],
      ![4 * w, 0, 4 * u],
      ![0, 4 * w, 4 * v]]
  node := ![![0, 0, 0], ![1, 0, 0], ![0, 1, 0], ![0, 0, 1],
    ![1/2, 0, 0], ![1/2, 1/2, 0], ![0, 1/2, 0], ![0, 0, 1/2], ![1/2, 0, 1/2], ![0, 1/2, 1/2]]

/-- `Hexahedron<Linear>`, `Hexahedron.h:117-150`, canonical nodes from `Hexahedron.h:64-74`.  The shape functions of
`RectangularHexahedron<Linear>` (`RectangularHexahedron.h:114-147`) are textually the same. -/
def hexa1 : Elem K 3 8 where
  L ξ := let u := ξ 0; let v := ξ 1; let w := ξ 2
    ![1/8 * (1 - u) * (1 - v) * (1 - w),
      1/8 * (1 + u) * (1 - v) * (1 - w),
      1/8 * (1 + u) * (1 + v) * (1 - w),
      1/8 * (1 - u) * (1 + v) * (1 - w),
      1/8 * (1 - u) * (1 - v) * (1 + w),
      1/8 * (1 + u) * (1 - v) * (1 + w),
      1/8 * (1 + u) * (1 + v) * (1 + w),
      1/8 * (1 - u) * (1 + v) * (1 + w)]
  dL ξ := let u := ξ 0; let v := ξ 1; let w := ξ 2
    ![![-1/8 * (1 - v) * (1 - w), -1/8 * (1 - u) * (1 - w), -1/8 * (1 - u) * (1 - v)],
      ![ 1/8 * (1 - v) * (1 - w), -1/8 * (1 + u) * (1 - w), -1/8 * (1 + u) * (1 - v)],
      ![ 1/8 * (1 + v) * (1 - w),  1/8 * (1 + u) * (1 - w), -1/8 * (1 + u) * (1 + v)],
      ![-1/8 * (1 + v) * (1 - w),  1/8 * (1 - u) * (1 - w), -1/8 * (1 - u) * (1 + v)],
      ![-1/8 * (1 - v) * (1 + w), -1/8 * (1 - u) * (1 + w),  1/8 * (1 - u) * (1 - v)],
      ![ 1/8 * (1 - v) * (1 + w), -1/8 * (1 + u) * (1 + w),  1/8 * (1 + u) * (1 - v)],
      ![ 1/8 * (1 + v) * (1 + w),  1/8 * (1 + u) * (1 + w),  1/8 * (1 + u) * (1 + v)],
      ![-1/8 * (1 + v) * (1 + w),  1/8 * (1 - u) * (1 + w),  1/8 * (1 - u) * (1 + v)]]
  node := ![![-1, -1, -1], ![1, -1, -1], ![1, 1, -1], ![-1, 1, -1],
    ![-1, -1, 1], ![1, -1, 1], ![1, 1, 1], ![-1, 1, 1]]

/-- Mid-edge shape functions of `Hexahedron<Quadratic>`, `Hexahedron.h:349-360`, entry `k` is node `8 + k`. -/
def hexa2Mid (u v w : K) : Fin 12 → K :=
  ![1/4 * (1 - u * u) * (1 - v) * (1 - w),
    1/4 * (1 - v * v) * (1 + u) * (1 - w),
    1/4 * (1 - u * u) * (1 + v) * (1 - w),
    1/4 * (1 - v * v) * (1 - u) * (1 - w),
    1/4 * (1 - u * u) * (1 - v) * (1 + w),
    1/4 * (1 - v * v) * (1 + u) * (1 + w),
    1/4 * (1 - u * u) * (1 + v) * (1 + w),
    1/4 * (1 - v * v) * (1 - u) * (1 + w),
    1/4 * (1 - w * w) * (1 - u) * (1 - v),
    1/4 * (1 - w * w) * (1 + u) * (1 - v),
    1/4 * (1 - w * w) * (1 + u) * (1 + v),
    1/4 * (1 - w * w) * (1 - u) * (1 + v)]

/-- Rows 8-19 of `dL` of `Hexahedron<Quadratic>`, `Hexahedron.h:382-393`, entry `k` is node `8 + k`. -/
def hexa2dMid (u v w : K) : Fin 12 → Fin 3 → K :=
  ![![-1/2 * u * (1 - v) * (1 - w), -1/4 * (1 - u * u) * (1 - w), -1/4 * (1 - u * u) * (1 - v)],
    ![ 1/4 * (1 - v * v) * (1 - w), -1/2 * v * (1 + u) * (1 - w), -1/4 * (1 - v * v) * (1 + u)],
    ![-1/2 * u * (1 + v) * (1 - w),  1/4 * (1 - u * u) * (1 - w), -1/4 * (1 - u * u) * (1 + v)],
    ![-1/4 * (1 - v * v) * (1 - w), -1/2 * v * (1 - u) * (1 - w), -1/4 * (1 - v * v) * (1 - u)],
    ![-1/2 * u * (1 - v) * (1 + w), -1/4 * (1 - u * u) * (1 + w),  1/4 * (1 - u * u) * (1 - v)],
    ![ 1/4 * (1 - v * v) * (1 + w), -1/2 * v * (1 + u) * (1 + w),  1/4 * (1 - v * v) * (1 + u)],
    ![-1/2 * u * (1 + v) * (1 + w),  1/4 * (1 - u * u) * (1 + w),  1/4 * (1 - u * u) * (1 + v)],
    ![-1/4 * (1 - v * v) * (1 + w), -1/2 * v * (1 - u) * (1 + w),  1/4 * (1 - v * v) * (1 - u)],
    ![-1/4 * (1 - w * w) * (1 - v), -1/4 * (1 - w * w) * (1 - u), -1/2 * w * (1 - u) * (1 - v)],
    ![ 1/4 * (1 - w * w) * (1 - v), -1/4 * (1 - w * w) * (1 + u), -1/2 * w * (1 + u) * (1 - v)],
    ![ 1/4 * (1 - w * w) * (1 + v),  1/4 * (1 - w * w) * (1 + u), -1/2 * w * (1 + u) * (1 + v)],
    ![-1/4 * (1 - w * w) * (1 + v),  1/4 * (1 - w * w) * (1 - u), -1/2 * w * (1 - u) * (1 + v)]]

/-- `Hexahedron<Quadratic>` (20 nodes), `Hexahedron.h:343-410`, canonical nodes from `Hexahedron.h:234-256`.  The code
fills entries 8-19 first and uses them for the corner nodes; the same dependency is kept through `hexa2Mid` and
`hexa2dMid`.  `RectangularHexahedron<Quadratic>` (`RectangularHexahedron.h:304-371`) has textually the same functions. -/
def hexa2 : Elem K 3 20 where
  L ξ := let u := ξ 0; let v := ξ 1; let w := ξ 2
    let m := hexa2Mid u v w
    ![1/8 * (1 - u) * (1 - v) * (1 - w) - 1/2 * (m 0 + m 3 + m 8),
      1/8 * (1 + u) * (1 - v) * (1 - w) - 1/2 * (m 0 + m 1 + m 9),
      1/8 * (1 + u) * (1 + v) * (1 - w) - 1/2 * (m 1 + m 2 + m 10),
      1/8 * (1 - u) * (1 + v) * (1 - w) - 1/2 * (m 2 + m 3 + m 11),
      1/8 * (1 - u) * (1 - v) * (1 + w) - 1/2 * (m 4 + m 7 + m 8),
      1/8 * (1 + u) * (1 - v) * (1 + w) - 1/2 * (m 4 + m 5 + m 9),
      1/8 * (1 + u) * (1 + v) * (1 + w) - 1/2 * (m 5 + m 6 + m 10),
      1/8 * (1 - u) * (1 + v) * (1 + w) - 1/2 * (m 6 + m 7 + m 11),
      m 0, m 1, m 2, m 3, m 4, m 5, m 6, m 7, m 8, m 9, m 10, m 11]
  dL ξ := let u := ξ 0; let v := ξ 1; let w := ξ 2
    let m := hexa2dMid u v w
    ![![-1/8 * (1 - v) * (1 - w) - 1/2 * (m 0 0 + m 3 0 + m 8 0),
        -1/8 * (1 - u) * (1 - w) - 1/2 * (m 0 1 + m 3 1 + m 8 1),
        -1/8 * (1 - u) * (1 - v) - 1/2 * (m 0 2 + m 3 2 + m 8 2)],
      ![ 1/8 * (1 - v) * (1 - w) - 1/2 * (m 0 0 + m 1 0 + m 9 0),
        -1/8 * (1 + u) * (1 - w) - 1/2 * (m 0 1 + m 1 1 + m 9 1),
        -1/8 * (1 + u) * (1 - v) - 1/2 * (m 0 2 + m 1 2 + m 9 2)],
      ![ 1/8 * (1 + v) * (1 - w) - 1/2 * (m 1 0 + m 2 0 + m 10 0),
         1/8 * (1 + u) * (1 - w) - 1/2 * (m 1 1 + m 2 1 + m 10 1),
        -1/8 * (1 + u) * (1 + v) - 1/2 * (m 1 2 + m 2 2 + m 10 2)],
      ![-1/8 * (1 + v) * (1 - w) - 1/2 * (m 2 0 + m 3 0 + m 11 0),
         1/8 * (1 - u) * (1 - w) - 1/2 * (m 2 1 + m 3 1 + m 11 1),
        -1/8 * (1 - u) * (1 + v) - 1/2 * (m 2 2 + m 3 2 + m 11 2)],
      ![-1/8 * (1 - v) * (1 + w) - 1/2 * (m 4 0 + m 7 0 + m 8 0),
        -1/8 * (1 - u) * (1 + w) - 1/2 * (m 4 1 + m 7 1 + m 8 1),
         1/8 * (1 - u) * (1 - v) - 1/2 * (m 4 2 + m 7 2 + m 8 2)],
      ![ 1/8 * (1 - v) * (1 + w) - 1/2 * (m 4 0 + m 5 0 + m 9 0),
        -1/8 * (1 + u) * (1 + w) - 1/2 * (m 4 1 + m 5 1 + m 9 1),
         1/8 * (1 + u) * (1 - v) - 1/2 * (m 4 2 + m 5 2 + m 9 2)],
      ![ 1/8 * (1 + v) * (1 + w) - 1/2 * (m 5 0 + m 6 0 + m 10 0),
         1/8 * (1 + u) * (1 + w) - 1/2 * (m 5 1 + m 6 1 + m 10 1),
         1/8 * (1 + u) * (1 + v) - 1/2 * (m 5 2 + m 6 2 + m 10 2)],
      ![-1/8 * (1 + v) * (1 + w) - 1/2 * (m 6 0 + m 7 0 + m 11 0),
         1/8 * (1 - u) * (1 + w) - 1/2 * (m 6 1 + m 7 1 + m 11 1),
         1/8 * (1 - u) * (1 + v) - 1/2 * (m 6 2 + m 7 2 + m 11 2)],
      m 0, m 1, m 2, m 3, m 4, m 5, m 6, m 7, m 8, m 9, m 10, m 11]
  node := ![![-1, -1, -1], ![1, -1, -1], ![1, 1, -1], ![-1, 1, -1],
    ![-1, -1, 1], ![1, -1, 1], ![1, 1, 1], ![-1, 1, 1],
    ![0, -1, -1], ![1, 0, -1], ![0, 1, -1], ![-1, 0, -1],
    ![0, -1, 1], ![1, 0, 1], ![0, 1, 1], ![-1, 0, 1],
    ![-1, -1, 0], ![1, -1, 0], ![1, 1, 0], ![-1, 1, 0]]

/-- `Triangle<Dim, Quadratic>(const Triangle<Dim, Linear>&)`, `Triangle.h:192-199`. -/
def triangle2OfLinear {m : ℕ} (nodes : Fin 3 → Fin m → K) : Fin 6 → Fin m → K :=
  ![nodes 0, nodes 1, nodes 2,
    triangle1.worldCoordinates nodes ![1/2, 0],
    triangle1.worldCoordinates nodes ![1/2, 1/2],
    triangle1.worldCoordinates nodes ![0, 1/2]]

/-- `Quad<Dim, Quadratic>(const Quad<Dim, Linear>&)`, `Quad.h:227-236`. -/
def quad2OfLinear {m : ℕ} (nodes : Fin 4 → Fin m → K) : Fin 8 → Fin m → K :=
  ![nodes 0, nodes 1, nodes 2, nodes 3,
    quad1.worldCoordinates nodes ![0, -1],
    quad1.worldCoordinates nodes ![1, 0],
    quad1.worldCoordinates nodes ![0, 1],
    quad1.worldCoordinates nodes ![-1, 0]]

/-- `Tetrahedron<Quadratic>(const Tetrahedron<Linear>&)`, `Tetrahedron.h:217-228`. -/
def tetra2OfLinear {m : ℕ} (nodes : Fin 4 → Fin m → K) : Fin 10 → Fin m → K :=
  ![nodes 0, nodes 1, nodes 2, nodes 3,
    tetra1.worldCoordinates nodes ![1/2, 0, 0],
    tetra1.worldCoordinates nodes ![1/2, 1/2, 0],
    tetra1.worldCoordinates nodes ![0, 1/2, 0],
    tetra1.worldCoordinates nodes ![0, 0, 1/2],
    tetra1.worldCoordinates nodes ![1/2, 0, 1/2],
    tetra1.worldCoordinates nodes ![0, 1/2, 1/2]]

/-- `Hexahedron<Quadratic>(const Hexahedron<Linear>&)`, `Hexahedron.h:285-306`. -/
def hexa2OfLinear {m : ℕ} (nodes : Fin 8 → Fin m → K) : Fin 20 → Fin m → K :=
  ![nodes 0, nodes 1, nodes 2, nodes 3, nodes 4, nodes 5, nodes 6, nodes 7,
    hexa1.worldCoordinates nodes ![0, -1, -1],
    hexa1.worldCoordinates nodes ![1, 0, -1],
    hexa1.worldCoordinates nodes ![0, 1, -1],
    hexa1.worldCoordinates nodes ![-1, 0, -1],
    hexa1.worldCoordinates nodes ![0, -1, 1],
    hexa1.worldCoordinates nodes ![1, 0, 1],
    hexa1.worldCoordinates nodes ![0, 1, 1],
    hexa1.worldCoordinates nodes ![-1, 0, 1],
    hexa1.worldCoordinates nodes ![-1, -1, 0],
    hexa1.worldCoordinates nodes ![1, -1, 0],
    hexa1.worldCoordinates nodes ![1, 1, 0],
    hexa1.worldCoordinates nodes ![-1, 1, 0]]

/-- The concrete element types of `src/Caribou/Geometry` (the world dimension of segments, triangles and quads is a
separate parameter of `worldCoordinates`/`jacobian`). -/
inductive ElementType
  | segment1 | segment2 | triangle1 | triangle2 | quad1 | quad2 | tetra1 | tetra2 | hexa1 | hexa2
  | rectQuad1 | rectQuad2 | rectHexa1 | rectHexa2
  deriving DecidableEq

namespace ElementType

/-- `CanonicalDimension` of the `traits` of each class. -/
def dim : ElementType → ℕ
  | segment1 | segment2 => 1
  | triangle1 | triangle2 | quad1 | quad2 | rectQuad1 | rectQuad2 => 2
  | tetra1 | tetra2 | hexa1 | hexa2 | rectHexa1 | rectHexa2 => 3

/-- `NumberOfNodesAtCompileTime` of the `traits` of each class. -/
def numNodes : ElementType → ℕ
  | segment1 => 2 | segment2 => 3
  | triangle1 => 3 | triangle2 => 6
  | quad1 => 4 | quad2 => 8
  | tetra1 => 4 | tetra2 => 10
  | hexa1 => 8 | hexa2 => 20
  | rectQuad1 => 4 | rectQuad2 => 8
  | rectHexa1 => 8 | rectHexa2 => 20

/-- The interpolation functions of each class.  The rectangular classes (`RectangularQuad.h:95-117,235-269`,
`RectangularHexahedron.h:114-147,304-371`) repeat the text of the general ones and share their canonical nodes
(`RectangularQuad.h:66,205`, `RectangularHexahedron.h:65,244`). -/
def elem : (T : ElementType) → Elem K T.dim T.numNodes
  | segment1 => Caribou.segment1
  | segment2 => Caribou.segment2
  | triangle1 => Caribou.triangle1
  | triangle2 => Caribou.triangle2
  | quad1 => Caribou.quad1
  | quad2 => Caribou.quad2
  | tetra1 => Caribou.tetra1
  | tetra2 => Caribou.tetra2
  | hexa1 => Caribou.hexa1
  | hexa2 => Caribou.hexa2
  | rectQuad1 => Caribou.quad1
  | rectQuad2 => Caribou.quad2
  | rectHexa1 => Caribou.hexa1
  | rectHexa2 => Caribou.hexa2

/-- The second template argument of the classes is `Quadratic`. -/
def IsQuadratic : ElementType → Prop
  | segment2 | triangle2 | quad2 | tetra2 | hexa2 | rectQuad2 | rectHexa2 => True
  | _ => False

end ElementType

end Caribou

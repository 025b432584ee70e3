import Verif.Model.LocalCoordinates
import Verif.Model.Canonical
import Verif.Model.Frame

/-!
# Rectangular hexahedra and quads
-/

set_option autoImplicit false

namespace Caribou

/-- The template argument `_Order` of the element classes, `Config/constants.h.in:8-9`. -/
inductive Order
  | linear
  | quadratic

namespace Order

/-- Number of nodes of the hexahedra of each order. -/
def hexaNodes : Order → ℕ
  | linear => 8
  | quadratic => 20

/-- Number of nodes of the quads of each order. -/
def quadNodes : Order → ℕ
  | linear => 4
  | quadratic => 8

instance (o : Order) : NeZero o.hexaNodes := ⟨by cases o <;> simp [hexaNodes]⟩
instance (o : Order) : NeZero o.quadNodes := ⟨by cases o <;> simp [quadNodes]⟩

/-- Shape functions of `Hexahedron<Order>` and `RectangularHexahedron<Order>`. -/
def hexa {K : Type*} [Field K] : (o : Order) → Elem K 3 o.hexaNodes
  | linear => hexa1
  | quadratic => hexa2

/-- Shape functions of `Quad<Dim, Order>` and `RectangularQuad<Dim, Order>`. -/
def quad {K : Type*} [Field K] : (o : Order) → Elem K 2 o.quadNodes
  | linear => quad1
  | quadratic => quad2

end Order

/-- State of a `RectangularHexahedron`: `p_center`, `p_H`, `p_R`, `BaseRectangularHexahedron.h:166-168`. -/
structure RectHexa (K : Type*) where
  center : Fin 3 → K
  H : Fin 3 → K
  R : Matrix (Fin 3) (Fin 3) K

namespace RectHexa

variable {K : Type*} [Field K]

/-- Default constructor, `BaseRectangularHexahedron.h:45`. -/
def default : RectHexa K := ⟨0, fun _ => 2, 1⟩

/-- `world_coordinates`, `BaseRectangularHexahedron.h:80-82`. -/
def worldCoordinates (h : RectHexa K) (ξ : Fin 3 → K) : Fin 3 → K :=
  h.center + h.R.mulVec (fun j => ξ j * (h.H j / 2))

/-- `local_coordinates`, `BaseRectangularHexahedron.h:85-87`. -/
def localCoordinates (h : RectHexa K) (p : Fin 3 → K) : Fin 3 → K :=
  fun j => h.R.transpose.mulVec (p - h.center) j / (h.H j / 2)

/-- `contains`, `BaseRectangularHexahedron.h:90-94`, with the default tolerance of `contains_local`
(`Element.h:272-274`). -/
def contains [LinearOrder K] (h : RectHexa K) (p : Fin 3 → K) : Bool :=
  containsHexa (h.localCoordinates p) (1 / 10000000000)

/-- `get_node` and `get_nodes`, `RectangularHexahedron.h:149-160` (linear) and `373-384` (quadratic): world position of
the canonical nodes of `E`. -/
def nodes {n : ℕ} (h : RectHexa K) (E : Elem K 3 n) : Fin n → Fin 3 → K := fun i => h.worldCoordinates (E.node i)

/-- Construction from a hexahedron, `RectangularHexahedron.h:71-75` (linear) and `251-255` (quadratic). `center()` of
the hexahedron is its image of the local origin, `BaseHexahedron.h:177`. -/
noncomputable def ofHexa {n : ℕ} [NeZero n] (E : Elem ℝ 3 n) (nodes : Fin n → Fin 3 → ℝ) : RectHexa ℝ where
  center := E.worldCoordinates nodes ![0, 0, 0]
  H := ![norm2 (nodes 1 - nodes 0), norm2 (nodes 3 - nodes 0), norm2 (nodes 4 - nodes 0)]
  R := hexaFrame E nodes ![0, 0, 0]

end RectHexa

/-- State of a `RectangularQuad<m>`: `BaseRectangularQuad.h:99-101`. -/
structure RectQuad (K : Type*) (m : ℕ) where
  center : Fin m → K
  H : Fin 2 → K
  R : Matrix (Fin m) (Fin m) K

namespace RectQuad

variable {K : Type*} [Field K]

/-- `T` in a 2D world, `BaseRectangularQuad.h:75-76`. -/
def T2 (q : RectQuad K 2) (ξ : Fin 2 → K) : Fin 2 → K :=
  q.center + q.R.mulVec (fun j => ξ j * (q.H j / 2))

/-- `T` in a 3D world, `BaseRectangularQuad.h:77-82`. -/
def T3 (q : RectQuad K 3) (ξ : Fin 2 → K) : Fin 3 → K :=
  q.center + q.R.mulVec ![ξ 0 * (q.H 0 / 2), ξ 1 * (q.H 1 / 2), 0]

/-- `get_nodes` in a 2D world, `RectangularQuad.h:119-130` and `271-282`. -/
def nodes2 {n : ℕ} (q : RectQuad K 2) (E : Elem K 2 n) : Fin n → Fin 2 → K := fun i => q.T2 (E.node i)

/-- `get_nodes` in a 3D world. -/
def nodes3 {n : ℕ} (q : RectQuad K 3) (E : Elem K 2 n) : Fin n → Fin 3 → K := fun i => q.T3 (E.node i)

/-- Construction from a quad of the plane, `RectangularQuad.h:75-79` and `213-217`. -/
noncomputable def ofQuad2 {n : ℕ} [NeZero n] (E : Elem ℝ 2 n) (nodes : Fin n → Fin 2 → ℝ) : RectQuad ℝ 2 where
  center := E.worldCoordinates nodes ![0, 0]
  H := ![norm2 (nodes 1 - nodes 0), norm2 (nodes 3 - nodes 0)]
  R := quadFrame2 E nodes ![0, 0]

/-- Construction from a quad of the 3D space, `RectangularQuad.h:75-79` and `213-217`. -/
noncomputable def ofQuad3 {n : ℕ} [NeZero n] (E : Elem ℝ 2 n) (nodes : Fin n → Fin 3 → ℝ) : RectQuad ℝ 3 where
  center := E.worldCoordinates nodes ![0, 0]
  H := ![norm2 (nodes 1 - nodes 0), norm2 (nodes 3 - nodes 0)]
  R := quadFrame3 E nodes ![0, 0]

end RectQuad

end Caribou

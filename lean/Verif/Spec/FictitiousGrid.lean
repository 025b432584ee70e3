import Verif.Model.FictitiousGrid

/-!
# Fictitious grid: leaves, boxes and shared faces
-/

set_option autoImplicit false

namespace Caribou.Spec

open Caribou.FictitiousGrid

/-- `t` has a leaf with the given data at the end of the path, read from the top of the tree. -/
inductive LeafAt {D : ℕ} {α : Type*} : CellTree D α → List (Fin (2 ^ D)) → α → Prop
  | here (data : α) : LeafAt (.leaf data) [] data
  | child (ch : Fin (2 ^ D) → CellTree D α) (i : Fin (2 ^ D)) (path : List (Fin (2 ^ D))) (data : α)
      (h : LeafAt (ch i) path data) : LeafAt (.node ch) (i :: path) data

/-- The address is the one of a leaf of the grid with the given data (addresses list indices from the cell upwards). -/
def IsLeaf {D : ℕ} {α K : Type*} (g : Grid D K) (cells : ℤ → CellTree D α) (c : CellRef D) (data : α) : Prop :=
  0 ≤ c.top ∧ c.top < ∏ a, (g.n a : ℤ) ∧ LeafAt (cells c.top) c.path.reverse data

section Field

variable {D : ℕ} {K : Type*} [Field K]

/-- Lower corner of a box given by its centre and its size. -/
def lower (b : Box D K) : Fin D → K := fun a => b.center a - b.size a / 2

/-- Upper corner. -/
def upper (b : Box D K) : Fin D → K := fun a => b.center a + b.size a / 2

/-- Volume of a box. -/
def boxVolume (b : Box D K) : K := ∏ a, b.size a

/-- A face of the box is on the border of the grid with the given anchor and size. -/
def TouchesBorder (anchor size : Fin D → K) (b : Box D K) : Prop :=
  ∃ a, lower b a = anchor a ∨ upper b a = anchor a + size a

variable [LinearOrder K]

/-- `b'` is on the side `direction` (`1` or `-1`) of `b` along the axis and they have a face portion in common: the faces
are in the same plane and their interiors (within this plane) meet. -/
def SharesFace (b b' : Box D K) (axis : Fin D) (direction : ℤ) : Prop :=
  (if direction = 1 then lower b' axis = upper b axis else upper b' axis = lower b axis) ∧
    ∀ a, a ≠ axis → lower b a < upper b' a ∧ lower b' a < upper b a

/-- `p` is in the closed box. -/
def InCellBox (b : Box D K) (p : Fin D → K) : Prop := ∀ a, lower b a ≤ p a ∧ p a ≤ upper b a

/-- `p` is in the interior of the box. -/
def InsideBox (b : Box D K) (p : Fin D → K) : Prop := ∀ a, lower b a < p a ∧ p a < upper b a

end Field

end Caribou.Spec

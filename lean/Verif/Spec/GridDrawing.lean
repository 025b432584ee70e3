import Verif.Model.GridDrawing
import Mathlib.Data.Fin.VecNotation

/-!
# Pictures of cells
-/

set_option autoImplicit false

namespace Caribou.Spec

open Caribou.FictitiousGrid

/-- The signs of the corners of a rectangle, turning around it, and of a box: the bottom rectangle, then the top one. -/
def cornerSigns : (D : ℕ) → List (Fin D → ℤ)
  | 2 => [![-1, -1], ![1, -1], ![1, 1], ![-1, 1]]
  | 3 => [![-1, -1, -1], ![1, -1, -1], ![1, 1, -1], ![-1, 1, -1], ![-1, -1, 1], ![1, -1, 1], ![1, 1, 1], ![-1, 1, 1]]
  | _ => []

/-- The list has every edge of a rectangle or box once: the pairs of corners which differ along one axis only. -/
def IsEdgeList {D : ℕ} (l : List ((Fin D → ℤ) × (Fin D → ℤ))) : Prop :=
  l.Nodup ∧ (∀ x ∈ l, x.swap ∉ l ∧ x.1 ∈ cornerSigns D ∧ x.2 ∈ cornerSigns D) ∧
    ∀ σ ∈ cornerSigns D, ∀ τ ∈ cornerSigns D, (∃ a, σ a ≠ τ a ∧ ∀ b, σ b ≠ τ b → b = a) ↔ (σ, τ) ∈ l ∨ (τ, σ) ∈ l

variable {D : ℕ} {K : Type*} [Field K]

/-- A point of the plane or of space as a point of space. -/
def inSpace (p : Fin D → K) : Fin 3 → K := fun a => if h : a.val < D then p ⟨a, h⟩ else 0

/-- The box with the same centre and its size multiplied by `s`. -/
def shrunkBox (b : Box D K) (s : K) : Box D K := ⟨b.center, fun a => s * b.size a⟩

/-- The corner of a box for given signs. -/
def cornerOf (b : Box D K) (σ : Fin D → ℤ) : Fin 3 → K := inSpace fun a => b.center a + σ a * (b.size a / 2)

/-- The corners of a box. -/
def cornersOf (b : Box D K) : List (Fin 3 → K) := (cornerSigns D).map (cornerOf b)

/-- The end points of the edges of a box. -/
def edgePoints (b : Box D K) (l : List ((Fin D → ℤ) × (Fin D → ℤ))) : List (Fin 3 → K) :=
  l.flatMap fun x => [cornerOf b x.1, cornerOf b x.2]

/-- Filled rectangles or boxes. -/
def filled (D : ℕ) (points : List (Fin 3 → K)) (colour : ℕ × ℕ × ℕ) : DrawCall K :=
  if D = 2 then .quads points colour else .hexahedra points colour

end Caribou.Spec

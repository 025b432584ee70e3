import Verif.Spec.FictitiousGrid
import Verif.Spec.Intersect
import Verif.Spec.Grid
import Mathlib.Logic.Relation

/-!
# Specification of the immersion of a surface in a grid (C91)
-/

set_option autoImplicit false

namespace Caribou.Spec

open Caribou.FictitiousGrid

/-- The surface of a list of triangles, given by their corners. -/
def surfaceOf (triangles : List (Fin 3 → Fin 3 → ℝ)) : Set (Fin 3 → ℝ) :=
  { x | ∃ t ∈ triangles, InTriangle (t 0) (t 1) (t 2) x }

/-- One can go from `p` to `q` along a straight line without meeting the surface. -/
def Sees (surface : Set (Fin 3 → ℝ)) (p q : Fin 3 → ℝ) : Prop := ∀ x, OnSegment p q x → x ∉ surface

/-- One can go from `p` to `q` along a polygonal line, whose corners are in `domain`, without meeting the surface. -/
def Reaches (domain surface : Set (Fin 3 → ℝ)) : (Fin 3 → ℝ) → (Fin 3 → ℝ) → Prop :=
  Relation.ReflTransGen fun p q => q ∈ domain ∧ Sees surface p q

/-- `p` is on the border of the box with the given corner and size. -/
def OnBorder (anchor size p : Fin 3 → ℝ) : Prop :=
  InGrid anchor size p ∧ ∃ a, p a = anchor a ∨ p a = anchor a + size a

/-- The object is bounded by the surface: one does not leave it along a straight line without meeting the surface. -/
def BoundedBy (object surface : Set (Fin 3 → ℝ)) : Prop :=
  ∀ p q, p ∈ object → q ∉ object → ∃ x, OnSegment p q x ∧ x ∈ surface

/-- The surface meets the closed box. -/
def Meets (surface : Set (Fin 3 → ℝ)) (b : Box 3 ℝ) : Prop := ∃ x ∈ surface, InCellBox b x

end Caribou.Spec

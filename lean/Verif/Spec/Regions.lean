import Mathlib.Logic.Relation
import Verif.Model.FictitiousGrid

/-!
# Connected components of cells of the same type
-/

set_option autoImplicit false

namespace Caribou.Spec

open Caribou.FictitiousGrid

variable {C S : Type*}

/-- `y` is a neighbour of `x` through one of its sides. -/
def Adjacent (neighbors : C → S → List C) (sides : List S) (x y : C) : Prop := ∃ s ∈ sides, y ∈ neighbors x s

/-- Neighbours of the same type. -/
def Linked (type : C → CellType) (neighbors : C → S → List C) (sides : List S) (x y : C) : Prop :=
  Adjacent neighbors sides x y ∧ type x = type y

/-- A chain of neighbours of the same type leads from `x` to `y`. -/
def Connected (type : C → CellType) (neighbors : C → S → List C) (sides : List S) : C → C → Prop :=
  Relation.ReflTransGen (Linked type neighbors sides)

/-- A side of the cell has no neighbour, or a neighbour of another type. -/
def OnRegionBoundary (type : C → CellType) (neighbors : C → S → List C) (sides : List S) (x : C) : Prop :=
  ∃ s ∈ sides, neighbors x s = [] ∨ ∃ y ∈ neighbors x s, type y ≠ type x

end Caribou.Spec

import Verif.Model.FictitiousLife

/-!
# Specification of a fictitious grid over several initialisations (C103) and of its volume ratios (C102)
-/

set_option autoImplicit false

namespace Caribou.Spec

open Caribou.FictitiousGrid

/-- The two components have the same data. -/
def SameData (c c' : GridComponent) : Prop :=
  c.n = c'.n ∧ c.min = c'.min ∧ c.max = c'.max ∧ c.mesh = c'.mesh ∧ c.levels = c'.levels ∧ c.threshold = c'.threshold

/-- The component was never initialised. -/
def Unused (c : GridComponent) : Prop := c.grid = none ∧ c.result = none ∧ c.typesSize = 0 ∧ c.trianglesSize = 0

/-- The indices of triangles stored in the component designate triangles of its mesh. -/
def IndicesFit (c : GridComponent) : Prop :=
  ∀ i, 0 ≤ i → i < c.trianglesSize → ∀ m ∈ c.triangles i, m < c.mesh.triangles.length

/-- No mesh has fewer triangles than the one it replaces; `count` is the number of triangles at the beginning. -/
def Growing : ℕ → List GridOp → Prop
  | _, [] => True
  | count, .setMesh S :: l => count ≤ S.triangles.length ∧ Growing S.triangles.length l
  | count, _ :: l => Growing count l

/-- The value written last by the operations `read` recognises, `before` when there is none. -/
def lastWritten {α : Type*} (read : GridOp → Option α) (history : List GridOp) (before : α) : α :=
  (history.filterMap read).getLast?.getD before

/-- `m` is the table which lists, for every value in increasing order, the elements of `cells` with this value, in order. -/
def IsDistribution {K : Type*} [LinearOrder K] (cells : List ℤ) (value : ℤ → Option K) (m : List (K × List ℤ)) : Prop :=
  (m.map Prod.fst).Pairwise (· < ·) ∧
  (∀ r l, (r, l) ∈ m → l ≠ [] ∧ l = cells.filter fun i => decide (value i = some r)) ∧
  ∀ i ∈ cells, ∀ r, value i = some r → ∃ l, (r, l) ∈ m

end Caribou.Spec

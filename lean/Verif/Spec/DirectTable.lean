import Verif.Model.DirectTable

/-!
# What the reader of the tables of the direct solvers relies on
-/

set_option autoImplicit false

namespace Caribou.Spec

/-- The iterations of a record. -/
def iterationsOf : DirectRecord → List DirectRow
  | .absent => []
  | .rows l => l

/-- The iteration came to the linear solve. -/
def completeRow (r : DirectRow) : Bool := r.built && r.solved

/-- What the table has to show for the iteration `it` of a method: its duration if there is such an iteration and it came to the linear solve. -/
def ExpectedCell (r : DirectRecord) (it : ℕ) (cell : TableCell) : Prop :=
  match (iterationsOf r)[it]? with
  | none => cell = .dash
  | some row => (completeRow row = false → cell = .dash) ∧
      (completeRow row = true → (row.total < 1 / 10000 → cell = .zero) ∧ (1 / 10000 ≤ row.total → cell = .number row.total))

/-- The table has a column for each method, in their order, and a line for each iteration number which some method completes, with the
duration of this iteration for each method. -/
def IsDirectTable (records : List (String × DirectRecord)) (table : List String × List (List TableCell)) : Prop :=
  table.1 = records.map (·.1) ∧
  (∀ it, it < table.2.length ↔ ∃ m ∈ records, ∃ row, (iterationsOf m.2)[it]? = some row ∧ completeRow row = true) ∧
  ∀ it line, table.2[it]? = some line → List.Forall₂ (fun m cell => ExpectedCell m.2 it cell) records line

/-- Several iterations, the first of which came to the linear solve, and none after one which did not. -/
def Stops (r : DirectRecord) : Prop :=
  ∃ a b l, r = .rows (a :: b :: l) ∧ completeRow a = true ∧
    (a :: b :: l).Pairwise fun x y => completeRow y = true → completeRow x = true

end Caribou.Spec

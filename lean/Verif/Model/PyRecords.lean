import Verif.Model.LegacyCG
import Verif.Model.Mesh

/-!
# What Python reads of the records of `LegacyStaticODESolver`

The vectors of numbers, and the vector of vectors of numbers, are opaque for pybind11 (`PYBIND11_MAKE_OPAQUE`, `SofaCaribou/Python/Ode/LegacyStaticODESolver.cpp:13-14`), and the getters of
`def_property_readonly` have the policy `reference_internal`: Python gets references to the members of the solver, which it keeps alive.  Numbers and the vector of integers are converted, hence copied.
pybind11 is modelled from its documented behaviour.  `R` are the numbers, not-a-number included.
-/

set_option autoImplicit false

namespace Caribou

/-- The members which hold records, `LegacyStaticODESolver.h:157-172`.  `block` tells the memory blocks of `p_iterative_linear_solver_squared_residuals` apart, `capacity` is its capacity.  `initial` is `none` as long as it was not set: it has no initialiser. -/
structure PyRecords (R : Type*) where
  initial : Option R
  times : List ℕ
  residuals : List R
  linear : List (List R)
  rhs : List R
  block : ℕ
  capacity : ℕ
  deriving DecidableEq

/-- What a call of `solve` records; `linear` is there if the linear solver is one of the plugin, with its residuals and right-hand side norms. -/
structure PyRun (R : Type*) where
  limit : ℕ
  initial : R
  times : List ℕ
  residuals : List R
  linear : Option (List (List R) × List R)

/-- The effect of `solve` on the records, `LegacyStaticODESolver.cpp:115-129,158,236-246`: `clear`, `reserve(newton_iterations)`, then the entries of the iterations.  `reserve` moves to a new block exactly
if the capacity is too small, and then takes what was asked for; entries beyond the capacity do not happen (`C153_reserved`). -/
def pySolve {R : Type*} (s : PyRecords R) (r : PyRun R) : PyRecords R :=
  match r.linear with
  | none => { s with initial := some r.initial, times := r.times, residuals := r.residuals }
  | some (l, b) =>
    { initial := some r.initial, times := r.times, residuals := r.residuals, linear := l, rhs := b, block := if s.capacity < r.limit then s.block + 1 else s.block, capacity := max s.capacity r.limit }

/-- The readable attributes, `SofaCaribou/Python/Ode/LegacyStaticODESolver.cpp:21-25`. -/
inductive PyAttribute where
  | iterationTimes
  | squaredResiduals
  | squaredInitialResidual
  | linearResiduals
  | linearRhs
  deriving DecidableEq

/-- What a variable of a script holds: a number (`none` is an indeterminate value), a list of its own, a reference to a vector of the solver, or a reference to an entry of `p_iterative_linear_solver_squared_residuals`. -/
inductive PyValue (R : Type*) where
  | number (x : Option R)
  | list (l : List ℕ)
  | vector (a : PyAttribute)
  | entry (block slot : ℕ)

/-- `solver.attribute`, `SofaCaribou/Python/Ode/LegacyStaticODESolver.cpp:21-25`. -/
def pyGet {R : Type*} (s : PyRecords R) : PyAttribute → PyValue R
  | .iterationTimes => .list s.times
  | .squaredInitialResidual => .number s.initial
  | .squaredResiduals => .vector .squaredResiduals
  | .linearResiduals => .vector .linearResiduals
  | .linearRhs => .vector .linearRhs

/-- `solver.iterative_linear_solver_squared_residuals[i]`: `bind_vector` (`SofaCaribou/Python/SofaCaribou.cpp:34`) gives a reference to an entry which is an object; `none` is the `IndexError`.  Negative
indices are left out. -/
def pyItem {R : Type*} (s : PyRecords R) (i : ℕ) : Option (PyValue R) := if i < s.linear.length then some (.entry s.block i) else none

/-- What a script sees. -/
inductive PySeen (R : Type*) where
  | number (x : R)
  | integers (l : List ℕ)
  | numbers (l : List R)
  | lists (l : List (List R))
  deriving DecidableEq

/-- What a script sees when it reads a variable: an entry which is not in the vector any more is not an object. -/
def pyLook {R : Type*} (s : PyRecords R) : PyValue R → Outcome (PySeen R)
  | .number (some x) => .ok (.number x)
  | .number none => .undefined
  | .list l => .ok (.integers l)
  | .vector .squaredResiduals => .ok (.numbers s.residuals)
  | .vector .linearResiduals => .ok (.lists s.linear)
  | .vector .linearRhs => .ok (.numbers s.rhs)
  | .vector _ => .undefined
  | .entry b i => if b = s.block then (match s.linear[i]? with | some l => .ok (.numbers l) | none => .undefined) else .undefined

/-- `solver.squared_residuals.append(x)`: the reference is not constant for Python (`SofaCaribou/Python/SofaCaribou.cpp:33`). -/
def pyAppend {R : Type*} (s : PyRecords R) (x : R) : PyRecords R := { s with residuals := s.residuals ++ [x] }

variable {K ι κ : Type*} [Field K] [Fintype ι] [Fintype κ] [DecidableEq ι] [LinearOrder K]

/-- The records of a call of `solve` with the conjugate gradient, `LegacyStaticODESolver.cpp:56-328`; the durations are a parameter. -/
def pyRunOf (p : LegacyParams K) (S : StaticScene K ι κ) (run : StaticWorld K ι κ → (ι → K) → (ι → K) → CGResult K ι) (dx x : ι → K) (times : List ℕ) : PyRun (Option K) where
  limit := p.iterations
  initial := some (dotProduct (staticRhs S ⟨x, S.map x, 0⟩) (staticRhs S ⟨x, S.map x, 0⟩))
  times := times
  residuals := (legacyCGSolve p S run dx x).1.residuals
  linear := some ((legacyCGSolve p S run dx x).2.map CGEntry.residuals, (legacyCGSolve p S run dx x).2.map CGEntry.rhs)

end Caribou

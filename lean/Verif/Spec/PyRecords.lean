import Verif.Model.PyRecords

/-!
# Specification vocabulary for records read by a script
-/

set_option autoImplicit false

namespace Caribou.Spec

/-- What a script sees in a variable `v` which it has set in the state `s` is still the same after some more calls of the solver. -/
def Lasting {R : Type*} (s : PyRecords R) (v : PyValue R) (runs : List (PyRun R)) : Prop := pyLook (runs.foldl pySolve s) v = pyLook s v

/-- The vector of vectors holds no more than was reserved for it. -/
def WithinReserve {R : Type*} (s : PyRecords R) : Prop := s.linear.length ≤ s.capacity

end Caribou.Spec

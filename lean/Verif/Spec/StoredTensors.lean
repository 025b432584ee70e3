import Verif.Model.StoredTensors

/-!
# Specification of the benchmark of stored tensors (C104)
-/

set_option autoImplicit false

namespace Caribou.Spec

open HyperComponent

variable {N : ℕ}

/-- What the caller of a component may rely on between two calls: the integration points are those of no evaluation (`stale`), the
forces were evaluated at the vector `id`, which was not written since (`evaluated`), and the stiffness was assembled after that
(`assembled`), or the stiffness was assembled but something it depends on was written since (`held`). -/
inductive Phase
  | stale
  | evaluated (id : CoordId)
  | assembled (id : CoordId)
  | held
deriving DecidableEq

/-- The effect of writing the vector `i`. -/
def Phase.writePositions (i : CoordId) : Phase → Phase
  | .evaluated id => if i = id then .stale else .evaluated id
  | .assembled id => if i = id then .held else .assembled id
  | p => p

/-- The effect of writing a parameter of the material: only the component which keeps the stress depends on it. -/
def Phase.writeParameter (v : Storage) (p : Phase) : Phase :=
  if v = .storeFAndS then
    match p with
    | .evaluated _ => .stale
    | .assembled _ => .held
    | p => p
  else p

/-- The phase after a call, `none` if the caller should not do this call: the stiffness is used only once the forces were
evaluated, with nothing written in between, and the eigenvalues are asked only for a stiffness which was assembled since. -/
def Phase.next (v : Storage) (p : Phase) : Op N → Option Phase
  | .setYoung _ => some (p.writeParameter v)
  | .setPoisson _ => some (p.writeParameter v)
  | .setPositions i _ => some (p.writePositions i)
  | .init => some .stale
  | .addForce id _ => some (.evaluated id)
  | .addDForce .. | .addKToMatrix .. =>
    match p with
    | .stale => none
    | .evaluated id => some (.assembled id)
    | p => some p
  | .potentialEnergy _ => some p
  | .eigenvalues =>
    match p with
    | .stale | .evaluated _ => none
    | p => some p
  | .assemble =>
    match p with
    | .evaluated id | .assembled id => some (.assembled id)
    | _ => some .stale
  | .assembleAt _ => some .stale

/-- The calls of a caller who uses the stiffness only after a force evaluation, see `Phase.next`. -/
def Evaluates (v : Storage) : Phase → List (Op N) → Prop
  | _, [] => True
  | p, o :: os => ∃ p', p.next v o = some p' ∧ Evaluates v p' os

/-- The forces and the energies among what was returned. -/
def Out.mechanical : List (Out N) → List (Out N)
  | [] => []
  | .forces f :: l => .forces f :: Out.mechanical l
  | .energy e :: l => .energy e :: Out.mechanical l
  | _ :: l => Out.mechanical l

/-- The calls return alike, with related values. -/
def SameEnd {α β : Type*} (r : α → β → Prop) : Outcome α → Outcome β → Prop
  | .ok a, .ok b => r a b
  | .throws a, .throws b => r a b
  | .hangs, .hangs => True
  | .undefined, .undefined => True
  | _, _ => False

end Caribou.Spec

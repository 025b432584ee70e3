import Verif.Model.Lookup

/-!
# Specification vocabulary for the lookup of partners
-/

set_option autoImplicit false

namespace Caribou.Spec

/-- An object on which a force field of this element type can be applied: a topology of the same elements, or a mesh of the same shape
when the elements are linear. -/
def Candidate (E : FieldElement) : SceneObject → Prop
  | .topology _ type _ => type = E
  | .mesh _ isA _ => isA E.shape = true ∧ E.quadratic = false
  | .other _ => False

/-- The only candidate of a context. -/
def OnlyCandidate (E : FieldElement) (context : List SceneObject) (o : SceneObject) : Prop :=
  ∃ before after, context = before ++ o :: after ∧ Candidate E o ∧
    (∀ p ∈ before, ¬ Candidate E p) ∧ ∀ p ∈ after, ¬ Candidate E p

/-- The first candidate of a context. -/
def FirstCandidate (E : FieldElement) (context : List SceneObject) (o : SceneObject) : Prop :=
  ∃ before after, context = before ++ o :: after ∧ Candidate E o ∧ ∀ p ∈ before, ¬ Candidate E p

/-- `elements` are the elements of type `E` of an object. -/
def ElementsOf (E : FieldElement) (o : SceneObject) (elements : List (List ℕ)) : Prop :=
  match o with
  | .topology _ type els => type = E ∧ els = elements
  | .mesh _ _ data => E.quadratic = false ∧ data E.shape = some elements
  | .other _ => False

/-- The element types which exist: solid elements are in space. -/
def FieldElement.Exists (E : FieldElement) : Prop := E.planar = true → E.shape = .triangle ∨ E.shape = .quad

end Caribou.Spec

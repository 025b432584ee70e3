import Verif.Model.MappingComponent
import Verif.Spec.HashGrid

/-!
# What a user expects of a barycentric mapping whatever the scene (C111)
-/

set_option autoImplicit false

namespace Caribou.Spec

variable {K : Type*} [Field K] [LinearOrder K] {m d n : ℕ}

/-- The topology the documentation promises: the one which is designated, otherwise the nearest one above the node of the mapping,
otherwise the first one of this node; `t = none` when there is none. -/
inductive PromisedTopology (scene : MappingScene K m n) : Option ℕ → Option ℕ → Prop
  | designated (t : ℕ) : PromisedTopology scene (some t) (some t)
  | above (t : ℕ) (others : List ℕ) : scene.above = some (t :: others) → PromisedTopology scene none (some t)
  | own (t : ℕ) (others : List ℕ) : (scene.above = none ∨ scene.above = some []) → scene.own = t :: others →
      PromisedTopology scene none (some t)
  | missing : (scene.above = none ∨ scene.above = some []) → scene.own = [] → PromisedTopology scene none none

/-- The rest positions the mapping works with: the positions when no rest positions are given. -/
def restOf (o : MappedObjects K m) : List (Fin m → K) := match o.mappedRest with
  | [] => o.mappedX
  | l => l

/-- The element `e` of `D` has the point `p` in its bounding box, and accepts its local coordinates. -/
def HoldsPoint (ops : ElementOps K m d n) (D : MeshDomain K m n) (e : Fin D.numElements) (p : Fin m → K) : Prop :=
  InBoxOf (D.element e) p ∧ ops.containsLocal (D.element e) (ops.localCoordinates (D.element e) p) = true

/-- Not all elements are reduced to a point. -/
def HasExtent (D : MeshDomain K m n) : Prop := ∃ e a i j, D.element e i a ≠ D.element e j a

/-- Everything the mapping needs: a mesh with elements, one parent position and velocity per node of this mesh, at least one mapped
node, one rest position and one velocity per mapped node, and every rest position in an element. -/
structure CompleteFor (ops : ElementOps K m d n) (D : MeshDomain K m n) (o : MappedObjects K m) : Prop where
  extent : HasExtent D
  parentX : o.parentX.length = D.numNodes
  parentV : o.parentV.length = D.numNodes
  mapped : o.mappedX ≠ []
  rest : (restOf o).length = o.mappedX.length
  mappedV : o.mappedV.length = o.mappedX.length
  held : ∀ p ∈ (restOf o), ∃ e, HoldsPoint ops D e p

/-- `output` has, for each point of `rest`, the value of the field `input` at this point: the field is interpolated with the shape
functions of an element which accepts the local coordinates of the point. -/
def IsInterpolation (ops : ElementOps K m d n) (D : MeshDomain K m n) (rest : List (Fin m → K)) {k : ℕ}
    (input output : List (Fin k → K)) : Prop :=
  output.length = rest.length ∧ ∀ (i : ℕ) (p : Fin m → K), rest[i]? = some p → ∃ e,
    ops.containsLocal (D.element e) (ops.localCoordinates (D.element e) p) = true ∧
    output[i]? = some fun a => ∑ j, ops.L (ops.localCoordinates (D.element e) p) j * input.getD (D.indices e j).val 0 a

/-- All calls of a component which does nothing return and leave their output as it is. -/
def Inert (ops : ElementOps K m d n) (s : MappingComponent K m d n) : Prop :=
  ∀ (k : ℕ) (output input : List (Fin k → K)), s.applyTo ops output input = .ok output ∧ s.applyJT output input = .ok output

/-- The call returns: no exception, no undefined behaviour. -/
def Returns {α : Type*} (o : Outcome α) : Prop := ∃ a, o = .ok a

end Caribou.Spec

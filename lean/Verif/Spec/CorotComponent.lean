import Verif.Model.CorotComponent

/-!
# Specification vocabulary for the life of the corotational components
-/

set_option autoImplicit false

namespace Caribou.Spec

/-- The topology meant by the user: the designated one or the only one of the node. -/
def meantTopology {n : ℕ} (link : Option ℕ) (scene : CorotScene n) : Option ℕ :=
  match link with
  | some k => some k
  | none => if scene.here.length = 1 then scene.here.head? else none

/-- A scene in which the topology `k` has the elements `els` and the mechanical state has `N` nodes. -/
structure SceneOf {n : ℕ} (k : ℕ) (els : List (Fin n → ℕ)) (N : ℕ) (scene : CorotScene n) : Prop where
  elements : scene.topologies k = els
  state : ∃ X x, scene.state = some (X, x) ∧ X.length = N ∧ x.length = N

/-- A scene which cannot be simulated with the topology `k`: there is no topology, no mechanical state, no element, or an element uses
a node which does not exist. -/
def Unusable {n : ℕ} (k : Option ℕ) (scene : CorotScene n) : Prop :=
  k = none ∨ scene.state = none ∨ (∃ t, k = some t ∧ scene.topologies t = []) ∨
    ∃ t X x, k = some t ∧ scene.state = some (X, x) ∧ ∃ e ∈ scene.topologies t, ∃ i, X.length ≤ e i

/-- The calls SOFA makes. -/
inductive CorotCall
  | reinit (d : CorotData)
  | addForce (d : CorotData) (x f : List (Fin 3 → ℝ))
  | addDForce (k : ℝ) (dx df : List (Fin 3 → ℝ))
  | addKToMatrix (k : ℝ) (N : ℕ) (A : Dof N → Dof N → ℝ)
  | draw (flag : Bool)
  | computeBBox (onlyVisible : Bool)

/-- The vectors given to the call are those of a state with `N` nodes. -/
def CorotCall.OfSize (N : ℕ) : CorotCall → Prop
  | reinit _ => True
  | addForce _ x f => x.length = N ∧ f.length = N
  | addDForce _ dx df => dx.length = N ∧ df.length = N
  | addKToMatrix _ N' _ => N' = N
  | draw _ => True
  | computeBBox _ => True

/-- The outcome with the value changed by `g`. -/
def _root_.Caribou.Outcome.then {α β : Type*} (o : Outcome α) (g : α → β) : Outcome β :=
  match o with
  | .ok a => .ok (g a)
  | .throws a => .throws (g a)
  | .hangs => .hangs
  | .undefined => .undefined

/-- A call and the component after it. -/
noncomputable def CorotCall.perform {C : CorotClass} (c : CorotCall) (s : CorotComponent C) (scene : CorotScene C.nodes) :
    Outcome (CorotComponent C) :=
  match c with
  | reinit d => s.reinit d scene
  | addForce d x f => (s.addForce d scene x f).then Prod.fst
  | addDForce k dx df => (s.addDForce scene k dx df).then fun _ => s
  | addKToMatrix k _ A => (s.addKToMatrix scene k A).then fun _ => s
  | draw flag => (s.draw scene flag).then fun _ => s
  | computeBBox v => (s.boxPositions scene v).then fun _ => s

/-- Several calls, each with the scene at its time. -/
noncomputable def runCalls {C : CorotClass} (s : CorotComponent C) : List (CorotScene C.nodes × CorotCall) → Outcome (CorotComponent C)
  | [] => .ok s
  | (scene, c) :: l =>
    match c.perform s scene with
    | .ok s' => runCalls s' l
    | o => o

end Caribou.Spec

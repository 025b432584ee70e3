import Verif.Model.Creation

/-!
# Specification of what a description designates
-/

set_option autoImplicit false

namespace Caribou.Spec

/-- Following `steps` from a node reaches the object `o`: the last part is the name of an object, the other parts are nodes. -/
inductive LeadsTo : SceneNode → List SceneNode → List PathStep → SceneObject → Prop
  | object {n : SceneNode} {a : List SceneNode} {s : String} {o : SceneObject} {l r : List (String × SceneObject)}
      (objects : n.objects = l ++ (s, o) :: r) (first : ∀ x ∈ l, x.1 ≠ s) (node : ∀ k ∈ n.children, k.name ≠ s) :
      LeadsTo n a [.name s] o
  | here {n : SceneNode} {a : List SceneNode} {l : List PathStep} {o : SceneObject} (h : LeadsTo n a l o) : LeadsTo n a (.here :: l) o
  | up {n p : SceneNode} {a : List SceneNode} {l : List PathStep} {o : SceneObject} (h : LeadsTo p a l o) :
      LeadsTo n (p :: a) (.up :: l) o
  | child {n k : SceneNode} {a : List SceneNode} {s : String} {l : List PathStep} {o : SceneObject} {x y : List SceneNode}
      (children : n.children = x ++ k :: y) (name : k.name = s) (first : ∀ j ∈ x, j.name ≠ s) (h : LeadsTo k (n :: a) l o) :
      LeadsTo n a (.name s :: l) o

/-- The object designated by a path written in a component of a node: absolute paths begin at the root, the others at the node. -/
def PathDesignates (c : SceneContext) (path : LinkPath) (o : SceneObject) : Prop :=
  if path.absolute then LeadsTo ((c.above.getLast?).getD c.node) [] path.steps o else LeadsTo c.node c.above path.steps o

/-- The solid elements, for which there are mappings. -/
def Solid (E : FieldElement) : Prop := (E.shape = .tetrahedron ∨ E.shape = .hexahedron) ∧ E.planar = false

/-- The objects of the node of a component and of its ancestors, nearest first. -/
def Visible (c : SceneContext) : List SceneObject := (c.node :: c.above).flatMap fun n => n.objects.map Prod.snd

end Caribou.Spec

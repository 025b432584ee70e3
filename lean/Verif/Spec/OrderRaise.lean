import Verif.Spec.CorotEnergy
import Verif.Model.Hyperelastic

/-!
# Specification: meshes of linear and of quadratic elements of one body

The nodes of the quadratic mesh are the nodes of the linear mesh and the middles of its edges: every one has two ends in the linear mesh, the same one twice for a corner.
-/

set_option autoImplicit false

namespace Caribou

namespace Spec

/-- The quadratic class of a linear one. -/
inductive RaisedType : SolidType → SolidType → Prop
  | tetra : RaisedType .tetra1 .tetra2
  | hexa : RaisedType .hexa1 .hexa2

/-- Element `e` of the quadratic mesh is element `e` of the linear mesh with the middles of its edges: where a node of the quadratic class is the middle of two nodes of the linear
class, the ends of the node of the mesh are the corresponding nodes of the linear mesh. -/
def RaisedMesh (T T' : SolidType) {N N' M : ℕ} (idx : Fin M → Fin T.numNodes → Fin N) (idx' : Fin M → Fin T'.numNodes → Fin N') (ends : Fin N' → Fin N × Fin N) : Prop :=
  ∀ e i, ∃ a b, T'.elem.node i = (1 / 2 : ℝ) • (T.elem.node a + T.elem.node b) ∧ ends (idx' e i) = (idx e a, idx e b)

/-- A field given on the linear mesh, at the nodes of the quadratic mesh: the mean of its values at the ends. -/
noncomputable def raised {N N' : ℕ} (ends : Fin N' → Fin N × Fin N) (v : Fin N → Fin 3 → ℝ) : Fin N' → Fin 3 → ℝ :=
  fun p => (1 / 2 : ℝ) • (v (ends p).1 + v (ends p).2)

/-- Forces given on the quadratic mesh, at the nodes of the linear mesh: half of every force goes to each of the ends. -/
noncomputable def lowered {N N' : ℕ} (ends : Fin N' → Fin N × Fin N) (f : Fin N' → Fin 3 → ℝ) : Fin N → Fin 3 → ℝ :=
  fun q => ∑ p, (((if (ends p).1 = q then 1 / 2 else 0) + (if (ends p).2 = q then 1 / 2 else 0) : ℝ) • f p)

end Spec

end Caribou

import Verif.Model.Mesh

/-!
# Assignment of meshes, `src/Caribou/Topology/Mesh.h`
-/

set_option autoImplicit false

namespace Caribou.World

variable {K : Type*} {m : ℕ}

/-- `target = source;` with `Mesh & operator=(Mesh other)`, `Mesh.h:238-243`: the parameter (at the address `t`) is a copy of the source, it is swapped with the target and destroyed at the end of the
statement. `addrs` are the addresses of the copies of the domains. -/
def assignMesh (w : World K m) (target source t : ℕ) (addrs : List (ℕ × ℕ)) : Outcome (World K m) :=
  ((w.copyMesh source t addrs).swapMesh target t).deleteMesh t

/-- `target = std::move(source);`, `Mesh.h:232-243`: the parameter is built by the move constructor. -/
def moveAssignMesh (w : World K m) (target source t : ℕ) : Outcome (World K m) :=
  ((w.moveMesh source t).swapMesh target t).deleteMesh t

end Caribou.World

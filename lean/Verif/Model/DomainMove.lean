import Verif.Model.Mesh

/-!
# Moving and exchanging domains, `src/Caribou/Topology/Domain.h`
-/

set_option autoImplicit false

namespace Caribou

namespace World

variable {K : Type*} {m : ℕ}

/-- `swap(first, second)`, `Domain.h:242-253`, found by argument dependent lookup: the buffers (whose storage moves with them) and the views are exchanged.  `p_mesh` is not, and neither is the
storage of the derived class `DomainStorage` (empty for all elements of the library). -/
def swapDomain (w : World K m) (d d' : ℕ) : World K m :=
  match w.domain d, w.domain d' with
  | some D, some D' => (w.setDomain d (some { D with owned := D'.owned, view := D'.view })).setDomain d' (some { D' with owned := D.owned, view := D.view })
  | _, _ => w

/-- The members of the new domain when the body of the move constructor starts, `Domain.h:103`: no buffer, a view on nothing (`{nullptr, 0, 0}`; `null` is an address where there is no buffer, the strides
are those of the default constructor, which Eigen refuses when assertions are enabled) and a mesh pointer which is not initialised. -/
def emptyDomain (null : ℕ) : DomainObj := ⟨.indeterminate, none, ⟨null, 0, 0, 0, 0⟩⟩

/-- Move constructor, `Domain.h:103-105`: the domain `d` is moved to the address `d'`. -/
def moveDomain (w : World K m) (null d d' : ℕ) : World K m := (w.setDomain d' (some (emptyDomain null))).swapDomain d' d

/-- `number_of_elements()`, `Domain.h:281-283`. -/
def numberOfElements (w : World K m) (d : ℕ) : Option ℕ := (w.domain d).map fun D => D.view.rows

end World

end Caribou

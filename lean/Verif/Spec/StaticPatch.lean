import Verif.Model.StaticODE
import Verif.Model.Corotational

/-!
# Specification vocabulary for the static patch test
-/

set_option autoImplicit false

namespace Caribou.Spec

/-- The scene of a body with a linear force field (rotations disabled, rest positions `X`) some nodes of which are fixed, without
mapped objects. -/
def linearScene {N n M : ℕ} (s : CorotState N n M) (frame : (Fin n → Fin 3 → ℝ) → Mat3) (X : Fin N → Fin 3 → ℝ)
    (fixed : Fin N → Bool) : StaticScene ℝ (Dof N) (Fin 0) where
  force x := fun d => (s.addForce false frame X (fun p a => x (p, a)) 0).2 d.1 d.2
  stiff _ := Matrix.of (s.addKToMatrix 1 0)
  map _ := Fin.elim0
  J := 0
  mappedForce _ := 0
  mappedStiff _ := 0
  fixed d := fixed d.1

/-- A node held in place: a fixed node, or the fourth node of a tetrahedron whose three other nodes are held. -/
inductive Held {N M : ℕ} (idx : Fin M → Fin 4 → Fin N) (fixed : Fin N → Bool) : Fin N → Prop
  | fixed (p : Fin N) : fixed p = true → Held idx fixed p
  | element (e : Fin M) (i : Fin 4) : (∀ j, j ≠ i → Held idx fixed (idx e j)) → Held idx fixed (idx e i)

end Caribou.Spec

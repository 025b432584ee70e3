import Verif.Spec.Quadratic
import Verif.Model.Hyperelastic

/-!
# Specification vocabulary for small loads
-/

set_option autoImplicit false

namespace Caribou.Spec

variable {ι κ : Type*} [Fintype ι] [Fintype κ]

/-- An equilibrium at which the fixed degrees of freedom are where they are in `z₀`. -/
def HeldEquilibrium (S : StaticScene ℝ ι κ) (z₀ z : ι → ℝ) : Prop := InEquilibrium S z ∧ ∀ i, S.fixed i = true → z i = z₀ i

/-- The displacement given by the linear theory around `z₀` for the load `f`: the stiffness at `z₀` balances the load on the free degrees of freedom. -/
def LinearResponse (S : StaticScene ℝ ι κ) (z₀ f u : ι → ℝ) : Prop :=
  (∀ i, S.fixed i = true → u i = 0) ∧ ∀ i, S.fixed i = false → (totalStiff S z₀).mulVec u i + f i = 0

/-- The scene of a body with a hyperelastic force field some nodes of which are fixed, without mapped objects. -/
noncomputable def hyperScene {N n M : ℕ} (m : HyperMesh N n M) (mat : Material) (fixed : Fin N → Bool) : StaticScene ℝ (Dof N) (Fin 0) where
  force x := fun d => m.addForce mat (fun p a => x (p, a)) 0 d.1 d.2
  stiff x := Matrix.of (addStoredToMatrix 1 (m.storedK mat fun p a => x (p, a)) 0)
  map _ := Fin.elim0
  J := 0
  mappedForce _ := 0
  mappedStiff _ := 0
  fixed d := fixed d.1

end Caribou.Spec

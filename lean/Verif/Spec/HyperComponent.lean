import Verif.Model.HyperComponent
import Mathlib.Analysis.Calculus.Deriv.Basic

/-!
# Specification of the life cycle of the hyperelastic force field (C87 – C89)
-/

set_option autoImplicit false

namespace Caribou.Spec

open HyperComponent

variable {T : SolidType} {N M : ℕ}

/-- The nodal forces as a function of the positions: what a force evaluation returns at `x`, starting from null forces. -/
noncomputable def forceAt (s : HyperComponent T N M) (id : CoordId) (x : Fin N → Fin 3 → ℝ) : Fin N → Fin 3 → ℝ :=
  ((s.setPositions id x).addForce id 0).2

/-- `L` is the derivative of the forces `φ` at `x`: along every motion through `x` with velocity `dx` the forces vary by
`L dx`. -/
def IsTangent (φ : (Fin N → Fin 3 → ℝ) → Fin N → Fin 3 → ℝ) (x : Fin N → Fin 3 → ℝ)
    (L : (Fin N → Fin 3 → ℝ) → Fin N → Fin 3 → ℝ) : Prop :=
  ∀ (y : ℝ → Fin N → Fin 3 → ℝ) (dx : Fin N → Fin 3 → ℝ), y 0 = x →
    (∀ p a, HasDerivAt (fun t => y t p a) (dx p a) 0) → ∀ p a, HasDerivAt (fun t => φ (y t) p a) (L dx p a) 0

/-- The component applies the operator `L`: `addDForce` adds `k L dx` and `addKToMatrix` adds the matrix of `k L`. -/
def AppliesOperator (s : HyperComponent T N M) (L : (Fin N → Fin 3 → ℝ) → Fin N → Fin 3 → ℝ) : Prop :=
  (∀ (k : ℝ) (dx df : Dof N → ℝ), ∃ s' v, s.addDForce k dx df = .ok (s', v) ∧
    ∀ p a, v (p, a) = df (p, a) + k * L (fun q b => dx (q, b)) p a) ∧
  ∀ (k : ℝ) (A : Dof N → Dof N → ℝ), ∃ s' B, s.addKToMatrix k A = .ok (s', B) ∧
    ∀ (dx : Dof N → ℝ) p a, ∑ d, (B (p, a) d - A (p, a) d) * dx d = k * L (fun q b => dx (q, b)) p a

/-- The stiffness of `s'` is the derivative of the forces of `s` at the positions `x` of its vector `id`. -/
def StiffnessOf (s' s : HyperComponent T N M) (id : CoordId) (x : Fin N → Fin 3 → ℝ) : Prop :=
  ∃ L, IsTangent (forceAt s id) x L ∧ AppliesOperator s' L

/-- Calls which do not evaluate forces, do not ask for an assembly and do not write what the stiffness depends on. -/
def Quiet (id : CoordId) : Op N → Prop
  | .setPositions i _ => i ≠ id
  | .addDForce .. | .addKToMatrix .. | .potentialEnergy _ | .eigenvalues | .assemble => True
  | _ => False

/-- Calls which need the stiffness. -/
def UsesStiffness : Op N → Prop
  | .addDForce .. | .addKToMatrix .. => True
  | _ => False

/-- Calls which do not evaluate forces and do not ask for an assembly: they may write the positions and the parameters. -/
def NoAssembly : Op N → Prop
  | .init | .addForce .. | .assemble | .assembleAt _ => False
  | _ => True

/-- The forces derive from the energy at `x`: along every motion through `x` the energy returned varies by minus the power of the
forces. -/
def ForcesFromEnergy (s : HyperComponent T N M) (id : CoordId) (x : Fin N → Fin 3 → ℝ) : Prop :=
  ∀ (y : ℝ → Fin N → Fin 3 → ℝ) (dx : Fin N → Fin 3 → ℝ), y 0 = x →
    (∀ p a, HasDerivAt (fun t => y t p a) (dx p a) 0) →
    ∃ W : ℝ → ℝ, (∀ t, (s.setPositions id (y t)).getPotentialEnergy id = .ok (W t)) ∧
      HasDerivAt W (-∑ p, ∑ a, forceAt s id x p a * dx p a) 0

/-- No integration point of `s` is inverted at the positions `x`. -/
def NotInverted (s : HyperComponent T N M) (x : Fin N → Fin 3 → ℝ) : Prop :=
  ∀ q, s.qnodes = some q → ∀ e, ∀ g ∈ q e, 0 < (deformationGradient g.dN fun i => x (s.idx e i)).det

/-- The elements of the mesh with nodes at `X` are not degenerate. -/
def RegularAt (s : HyperComponent T N M) (X : Fin N → Fin 3 → ℝ) : Prop :=
  ∀ e, ∀ g ∈ T.gauss, (T.elem.jacobian (fun i => X (s.idx e i)) g.position : Mat3).det ≠ 0

/-- Calls which do not write the rest position and do not initialise again. -/
def KeepsRest : Op N → Prop
  | .setPositions i _ => i ≠ .restPosition
  | .init => False
  | _ => True

/-- Calls which do not write the parameters of the material. -/
def KeepsParameters : Op N → Prop
  | .setYoung _ | .setPoisson _ => False
  | _ => True

end Caribou.Spec

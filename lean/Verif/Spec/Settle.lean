import Verif.Spec.DynamicODE
import Verif.Spec.Quadratic
import Mathlib.LinearAlgebra.Matrix.Notation

/-!
# Specification vocabulary for simulations which come to rest
-/

set_option autoImplicit false

namespace Caribou.Spec

/-- The scene without masses, damping and velocities. -/
def _root_.Caribou.DynScene.atRest {K ι κ : Type*} (S : DynScene K ι κ) : StaticScene K ι κ :=
  { force := S.force, stiff := S.stiff, map := S.map, J := S.J, mappedForce := S.mappedForce, mappedStiff := S.mappedStiff, fixed := S.fixed }

variable {ι κ : Type*} [Fintype ι] [Fintype κ]

/-- The displacements which leave the fixed degrees of freedom where they are. -/
def heldSpace (fixed : ι → Bool) : Submodule ℝ (ι → ℝ) where
  carrier := {u | ∀ i, fixed i = true → u i = 0}
  zero_mem' := fun _ _ => rfl
  add_mem' := fun {u v} hu hv i hi => by rw [Pi.add_apply, hu i hi, hv i hi, add_zero]
  smul_mem' := fun c u hu i hi => by rw [Pi.smul_apply, hu i hi, smul_zero]

/-- The damping of the scene: the matrix `B`, the Rayleigh mass and the Rayleigh stiffness, that of the mapped object included. -/
def totalDamping (p : BEParams ℝ) (S : DynScene ℝ ι κ) (x : ι → ℝ) : Matrix ι ι ℝ :=
  S.B + p.rayleighMass • S.M - p.rayleighStiffness • totalStiff S.atRest x

/-- A linear scene held at its fixed degrees of freedom which are at rest, with a stable static equilibrium `z`. -/
structure Stable (p : BEParams ℝ) (S : DynScene ℝ ι κ) (z : ι → ℝ) : Prop where
  linear : IsLinearDynamic S
  damped : MappedDamping p S
  mapped : MapsFreeOnly S.atRest
  step : 0 < p.h
  rayleighMass : 0 ≤ p.rayleighMass
  rayleighStiffness : 0 ≤ p.rayleighStiffness
  mass_symm : S.M.transpose = S.M
  mass_nonneg : ∀ u, 0 ≤ u ⬝ᵥ S.M.mulVec u
  damping_nonneg : ∀ u, 0 ≤ u ⬝ᵥ S.B.mulVec u
  stiff_symm : (totalStiff S.atRest z).transpose = totalStiff S.atRest z
  stiff_pos : ∀ u ∈ heldSpace S.fixed, u ≠ 0 → u ⬝ᵥ (totalStiff S.atRest z).mulVec u < 0
  equilibrium : InEquilibrium S.atRest z

/-- The states after each time step of a simulation from positions `x` and velocities `v`, with the settings and the state of the solver at each time step. -/
noncomputable def simulate [DecidableEq ι] (set : ℕ → NewtonParams ℝ × NewtonState ℝ) (p : BEParams ℝ) (S : DynScene ℝ ι κ) (solver : Matrix ι ι ℝ → (ι → ℝ) → Option (ι → ℝ))
    (x v : ι → ℝ) : ℕ → NewtonState ℝ × DynState ℝ ι κ
  | 0 => ((set 0).2, { toBEState := beBegin x v, y := S.map x, w := S.J.mulVec v })
  | k + 1 =>
    let s := (simulate set p S solver x v k).2
    dynSolve (set k).1 p S solver (set k).2 s.x s.v s.y s.w

end Caribou.Spec

import Verif.Spec.Momentum
import Verif.Lemmas.Momentum

/-!
# Property C92: a time step conserves the momentum of a free body
-/

set_option autoImplicit false

namespace Caribou

open Spec Matrix

theorem totalAlong_add {N : ℕ} (a : Fin 3) (u w : Dof N → ℝ) : totalAlong a (u + w) = totalAlong a u + totalAlong a w :=
  Finset.sum_add_distrib

theorem totalAlong_smul {N : ℕ} (a : Fin 3) (k : ℝ) (u : Dof N → ℝ) : totalAlong a (k • u) = k * totalAlong a u :=
  (Finset.mul_sum _ _ _).symm

theorem Spec.IsInternal.total {N : ℕ} {a : Fin 3} {B : Matrix (Dof N) (Dof N) ℝ} (h : IsInternal a B) (u : Dof N → ℝ) :
    totalAlong a (B *ᵥ u) = 0 := by
  simp only [totalAlong, mulVec, dotProduct]
  rw [Finset.sum_comm]
  refine Finset.sum_eq_zero fun d _ => ?_
  rw [← Finset.sum_mul, h d, zero_mul]

/-- The force field acts between the nodes: no total force, no total tangent. -/
structure ActsBetweenNodes {N : ℕ} (a : Fin 3) (force : (Fin N → Fin 3 → ℝ) → Fin N → Fin 3 → ℝ)
    (tangent : (Fin N → Fin 3 → ℝ) → Dof N → Dof N → ℝ) : Prop where
  force : ∀ x, ∑ p, force x p a = 0
  tangent : ∀ x, IsInternal a (Matrix.of (tangent x))

section Core

variable {N : ℕ} {a : Fin 3} {M B : Matrix (Dof N) (Dof N) ℝ} {load : Dof N → ℝ}
  {force : (Fin N → Fin 3 → ℝ) → Fin N → Fin 3 → ℝ} {tangent : (Fin N → Fin 3 → ℝ) → Dof N → Dof N → ℝ}

/-- One exact increment: the momentum equation for the accumulated acceleration. -/
theorem momentum_increment (hF : ActsBetweenNodes a force tangent) (hB : IsInternal a B) (p : BEParams ℝ) (s : BEState ℝ (Dof N))
    (u : Dof N → ℝ) (hu : beMatrix p (bodyScene M B load force tangent) s *ᵥ u = beRhs p (bodyScene M B load force tangent) s) :
    (1 + p.h * p.rayleighMass) * momentum M a (s.a + u) = totalAlong a load - p.rayleighMass * momentum M a s.v0 := by
  have h := congrArg (totalAlong a) hu
  have hK : ∀ y w, totalAlong a ((bodyScene M B load force tangent).stiff y *ᵥ w) = 0 := fun y w => (hF.tangent _).total w
  have hf : totalAlong a ((bodyScene M B load force tangent).force s.x) = totalAlong a load := by
    have : totalAlong a ((bodyScene M B load force tangent).force s.x) =
        (∑ q, force (fun p a => s.x (p, a)) q a) + totalAlong a load := Finset.sum_add_distrib
    rw [this, hF.force, zero_add]
  have hM : (bodyScene M B load force tangent).M = M := rfl
  have hBB : (bodyScene M B load force tangent).B = B := rfl
  simp only [beMatrix, beRhs, addMBKdx, add_mulVec, smul_mulVec, totalAlong_add, totalAlong_smul, hK, hf, hM, hBB, hB.total,
    mul_zero, add_zero] at h
  have e : momentum M a (s.a + u) = totalAlong a (M *ᵥ s.a) + totalAlong a (M *ᵥ u) := by
    rw [momentum, mulVec_add, totalAlong_add]
  rw [e, momentum]
  linear_combination h

/-- What is known after every iteration of a time step. -/
theorem momentum_solve (hF : ActsBetweenNodes a force tangent) (hB : IsInternal a B) (p : BEParams ℝ) (n : NewtonParams ℝ)
    (solver : Matrix (Dof N) (Dof N) ℝ → (Dof N → ℝ) → Option (Dof N → ℝ)) (hex : SolvesExactly solver) (c : NewtonState ℝ)
    (x v : Dof N → ℝ) :
    let r := (beSolve n p (bodyScene M B load force tangent) solver c x v).2
    (r.x = x ∧ r.v = v) ∨
    ((1 + p.h * p.rayleighMass) * momentum M a r.v = momentum M a v + p.h * totalAlong a load ∧
      totalAlong a (M *ᵥ r.x) = totalAlong a (M *ᵥ x) + p.h * momentum M a r.v) := by
  intro r
  have key := be_solve n p (bodyScene M B load force tangent) solver hex
    (fun s => s.x0 = x ∧ s.v0 = v ∧ ((s.x = x ∧ s.v = v) ∨ (s.v = v + p.h • s.a ∧ s.x = x + p.h • s.v ∧
      (1 + p.h * p.rayleighMass) * momentum M a s.a = totalAlong a load - p.rayleighMass * momentum M a v)))
    (fun s hs u hu => by
      refine ⟨hs.1, hs.2.1, Or.inr ⟨?_, ?_, ?_⟩⟩
      · show s.v0 + p.h • (s.a + u) = _
        rw [hs.2.1]; rfl
      · show s.x0 + p.h • (s.v0 + p.h • (s.a + u)) = _
        rw [hs.1]; rfl
      · rw [← hs.2.1]
        exact momentum_increment hF hB p s u hu) c x v ⟨rfl, rfl, Or.inl ⟨rfl, rfl⟩⟩
  obtain ⟨_, _, h | ⟨hv, hx, ha⟩⟩ := key
  · exact Or.inl h
  · refine Or.inr ⟨?_, ?_⟩
    · have e : momentum M a r.v = momentum M a v + p.h * momentum M a r.a := by
        rw [show r.v = v + p.h • r.a from hv, momentum, mulVec_add, mulVec_smul, totalAlong_add, totalAlong_smul]; rfl
      rw [e]
      linear_combination p.h * ha
    · rw [show r.x = x + p.h • r.v from hx, mulVec_add, mulVec_smul, totalAlong_add, totalAlong_smul]; rfl

end Core

/-- The hyperelastic force field acts between the nodes, for every mesh whose elements have distinct nodes. -/
theorem hyperelastic_between (T : SolidType) {N M : ℕ} (idx : Fin M → Fin T.numNodes → Fin N) (hinj : ∀ e, Function.Injective (idx e))
    (X : Fin N → Fin 3 → ℝ) (mat : Material) (hS : SymmetricStress mat)
    (hD : ∀ J C, (mat.jacobian J C).transpose = mat.jacobian J C) (a : Fin 3) :
    ActsBetweenNodes a (fun x => (HyperMesh.initialize T.elem T.gauss idx X).addForce mat x 0)
      (fun x => addStoredToMatrix 1 ((HyperMesh.initialize T.elem T.gauss idx X).storedK mat x) 0) where
  force x := by
    rw [(C46_total T idx X x 0 mat).1 a]
    simp
  tangent x d := by
    simp only [Matrix.of_apply, addStored_eq, Pi.zero_apply, zero_sub, one_mul]
    rw [Finset.sum_neg_distrib, neg_eq_zero]
    simp only [fullK_storedK (HyperMesh.initialize T.elem T.gauss idx X) mat x hinj hS hD]
    exact tangentK_sum _ (fun e q hq b => getGaussNodes_sum T _ q hq b) mat x a d

/-- So do the corotational force fields, after any history of calls. -/
theorem corotational_between {N n M : ℕ} (s : CorotState N n M) (C : Mat6) (hs : CorotReady s C)
    (frame : (Fin n → Fin 3 → ℝ) → Mat3) (corotated : Bool) (X : Fin N → Fin 3 → ℝ) (a : Fin 3) :
    ActsBetweenNodes a (fun x => (s.addForce corotated frame X x 0).2)
      (fun x => (s.addForce corotated frame X x 0).1.addKToMatrix 1 0) where
  force x := by
    rw [balance_generic hs corotated frame X x 0 a]
    simp
  tangent x d := corotK_sum (updateRotation_ready hs corotated frame x) 1 a d

/-- The force fields of the plugin for a mesh of solid elements. -/
inductive SolidForce {N : ℕ} : ((Fin N → Fin 3 → ℝ) → Fin N → Fin 3 → ℝ) → ((Fin N → Fin 3 → ℝ) → Dof N → Dof N → ℝ) → Prop
  /-- `HyperelasticForcefield` with Saint Venant-Kirchhoff. -/
  | svk (T : SolidType) {M : ℕ} (idx : Fin M → Fin T.numNodes → Fin N) (hinj : ∀ e, Function.Injective (idx e))
      (X : Fin N → Fin 3 → ℝ) (mu l : ℝ) :
      SolidForce (fun x => (HyperMesh.initialize T.elem T.gauss idx X).addForce (saintVenantKirchhoff mu l) x 0)
        (fun x => addStoredToMatrix 1 ((HyperMesh.initialize T.elem T.gauss idx X).storedK (saintVenantKirchhoff mu l) x) 0)
  /-- `HyperelasticForcefield` with Neo-Hookean. -/
  | neoHookean (T : SolidType) {M : ℕ} (idx : Fin M → Fin T.numNodes → Fin N) (hinj : ∀ e, Function.Injective (idx e))
      (X : Fin N → Fin 3 → ℝ) (mu l : ℝ) :
      SolidForce (fun x => (HyperMesh.initialize T.elem T.gauss idx X).addForce (Caribou.neoHookean mu l) x 0)
        (fun x => addStoredToMatrix 1 ((HyperMesh.initialize T.elem T.gauss idx X).storedK (Caribou.neoHookean mu l) x) 0)
  /-- `TetrahedronElasticForce`. -/
  | tetra {M : ℕ} (idx : Fin M → Fin 4 → Fin N) (s : CorotState N 4 M) (hs : TetraHistory idx s) (corotated : Bool)
      (X : Fin N → Fin 3 → ℝ) :
      SolidForce (fun x => (s.addForce corotated tetraFrame4 X x 0).2)
        (fun x => (s.addForce corotated tetraFrame4 X x 0).1.addKToMatrix 1 0)
  /-- `HexahedronElasticForce`. -/
  | hexa {M : ℕ} (idx : Fin M → Fin 8 → Fin N) (s : CorotState N 8 M) (hs : HexaHistory idx s) (corotated : Bool)
      (X : Fin N → Fin 3 → ℝ) :
      SolidForce (fun x => (s.addForce corotated hexaFrame8 X x 0).2)
        (fun x => (s.addForce corotated hexaFrame8 X x 0).1.addKToMatrix 1 0)

theorem SolidForce.between {N : ℕ} {force : (Fin N → Fin 3 → ℝ) → Fin N → Fin 3 → ℝ}
    {tangent : (Fin N → Fin 3 → ℝ) → Dof N → Dof N → ℝ} (h : SolidForce force tangent) (a : Fin 3) :
    ActsBetweenNodes a force tangent := by
  cases h with
  | svk T idx hinj X mu l =>
    exact hyperelastic_between T idx hinj X _ (fun J => (C41_rest_and_symmetry mu l J).2.2.1)
      (fun J => (C41_rest_and_symmetry mu l J).2.2.2) a
  | neoHookean T idx hinj X mu l =>
    exact hyperelastic_between T idx hinj X _ (C42_rest_and_symmetry mu l).2.2 (C43_symmetric mu l) a
  | tetra idx s hs corotated X =>
    obtain ⟨_, C, h⟩ := hs.ready
    exact corotational_between s C h _ corotated X a
  | hexa idx s hs corotated X =>
    obtain ⟨_, C, h⟩ := hs.ready
    exact corotational_between s C h _ corotated X a

/-- **C92.** A time step of the backward Euler scheme, converged or not, of a body on which only a solid force field of the plugin
acts, loads without resultant and damping between the nodes, conserves the total momentum, for every mass matrix, time step, Rayleigh
stiffness and settings of the Newton solver, with a linear solver that only returns solutions. -/
theorem C92 {N : ℕ} {force : (Fin N → Fin 3 → ℝ) → Fin N → Fin 3 → ℝ} {tangent : (Fin N → Fin 3 → ℝ) → Dof N → Dof N → ℝ}
    (hF : SolidForce force tangent) (a : Fin 3) (M B : Matrix (Dof N) (Dof N) ℝ) (hB : IsInternal a B) (load : Dof N → ℝ)
    (hload : totalAlong a load = 0) (p : BEParams ℝ) (hp : p.rayleighMass = 0) (n : NewtonParams ℝ)
    (solver : Matrix (Dof N) (Dof N) ℝ → (Dof N → ℝ) → Option (Dof N → ℝ)) (hex : SolvesExactly solver) (c : NewtonState ℝ)
    (x v : Dof N → ℝ) :
    momentum M a (beSolve n p (bodyScene M B load force tangent) solver c x v).2.v = momentum M a v := by
  rcases momentum_solve (M := M) (load := load) (hF.between a) hB p n solver hex c x v with h | h
  · rw [h.2]
  · have := h.1
    rw [hp, hload] at this
    simp only [mul_zero, add_zero, one_mul] at this
    exact this

/-- **C92 (loads).** Under loads with resultant `P` and Rayleigh mass damping `r`, either the step ended before its first increment and
nothing moved, or the momentum `p` changed into `(p + h P) / (1 + h r)` and the centre of mass moved with the new momentum. -/
theorem C92_loads {N : ℕ} {force : (Fin N → Fin 3 → ℝ) → Fin N → Fin 3 → ℝ} {tangent : (Fin N → Fin 3 → ℝ) → Dof N → Dof N → ℝ}
    (hF : SolidForce force tangent) (a : Fin 3) (M B : Matrix (Dof N) (Dof N) ℝ) (hB : IsInternal a B) (load : Dof N → ℝ)
    (p : BEParams ℝ) (n : NewtonParams ℝ)
    (solver : Matrix (Dof N) (Dof N) ℝ → (Dof N → ℝ) → Option (Dof N → ℝ)) (hex : SolvesExactly solver) (c : NewtonState ℝ)
    (x v : Dof N → ℝ) :
    let r := (beSolve n p (bodyScene M B load force tangent) solver c x v).2
    (r.x = x ∧ r.v = v) ∨
    ((1 + p.h * p.rayleighMass) * momentum M a r.v = momentum M a v + p.h * totalAlong a load ∧
      totalAlong a (M *ᵥ r.x) = totalAlong a (M *ᵥ x) + p.h * momentum M a r.v) :=
  momentum_solve (hF.between a) hB p n solver hex c x v

/-- A linear solver that returns the solution when the matrix has an inverse. -/
noncomputable def inverseSolver {ι : Type*} [Fintype ι] [DecidableEq ι] (A : Matrix ι ι ℝ) (f : ι → ℝ) : Option (ι → ℝ) :=
  open Classical in if IsUnit A.det then some (A⁻¹ *ᵥ f) else none

theorem inverseSolver_exact {ι : Type*} [Fintype ι] [DecidableEq ι] : SolvesExactly (inverseSolver (ι := ι)) := by
  intro A f u h
  unfold inverseSolver at h
  split_ifs at h with hA
  cases h
  rw [mulVec_mulVec, mul_nonsing_inv A hA, one_mulVec]

/-- A tetrahedron of Saint Venant-Kirchhoff material with unit masses, thrown along the first axis while one of its nodes is pulled
out of place: ten time steps at once, with the default settings of the solver. -/
example (x : Dof 4 → ℝ) :
    let S := bodyScene 1 0 0
      (fun x => (HyperMesh.initialize SolidType.tetra1.elem SolidType.tetra1.gauss (fun (_ : Fin 1) (i : Fin 4) => i)
        (Caribou.tetra1 (K := ℝ)).node).addForce (saintVenantKirchhoff 2 3) x 0)
      (fun x => addStoredToMatrix 1 ((HyperMesh.initialize SolidType.tetra1.elem SolidType.tetra1.gauss
        (fun (_ : Fin 1) (i : Fin 4) => i) (Caribou.tetra1 (K := ℝ)).node).storedK (saintVenantKirchhoff 2 3) x) 0)
    let step := fun s : NewtonState ℝ × BEState ℝ (Dof 4) =>
      beSolve ⟨1, 1 / 10 ^ 5, 1 / 10 ^ 5, 1 / 10 ^ 15, 1 / 10 ^ 19, .beginningOfTimeStep⟩ ⟨1 / 100, 0, 1 / 10⟩ S inverseSolver
        s.1 s.2.x s.2.v
    momentum 1 0 (step^[10] (newtonFresh, beBegin x fun d => if d.2 = 0 then 1 else 0)).2.v = 4 := by
  intro S step
  have h1 : ∀ s, momentum 1 0 (step s).2.v = momentum 1 0 s.2.v := fun s =>
    C92 (SolidForce.svk .tetra1 (fun (_ : Fin 1) (i : Fin 4) => i) (fun _ _ _ h => h) (Caribou.tetra1 (K := ℝ)).node 2 3) 0 1 0
      (fun d => by simp) 0 (by simp [totalAlong]) _ rfl _ _ inverseSolver_exact s.1 s.2.x s.2.v
  have h2 : ∀ k s, momentum 1 0 (step^[k] s).2.v = momentum 1 0 s.2.v := by
    intro k
    induction k with
    | zero => intro s; rfl
    | succ k ih => intro s; rw [Function.iterate_succ_apply, ih, h1]
  rw [h2]
  simp [momentum, totalAlong, beBegin]

end Caribou

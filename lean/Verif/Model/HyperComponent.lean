import Verif.Model.Hyperelastic
import Verif.Model.Mesh

/-!
# The life cycle of a `HyperelasticForcefield` component

The formulas are those of `Model/Hyperelastic.lean`; this file models what the component keeps between two calls: the quadrature
nodes computed by `init`, the Lamé parameters kept by the material since its last `before_update`, the assembled stiffness matrix
and the two flags.  The vectors of the mechanical state all have `N` positions (the code compares the sizes and returns), the
topology does not change after `init`, and the parallel loop of the assembly is replaced by a loop (its critical section only
changes the order of the triplets, which are added up).  The eigenvalue solver is a function of the matrix.
-/

set_option autoImplicit false

namespace Caribou

/-- The position vectors of the mechanical state which solvers hand to `addForce`, and the rest position. -/
inductive CoordId
  | position | freePosition | restPosition
deriving DecidableEq

/-- The two materials of `src/SofaCaribou/Material`. -/
inductive MaterialKind
  | saintVenantKirchhoff | neoHookean
deriving DecidableEq

/-- The law of a material with given Lamé parameters. -/
noncomputable def MaterialKind.law : MaterialKind → ℝ → ℝ → Material
  | saintVenantKirchhoff => Caribou.saintVenantKirchhoff
  | neoHookean => Caribou.neoHookean

/-- A material component: the data `young_modulus` and `poisson_ratio`, and the members `mu` and `l`, not initialised before the
first `before_update` (`SaintVenantKirchhoffMaterial.h:79-82`, `NeoHookeanMaterial.h:74-77`). -/
structure MaterialComponent where
  kind : MaterialKind
  young : ℝ
  poisson : ℝ
  lame : Option (ℝ × ℝ)

/-- `before_update`, `SaintVenantKirchhoffMaterial.h:32-47`, `NeoHookeanMaterial.h:33-38`. -/
noncomputable def MaterialComponent.beforeUpdate (m : MaterialComponent) : MaterialComponent :=
  { m with lame := some (lameMu m.young m.poisson, lameL m.young m.poisson) }

/-- The law which `strain_energy_density`, `PK2_stress` and `PK2_stress_jacobian` evaluate: it has the parameters of the last
`before_update`; `none` before the first one (members not initialised). -/
noncomputable def MaterialComponent.current (m : MaterialComponent) : Option Material :=
  match m.lame with
  | none => none
  | some p => some (m.kind.law p.1 p.2)

/-- The component with what it reads in the scene: the mechanical state (`none` when there is no such object; the positions
of its vectors), the material found by `init` (`d_material`), the node indices of the topology, and the node positions of the
topology of the scene (`none` when the topology is a mesh of SOFA, in which case `init` builds one), the quadrature nodes
(`none` before `init`), the identifier `p_X_id`, the matrix `p_K` (zero before the first assembly; it then has no coefficients),
the eigenvalues and the two flags, `HyperelasticForcefield.h:206-219`. -/
structure HyperComponent (T : SolidType) (N M : ℕ) where
  mstate : Option (CoordId → Fin N → Fin 3 → ℝ)
  material : Option MaterialComponent
  idx : Fin M → Fin T.numNodes → Fin N
  topologyNodes : Option (Fin N → Fin 3 → ℝ)
  qnodes : Option (Fin M → List (QNode T.numNodes))
  xId : CoordId
  K : Dof N → Dof N → ℝ
  eigenvalues : List ℝ
  stiffnessUpToDate : Bool
  eigenvaluesUpToDate : Bool

namespace HyperComponent

variable {T : SolidType} {N M : ℕ}

/-- A component which was just created, `HyperelasticForcefield.h:210-219`. -/
def created (mstate : Option (CoordId → Fin N → Fin 3 → ℝ)) (material : Option MaterialComponent)
    (idx : Fin M → Fin T.numNodes → Fin N) (topologyNodes : Option (Fin N → Fin 3 → ℝ)) : HyperComponent T N M :=
  ⟨mstate, material, idx, topologyNodes, none, .position, 0, [], false, false⟩

/-- `assemble_stiffness(x)`, `HyperelasticForcefield.inl:397-541`.  Reading the quadrature nodes of an element before `init` is
outside of the vector (441). -/
noncomputable def assembleAt (s : HyperComponent T N M) (x : Fin N → Fin 3 → ℝ) : Outcome (HyperComponent T N M) :=
  match s.material with
  | none => .ok s
  | some m =>
    match m.beforeUpdate.current, s.qnodes with
    | some law, some q =>
      .ok { s with
        material := some m.beforeUpdate
        K := HyperMesh.storedK ⟨s.idx, q⟩ law x
        stiffnessUpToDate := true
        eigenvaluesUpToDate := false }
    | _, _ =>
      if M = 0 then .ok { s with material := some m.beforeUpdate, K := 0, stiffnessUpToDate := true, eigenvaluesUpToDate := false }
      else .undefined

/-- `assemble_stiffness()`, `HyperelasticForcefield.inl:390-393`: reads the vector `p_X_id` of the mechanical state, whose pointer
is not checked. -/
noncomputable def assemble (s : HyperComponent T N M) : Outcome (HyperComponent T N M) :=
  match s.mstate with
  | none => .undefined
  | some c => s.assembleAt (c s.xId)

/-- The node positions of the elements: those of the topology of the scene, or, for a mesh of SOFA, the vector `position` of the
mechanical state (not `rest_position`), `CaribouForcefield.inl:83-95`. -/
def elementNodes (topologyNodes : Option (Fin N → Fin 3 → ℝ)) (c : CoordId → Fin N → Fin 3 → ℝ) : Fin N → Fin 3 → ℝ :=
  match topologyNodes with
  | none => c .position
  | some X => X

/-- `init`, `HyperelasticForcefield.inl:35-60`, with `initialize_elements` (343-378), which returns when there is no mechanical
state, and the first assembly. -/
noncomputable def initComponent (s : HyperComponent T N M) : Outcome (HyperComponent T N M) :=
  match s.mstate with
  | none => s.assemble
  | some c => assemble { s with
      qnodes := some (HyperMesh.initialize T.elem T.gauss s.idx (elementNodes s.topologyNodes c)).qnodes }

/-- `addForce`, `HyperelasticForcefield.inl:63-175`, for the vector `id` of the mechanical state: the new state of the component
and the forces. -/
noncomputable def addForce (s : HyperComponent T N M) (id : CoordId) (f : Fin N → Fin 3 → ℝ) :
    HyperComponent T N M × (Fin N → Fin 3 → ℝ) :=
  let s := { s with xId := id }
  match s.mstate, s.material with
  | some c, some m =>
    let s := { s with material := some m.beforeUpdate }
    if N = 0 ∨ M = 0 then (s, f)
    else match m.beforeUpdate.current, s.qnodes with
      | some law, some q =>
        ({ s with stiffnessUpToDate := false, eigenvaluesUpToDate := false }, HyperMesh.addForce ⟨s.idx, q⟩ law (c id) f)
      | _, _ => (s, f)
  | _, _ => (s, f)

/-- The test at the beginning of `addDForce` and `addKToMatrix`, `HyperelasticForcefield.inl:185-187,219-221`. -/
noncomputable def refresh (s : HyperComponent T N M) : Outcome (HyperComponent T N M) :=
  if s.stiffnessUpToDate then .ok s else s.assemble

/-- `addDForce`, `HyperelasticForcefield.inl:178-213`; `k` is `kFactorIncludingRayleighDamping`. -/
noncomputable def addDForce (s : HyperComponent T N M) (k : ℝ) (dx df : Dof N → ℝ) :
    Outcome (HyperComponent T N M × (Dof N → ℝ)) :=
  match s.refresh with
  | .ok s' => .ok (s', applyStored k s'.K dx df)
  | .throws s' => .throws (s', df)
  | .hangs => .hangs
  | .undefined => .undefined

/-- `addKToMatrix`, `HyperelasticForcefield.inl:215-250`. -/
noncomputable def addKToMatrix (s : HyperComponent T N M) (k : ℝ) (A : Dof N → Dof N → ℝ) :
    Outcome (HyperComponent T N M × (Dof N → Dof N → ℝ)) :=
  match s.refresh with
  | .ok s' => .ok (s', addStoredToMatrix k s'.K A)
  | .throws s' => .throws (s', A)
  | .hangs => .hangs
  | .undefined => .undefined

/-- `getPotentialEnergy`, `HyperelasticForcefield.inl:253-340`, for the vector `id`: the energy of the displacement from the
vector `rest_position`, with the Lamé parameters of the last `before_update`; evaluating a material which was never updated
reads members which are not initialised. -/
noncomputable def getPotentialEnergy (s : HyperComponent T N M) (id : CoordId) : Outcome ℝ :=
  match s.mstate, s.material with
  | some c, some m =>
    if N = 0 ∨ M = 0 then .ok 0
    else match s.qnodes with
      | none => .ok 0
      | some q =>
        match m.current with
        | none => .undefined
        | some law => .ok (HyperMesh.potentialEnergy ⟨s.idx, q⟩ law (c .restPosition) (c id))
  | _, _ => .ok 0

/-- `K()`, `HyperelasticForcefield.h:115-148`. -/
def stiffness (s : HyperComponent T N M) : Dof N → Dof N → ℝ := fullK s.K

/-- `eigenvalues()`, `HyperelasticForcefield.inl:571-589`; `solver` is `Eigen::SelfAdjointEigenSolver`. -/
def getEigenvalues (solver : (Dof N → Dof N → ℝ) → List ℝ) (s : HyperComponent T N M) : HyperComponent T N M × List ℝ :=
  if s.eigenvaluesUpToDate then (s, s.eigenvalues)
  else ({ s with eigenvalues := solver s.stiffness, eigenvaluesUpToDate := true }, solver s.stiffness)

/-- The user, or the solver, writes a position vector of the mechanical state. -/
def setPositions (s : HyperComponent T N M) (id : CoordId) (x : Fin N → Fin 3 → ℝ) : HyperComponent T N M :=
  { s with mstate := s.mstate.map fun c => Function.update c id x }

/-- The user writes the data `young_modulus` of the material. -/
def setYoung (s : HyperComponent T N M) (e : ℝ) : HyperComponent T N M :=
  { s with material := s.material.map fun m => { m with young := e } }

/-- The user writes the data `poisson_ratio` of the material. -/
def setPoisson (s : HyperComponent T N M) (ν : ℝ) : HyperComponent T N M :=
  { s with material := s.material.map fun m => { m with poisson := ν } }

/-- What a user and a solver do with the component. -/
inductive Op (N : ℕ)
  | setYoung (e : ℝ)
  | setPoisson (ν : ℝ)
  | setPositions (id : CoordId) (x : Fin N → Fin 3 → ℝ)
  | init
  | addForce (id : CoordId) (f : Fin N → Fin 3 → ℝ)
  | addDForce (k : ℝ) (dx df : Dof N → ℝ)
  | addKToMatrix (k : ℝ) (A : Dof N → Dof N → ℝ)
  | potentialEnergy (id : CoordId)
  | eigenvalues
  | assemble
  | assembleAt (x : Fin N → Fin 3 → ℝ)

/-- The state without the value. -/
def keep {σ α : Type*} : Outcome (σ × α) → Outcome σ
  | .ok p => .ok p.1
  | .throws p => .throws p.1
  | .hangs => .hangs
  | .undefined => .undefined

/-- The effect of a call on the component and what it reads in the scene; the values returned are given by the functions above. -/
noncomputable def step (solver : (Dof N → Dof N → ℝ) → List ℝ) (s : HyperComponent T N M) : Op N → Outcome (HyperComponent T N M)
  | .setYoung e => .ok (s.setYoung e)
  | .setPoisson ν => .ok (s.setPoisson ν)
  | .setPositions id x => .ok (s.setPositions id x)
  | .init => s.initComponent
  | .addForce id f => .ok (s.addForce id f).1
  | .addDForce k dx df => keep (s.addDForce k dx df)
  | .addKToMatrix k A => keep (s.addKToMatrix k A)
  | .potentialEnergy id =>
    match s.getPotentialEnergy id with
    | .undefined => .undefined
    | _ => .ok s
  | .eigenvalues => .ok (s.getEigenvalues solver).1
  | .assemble => s.assemble
  | .assembleAt x => s.assembleAt x

/-- A sequence of calls, stopped at the first one which does not return normally. -/
noncomputable def run (solver : (Dof N → Dof N → ℝ) → List ℝ) : HyperComponent T N M → List (Op N) → Outcome (HyperComponent T N M)
  | s, [] => .ok s
  | s, o :: os =>
    match s.step solver o with
    | .ok s' => run solver s' os
    | .throws s' => .throws s'
    | .hangs => .hangs
    | .undefined => .undefined

end HyperComponent

end Caribou

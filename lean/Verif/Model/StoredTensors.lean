import Verif.Model.HyperComponent

/-!
# The three force fields of the benchmark `RecomputeOrStore`

`Benchmark/SofaCaribou/Forcefield/RecomputeOrStore` holds three copies of `HyperelasticForcefield` which differ by what they keep
on the integration points between the evaluation of the forces and the assembly of the stiffness: nothing
(`HyperelasticForcefieldRecomputeF`), the deformation gradient (`HyperelasticForcefieldStoreF`), or all the tensors
(`HyperelasticForcefieldStoreFAndS`).  One model, indexed by `Storage`, follows the three sources, which are identical line by line
outside of the places cited below; lines are those of `HyperelasticForcefieldStoreFAndS.inl` unless the file is named.  The
simplifications are those of `Model/HyperComponent.lean`.
-/

set_option autoImplicit false

namespace Caribou

/-- The three components of the benchmark, `RecomputeOrStore.cpp:19-29`. -/
inductive Storage
  | recomputeF | storeF | storeFAndS
deriving DecidableEq

/-- `GaussNode`, `HyperelasticForcefieldStoreFAndS.h:56-64`.  `HyperelasticForcefieldStoreF.h:56-61` has only `F`, and
`HyperelasticForcefieldRecomputeF.h:56-60` has none of the tensors: in the model these members exist, but are never written. -/
structure BenchNode (n : ℕ) where
  weight : ℝ
  detJ : ℝ
  dN : Fin n → Fin 3 → ℝ
  J : ℝ
  F : Mat3
  C : Mat3
  S : Mat3

/-- One pass of the loop of `get_gauss_nodes`, `HyperelasticForcefieldStoreFAndS.inl:532-552`: the tensors are initialised to the
identity and the determinant of the deformation to zero. -/
noncomputable def benchNodeOf {n : ℕ} (E : Elem ℝ 3 n) (X : Fin n → Fin 3 → ℝ) (g : GaussNode 3) : BenchNode n :=
  let J : Mat3 := E.jacobian X g.position
  let Jinv := J⁻¹
  { weight := g.weight
    detJ := |J.det|
    dN := (Jinv.transpose * (Matrix.of (E.dL g.position)).transpose).transpose
    J := 0
    F := 1
    C := 1
    S := 1 }

/-- What the loops read on an integration point: `F`, `J`, `C` and `S`. -/
structure Tensors where
  F : Mat3
  J : ℝ
  C : Mat3
  S : Mat3

/-- The tensors computed from the positions of the nodes in `addForce`, `HyperelasticForcefieldStoreFAndS.inl:144-151`
(`HyperelasticForcefieldStoreF.inl:144-152`, `HyperelasticForcefieldRecomputeF.inl:144-151`). -/
noncomputable def evaluateTensors {n : ℕ} (law : Material) (g : BenchNode n) (x : Fin n → Fin 3 → ℝ) : Tensors :=
  let F := deformationGradient g.dN x
  let J := F.det
  let C := F.transpose * F
  ⟨F, J, C, law.stress J C⟩

/-- The members written by `addForce`: `HyperelasticForcefieldStoreFAndS.inl:144-151`, `HyperelasticForcefieldStoreF.inl:144-145`,
none in `HyperelasticForcefieldRecomputeF.inl:144-151`. -/
def Storage.write {n : ℕ} (v : Storage) (g : BenchNode n) (t : Tensors) : BenchNode n :=
  match v with
  | recomputeF => g
  | storeF => { g with F := t.F }
  | storeFAndS => { g with F := t.F, J := t.J, C := t.C, S := t.S }

/-- The tensors of `update_stiffness`: `HyperelasticForcefieldStoreFAndS.inl:441-449` (all of them are those of the node),
`HyperelasticForcefieldStoreF.inl:442-450` (computed from the `F` of the node), `HyperelasticForcefieldRecomputeF.inl:450-458`
(computed from the positions). -/
noncomputable def Storage.read {n : ℕ} (v : Storage) (law : Material) (g : BenchNode n) (x : Fin n → Fin 3 → ℝ) : Tensors :=
  match v with
  | recomputeF =>
    let F := deformationGradient g.dN x
    let J := F.det
    let C := F.transpose * F
    ⟨F, J, C, law.stress J C⟩
  | storeF =>
    let F := g.F
    let J := F.det
    let C := F.transpose * F
    ⟨F, J, C, law.stress J C⟩
  | storeFAndS => ⟨g.F, g.J, g.C, g.S⟩

/-- The force of one integration point on node `i`, `HyperelasticForcefieldStoreFAndS.inl:153-160`. -/
noncomputable def benchForce {n : ℕ} (g : BenchNode n) (t : Tensors) (i : Fin n) : Fin 3 → ℝ :=
  (((g.detJ * g.weight) • t.F) * t.S).mulVec (g.dN i)

/-- The block `Kii` or `Kij` of one integration point, `HyperelasticForcefieldStoreFAndS.inl:451-501`. -/
noncomputable def benchBlock {n : ℕ} (law : Material) (g : BenchNode n) (t : Tensors) (i j : Fin n) : Mat3 :=
  let D := law.jacobian t.J t.C
  let Bi := strainMatrix t.F (g.dN i)
  let Bj := strainMatrix t.F (g.dN j)
  (g.detJ * g.weight) • ((g.dN i ⬝ᵥ t.S.mulVec (g.dN j)) • (1 : Mat3) + Bi.transpose * D * Bj)

/-- The element stiffness `Ke`, `HyperelasticForcefieldStoreFAndS.inl:427-501`, for elements with nodes at `x`. -/
noncomputable def Storage.elementStiffness {n : ℕ} (v : Storage) (law : Material) (qs : List (BenchNode n))
    (x : Fin n → Fin 3 → ℝ) (i : Fin n) (a : Fin 3) (j : Fin n) (b : Fin 3) : ℝ :=
  (qs.map fun g =>
    if i = j then (if a ≤ b then benchBlock law g (v.read law g x) i j a b else 0)
    else if i < j then benchBlock law g (v.read law g x) i j a b else 0).sum

/-- The coefficient `(r, c)` of `p_K`: the sum of the triplets, `HyperelasticForcefieldStoreFAndS.inl:496-517`. -/
noncomputable def Storage.storedK {N n M : ℕ} (v : Storage) (law : Material) (idx : Fin M → Fin n → Fin N)
    (q : Fin M → List (BenchNode n)) (x : Fin N → Fin 3 → ℝ) (r c : Dof N) : ℝ :=
  ∑ e, ∑ i, ((∑ a, ∑ b, if a ≤ b ∧ (idx e i, a) = r ∧ (idx e i, b) = c then
      v.elementStiffness law (q e) (fun i => x (idx e i)) i a i b else 0) +
    ∑ j, if i < j then ∑ a, ∑ b, if (idx e i, a) = r ∧ (idx e j, b) = c then
      v.elementStiffness law (q e) (fun i => x (idx e i)) i a j b else 0 else 0)

/-- A component of the benchmark with what it reads in the scene; same members as `HyperComponent`,
`HyperelasticForcefieldStoreFAndS.h:192-208`. -/
structure BenchComponent (T : SolidType) (N M : ℕ) where
  mstate : Option (CoordId → Fin N → Fin 3 → ℝ)
  material : Option MaterialComponent
  idx : Fin M → Fin T.numNodes → Fin N
  topologyNodes : Option (Fin N → Fin 3 → ℝ)
  nodes : Option (Fin M → List (BenchNode T.numNodes))
  xId : CoordId
  K : Dof N → Dof N → ℝ
  eigenvalues : List ℝ
  stiffnessUpToDate : Bool
  eigenvaluesUpToDate : Bool

/-- What a call returns or writes in the vector or matrix it is given. -/
inductive Out (N : ℕ)
  | nothing
  | forces (f : Fin N → Fin 3 → ℝ)
  | product (df : Dof N → ℝ)
  | matrix (A : Dof N → Dof N → ℝ)
  | energy (e : ℝ)
  | spectrum (l : List ℝ)

namespace BenchComponent

variable {T : SolidType} {N M : ℕ}

/-- A component which was just created, `HyperelasticForcefieldStoreFAndS.h:196-208`. -/
def created (mstate : Option (CoordId → Fin N → Fin 3 → ℝ)) (material : Option MaterialComponent)
    (idx : Fin M → Fin T.numNodes → Fin N) (topologyNodes : Option (Fin N → Fin 3 → ℝ)) : BenchComponent T N M :=
  ⟨mstate, material, idx, topologyNodes, none, .position, 0, [], false, false⟩

/-- `update_stiffness(x)`, `HyperelasticForcefieldStoreFAndS.inl:396-522`. -/
noncomputable def updateAt (v : Storage) (s : BenchComponent T N M) (x : Fin N → Fin 3 → ℝ) : Outcome (BenchComponent T N M) :=
  match s.material with
  | none => .ok s
  | some m =>
    match m.beforeUpdate.current, s.nodes with
    | some law, some q =>
      .ok { s with
        material := some m.beforeUpdate
        K := v.storedK law s.idx q x
        stiffnessUpToDate := true
        eigenvaluesUpToDate := false }
    | _, _ =>
      if M = 0 then .ok { s with material := some m.beforeUpdate, K := 0, stiffnessUpToDate := true, eigenvaluesUpToDate := false }
      else .undefined

/-- `update_stiffness()`, `HyperelasticForcefieldStoreFAndS.inl:390-394`. -/
noncomputable def update (v : Storage) (s : BenchComponent T N M) : Outcome (BenchComponent T N M) :=
  match s.mstate with
  | none => .undefined
  | some c => s.updateAt v (c s.xId)

/-- `init`, `HyperelasticForcefieldStoreFAndS.inl:34-61`, with `initialize_elements` (342-388): the integration points are built
again, which forgets the tensors, and the stiffness is assembled. -/
noncomputable def initComponent (v : Storage) (s : BenchComponent T N M) : Outcome (BenchComponent T N M) :=
  match s.mstate with
  | none => s.update v
  | some c => update v { s with
      nodes := some fun e => T.gauss.map
        (benchNodeOf T.elem fun i => HyperComponent.elementNodes s.topologyNodes c (s.idx e i)) }

/-- `addForce`, `HyperelasticForcefieldStoreFAndS.inl:63-175`, for the vector `id` of the mechanical state. -/
noncomputable def addForce (v : Storage) (s : BenchComponent T N M) (id : CoordId) (f : Fin N → Fin 3 → ℝ) :
    BenchComponent T N M × (Fin N → Fin 3 → ℝ) :=
  let s := { s with xId := id }
  match s.mstate, s.material with
  | some c, some m =>
    let s := { s with material := some m.beforeUpdate }
    if N = 0 ∨ M = 0 then (s, f)
    else match m.beforeUpdate.current, s.nodes with
      | some law, some q =>
        ({ s with
            nodes := some fun e => (q e).map fun g => v.write g (evaluateTensors law g fun i => c id (s.idx e i))
            stiffnessUpToDate := false
            eigenvaluesUpToDate := false },
          fun p => f p - ∑ e, ∑ i, if s.idx e i = p then
            ((q e).map fun g => benchForce g (evaluateTensors law g fun i => c id (s.idx e i)) i).sum else 0)
      | _, _ => (s, f)
  | _, _ => (s, f)

/-- The test at the beginning of `addDForce` and `addKToMatrix`, `HyperelasticForcefieldStoreFAndS.inl:184-186,219-221`. -/
noncomputable def refresh (v : Storage) (s : BenchComponent T N M) : Outcome (BenchComponent T N M) :=
  if s.stiffnessUpToDate then .ok s else s.update v

/-- `getPotentialEnergy`, `HyperelasticForcefieldStoreFAndS.inl:252-340`: computed from the positions in the three components. -/
noncomputable def getPotentialEnergy (s : BenchComponent T N M) (id : CoordId) : Outcome ℝ :=
  match s.mstate, s.material with
  | some c, some m =>
    if N = 0 ∨ M = 0 then .ok 0
    else match s.nodes with
      | none => .ok 0
      | some q =>
        match m.current with
        | none => .undefined
        | some law => .ok (∑ e, ((q e).map fun g =>
            let F := strainF g.dN (fun i => c id (s.idx e i) - c .restPosition (s.idx e i))
            (g.detJ * g.weight) * law.energy F.det (F.transpose * F)).sum)
  | _, _ => .ok 0

/-- `eigenvalues()`, `HyperelasticForcefieldStoreFAndS.inl:557-575`; `solver` is `Eigen::SelfAdjointEigenSolver`. -/
def getEigenvalues (solver : (Dof N → Dof N → ℝ) → List ℝ) (s : BenchComponent T N M) : BenchComponent T N M × List ℝ :=
  if s.eigenvaluesUpToDate then (s, s.eigenvalues)
  else ({ s with eigenvalues := solver (fullK s.K), eigenvaluesUpToDate := true }, solver (fullK s.K))

/-- The effect of a call and what it returns: `addDForce` (177-213), `addKToMatrix` (215-250) and the functions above. -/
noncomputable def call (v : Storage) (solver : (Dof N → Dof N → ℝ) → List ℝ) (s : BenchComponent T N M) :
    HyperComponent.Op N → Outcome (BenchComponent T N M × Out N)
  | .setYoung e => .ok ({ s with material := s.material.map fun m => { m with young := e } }, .nothing)
  | .setPoisson ν => .ok ({ s with material := s.material.map fun m => { m with poisson := ν } }, .nothing)
  | .setPositions id x => .ok ({ s with mstate := s.mstate.map fun c => Function.update c id x }, .nothing)
  | .init =>
    match s.initComponent v with
    | .ok s' => .ok (s', .nothing)
    | .throws s' => .throws (s', .nothing)
    | .hangs => .hangs
    | .undefined => .undefined
  | .addForce id f => .ok ((s.addForce v id f).1, .forces (s.addForce v id f).2)
  | .addDForce k dx df =>
    match s.refresh v with
    | .ok s' => .ok (s', .product (applyStored k s'.K dx df))
    | .throws s' => .throws (s', .product df)
    | .hangs => .hangs
    | .undefined => .undefined
  | .addKToMatrix k A =>
    match s.refresh v with
    | .ok s' => .ok (s', .matrix (addStoredToMatrix k s'.K A))
    | .throws s' => .throws (s', .matrix A)
    | .hangs => .hangs
    | .undefined => .undefined
  | .potentialEnergy id =>
    match s.getPotentialEnergy id with
    | .ok e => .ok (s, .energy e)
    | .throws e => .throws (s, .energy e)
    | .hangs => .hangs
    | .undefined => .undefined
  | .eigenvalues => .ok ((s.getEigenvalues solver).1, .spectrum (s.getEigenvalues solver).2)
  | .assemble =>
    match s.update v with
    | .ok s' => .ok (s', .nothing)
    | .throws s' => .throws (s', .nothing)
    | .hangs => .hangs
    | .undefined => .undefined
  | .assembleAt x =>
    match s.updateAt v x with
    | .ok s' => .ok (s', .nothing)
    | .throws s' => .throws (s', .nothing)
    | .hangs => .hangs
    | .undefined => .undefined

/-- What a sequence of calls returns, one after the other; the first call which does not return normally decides. -/
noncomputable def trace (v : Storage) (solver : (Dof N → Dof N → ℝ) → List ℝ) :
    BenchComponent T N M → List (HyperComponent.Op N) → Outcome (List (Out N))
  | _, [] => .ok []
  | s, o :: os =>
    match s.call v solver o with
    | .ok r =>
      match trace v solver r.1 os with
      | .ok l => .ok (r.2 :: l)
      | .throws l => .throws (r.2 :: l)
      | .hangs => .hangs
      | .undefined => .undefined
    | .throws r => .throws [r.2]
    | .hangs => .hangs
    | .undefined => .undefined

end BenchComponent

namespace HyperComponent

variable {T : SolidType} {N M : ℕ}

/-- What a call of the component of the library returns, with its effect (`HyperComponent.step`). -/
noncomputable def call (solver : (Dof N → Dof N → ℝ) → List ℝ) (s : HyperComponent T N M) (o : Op N) :
    Outcome (HyperComponent T N M × Out N) :=
  match o with
  | .addForce id f => .ok ((s.addForce id f).1, .forces (s.addForce id f).2)
  | .addDForce k dx df =>
    match s.addDForce k dx df with
    | .ok r => .ok (r.1, .product r.2)
    | .throws r => .throws (r.1, .product r.2)
    | .hangs => .hangs
    | .undefined => .undefined
  | .addKToMatrix k A =>
    match s.addKToMatrix k A with
    | .ok r => .ok (r.1, .matrix r.2)
    | .throws r => .throws (r.1, .matrix r.2)
    | .hangs => .hangs
    | .undefined => .undefined
  | .potentialEnergy id =>
    match s.getPotentialEnergy id with
    | .ok e => .ok (s, .energy e)
    | .throws e => .throws (s, .energy e)
    | .hangs => .hangs
    | .undefined => .undefined
  | .eigenvalues => .ok ((s.getEigenvalues solver).1, .spectrum (s.getEigenvalues solver).2)
  | o =>
    match s.step solver o with
    | .ok s' => .ok (s', .nothing)
    | .throws s' => .throws (s', .nothing)
    | .hangs => .hangs
    | .undefined => .undefined

/-- What a sequence of calls of the component of the library returns. -/
noncomputable def trace (solver : (Dof N → Dof N → ℝ) → List ℝ) : HyperComponent T N M → List (Op N) → Outcome (List (Out N))
  | _, [] => .ok []
  | s, o :: os =>
    match s.call solver o with
    | .ok r =>
      match trace solver r.1 os with
      | .ok l => .ok (r.2 :: l)
      | .throws l => .throws (r.2 :: l)
      | .hangs => .hangs
      | .undefined => .undefined
    | .throws r => .throws [r.2]
    | .hangs => .hangs
    | .undefined => .undefined

end HyperComponent

end Caribou

import Verif.Model.Canonical
import Verif.Model.Material

/-!
# Model of `HyperelasticForcefield`

Nodes are numbered by `Fin N`, elements by `Fin M`, the nodes of an element by `Fin n`, its quadrature points by
`Fin G`.  A degree of freedom is a pair (node, axis); the code uses the integer `3 * node + axis`.  The vectors passed
by SOFA have the same number of nodes as the mechanical state (the code returns without doing anything otherwise) and
there is a material.  Numbers are real.
-/

set_option autoImplicit false

namespace Caribou

/-- The solid elements for which the force field is instantiated, `HyperelasticForcefield[...].cpp`. -/
inductive SolidType
  | tetra1 | tetra2 | hexa1 | hexa2
deriving DecidableEq

namespace SolidType

/-- `Element::NumberOfNodesAtCompileTime`. -/
def numNodes : SolidType → ℕ
  | tetra1 => 4 | tetra2 => 10 | hexa1 => 8 | hexa2 => 20

/-- The geometry element. -/
noncomputable def elem : (T : SolidType) → Elem ℝ 3 T.numNodes
  | tetra1 => Caribou.tetra1 | tetra2 => Caribou.tetra2 | hexa1 => Caribou.hexa1 | hexa2 => Caribou.hexa2

/-- The quadrature of the element. -/
noncomputable def gauss : SolidType → List (GaussNode 3)
  | tetra1 => gaussTetra1 | tetra2 => gaussTetra2 | hexa1 => gaussHexa | hexa2 => gaussHexa

end SolidType

/-- `HyperelasticForcefield::GaussNode`, `HyperelasticForcefield.h:56-60`. -/
structure QNode (n : ℕ) where
  weight : ℝ
  detJ : ℝ
  dN : Fin n → Fin 3 → ℝ

/-- One pass of the loop of `get_gauss_nodes`, `HyperelasticForcefield.inl:551-566`: the node built from quadrature
point `g` of the element with node positions `X`.  A singular jacobian is inverted to zero here (Mathlib's
convention). -/
noncomputable def gaussNodeOf {n : ℕ} (E : Elem ℝ 3 n) (X : Fin n → Fin 3 → ℝ) (g : GaussNode 3) : QNode n :=
  let J : Mat3 := E.jacobian X g.position
  let Jinv := J⁻¹
  { weight := g.weight
    detJ := |J.det|
    dN := (Jinv.transpose * (Matrix.of (E.dL g.position)).transpose).transpose }

/-- `HyperelasticForcefield::get_gauss_nodes`, `HyperelasticForcefield.inl:543-569`. -/
noncomputable def getGaussNodes {n : ℕ} (E : Elem ℝ 3 n) (gauss : List (GaussNode 3)) (X : Fin n → Fin 3 → ℝ) :
    List (QNode n) :=
  gauss.map (gaussNodeOf E X)

/-- `strain::F`, `src/Caribou/Mechanics/Elasticity/Strain.h:45-56`: `Σ u_i dN_iᵀ + Id`. -/
noncomputable def strainF {n : ℕ} (dN U : Fin n → Fin 3 → ℝ) : Mat3 :=
  (∑ i, Matrix.vecMulVec (U i) (dN i)) + 1

/-- `F = current_nodes_position.transpose() * dN_dx`, `HyperelasticForcefield.inl:143,457`. -/
noncomputable def deformationGradient {n : ℕ} (dN x : Fin n → Fin 3 → ℝ) : Mat3 :=
  (Matrix.of x).transpose * Matrix.of dN

/-- The force of one quadrature point on node `i`, `HyperelasticForcefield.inl:133-160`. -/
noncomputable def gaussForce {n : ℕ} (mat : Material) (g : QNode n) (x : Fin n → Fin 3 → ℝ) (i : Fin n) : Fin 3 → ℝ :=
  let F := deformationGradient g.dN x
  let J := F.det
  let C := F.transpose * F
  let S := mat.stress J C
  (((g.detJ * g.weight) • F) * S).mulVec (g.dN i)

/-- `nodal_forces` of an element, `HyperelasticForcefield.inl:128-161`. -/
noncomputable def nodalForces {n : ℕ} (mat : Material) (qs : List (QNode n)) (x : Fin n → Fin 3 → ℝ) (i : Fin n) :
    Fin 3 → ℝ :=
  (qs.map fun g => gaussForce mat g x i).sum

/-- What the force field knows of the mesh: the node indices (`domain()->element_indices`) and the quadrature nodes
(`p_elements_quadrature_nodes`) of every element. -/
structure HyperMesh (N n M : ℕ) where
  idx : Fin M → Fin n → Fin N
  qnodes : Fin M → List (QNode n)

/-- The positions of the nodes of an element, `HyperelasticForcefield.inl:123-126,439-441`. -/
def HyperMesh.gather {N n M : ℕ} (m : HyperMesh N n M) (x : Fin N → Fin 3 → ℝ) (e : Fin M) : Fin n → Fin 3 → ℝ :=
  fun i => x (m.idx e i)

/-- `initialize_elements`, `HyperelasticForcefield.inl:343-369`, for elements of one geometry whose nodes are at `X`. -/
noncomputable def HyperMesh.initialize {N n M : ℕ} (E : Elem ℝ 3 n) (gauss : List (GaussNode 3))
    (idx : Fin M → Fin n → Fin N) (X : Fin N → Fin 3 → ℝ) : HyperMesh N n M where
  idx := idx
  qnodes e := getGaussNodes E gauss fun i => X (idx e i)

/-- `addForce`, `HyperelasticForcefield.inl:74-175`: every element subtracts its nodal forces from its nodes
(163-167; a node present several times in the element receives several contributions). -/
noncomputable def HyperMesh.addForce {N n M : ℕ} (m : HyperMesh N n M) (mat : Material) (x f : Fin N → Fin 3 → ℝ) :
    Fin N → Fin 3 → ℝ :=
  fun p => f p - ∑ e, ∑ i, if m.idx e i = p then nodalForces mat (m.qnodes e) (m.gather x e) i else 0

/-- `getPotentialEnergy`, `HyperelasticForcefield.inl:253-340`, with rest positions `x0`.  The material parameters are
those of the last `before_update`: this method does not call it. -/
noncomputable def HyperMesh.potentialEnergy {N n M : ℕ} (m : HyperMesh N n M) (mat : Material)
    (x0 x : Fin N → Fin 3 → ℝ) : ℝ :=
  ∑ e, ((m.qnodes e).map fun g =>
    let F := strainF g.dN (fun i => m.gather x e i - m.gather x0 e i)
    (g.detJ * g.weight) * mat.energy F.det (F.transpose * F)).sum

/-- The matrices `Bi` and `Bj`, `HyperelasticForcefield.inl:476-483,495-502`. -/
noncomputable def strainMatrix (F : Mat3) (dx : Fin 3 → ℝ) : Matrix (Fin 6) (Fin 3) ℝ :=
  !![F 0 0 * dx 0, F 1 0 * dx 0, F 2 0 * dx 0;
     F 0 1 * dx 1, F 1 1 * dx 1, F 2 1 * dx 1;
     F 0 2 * dx 2, F 1 2 * dx 2, F 2 2 * dx 2;
     F 0 0 * dx 1 + F 0 1 * dx 0, F 1 0 * dx 1 + F 1 1 * dx 0, F 2 0 * dx 1 + F 2 1 * dx 0;
     F 0 1 * dx 2 + F 0 2 * dx 1, F 1 1 * dx 2 + F 1 2 * dx 1, F 2 1 * dx 2 + F 2 2 * dx 1;
     F 0 0 * dx 2 + F 0 2 * dx 0, F 1 0 * dx 2 + F 1 2 * dx 0, F 2 0 * dx 2 + F 2 2 * dx 0]

/-- The block `Kii` or `Kij` of one quadrature point, `HyperelasticForcefield.inl:448-507`. -/
noncomputable def gaussBlock {n : ℕ} (mat : Material) (g : QNode n) (x : Fin n → Fin 3 → ℝ) (i j : Fin n) : Mat3 :=
  let F := deformationGradient g.dN x
  let J := F.det
  let C := F.transpose * F
  let S := mat.stress J C
  let D := mat.jacobian J C
  let Bi := strainMatrix F (g.dN i)
  let Bj := strainMatrix F (g.dN j)
  (g.detJ * g.weight) • ((g.dN i ⬝ᵥ S.mulVec (g.dN j)) • (1 : Mat3) + Bi.transpose * D * Bj)

/-- The element stiffness `Ke`, `HyperelasticForcefield.inl:444-511`: the upper triangle of the diagonal blocks
(485-489), the full blocks `i < j` (505-509), zero elsewhere. -/
noncomputable def elementStiffness {n : ℕ} (mat : Material) (qs : List (QNode n)) (x : Fin n → Fin 3 → ℝ)
    (i : Fin n) (a : Fin 3) (j : Fin n) (b : Fin 3) : ℝ :=
  (qs.map fun g =>
    if i = j then (if a ≤ b then gaussBlock mat g x i j a b else 0)
    else if i < j then gaussBlock mat g x i j a b else 0).sum

/-- A degree of freedom. -/
abbrev Dof (N : ℕ) := Fin N × Fin 3

/-- The coefficient `(r, c)` of `p_K`, `HyperelasticForcefield.inl:515-535`: the sum of the triplets at that position
(`setFromTriplets` adds duplicates).  The triplets of an element are the upper triangle of the diagonal blocks (518-522)
and the blocks `i < j` (525-532). -/
noncomputable def HyperMesh.storedK {N n M : ℕ} (m : HyperMesh N n M) (mat : Material) (x : Fin N → Fin 3 → ℝ)
    (r c : Dof N) : ℝ :=
  ∑ e, ∑ i, ((∑ a, ∑ b, if a ≤ b ∧ (m.idx e i, a) = r ∧ (m.idx e i, b) = c then
      elementStiffness mat (m.qnodes e) (m.gather x e) i a i b else 0) +
    ∑ j, if i < j then ∑ a, ∑ b, if (m.idx e i, a) = r ∧ (m.idx e j, b) = c then
      elementStiffness mat (m.qnodes e) (m.gather x e) i a j b else 0 else 0)

/-- `addDForce`, `HyperelasticForcefield.inl:197-210`: the loop on the stored coefficients (the absent ones are zero
and add nothing). -/
def applyStored {N : ℕ} (kFactor : ℝ) (K : Dof N → Dof N → ℝ) (dx df : Dof N → ℝ) : Dof N → ℝ :=
  fun d => df d + ∑ r, ∑ c,
    let v := -1 * K r c * kFactor
    if r ≠ c then (if d = r then v * dx c else 0) + (if d = c then v * dx r else 0)
    else (if d = r then v * dx r else 0)

/-- `addKToMatrix`, `HyperelasticForcefield.inl:235-247`, with a null offset. -/
def addStoredToMatrix {N : ℕ} (kFact : ℝ) (K A : Dof N → Dof N → ℝ) : Dof N → Dof N → ℝ :=
  fun d d' => A d d' + ∑ r, ∑ c,
    let v := -1 * K r c * kFact
    if r ≠ c then (if (d, d') = (r, c) then v else 0) + (if (d, d') = (c, r) then v else 0)
    else (if (d, d') = (r, r) then v else 0)

/-- `K()`, `HyperelasticForcefield.h:115-148`. -/
def fullK {N : ℕ} (K : Dof N → Dof N → ℝ) : Dof N → Dof N → ℝ :=
  fun d d' => ∑ r, ∑ c,
    if r ≠ c then (if (d, d') = (r, c) then K r c else 0) + (if (d, d') = (c, r) then K r c else 0)
    else (if (d, d') = (r, r) then K r c else 0)

end Caribou

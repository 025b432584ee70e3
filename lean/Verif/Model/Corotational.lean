import Verif.Model.Frame
import Verif.Model.Hyperelastic

/-!
# Model of `TetrahedronElasticForce` and `HexahedronElasticForce`

Both classes have the same structure: an initial and a current rotation per element, a stiffness matrix per element of
which only the blocks of the upper triangle are filled.  The topology has `M` elements of `n` nodes and does not change;
its node indices are valid for the mechanical state (checked by `reinit`).  Numbers are real.
-/

set_option autoImplicit false

namespace Caribou

/-- Element matrix: entry of row (local node, axis) and column (local node, axis); the code uses `3 * node + axis`. -/
abbrev ElemMat (n : ℕ) := Fin n × Fin 3 → Fin n × Fin 3 → ℝ

/-- What the force fields store, `TetrahedronElasticForce.h:130-134`, `HexahedronElasticForce.h` (`p_quadrature_nodes`,
`p_initial_rotation`, `p_current_rotation`, `p_stiffness_matrices`, `p_K` with `K_is_up_to_date`). -/
structure CorotState (N n M : ℕ) where
  idx : Fin M → Fin n → Fin N
  initialRotation : Fin M → Mat3
  currentRotation : Fin M → Mat3
  qnodes : Fin M → List (QNode n)
  Ke : Fin M → ElemMat n
  /-- `p_K` when `K_is_up_to_date`. -/
  cachedK : Option (Dof N → Dof N → ℝ)

/-- The state of a freshly constructed force field: empty vectors.  The rotations are those with which `resize` fills the
vectors at the first `reinit` (`TetrahedronElasticForce.cpp:115-116`, `HexahedronElasticForce.cpp:196-197`). -/
def CorotState.fresh {N n M : ℕ} (idx : Fin M → Fin n → Fin N) : CorotState N n M where
  idx := idx
  initialRotation _ := 1
  currentRotation _ := 1
  qnodes _ := []
  Ke _ := 0
  cachedK := none

/-- The quadrature node of both `reinit`, `TetrahedronElasticForce.cpp:130-140`, `HexahedronElasticForce.cpp:168-182`: the
determinant is signed. -/
noncomputable def signedGaussNodeOf {n : ℕ} (E : Elem ℝ 3 n) (X : Fin n → Fin 3 → ℝ) (g : GaussNode 3) : QNode n :=
  let J : Mat3 := E.jacobian X g.position
  { weight := g.weight
    detJ := J.det
    dN := ((J⁻¹).transpose * (Matrix.of (E.dL g.position)).transpose).transpose }

/-- The matrices `Bi`, `Bj` of `compute_K`, `TetrahedronElasticForce.cpp:483-501`, `HexahedronElasticForce.cpp:456-474`. -/
def linearStrainMatrix (dx : Fin 3 → ℝ) : Matrix (Fin 6) (Fin 3) ℝ :=
  !![dx 0, 0, 0;
     0, dx 1, 0;
     0, 0, dx 2;
     dx 1, dx 0, 0;
     0, dx 2, dx 1;
     dx 2, 0, dx 0]

/-- The elasticity matrix `C` of `compute_K`, `TetrahedronElasticForce.cpp:452-463`, `HexahedronElasticForce.cpp:421-432`. -/
noncomputable def elasticityMatrix (young poisson : ℝ) : Mat6 :=
  let l := young * poisson / ((1 + poisson) * (1 - 2 * poisson))
  let mu := young / (2 * (1 + poisson))
  !![l + 2 * mu, l, l, 0, 0, 0;
     l, l + 2 * mu, l, 0, 0, 0;
     l, l, l + 2 * mu, 0, 0, 0;
     0, 0, 0, mu, 0, 0;
     0, 0, 0, 0, mu, 0;
     0, 0, 0, 0, 0, mu]

/-- One term of the block `(i, j)`, `TetrahedronElasticForce.cpp:503`, `HexahedronElasticForce.cpp:476`. -/
def corotBlock {n : ℕ} (C : Mat6) (g : QNode n) (i j : Fin n) : Mat3 :=
  (g.detJ * g.weight) • ((linearStrainMatrix (g.dN i)).transpose * C * linearStrainMatrix (g.dN j))

/-- `compute_K` for one element, `TetrahedronElasticForce.cpp:468-506`, `HexahedronElasticForce.cpp:436-480`: the blocks
`j ≥ i`, zero below. -/
def computeKe {n : ℕ} (C : Mat6) (qs : List (QNode n)) : ElemMat n :=
  fun r c => if r.1 ≤ c.1 then (qs.map fun g => corotBlock C g r.1 c.1 r.2 c.2).sum else 0

/-- Positions of the nodes of an element, `TetrahedronElasticForce.h:103-116`. -/
def CorotState.gather {N n M : ℕ} (s : CorotState N n M) (x : Fin N → Fin 3 → ℝ) (e : Fin M) : Fin n → Fin 3 → ℝ :=
  fun i => x (s.idx e i)

/-- `TetrahedronElasticForce::reinit`, `TetrahedronElasticForce.cpp:82-147` for rest positions `X`: the quadrature nodes
are replaced (the rule has the single point `gauss_node(0)`), the initial rotations are changed only when `corotated`. -/
noncomputable def CorotState.reinitTetra {N M : ℕ} (s : CorotState N 4 M) (corotated : Bool) (young poisson : ℝ)
    (X : Fin N → Fin 3 → ℝ) : CorotState N 4 M :=
  let qs : Fin M → List (QNode 4) := fun e => (gaussTetra1.take 1).map (signedGaussNodeOf tetra1 (s.gather X e))
  { s with
    initialRotation := if corotated then fun e => tetraFrame (s.gather X e) else s.initialRotation
    qnodes := qs
    Ke := fun e => computeKe (elasticityMatrix young poisson) (qs e) }

/-- `integration_method`, `HexahedronElasticForce.h`. -/
inductive IntegrationMethod
  | regular | onePointGauss

/-- The quadrature of `HexahedronElasticForce::reinit`, `HexahedronElasticForce.cpp:150-161`. -/
noncomputable def hexaQuadrature : IntegrationMethod → List (GaussNode 3)
  | .onePointGauss => [⟨![0, 0, 0], 8⟩]
  | .regular => gaussHexa

/-- `HexahedronElasticForce::reinit`, `HexahedronElasticForce.cpp:116-211`, for rest positions `X`: the quadrature nodes are
appended (`push_back`, line 177) to those already present. -/
noncomputable def CorotState.reinitHexa {N M : ℕ} (s : CorotState N 8 M) (corotated : Bool) (young poisson : ℝ)
    (method : IntegrationMethod) (X : Fin N → Fin 3 → ℝ) : CorotState N 8 M :=
  let qs : Fin M → List (QNode 8) := fun e =>
    s.qnodes e ++ (hexaQuadrature method).map (signedGaussNodeOf hexa1 (s.gather X e))
  { s with
    initialRotation := if corotated then fun e => hexaFrame hexa1 (s.gather X e) 0 else s.initialRotation
    qnodes := qs
    Ke := fun e => computeKe (elasticityMatrix young poisson) (qs e)
    cachedK := none }

/-- `K.selfadjointView<Eigen::Upper>() * U`: only the entries on and above the diagonal are read. -/
def selfadjointMul {n : ℕ} (K : ElemMat n) (U : Fin n × Fin 3 → ℝ) : Fin n × Fin 3 → ℝ :=
  fun r => ∑ c, (if r.1 < c.1 ∨ (r.1 = c.1 ∧ r.2 ≤ c.2) then K r c else K c r) * U c

/-- The current rotation after `addForce`, `TetrahedronElasticForce.cpp:190-194`, `HexahedronElasticForce.cpp:247-252`:
recomputed when `corotated`. -/
def CorotState.updateRotation {N n M : ℕ} (s : CorotState N n M) (corotated : Bool)
    (frame : (Fin n → Fin 3 → ℝ) → Mat3) (x : Fin N → Fin 3 → ℝ) : CorotState N n M :=
  { s with currentRotation := if corotated then fun e => frame (s.gather x e) else s.currentRotation }

/-- The force of element `e` on its local node `i`, `TetrahedronElasticForce.cpp:196-221`,
`HexahedronElasticForce.cpp:254-284`. -/
def CorotState.elementForce {N n M : ℕ} (s : CorotState N n M) (x0 x : Fin N → Fin 3 → ℝ) (e : Fin M) (i : Fin n) :
    Fin 3 → ℝ :=
  let R := s.currentRotation e
  let U : Fin n × Fin 3 → ℝ := fun c => (R.transpose.mulVec (x (s.idx e c.1)) -
    (s.initialRotation e).transpose.mulVec (x0 (s.idx e c.1))) c.2
  let F := selfadjointMul (s.Ke e) U
  R.mulVec fun a => F (i, a)

/-- `addForce` of both classes, with rest positions `x0`: the new state and the new forces. -/
def CorotState.addForce {N n M : ℕ} (s : CorotState N n M) (corotated : Bool) (frame : (Fin n → Fin 3 → ℝ) → Mat3)
    (x0 x f : Fin N → Fin 3 → ℝ) : CorotState N n M × (Fin N → Fin 3 → ℝ) :=
  let s' := s.updateRotation corotated frame x
  (s', fun p => f p - ∑ e, ∑ i, if s'.idx e i = p then s'.elementForce x0 x e i else 0)

/-- `addDForce` of both classes, `TetrahedronElasticForce.cpp:226-282`, `HexahedronElasticForce.cpp:289-345`. -/
def CorotState.addDForce {N n M : ℕ} (s : CorotState N n M) (kFactor : ℝ) (dx df : Fin N → Fin 3 → ℝ) :
    Fin N → Fin 3 → ℝ :=
  fun p => df p - ∑ e, ∑ i, if s.idx e i = p then
    let R := s.currentRotation e
    let U : Fin n × Fin 3 → ℝ := fun c => R.transpose.mulVec (dx (s.idx e c.1)) c.2
    let F : Fin n × Fin 3 → ℝ := fun r => selfadjointMul (s.Ke e) U r * kFactor
    R.mulVec fun a => F (i, a)
  else 0

/-- The 3×3 block `(i, j)` of an element matrix. -/
def ElemMat.block {n : ℕ} (K : ElemMat n) (i j : Fin n) : Mat3 := Matrix.of fun a b => K (i, a) (j, b)

/-- `addKToMatrix` of both classes, `TetrahedronElasticForce.cpp:284-349`, `HexahedronElasticForce.cpp:347-409`, with a null
offset. -/
def CorotState.addKToMatrix {N n M : ℕ} (s : CorotState N n M) (kFact : ℝ) (A : Dof N → Dof N → ℝ) :
    Dof N → Dof N → ℝ :=
  fun d d' => A d d' + ∑ e,
    let R := s.currentRotation e
    let k : Fin n → Fin n → Mat3 := fun i j => kFact • ((-1 : ℝ) • R * (s.Ke e).block i j * R.transpose)
    ((∑ i, if s.idx e i = d.1 ∧ s.idx e i = d'.1 then k i i d.2 d'.2 else 0) +
     ∑ i, ∑ j, if i < j then
       (if s.idx e i = d.1 ∧ s.idx e j = d'.1 then k i j d.2 d'.2 else 0) +
       (if s.idx e j = d.1 ∧ s.idx e i = d'.1 then (k i j).transpose d.2 d'.2 else 0)
     else 0)

/-- Entry `(r, c)` of the `3n × 3n` element matrix addressed by integers. -/
def ElemMat.flat {n : ℕ} (K : ElemMat n) (r c : ℕ) : ℝ :=
  if h : r / 3 < n ∧ c / 3 < n then
    K (⟨r / 3, h.1⟩, ⟨r % 3, Nat.mod_lt _ (by decide)⟩) (⟨c / 3, h.2⟩, ⟨c % 3, Nat.mod_lt _ (by decide)⟩)
  else 0

/-- `Ke.block<3,3>(i, j)` as written in `HexahedronElasticForce::K()` (`HexahedronElasticForce.cpp:515,530`): the 3×3 block
whose corner is the entry `(i, j)`. -/
def ElemMat.blockAt {n : ℕ} (K : ElemMat n) (i j : ℕ) : Mat3 := Matrix.of fun a b => K.flat (i + a) (j + b)

/-- The matrix assembled by `HexahedronElasticForce::K()`, `HexahedronElasticForce.cpp:489-543`. -/
def CorotState.assembleK {N n M : ℕ} (s : CorotState N n M) : Dof N → Dof N → ℝ :=
  fun d d' => ∑ e,
    let R := s.currentRotation e
    let k : Fin n → Fin n → Mat3 := fun i j => (-1 : ℝ) • R * (s.Ke e).blockAt i j * R.transpose
    ((∑ i, if s.idx e i = d.1 ∧ s.idx e i = d'.1 then k i i d.2 d'.2 else 0) +
     ∑ i, ∑ j, if i < j then (if s.idx e i = d.1 ∧ s.idx e j = d'.1 then k i j d.2 d'.2 else 0) else 0)

/-- `HexahedronElasticForce::K()`, `HexahedronElasticForce.cpp:487-548`: assembled once, kept until the next
`compute_K` (`K_is_up_to_date`). -/
def CorotState.getK {N n M : ℕ} (s : CorotState N n M) : CorotState N n M × (Dof N → Dof N → ℝ) :=
  match s.cachedK with
  | some K => (s, K)
  | none => ({ s with cachedK := some s.assembleK }, s.assembleK)

end Caribou

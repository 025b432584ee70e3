import Verif.Model.Composite
import Verif.Spec.SmallLoads
import Verif.Spec.HeldBody

/-!
# Specification vocabulary for bodies of several parts
-/

set_option autoImplicit false

namespace Caribou.Spec

/-- An element of a body: its type, its nodes and its material. -/
structure BodyElement (N : ℕ) where
  type : SolidType
  nodes : Fin type.numNodes → Fin N
  material : Material

/-- The elements of a body of several parts. -/
def elementsOf {N : ℕ} (parts : List (BodyPart N)) : List (BodyElement N) :=
  parts.flatMap fun p => List.ofFn fun e => ⟨p.type, p.idx e, p.material⟩

/-- Two sets of nodes share three nodes which are not aligned. -/
def ShareFace {N : ℕ} (X : Fin N → Fin 3 → ℝ) (s t : Set (Fin N)) : Prop :=
  ∃ p q r : Fin N, (∀ k ∈ [p, q, r], k ∈ s ∧ k ∈ t) ∧ ¬Collinear ℝ {X p, X q, X r}

/-- Every node is fixed or is joined, by elements which share faces, to three fixed nodes which are not aligned: the elements may have different types and materials. -/
def HeldTogether {N : ℕ} (els : Set (Set (Fin N))) (X : Fin N → Fin 3 → ℝ) (fixed : Fin N → Bool) : Prop :=
  ∀ s, fixed s = true ∨ ∃ e ∈ els, s ∈ e ∧ ∃ p q r : Fin N,
    (∀ t ∈ [p, q, r], (∃ e', Relation.ReflTransGen (fun a b => b ∈ els ∧ ShareFace X a b) e e' ∧ t ∈ e') ∧ fixed t = true) ∧ ¬Collinear ℝ {X p, X q, X r}

/-- The sets of nodes of the elements of a body. -/
def nodeSets {N : ℕ} (parts : List (BodyPart N)) : Set (Set (Fin N)) := {s | ∃ b ∈ elementsOf parts, s = Set.range b.nodes}

/-- A mesh every element of which is a part of its own, with its own material. -/
def perElement (T : SolidType) {N M : ℕ} (idx : Fin M → Fin T.numNodes → Fin N) (mat : Fin M → Material) : List (BodyPart N) := List.ofFn fun e => ⟨T, 1, fun _ => idx e, mat e⟩

/-- The same for linear hexahedra. -/
def perHexahedron {N M : ℕ} (idx : Fin M → Fin 8 → Fin N) (mat : Fin M → Material) : List (BodyPart N) := perElement .hexa1 idx mat

/-- One of the two materials, with a positive Young modulus and a Poisson ratio between -1 and 1/2. -/
def ElasticMaterial (mat : Material) : Prop :=
  ∃ young poisson : ℝ, 0 < young ∧ -1 < poisson ∧ poisson < 1 / 2 ∧
    (mat = saintVenantKirchhoff (lameMu young poisson) (lameL young poisson) ∨ mat = neoHookean (lameMu young poisson) (lameL young poisson))

/-- The scene of a body of several parts, some nodes of which are fixed, without mapped objects. -/
noncomputable def partsScene {N : ℕ} (parts : List (BodyPart N)) (X : Fin N → Fin 3 → ℝ) (fixed : Fin N → Bool) : StaticScene ℝ (Dof N) (Fin 0) where
  force x := fun d => partsForce parts X (fun p a => x (p, a)) 0 d.1 d.2
  stiff x := Matrix.of (partsMatrix parts X (fun p a => x (p, a)) 0)
  map _ := Fin.elim0
  J := 0
  mappedForce _ := 0
  mappedStiff _ := 0
  fixed d := fixed d.1

end Caribou.Spec

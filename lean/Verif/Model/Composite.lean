import Verif.Model.Hyperelastic

/-!
# Model of several hyperelastic force fields on one mechanical object

Every force field has its own topology (elements of one type) and its own material, as in `scenes/multiple_materials.py`.  The visitors of SOFA which ask the force fields of a node for
their forces and their matrices are modelled from their documented behaviour: they call the force fields one after the other, each of which adds to what it is given.
-/

set_option autoImplicit false

namespace Caribou

/-- A `HyperelasticForcefield` on a mechanical object of `N` nodes: its topology and its material, `scenes/multiple_materials.py:32-34,47-49`. -/
structure BodyPart (N : ℕ) where
  type : SolidType
  count : ℕ
  idx : Fin count → Fin type.numNodes → Fin N
  material : Material

/-- The elements of a part, initialised at the rest positions `X`, `HyperelasticForcefield.inl:343-369`. -/
noncomputable def BodyPart.mesh {N : ℕ} (p : BodyPart N) (X : Fin N → Fin 3 → ℝ) : HyperMesh N p.type.numNodes p.count :=
  HyperMesh.initialize p.type.elem p.type.gauss p.idx X

/-- The forces at the positions `x`: every force field adds its own, `StaticODESolver.cpp:43-47` (`MechanicalComputeForceVisitor`), `HyperelasticForcefield.inl:74-175`. -/
noncomputable def partsForce {N : ℕ} (parts : List (BodyPart N)) (X x f : Fin N → Fin 3 → ℝ) : Fin N → Fin 3 → ℝ :=
  parts.foldl (fun f p => (p.mesh X).addForce p.material x f) f

/-- The matrix at the positions `x`: every force field adds its own, `AssembleGlobalMatrix.cpp:10-13`, `HyperelasticForcefield.inl:235-247`. -/
noncomputable def partsMatrix {N : ℕ} (parts : List (BodyPart N)) (X x : Fin N → Fin 3 → ℝ) (A : Dof N → Dof N → ℝ) : Dof N → Dof N → ℝ :=
  parts.foldl (fun A p => addStoredToMatrix 1 ((p.mesh X).storedK p.material x) A) A

/-- The potential energy: the sum of `getPotentialEnergy` (`HyperelasticForcefield.inl:253-340`) over the force fields. -/
noncomputable def partsEnergy {N : ℕ} (parts : List (BodyPart N)) (X x : Fin N → Fin 3 → ℝ) : ℝ :=
  (parts.map fun p => (p.mesh X).potentialEnergy p.material X x).sum

/-! ### The selection of elements in `scenes/multiple_materials.py` -/

/-- Node `(i, j, k)` of the grid, `multiple_materials.py:16`: `min=[-7.5, -7.5, 0], max=[7.5, 7.5, 80], n=[9, 9, 21]`. -/
def materialsNode (k : Fin 3 → ℕ) : Fin 3 → ℚ := ![-15 / 2 + 15 / 8 * k 0, -15 / 2 + 15 / 8 * k 1, 4 * k 2]

/-- A point in a box, the borders included. -/
def inBox (lo hi p : Fin 3 → ℚ) : Prop := ∀ a, lo a ≤ p a ∧ p a ≤ hi a

/-- `BoxROI.hexahedraInROI`: the cell all the nodes of which are in the box (the documented meaning of the component of SOFA with its default `strict`). -/
def cellInROI (lo hi : Fin 3 → ℚ) (cell : Fin 3 → ℕ) : Prop := ∀ c : Fin 3 → Fin 2, inBox lo hi (materialsNode fun a => cell a + c a)

/-- The cells of material 1, `multiple_materials.py:31-32`. -/
def inMaterial1 (cell : Fin 3 → ℕ) : Prop := cellInROI ![-15 / 2, -15 / 2, -9 / 10] ![15 / 2, 15 / 2, 401 / 10] cell

/-- The cells of material 2, `multiple_materials.py:46-47`. -/
def inMaterial2 (cell : Fin 3 → ℕ) : Prop := cellInROI ![-15 / 2, -15 / 2, 309 / 10] ![15 / 2, 15 / 2, 801 / 10] cell

end Caribou

import Verif.Lemmas.Composite
import Verif.Props.LoadHistory
import Verif.Props.SmallAgree

/-!
# C144: bodies made of several materials
-/

set_option autoImplicit false
set_option linter.all false

namespace Caribou

open Spec Matrix

variable {N : ℕ}

/-- **C144 (how the body is cut does not matter).** The elements of a body may be given to one force field or to several, in any order: the forces, the energy and the matrix only depend on the elements and
their materials. -/
theorem C144_cut (parts parts' : List (BodyPart N)) (h : (elementsOf parts).Perm (elementsOf parts')) (X x f : Fin N → Fin 3 → ℝ) (A : Dof N → Dof N → ℝ) :
    partsForce parts X x f = partsForce parts' X x f ∧ partsEnergy parts X x = partsEnergy parts' X x ∧ partsMatrix parts X x A = partsMatrix parts' X x A := by
  refine ⟨?_, ?_, ?_⟩
  · rw [partsForce_eq, partsForce_eq, (h.map _).sum_eq]
  · rw [partsEnergy_eq, partsEnergy_eq, (h.map _).sum_eq]
  · rw [partsMatrix_eq, partsMatrix_eq, (h.map _).sum_eq]

/-- **C144 (forces and energies add).** The forces of a body of several parts are the sum of those which each of its force fields would exert alone, and so are the matrix and the energy. -/
theorem C144_adds (parts : List (BodyPart N)) (X x f : Fin N → Fin 3 → ℝ) (A : Dof N → Dof N → ℝ) :
    partsForce parts X x f = f + (parts.map fun p => partsForce [p] X x 0).sum ∧ partsMatrix parts X x A = A + (parts.map fun p => partsMatrix [p] X x 0).sum ∧
      partsEnergy parts X x = (parts.map fun p => partsEnergy [p] X x).sum :=
  ⟨partsForce_sum parts X x f, partsMatrix_sum parts X x A, by simp [partsEnergy]⟩

/-- **C144 (the system is regular).** A body of several parts, of different element types and materials, all the nodes of which are joined to three fixed ones through elements which share faces: at rest, and
wherever it is moved rigidly, the matrix of the static solver is symmetric positive definite. -/
theorem C144_regular (parts : List (BodyPart N)) (X : Fin N → Fin 3 → ℝ) (hp : ∀ p ∈ parts, SoundPart X p) (fixed : Fin N → Bool) (hheld : HeldTogether (nodeSets parts) X fixed)
    (Q : Mat3) (hQ : IsRotation Q) (c : Fin 3 → ℝ) :
    IsSPD (constrainMatrix (fun d : Dof N => fixed d.1) (-(Matrix.of (partsMatrix parts X (fun q => Q.mulVec (X q) + c) 0)))) :=
  parts_spd parts X hp fixed hheld Q hQ c

/-- **C144 (rest is a regular equilibrium).** So the theorems about regular equilibria (`C126`, `C127`, `C143`) hold for bodies of several parts. -/
theorem C144_rest (parts : List (BodyPart N)) (X : Fin N → Fin 3 → ℝ) (hp : ∀ p ∈ parts, SoundPart X p) (fixed : Fin N → Bool) (hheld : HeldTogether (nodeSets parts) X fixed)
    (Q : Mat3) (hQ : IsRotation Q) (c : Fin 3 → ℝ) :
    ∃ ρ l : ℝ, 0 < ρ ∧ 0 ≤ l ∧ RegularEquilibrium (partsScene parts X fixed) (fun d => (Q.mulVec (X d.1) + c) d.2) ρ l := by
  have hspd := parts_spd parts X hp fixed hheld Q hQ c
  have hsm := fun p hpp => part_smooth X p (hp p hpp) fixed Q hQ c
  have hf : totalForce (partsScene parts X fixed) = fun y => (parts.map fun p => totalForce (hyperScene (p.mesh X) p.material fixed) y).sum := funext (totalForce_parts parts X fixed)
  refine C126_smooth _ _ ?_ ?_ ?_ ?_
  · intro d _
    have : totalForce (partsScene parts X fixed) (fun d => (Q.mulVec (X d.1) + c) d.2) = 0 := by
      rw [totalForce_parts]
      refine List.sum_eq_zero fun w hw => ?_
      obtain ⟨p, hpp, rfl⟩ := List.mem_map.1 hw
      exact (hsm p hpp).1
    have := congrFun this d
    simpa [totalForce] using this
  · rw [hf]
    exact parts_contDiff parts _ _ fun p hpp => (hsm p hpp).2.1
  · have hall : ∀ᶠ x : Dof N → ℝ in nhds fun d => (Q.mulVec (X d.1) + c) d.2, ∀ p ∈ parts, HasFDerivAt (totalForce (hyperScene (p.mesh X) p.material fixed))
        (LinearMap.toContinuousLinearMap (totalStiff (hyperScene (p.mesh X) p.material fixed) x).mulVecLin) x :=
      (Filter.eventually_all_finite parts.finite_toSet).2 fun p hpp => (hsm p hpp).2.2
    refine hall.mono fun x hx => ?_
    rw [hf, totalStiff_parts]
    exact parts_hasFDeriv parts _ _ x hx
  · intro u hu hfr
    have hu0 : constrainMatrix (fun d : Dof N => fixed d.1) (-(Matrix.of (partsMatrix parts X (fun q => Q.mulVec (X q) + c) 0))) *ᵥ u = 0 := by
      have hst : staticMatrix (partsScene parts X fixed) ⟨fun d => (Q.mulVec (X d.1) + c) d.2, Fin.elim0, 0⟩ =
          constrainMatrix (fun d : Dof N => fixed d.1) (-(Matrix.of (partsMatrix parts X (fun q => Q.mulVec (X q) + c) 0))) := by
        show constrainMatrix _ _ + (0 : Matrix (Fin 0) (Dof N) ℝ).transpose * _ * 0 = _
        rw [Matrix.mul_zero, add_zero]
        rfl
      rw [← hst]
      funext d
      rw [staticMatrix_total _ (fun k => k.elim0) _ (by funext k; exact k.elim0)]
      have hp : projectResponse (partsScene parts X fixed).fixed u = u := by
        funext j
        unfold projectResponse
        split_ifs with hj
        · exact (hu j hj).symm
        · rfl
      rw [hp]
      split_ifs with hd
      · exact hu d hd
      · rw [hfr d (by simpa using hd), neg_zero]; rfl
    have hunit := (C101_solvable hspd).1
    generalize constrainMatrix (fun d : Dof N => fixed d.1) (-(Matrix.of (partsMatrix parts X (fun q => Q.mulVec (X q) + c) 0))) = A at hunit hu0
    rw [Matrix.isUnit_iff_isUnit_det] at hunit
    have := congrArg (fun w => A⁻¹ *ᵥ w) hu0
    simpa [mulVec_mulVec, Matrix.nonsing_inv_mul _ hunit] using this

/-- **C144 (static solves, partial).** Under small loads such a body has one equilibrium near rest, at a distance at most proportional to the load, and the static time steps under any sequence of small loads
find it.  Missing: as in `C143_history_partial`. -/
theorem C144_solve_partial (parts : List (BodyPart N)) (X : Fin N → Fin 3 → ℝ) (hp : ∀ p ∈ parts, SoundPart X p) (fixed : Fin N → Bool) (hheld : HeldTogether (nodeSets parts) X fixed) :
    let S := partsScene parts X fixed
    let x₀ : Dof N → ℝ := fun d => X d.1 d.2
    ∃ c r η : ℝ, 0 < c ∧ 0 < r ∧ 0 < η ∧ ∃ z : (Dof N → ℝ) → Dof N → ℝ, z 0 = x₀ ∧
      (∀ f, ‖f‖ ≤ η → HeldEquilibrium (withLoad S f) x₀ (z f) ∧ ∀ y, ‖y - x₀‖ ≤ r → HeldEquilibrium (withLoad S f) x₀ y → y = z f) ∧
      (∀ f g, ‖f‖ ≤ η → ‖g‖ ≤ η → ‖z f - z g‖ ≤ c * ‖f - g‖) ∧
      ∀ loads : ℕ → Dof N → ℝ, (∀ k, ‖loads k‖ ≤ η) → ∀ set solver, SolvesExactly solver → SolvesRegular solver → ∀ k,
        ‖(loadHistory set loads S solver x₀ (k + 1)).2 - z (loads k)‖ ≤ r / 2 ^ (loadHistory set loads S solver x₀ (k + 1)).1.residuals.length := by
  intro S x₀
  have hrot : IsRotation (1 : Mat3) := ⟨by show (1 : Mat3).transpose * 1 = 1; rw [Matrix.transpose_one, Matrix.one_mul], Matrix.det_one⟩
  obtain ⟨ρ, l, hρ, hl, hreg⟩ := C144_rest parts X hp fixed hheld 1 hrot 0
  have hx : (fun d : Dof N => ((1 : Mat3).mulVec (X d.1) + 0) d.2) = x₀ := by funext d; simp [x₀]
  rw [hx] at hreg
  obtain ⟨c, C, r, η, hc, hC, hr, hη, z, h0, h1, h2, h3, -⟩ := C143_history_partial S (fun k => k.elim0) x₀ ρ l hρ hl hreg
  exact ⟨c, r, η, hc, hr, hη, z, h0, h1, h2, fun loads hl set solver he hr k => (h3 loads hl set solver he hr k).1⟩

/-- **C144 (one material per element).** A mesh three nodes of which are fixed in every piece, every element of which has its own material: the hypotheses of the theorems above hold. -/
theorem C144_materials (T : SolidType) (hT : T ≠ .hexa2) {M : ℕ} (idx : Fin M → Fin T.numNodes → Fin N) (hinj : ∀ e, Function.Injective (idx e)) (X : Fin N → Fin 3 → ℝ)
    (hshape : ∀ e, RegularShape T fun i => X (idx e i)) (fixed : Fin N → Bool) (hheld : WellHeld idx X fixed) (mat : Fin M → Material) (hmat : ∀ e, ElasticMaterial (mat e)) :
    (∀ p ∈ perElement T idx mat, SoundPart X p) ∧ HeldTogether (nodeSets (perElement T idx mat)) X fixed := by
  refine ⟨fun p hp => ?_, wellHeld_parts idx X fixed hheld _ fun e => ?_⟩
  · obtain ⟨e, rfl⟩ := (List.mem_ofFn' _ _).1 hp
    exact ⟨hT, fun _ => hinj e, fun _ => hshape e, hmat e⟩
  · refine ⟨⟨T, idx e, mat e⟩, List.mem_flatMap.2 ⟨⟨T, 1, fun _ => idx e, mat e⟩, (List.mem_ofFn' _ _).2 ⟨e, rfl⟩, (List.mem_ofFn' _ _).2 ⟨0, rfl⟩⟩, rfl⟩

theorem hexahedra_materials {M : ℕ} (idx : Fin M → Fin 8 → Fin N) (hinj : ∀ e, Function.Injective (idx e)) (X : Fin N → Fin 3 → ℝ) (hor : ClassOriented .hexa idx X)
    (fixed : Fin N → Bool) (hheld : WellHeld idx X fixed) (mat : Fin M → Material) (hmat : ∀ e, ElasticMaterial (mat e)) :
    (∀ p ∈ perHexahedron idx mat, SoundPart X p) ∧ HeldTogether (nodeSets (perHexahedron idx mat)) X fixed :=
  C144_materials .hexa1 (by decide) idx hinj X (fun e => Or.inr ⟨rfl, Or.inl (hor e)⟩) fixed hheld mat hmat

open Classical in
/-- **C144 (boxes).** A box of hexahedra held at one of its sides, every cell of which has its own material. -/
theorem C144_box (g : Grid 3 ℝ) (hf : Fits g.n) (hn : ∀ a, 0 < g.n a) (hs : ∀ a, 0 < g.size a) (B : Set (Fin 3 × Bool)) (hB : B.Nonempty)
    (mat : Fin g.numberOfCells.toNat → Material) (hmat : ∀ e, ElasticMaterial (mat e)) :
    (∀ p ∈ perHexahedron (g.cellNodes hf) mat, SoundPart (fun p => g.node p) p) ∧
      HeldTogether (nodeSets (perHexahedron (g.cellNodes hf) mat)) (fun p => g.node p) fun p => decide (p ∈ g.sideNodesOf B) := by
  obtain ⟨b, hb⟩ := hB
  exact hexahedra_materials _ (box_distinct g hf) _ (box_oriented g hf hn hs) _ (box_held g hf hn hs B b hb) mat hmat

/-! ### The scene `multiple_materials.py` -/

theorem cellInROI_iff (z1 z2 : ℚ) (cell : Fin 3 → ℕ) (h0 : cell 0 < 8) (h1 : cell 1 < 8) :
    cellInROI ![-15 / 2, -15 / 2, z1] ![15 / 2, 15 / 2, z2] cell ↔ z1 ≤ 4 * cell 2 ∧ 4 * (cell 2 + 1 : ℚ) ≤ z2 := by
  have b0 : (cell 0 : ℚ) ≤ 7 := by exact_mod_cast (by omega : cell 0 ≤ 7)
  have b1 : (cell 1 : ℚ) ≤ 7 := by exact_mod_cast (by omega : cell 1 ≤ 7)
  have n0 : (0 : ℚ) ≤ cell 0 := by positivity
  have n1 : (0 : ℚ) ≤ cell 1 := by positivity
  constructor
  · intro h
    have a0 := (h (fun _ => 0) 2).1
    have a1 := (h (fun _ => 1) 2).2
    simp [materialsNode] at a0 a1
    exact ⟨a0, a1⟩
  · rintro ⟨h2, h3⟩ c a
    have hc : ∀ a, (0 : ℚ) ≤ (c a : ℕ) ∧ ((c a : ℕ) : ℚ) ≤ 1 := fun a => ⟨by positivity, by exact_mod_cast (by have := (c a).isLt; omega : (c a : ℕ) ≤ 1)⟩
    have c0 := hc 0
    have c1 := hc 1
    have c2 := hc 2
    fin_cases a <;> simp [materialsNode] <;> constructor <;> linarith

/-- **C144, refuted for the scene.** In `multiple_materials.py` the two selections overlap: the cells of two of the twenty layers, from 32 to 40, are given to both force fields, so both materials resist there
(the comments of the script call them the two halves of the beam). -/
theorem C144_scene_violated :
    (¬∀ cell : Fin 3 → ℕ, cell 0 < 8 → cell 1 < 8 → cell 2 < 20 → ¬(inMaterial1 cell ∧ inMaterial2 cell)) ∧
      ∀ cell : Fin 3 → ℕ, cell 0 < 8 → cell 1 < 8 → cell 2 < 20 →
        (inMaterial1 cell ∨ inMaterial2 cell) ∧ (inMaterial1 cell ∧ inMaterial2 cell ↔ cell 2 = 8 ∨ cell 2 = 9) := by
  have h1 : ∀ cell : Fin 3 → ℕ, cell 0 < 8 → cell 1 < 8 → (inMaterial1 cell ↔ cell 2 ≤ 9) := by
    intro cell h0 h1
    unfold inMaterial1
    rw [cellInROI_iff _ _ _ h0 h1]
    constructor
    · rintro ⟨-, h⟩
      by_contra hc
      have : (10 : ℚ) ≤ cell 2 := by exact_mod_cast (by omega : 10 ≤ cell 2)
      linarith
    · intro h
      have : (cell 2 : ℚ) ≤ 9 := by exact_mod_cast h
      have : (0 : ℚ) ≤ cell 2 := by positivity
      constructor <;> linarith
  have h2 : ∀ cell : Fin 3 → ℕ, cell 0 < 8 → cell 1 < 8 → cell 2 < 20 → (inMaterial2 cell ↔ 8 ≤ cell 2) := by
    intro cell h0 h1 h2
    unfold inMaterial2
    rw [cellInROI_iff _ _ _ h0 h1]
    constructor
    · rintro ⟨h, -⟩
      by_contra hc
      have : (cell 2 : ℚ) ≤ 7 := by exact_mod_cast (by omega : cell 2 ≤ 7)
      linarith
    · intro h
      have : (8 : ℚ) ≤ cell 2 := by exact_mod_cast h
      have : (cell 2 : ℚ) ≤ 19 := by exact_mod_cast (by omega : cell 2 ≤ 19)
      constructor <;> linarith
  refine ⟨fun h => h ![0, 0, 8] (by decide) (by decide) (by decide) ⟨(h1 _ (by decide) (by decide)).2 (by decide), (h2 _ (by decide) (by decide) (by decide)).2 (by decide)⟩,
    fun cell k0 k1 k2 => ?_⟩
  rw [h1 cell k0 k1, h2 cell k0 k1 k2]
  omega

theorem svk_add (m1 l1 m2 l2 J : ℝ) (C : Mat3) :
    (saintVenantKirchhoff (m1 + m2) (l1 + l2)).stress J C = (saintVenantKirchhoff m1 l1).stress J C + (saintVenantKirchhoff m2 l2).stress J C ∧
      (saintVenantKirchhoff (m1 + m2) (l1 + l2)).energy J C = (saintVenantKirchhoff m1 l1).energy J C + (saintVenantKirchhoff m2 l2).energy J C := by
  constructor
  · ext a b
    simp only [saintVenantKirchhoff, Matrix.add_apply, Matrix.smul_apply, smul_eq_mul]
    ring
  · simp only [saintVenantKirchhoff]
    ring

/-- **C144 (elements given to two force fields).** Elements given to two force fields with Saint-Venant-Kirchhoff materials exert the forces, and have the energy, of one material whose Lamé coefficients
are the sums: in the two layers of the scene the stiffnesses of both halves of the beam add. -/
theorem C144_overlap (T : SolidType) {M : ℕ} (idx : Fin M → Fin T.numNodes → Fin N) (m1 l1 m2 l2 : ℝ) (X x f : Fin N → Fin 3 → ℝ) :
    partsForce [⟨T, M, idx, saintVenantKirchhoff m1 l1⟩, ⟨T, M, idx, saintVenantKirchhoff m2 l2⟩] X x f = partsForce [⟨T, M, idx, saintVenantKirchhoff (m1 + m2) (l1 + l2)⟩] X x f ∧
      partsEnergy [⟨T, M, idx, saintVenantKirchhoff m1 l1⟩, ⟨T, M, idx, saintVenantKirchhoff m2 l2⟩] X x = partsEnergy [⟨T, M, idx, saintVenantKirchhoff (m1 + m2) (l1 + l2)⟩] X x := by
  have hsum : ∀ {α β : Type} [AddCommGroup β] (l : List α) (f g : α → β), (l.map fun a => f a + g a).sum = (l.map f).sum + (l.map g).sum := by
    intro α β _ l f g
    induction l with
    | nil => simp
    | cons a l ih => simp only [List.map_cons, List.sum_cons, ih]; abel
  constructor
  · have hg : ∀ (q : QNode T.numNodes) (y : Fin T.numNodes → Fin 3 → ℝ) (i : Fin T.numNodes),
        gaussForce (saintVenantKirchhoff (m1 + m2) (l1 + l2)) q y i = gaussForce (saintVenantKirchhoff m1 l1) q y i + gaussForce (saintVenantKirchhoff m2 l2) q y i := by
      intro q y i
      simp only [gaussForce, (svk_add m1 l1 m2 l2 _ _).1, Matrix.mul_add, Matrix.add_mulVec]
    have hn : ∀ (qs : List (QNode T.numNodes)) (y : Fin T.numNodes → Fin 3 → ℝ) (i : Fin T.numNodes),
        nodalForces (saintVenantKirchhoff (m1 + m2) (l1 + l2)) qs y i = nodalForces (saintVenantKirchhoff m1 l1) qs y i + nodalForces (saintVenantKirchhoff m2 l2) qs y i := by
      intro qs y i
      simp only [nodalForces, hg]
      exact hsum qs _ _
    funext p
    simp only [partsForce, List.foldl_cons, List.foldl_nil, HyperMesh.addForce, hn]
    rw [sub_sub, ← Finset.sum_add_distrib]
    congr 1
    refine Finset.sum_congr rfl fun e _ => ?_
    rw [← Finset.sum_add_distrib]
    refine Finset.sum_congr rfl fun i _ => ?_
    show _ = if idx e i = p then _ else _
    by_cases h : idx e i = p
    · simp only [if_pos h]
      rw [if_pos (show (BodyPart.mesh ⟨T, M, idx, saintVenantKirchhoff m1 l1⟩ X).idx e i = p from h), if_pos (show (BodyPart.mesh ⟨T, M, idx, saintVenantKirchhoff m2 l2⟩ X).idx e i = p from h)]
      rfl
    · simp only [if_neg h]
      rw [if_neg (show ¬(BodyPart.mesh ⟨T, M, idx, saintVenantKirchhoff m1 l1⟩ X).idx e i = p from h), if_neg (show ¬(BodyPart.mesh ⟨T, M, idx, saintVenantKirchhoff m2 l2⟩ X).idx e i = p from h), add_zero]
  · simp only [partsEnergy, List.map_cons, List.map_nil, List.sum_cons, List.sum_nil, add_zero, HyperMesh.potentialEnergy]
    rw [← Finset.sum_add_distrib]
    refine Finset.sum_congr rfl fun e _ => ?_
    simp only [(svk_add m1 l1 m2 l2 _ _).2, mul_add]
    exact (hsum _ _ _).symm

/-! ### Examples -/

/-- Two tetrahedra which share a face, one of each material, in either order and as one part per element: the same forces. -/
example (x f : Fin 5 → Fin 3 → ℝ) (m1 m2 : Material) :
    partsForce [⟨.tetra1, 1, fun _ => splitTetra 0, m1⟩, ⟨.tetra1, 1, fun _ => splitTetra 1, m2⟩] splitTetraNodes x f =
      partsForce [⟨.tetra1, 1, fun _ => splitTetra 1, m2⟩, ⟨.tetra1, 1, fun _ => splitTetra 0, m1⟩] splitTetraNodes x f :=
  (C144_cut _ _ (by simpa [elementsOf] using List.Perm.swap _ _ _) _ _ _ 0).1

/-- Four tetrahedra given to two force fields. -/
example (x : Fin 5 → Fin 3 → ℝ) : partsForce [⟨.tetra1, 4, splitTetra, saintVenantKirchhoff 100 200⟩, ⟨.tetra1, 4, splitTetra, saintVenantKirchhoff 1 2⟩] splitTetraNodes x 0 =
    partsForce [⟨.tetra1, 4, splitTetra, saintVenantKirchhoff (100 + 1) (200 + 2)⟩] splitTetraNodes x 0 := (C144_overlap .tetra1 splitTetra 100 200 1 2 _ x 0).1

/-- A box of two by two by two cells, stiff below and soft above, held at one side. -/
example : ∃ hf : Fits (![2, 2, 2] : Fin 3 → ℕ), ∃ fixed,
    let g : Grid 3 ℝ := ⟨0, ![2, 2, 2], 1⟩
    ∃ η : ℝ, 0 < η ∧ ∀ F : Dof g.numberOfNodes.toNat → ℝ, ‖F‖ ≤ η → ∃ z,
      HeldEquilibrium (withLoad (partsScene (perHexahedron (g.cellNodes hf) fun e => if e.val < 4 then saintVenantKirchhoff (lameMu 300000 (499 / 1000)) (lameL 300000 (499 / 1000))
        else neoHookean (lameMu 3000 (3 / 10)) (lameL 3000 (3 / 10))) (fun p => g.node p) fixed) F) (fun d => g.node d.1 d.2) z := by
  classical
  have hf : Fits (![2, 2, 2] : Fin 3 → ℕ) := by
    unfold Fits
    decide
  refine ⟨hf, fun p => decide (p ∈ Grid.sideNodesOf ⟨0, ![2, 2, 2], 1⟩ {(0, false)}), ?_⟩
  intro g
  have hn : ∀ a, 0 < g.n a := by decide
  have hs : ∀ a, 0 < g.size a := fun a => one_pos
  obtain ⟨h1, h2⟩ := C144_box g hf hn hs {(0, false)} ⟨_, rfl⟩ (fun e => if e.val < 4 then saintVenantKirchhoff (lameMu 300000 (499 / 1000)) (lameL 300000 (499 / 1000))
        else neoHookean (lameMu 3000 (3 / 10)) (lameL 3000 (3 / 10))) (fun e => by
    split_ifs
    · exact ⟨300000, 499 / 1000, by norm_num, by norm_num, by norm_num, Or.inl rfl⟩
    · exact ⟨3000, 3 / 10, by norm_num, by norm_num, by norm_num, Or.inr rfl⟩)
  obtain ⟨c, r, η, -, -, hη, z, -, hz, -⟩ := C144_solve_partial _ _ h1 _ h2
  exact ⟨η, hη, fun F hF => ⟨z F, (hz F hF).1⟩⟩

end Caribou
